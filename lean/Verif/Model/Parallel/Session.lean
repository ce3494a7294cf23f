import Verif.Model.Session
import Verif.Model.Parallel.Blame
import Verif.Model.Parallel.Serialize
import Verif.Model.Parallel.Serde

/-! # A client of the parallel module: histories of calls of the public functions

As in `Verif.Model.Session`; answers, the reading of positions and the writing back of transcripts are shared. -/
set_option autoImplicit false

namespace Triptych.Parallel

/-- What a client holds; `rng` is the state of its random number generator. -/
structure World (F P σ : Type) where
  params : List (Params P)
  sets : List (InputSet P)
  statements : List (Statement P)
  witnesses : List (Witness F P)
  proofs : List (Proof F P)
  transcripts : List Transcript
  rng : σ

/-- A client that holds nothing yet. -/
def World.empty {F P σ : Type} (s : σ) : World F P σ :=
  { params := [], sets := [], statements := [], witnesses := [], proofs := [], transcripts := [], rng := s }

/-- The public functions of the parallel module, with positions of objects. Not listed: getters that return a field (src/parallel/
parameters.rs:203-233, statement.rs:116-121, 217-233, witness.rs:85-100) and the functions that compute keys and tags, which are total
functions; `prove` and `prove_vartime`, which are `prove_with_rng*` with the operating system's generator. -/
inductive Call (F P : Type) where
  /-- src/parallel/parameters.rs:57, `TriptychParameters::new`. -/
  | newParams (n m : Nat)
  /-- src/parallel/parameters.rs:93, `TriptychParameters::new_with_generators`. -/
  | newParamsWith (n m : Nat) (G G1 U : P)
  /-- src/parallel/parameters.rs:241, `TriptychParameters::get_N`. -/
  | getN (p : Nat)
  /-- src/parallel/statement.rs:27, `TriptychInputSet::new`. -/
  | newSet (M M1 : List P)
  /-- src/parallel/statement.rs:48, `TriptychInputSet::new_with_padding`. -/
  | newPaddedSet (M M1 : List P) (p : Nat)
  /-- src/parallel/statement.rs:168, `TriptychStatement::new`. -/
  | newStatement (p i : Nat) (offset J : P)
  /-- src/parallel/witness.rs:43, `TriptychWitness::new`. -/
  | newWitness (p l : Nat) (r r1 : F)
  /-- src/parallel/witness.rs:69, `TriptychWitness::random`. -/
  | randomWitness (p : Nat)
  /-- src/parallel/witness.rs:16, `TriptychWitness::zeroize`. -/
  | zeroize (w : Nat)
  /-- A Merlin transcript the client makes (`Transcript::new`, `append_message`, `clone`, ...), in any state. -/
  | useTranscript (t : Transcript)
  /-- src/parallel/proof.rs:161, `prove_with_rng`, and src/parallel/proof.rs:121, `prove_with_rng_vartime`. -/
  | prove (w st t : Nat) (timing : OperationTiming)
  /-- src/parallel/proof.rs:450, `verify`. -/
  | verify (st p t : Nat)
  /-- src/parallel/proof.rs:587, `verify_batch`. -/
  | verifyBatch (sts ps ts : List Nat)
  /-- src/parallel/proof.rs:473, `verify_batch_with_single_blame`. -/
  | singleBlame (sts ps ts : List Nat)
  /-- src/parallel/proof.rs:556, `verify_batch_with_full_blame`. -/
  | fullBlame (sts ps ts : List Nat)
  /-- src/parallel/proof.rs:888, `to_bytes`. -/
  | toBytes (p : Nat)
  /-- src/parallel/proof.rs:939, `from_bytes`. -/
  | fromBytes (b : Bytes)
  /-- src/parallel/proof.rs:1067, `BorshSerialize::serialize`. -/
  | borshSerialize (p : Nat)
  /-- src/parallel/proof.rs:1074, `BorshDeserialize::deserialize_reader`. -/
  | borshDeserialize (b : Bytes)
  /-- src/parallel/proof.rs:36, serde's `Deserialize::deserialize`. -/
  | deserialize (v : Serde.Value)

namespace World
variable {F P σ : Type}

/-- The end of a call whose result, if it is a success, is kept. -/
def keep {ε α : Type} (w : World F P σ) (o : Outcome ε α) (put : α → World F P σ) : Answer × World F P σ :=
  match o with
  | .ok a => (.done, put a)
  | .err _ => (.error, w)
  | .panic => (.panic, w)
  | .diverge => (.diverge, w)

variable [Field F] [AddCommGroup P] [Module F P] [DecidableEq F] [DecidableEq P]

/-- One call (see `Call` for the functions in the code). `get_N` multiplies with overflow checks in builds that have them. -/
def step (E : Env F P) (cfg : Config) (R : Rng σ) (w : World F P σ) : Call F P → Answer × World F P σ
  | .newParams n m => w.keep (Params.new E n m) fun p => { w with params := w.params ++ [p] }
  | .newParamsWith n m G G1 U => w.keep (Params.newWithGenerators E n m G G1 U) fun p => { w with params := w.params ++ [p] }
  | .getN p =>
    match w.params[p]? with
    | none => (.absent, w)
    | some params => (if cfg.overflowChecks ∧ u32Max < params.n ^ params.m then .panic else .done, w)
  | .newSet M M1 => w.keep (InputSet.new E M M1) fun i => { w with sets := w.sets ++ [i] }
  | .newPaddedSet M M1 p =>
    match w.params[p]? with
    | none => (.absent, w)
    | some params => w.keep (InputSet.newWithPadding E M M1 params) fun i => { w with sets := w.sets ++ [i] }
  | .newStatement p i offset J =>
    match w.params[p]?, w.sets[i]? with
    | some params, some set => w.keep (Statement.new E params set offset J) fun st => { w with statements := w.statements ++ [st] }
    | _, _ => (.absent, w)
  | .newWitness p l r r1 =>
    match w.params[p]? with
    | none => (.absent, w)
    | some params => w.keep (Witness.new params l r r1) fun x => { w with witnesses := w.witnesses ++ [x] }
  | .randomWitness p =>
    match w.params[p]? with
    | none => (.absent, w)
    | some params => w.keep (Witness.random E R params w.rng : Outcome Unit (Witness F P × σ)) fun x =>
        { w with witnesses := w.witnesses ++ [x.1], rng := x.2 }
  | .zeroize x =>
    match w.witnesses[x]? with
    | none => (.absent, w)
    | some y => (.done, { w with witnesses := w.witnesses.set x y.zeroize })
  | .useTranscript t => (.done, { w with transcripts := w.transcripts ++ [t] })
  | .prove x st t timing =>
    match w.witnesses[x]?, w.statements[st]?, w.transcripts[t]? with
    | some y, some s, some tr =>
      let r := Proof.proveInternal E R y s w.rng tr timing
      let w := { w with transcripts := w.transcripts.set t r.2.1, rng := r.2.2 }
      w.keep r.1 fun p => { w with proofs := w.proofs ++ [p] }
    | _, _, _ => (.absent, w)
  | .verify st p t =>
    match w.statements[st]?, w.proofs[p]?, w.transcripts[t]? with
    | some s, some q, some tr =>
      let r := Proof.verify E cfg q s tr
      (Triptych.World.answer r.1, { w with transcripts := Triptych.World.putBack w.transcripts [t] r.2 })
    | _, _, _ => (.absent, w)
  | .verifyBatch sts ps ts =>
    match Triptych.World.fetch w.statements sts, Triptych.World.fetch w.proofs ps, Triptych.World.fetch w.transcripts ts with
    | some ss, some qs, some trs =>
      let r := Proof.verifyBatch E cfg ss qs trs
      (Triptych.World.answer r.1, { w with transcripts := Triptych.World.putBack w.transcripts ts r.2 })
    | _, _, _ => (.absent, w)
  | .singleBlame sts ps ts =>
    match Triptych.World.fetch w.statements sts, Triptych.World.fetch w.proofs ps, Triptych.World.fetch w.transcripts ts with
    | some ss, some qs, some trs =>
      let r := Proof.verifyBatchWithSingleBlame E cfg ss qs trs
      (Triptych.World.answer r.1, { w with transcripts := Triptych.World.putBack w.transcripts ts r.2.2 })
    | _, _, _ => (.absent, w)
  | .fullBlame sts ps ts =>
    match Triptych.World.fetch w.statements sts, Triptych.World.fetch w.proofs ps, Triptych.World.fetch w.transcripts ts with
    | some ss, some qs, some trs =>
      let r := Proof.verifyBatchWithFullBlame E cfg ss qs trs
      (Triptych.World.answer r.1, { w with transcripts := Triptych.World.putBack w.transcripts ts r.2 })
    | _, _, _ => (.absent, w)
  | .toBytes p =>
    match w.proofs[p]? with
    | none => (.absent, w)
    | some q => (Triptych.World.answer (Proof.toBytes E q : Outcome Unit Bytes), w)
  | .fromBytes b => w.keep (Proof.fromBytes E b) fun p => { w with proofs := w.proofs ++ [p] }
  | .borshSerialize p =>
    match w.proofs[p]? with
    | none => (.absent, w)
    | some q => (Triptych.World.answer (Proof.borshSerialize E q), w)
  | .borshDeserialize b => w.keep (Proof.borshDeserialize E b) fun x => { w with proofs := w.proofs ++ [x.1] }
  | .deserialize v =>
    match Proof.deserialize E v with
    | none => (.error, w)
    | some p => (.done, { w with proofs := w.proofs ++ [p] })

/-- A history: the answers of all calls and what the client holds in the end. A client that caught a panic may go on. -/
def run (E : Env F P) (cfg : Config) (R : Rng σ) : World F P σ → List (Call F P) → List Answer × World F P σ
  | w, [] => ([], w)
  | w, c :: cs =>
    let r := step E cfg R w c
    let rest := run E cfg R r.2 cs
    (r.1 :: rest.1, rest.2)

end World
end Triptych.Parallel
