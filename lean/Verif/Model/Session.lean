import Verif.Model.Blame
import Verif.Model.Serialize
import Verif.Model.Serde

/-! # A client of the library: histories of calls of the public functions

A client holds objects obtained from the library and makes calls with them, in any order. Since every list of calls is considered
in the theorems, so are clients that choose their calls depending on earlier answers. Points, scalars, byte strings, serde values
and transcripts are the client's own data and may be anything; parameters, input sets, statements and witnesses can only be made
by the library (their fields are private), so calls refer to them by the position at which they are held. -/
set_option autoImplicit false

namespace Triptych

/-- How a call ends. `absent`: the call mentions an object the client does not hold, so it cannot be written in Rust. -/
inductive Answer where
  | done
  | error
  | panic
  | diverge
  | absent
deriving DecidableEq, Repr

/-- What a client holds; `rng` is the state of its random number generator. -/
structure World (F P σ : Type) where
  params : List (Params P)
  sets : List (InputSet P)
  statements : List (Statement P)
  witnesses : List (Witness F P)
  proofs : List (Proof F P)
  transcripts : List Transcript
  rng : σ

/-- A client that holds nothing yet. -/
def World.empty {F P σ : Type} (s : σ) : World F P σ :=
  { params := [], sets := [], statements := [], witnesses := [], proofs := [], transcripts := [], rng := s }

/-- The public functions of the crate root, with positions of objects. Not listed: getters that return a field (src/parameters.rs:
185-210, src/statement.rs:85, 165-178, src/witness.rs:79-91) and `compute_linking_tag`, `compute_verification_key`, which are total
functions; `prove` and `prove_vartime`, which are `prove_with_rng*` with the operating system's generator. -/
inductive Call (F P : Type) where
  /-- src/parameters.rs:56, `TriptychParameters::new`. -/
  | newParams (n m : Nat)
  /-- src/parameters.rs:83, `TriptychParameters::new_with_generators`. -/
  | newParamsWith (n m : Nat) (G U : P)
  /-- src/parameters.rs:215, `TriptychParameters::get_N`. -/
  | getN (p : Nat)
  /-- src/statement.rs:25, `TriptychInputSet::new`. -/
  | newSet (M : List P)
  /-- src/statement.rs:37, `TriptychInputSet::new_with_padding`. -/
  | newPaddedSet (M : List P) (p : Nat)
  /-- src/statement.rs:130, `TriptychStatement::new`. -/
  | newStatement (p i : Nat) (J : P)
  /-- src/witness.rs:42, `TriptychWitness::new`. -/
  | newWitness (p l : Nat) (r : F)
  /-- src/witness.rs:64, `TriptychWitness::random`. -/
  | randomWitness (p : Nat)
  /-- src/witness.rs:16, `TriptychWitness::zeroize`. -/
  | zeroize (w : Nat)
  /-- A Merlin transcript the client makes (`Transcript::new`, `append_message`, `clone`, ...), in any state. -/
  | useTranscript (t : Transcript)
  /-- src/proof.rs:161, `prove_with_rng`, and src/proof.rs:121, `prove_with_rng_vartime`. -/
  | prove (w st t : Nat) (timing : OperationTiming)
  /-- src/proof.rs:410, `verify`. -/
  | verify (st p t : Nat)
  /-- src/proof.rs:547, `verify_batch`. -/
  | verifyBatch (sts ps ts : List Nat)
  /-- src/proof.rs:433, `verify_batch_with_single_blame`. -/
  | singleBlame (sts ps ts : List Nat)
  /-- src/proof.rs:516, `verify_batch_with_full_blame`. -/
  | fullBlame (sts ps ts : List Nat)
  /-- src/proof.rs:814, `to_bytes`. -/
  | toBytes (p : Nat)
  /-- src/proof.rs:860, `from_bytes`. -/
  | fromBytes (b : Bytes)
  /-- src/proof.rs:980, `BorshSerialize::serialize`. -/
  | borshSerialize (p : Nat)
  /-- src/proof.rs:987, `BorshDeserialize::deserialize_reader`. -/
  | borshDeserialize (b : Bytes)
  /-- src/proof.rs:38, serde's `Deserialize::deserialize`. -/
  | deserialize (v : Serde.Value)

namespace World
variable {F P σ : Type}

/-- The objects at the given positions (`None`: one of them does not exist). -/
def fetch {α : Type} (l : List α) : List Nat → Option (List α)
  | [] => some []
  | i :: is => do
    let a ← l[i]?
    let rest ← fetch l is
    some (a :: rest)

/-- Writing back transcripts that were passed as `&mut [Transcript]`. In Rust the positions are different; the model allows more. -/
def putBack : List Transcript → List Nat → List Transcript → List Transcript
  | l, i :: is, t :: ts => putBack (l.set i t) is ts
  | l, _, _ => l

/-- The end of a call whose result, if it is a success, is kept. -/
def keep {ε α : Type} (w : World F P σ) (o : Outcome ε α) (put : α → World F P σ) : Answer × World F P σ :=
  match o with
  | .ok a => (.done, put a)
  | .err _ => (.error, w)
  | .panic => (.panic, w)
  | .diverge => (.diverge, w)

/-- The answer of a call of which nothing is kept. -/
def answer {ε α : Type} : Outcome ε α → Answer
  | .ok _ => .done
  | .err _ => .error
  | .panic => .panic
  | .diverge => .diverge

variable [Field F] [AddCommGroup P] [Module F P] [DecidableEq F] [DecidableEq P]

/-- One call (see `Call` for the functions in the code). `get_N` multiplies with overflow checks in builds that have them. -/
def step (E : Env F P) (cfg : Config) (R : Rng σ) (w : World F P σ) : Call F P → Answer × World F P σ
  | .newParams n m => w.keep (Params.new E n m) fun p => { w with params := w.params ++ [p] }
  | .newParamsWith n m G U => w.keep (Params.newWithGenerators E n m G U) fun p => { w with params := w.params ++ [p] }
  | .getN p =>
    match w.params[p]? with
    | none => (.absent, w)
    | some params => (if cfg.overflowChecks ∧ u32Max < params.n ^ params.m then .panic else .done, w)
  | .newSet M => w.keep (InputSet.new E M) fun i => { w with sets := w.sets ++ [i] }
  | .newPaddedSet M p =>
    match w.params[p]? with
    | none => (.absent, w)
    | some params => w.keep (InputSet.newWithPadding E M params) fun i => { w with sets := w.sets ++ [i] }
  | .newStatement p i J =>
    match w.params[p]?, w.sets[i]? with
    | some params, some set => w.keep (Statement.new E params set J) fun st => { w with statements := w.statements ++ [st] }
    | _, _ => (.absent, w)
  | .newWitness p l r =>
    match w.params[p]? with
    | none => (.absent, w)
    | some params => w.keep (Witness.new params l r) fun x => { w with witnesses := w.witnesses ++ [x] }
  | .randomWitness p =>
    match w.params[p]? with
    | none => (.absent, w)
    | some params => w.keep (Witness.random E R params w.rng : Outcome Unit (Witness F P × σ)) fun x =>
        { w with witnesses := w.witnesses ++ [x.1], rng := x.2 }
  | .zeroize x =>
    match w.witnesses[x]? with
    | none => (.absent, w)
    | some y => (.done, { w with witnesses := w.witnesses.set x y.zeroize })
  | .useTranscript t => (.done, { w with transcripts := w.transcripts ++ [t] })
  | .prove x st t timing =>
    match w.witnesses[x]?, w.statements[st]?, w.transcripts[t]? with
    | some y, some s, some tr =>
      let r := Proof.proveInternal E R y s w.rng tr timing
      let w := { w with transcripts := w.transcripts.set t r.2.1, rng := r.2.2 }
      w.keep r.1 fun p => { w with proofs := w.proofs ++ [p] }
    | _, _, _ => (.absent, w)
  | .verify st p t =>
    match w.statements[st]?, w.proofs[p]?, w.transcripts[t]? with
    | some s, some q, some tr =>
      let r := Proof.verify E cfg q s tr
      (answer r.1, { w with transcripts := putBack w.transcripts [t] r.2 })
    | _, _, _ => (.absent, w)
  | .verifyBatch sts ps ts =>
    match fetch w.statements sts, fetch w.proofs ps, fetch w.transcripts ts with
    | some ss, some qs, some trs =>
      let r := Proof.verifyBatch E cfg ss qs trs
      (answer r.1, { w with transcripts := putBack w.transcripts ts r.2 })
    | _, _, _ => (.absent, w)
  | .singleBlame sts ps ts =>
    match fetch w.statements sts, fetch w.proofs ps, fetch w.transcripts ts with
    | some ss, some qs, some trs =>
      let r := Proof.verifyBatchWithSingleBlame E cfg ss qs trs
      (answer r.1, { w with transcripts := putBack w.transcripts ts r.2.2 })
    | _, _, _ => (.absent, w)
  | .fullBlame sts ps ts =>
    match fetch w.statements sts, fetch w.proofs ps, fetch w.transcripts ts with
    | some ss, some qs, some trs =>
      let r := Proof.verifyBatchWithFullBlame E cfg ss qs trs
      (answer r.1, { w with transcripts := putBack w.transcripts ts r.2 })
    | _, _, _ => (.absent, w)
  | .toBytes p =>
    match w.proofs[p]? with
    | none => (.absent, w)
    | some q => (answer (Proof.toBytes E q : Outcome Unit Bytes), w)
  | .fromBytes b => w.keep (Proof.fromBytes E b) fun p => { w with proofs := w.proofs ++ [p] }
  | .borshSerialize p =>
    match w.proofs[p]? with
    | none => (.absent, w)
    | some q => (answer (Proof.borshSerialize E q), w)
  | .borshDeserialize b => w.keep (Proof.borshDeserialize E b) fun x => { w with proofs := w.proofs ++ [x.1] }
  | .deserialize v =>
    match Proof.deserialize E v with
    | none => (.error, w)
    | some p => (.done, { w with proofs := w.proofs ++ [p] })

/-- A history: the answers of all calls and what the client holds in the end. A client that caught a panic may go on. -/
def run (E : Env F P) (cfg : Config) (R : Rng σ) : World F P σ → List (Call F P) → List Answer × World F P σ
  | w, [] => ([], w)
  | w, c :: cs =>
    let r := step E cfg R w c
    let rest := run E cfg R r.2 cs
    (r.1 :: rest.1, rest.2)

end World
end Triptych
