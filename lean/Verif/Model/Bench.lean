import Verif.Model.Example
import Verif.Model.Blame
import Verif.Model.Parallel.Blame

/-! # Several signers with one ring: the data of the benchmarks and unit tests, and what they do with it

benches/triptych.rs, benches/parallel.rs, and the test modules of src/proof.rs and src/parallel/proof.rs. `generate_data` is the
same in the benchmarks and the tests, except that the tests also make the parameters. `unwrap` on an error and a failed `assert!` are
panics. -/
set_option autoImplicit false

namespace Triptych.Bench
open Parallel.RingCT (unwrap)
open Triptych.Example (randomPoint)

section Shared
variable {F P σ : Type}

/-- benches/triptych.rs:47-49 (benches/parallel.rs:50-52, 53-55): `k` random points. -/
def points (E : Env F P) (R : Rng σ) : ℕ → σ → List P × σ
  | 0, s => ([], s)
  | k + 1, s =>
    let (x, s) := randomPoint E R s
    let (M, s) := points E R k s
    (x :: M, s)

/-- benches/triptych.rs:42 (benches/parallel.rs:45): the next position, `(l + 1) % N` in `u32`. -/
def nextIndex (cfg : Config) (l N : ℕ) : Outcome Unit ℕ := do
  let x ← unwrap (uncheckedU32 cfg (l + 1))
  if N = 0 then .panic else .ok (x % N)

/-- benches/triptych.rs:63-70 (benches/parallel.rs:73-80): the transcripts. -/
def transcripts (b : ℕ) : List Transcript :=
  (List.range b).map fun i => (Transcript.new (asciiBytes "Test transcript")).appendU64 "index" i

end Shared

variable {F P σ : Type} [Field F] [AddCommGroup P] [Module F P] [DecidableEq F] [DecidableEq P]

/-- benches/triptych.rs:40-44 (src/proof.rs:1043-1047): `k` more witnesses at the following positions. -/
def moreWitnesses (E : Env F P) (cfg : Config) (R : Rng σ) (params : Params P) :
    ℕ → Witness F P → σ → Outcome Unit (List (Witness F P) × σ)
  | 0, _, s => .ok ([], s)
  | k + 1, last, s => do
    let (b, s) := R.fill s 64
    let l ← nextIndex cfg last.l params.getN
    let w ← unwrap (Witness.new params l (E.scalarOfWide b))
    let (ws, s) ← moreWitnesses E cfg R params k w s
    .ok (w :: ws, s)

/-- benches/triptych.rs:50-52 (src/proof.rs:1053-1055): `M[l] = …` for all witnesses; out of range this panics. -/
def place : List (Witness F P) → List P → Outcome Unit (List P)
  | [], M => .ok M
  | w :: ws, M => if w.l < M.length then place ws (M.set w.l w.computeVerificationKey) else .panic

/-- benches/triptych.rs:56-60 (src/proof.rs:1059-1063): a statement for each witness. -/
def statements (E : Env F P) (params : Params P) (inputSet : InputSet P) : List (Witness F P) → Outcome Unit (List (Statement P))
  | [] => .ok []
  | w :: ws => do
    let st ← unwrap (Statement.new E params inputSet w.computeLinkingTag)
    let sts ← statements E params inputSet ws
    .ok (st :: sts)

/-- benches/triptych.rs:30-73, `generate_data` (src/proof.rs:1029-1076). Also returns the generator state. -/
def generateData (E : Env F P) (cfg : Config) (R : Rng σ) (params : Params P) (b : ℕ) (s : σ) :
    Outcome Unit (List (Witness F P) × List (Statement P) × List Transcript × σ) :=
  if params.getN < b then .panic
  else do
    let (w, s) ← Witness.random E R params s
    let (ws, s) ← moreWitnesses E cfg R params (b - 1) w s
    let (M, s) := points E R params.getN s
    let M ← place (w :: ws) M
    let inputSet ← unwrap (InputSet.new E M)
    let sts ← statements E params inputSet (w :: ws)
    .ok (w :: ws, sts, transcripts b, s)

/-- benches/triptych.rs:194-196 (src/proof.rs:1196-1198): a proof for each, with copies of the transcripts. `izip!` stops at the
shortest list. -/
def proveAll (E : Env F P) (R : Rng σ) (timing : OperationTiming) :
    List (Witness F P) → List (Statement P) → List Transcript → σ → Outcome Unit (List (Proof F P) × σ)
  | w :: ws, st :: sts, t :: ts, s => do
    let r := Proof.proveInternal E R w st s t timing
    let p ← unwrap r.1
    let (ps, s) ← proveAll E R timing ws sts ts r.2.2
    .ok (p :: ps, s)
  | _, _, _, s => .ok ([], s)

/-- benches/triptych.rs:172-212, `verify_batch_proof`, for arbitrary sizes and one iteration: each iteration verifies the same
statements, proofs and copies of the transcripts. -/
def benchBatch (E : Env F P) (cfg : Config) (R : Rng σ) (n m b : ℕ) (s : σ) : Outcome Unit Unit := do
  let params ← unwrap (Params.new E n m)
  let (ws, sts, ts, s) ← generateData E cfg R params b s
  let (ps, _) ← proveAll E R .Variable ws sts ts s
  unwrap (Proof.verifyBatch E cfg sts ps ts).1

/-- src/proof.rs:1187-1204, `test_prove_verify_batch`, for arbitrary sizes. -/
def testBatch (E : Env F P) (cfg : Config) (R : Rng σ) (n m b : ℕ) (s : σ) : Outcome Unit Unit := do
  let params ← unwrap (Params.new E n m)
  let (ws, sts, ts, s) ← generateData E cfg R params b s
  let (ps, _) ← proveAll E R .Constant ws sts ts s
  unwrap (Proof.verifyBatch E cfg sts ps ts).1
  unwrap (Proof.verifyBatchWithSingleBlame E cfg sts ps ts).1
  unwrap (Proof.verifyBatchWithFullBlame E cfg sts ps ts).1

/-- benches/triptych.rs:90-97 (124-131 with the other timing): `k` iterations of a prover call, each on a copy of the transcript, the
generator going on. -/
def proveLoop (E : Env F P) (R : Rng σ) (timing : OperationTiming) (w : Witness F P) (st : Statement P) (t : Transcript) :
    ℕ → σ → Outcome Unit σ
  | 0, s => .ok s
  | k + 1, s => do
    let r := Proof.proveInternal E R w st s t timing
    let _ ← unwrap r.1
    proveLoop E R timing w st t k r.2.2

/-- benches/triptych.rs:75-102, `generate_proof`, and 104-136, `generate_proof_vartime`, for arbitrary sizes and `k` iterations. -/
def benchProve (E : Env F P) (cfg : Config) (R : Rng σ) (timing : OperationTiming) (n m k : ℕ) (s : σ) : Outcome Unit Unit := do
  let params ← unwrap (Params.new E n m)
  let (ws, sts, ts, s) ← generateData E cfg R params 1 s
  match ws, sts, ts with
  | w :: _, st :: _, t :: _ => do
    let _ ← proveLoop E R timing w st t k s
    .ok ()
  | _, _, _ => .panic

/-- benches/triptych.rs:158-165: `k` iterations of a verification, each on a copy of the transcript. -/
def verifyLoop (E : Env F P) (cfg : Config) (p : Proof F P) (st : Statement P) (t : Transcript) : ℕ → Outcome Unit Unit
  | 0 => .ok ()
  | k + 1 => do
    unwrap (Proof.verify E cfg p st t).1
    verifyLoop E cfg p st t k

/-- benches/triptych.rs:138-170, `verify_proof`, for arbitrary sizes and `k` iterations. -/
def benchVerify (E : Env F P) (cfg : Config) (R : Rng σ) (n m k : ℕ) (s : σ) : Outcome Unit Unit := do
  let params ← unwrap (Params.new E n m)
  let (ws, sts, ts, s) ← generateData E cfg R params 1 s
  match ws, sts, ts with
  | w :: _, st :: _, t :: _ => do
    let p ← unwrap (Proof.proveWithRng E R w st s t).1
    verifyLoop E cfg p st t k
  | _, _, _ => .panic

end Triptych.Bench

namespace Triptych.Parallel.Bench
open Parallel.RingCT (unwrap)
open Triptych.Bench (points nextIndex transcripts)
variable {F P σ : Type} [Field F] [AddCommGroup P] [Module F P] [DecidableEq F] [DecidableEq P]

/-- benches/parallel.rs:42-47 (src/parallel/proof.rs:1130-1135): `k` more witnesses at the following positions. -/
def moreWitnesses (E : Env F P) (cfg : Config) (R : Rng σ) (params : Params P) :
    ℕ → Witness F P → σ → Outcome Unit (List (Witness F P) × σ)
  | 0, _, s => .ok ([], s)
  | k + 1, last, s => do
    let (b, s) := R.fill s 64
    let (b1, s) := R.fill s 64
    let l ← nextIndex cfg last.l params.getN
    let w ← unwrap (Witness.new params l (E.scalarOfWide b) (E.scalarOfWide b1))
    let (ws, s) ← moreWitnesses E cfg R params k w s
    .ok (w :: ws, s)

/-- benches/parallel.rs:56-62 (src/parallel/proof.rs:1144-1151): for each witness, both keys are stored, and an offset is drawn. Out
of range the stores panic. -/
def place (E : Env F P) (R : Rng σ) (params : Params P) :
    List (Witness F P) → List P → List P → σ → Outcome Unit (List P × List P × List P × σ)
  | [], M, M1, s => .ok (M, M1, [], s)
  | w :: ws, M, M1, s =>
    if w.l < M.length then
      let (b, s) := R.fill s 64
      let offset := E.scalarOfWide b • params.G1
      if w.l < M1.length then do
        let (M, M1, offsets, s) ← place E R params ws (M.set w.l w.computeVerificationKey)
          (M1.set w.l (w.computeAuxiliaryVerificationKey + offset)) s
        .ok (M, M1, offset :: offsets, s)
      else .panic
    else .panic

/-- benches/parallel.rs:66-70 (src/parallel/proof.rs:1155-1159): a statement for each witness and offset. -/
def statements (E : Env F P) (params : Params P) (inputSet : InputSet P) :
    List (Witness F P) → List P → Outcome Unit (List (Statement P))
  | w :: ws, offset :: offsets => do
    let st ← unwrap (Statement.new E params inputSet offset w.computeLinkingTag)
    let sts ← statements E params inputSet ws offsets
    .ok (st :: sts)
  | _, _ => .ok []

/-- benches/parallel.rs:32-83, `generate_data` (src/parallel/proof.rs:1116-1172). Also returns the generator state. -/
def generateData (E : Env F P) (cfg : Config) (R : Rng σ) (params : Params P) (b : ℕ) (s : σ) :
    Outcome Unit (List (Witness F P) × List (Statement P) × List Transcript × σ) :=
  if params.getN < b then .panic
  else do
    let (w, s) ← Witness.random E R params s
    let (ws, s) ← moreWitnesses E cfg R params (b - 1) w s
    let (M, s) := points E R params.getN s
    let (M1, s) := points E R params.getN s
    let (M, M1, offsets, s) ← place E R params (w :: ws) M M1 s
    let inputSet ← unwrap (InputSet.new E M M1)
    let sts ← statements E params inputSet (w :: ws) offsets
    .ok (w :: ws, sts, transcripts b, s)

/-- benches/parallel.rs:204-206 (src/parallel/proof.rs:1292-1294): a proof for each, with copies of the transcripts. `izip!` stops at
the shortest list. -/
def proveAll (E : Env F P) (R : Rng σ) (timing : OperationTiming) :
    List (Witness F P) → List (Statement P) → List Transcript → σ → Outcome Unit (List (Proof F P) × σ)
  | w :: ws, st :: sts, t :: ts, s => do
    let r := Proof.proveInternal E R w st s t timing
    let p ← unwrap r.1
    let (ps, s) ← proveAll E R timing ws sts ts r.2.2
    .ok (p :: ps, s)
  | _, _, _, s => .ok ([], s)

/-- benches/parallel.rs:182-222, `verify_batch_proof`, for arbitrary sizes and one iteration. -/
def benchBatch (E : Env F P) (cfg : Config) (R : Rng σ) (n m b : ℕ) (s : σ) : Outcome Unit Unit := do
  let params ← unwrap (Params.new E n m)
  let (ws, sts, ts, s) ← generateData E cfg R params b s
  let (ps, _) ← proveAll E R .Variable ws sts ts s
  unwrap (Proof.verifyBatch E cfg sts ps ts).1

/-- src/parallel/proof.rs:1283-1300, `test_prove_verify_batch`, for arbitrary sizes. -/
def testBatch (E : Env F P) (cfg : Config) (R : Rng σ) (n m b : ℕ) (s : σ) : Outcome Unit Unit := do
  let params ← unwrap (Params.new E n m)
  let (ws, sts, ts, s) ← generateData E cfg R params b s
  let (ps, _) ← proveAll E R .Constant ws sts ts s
  unwrap (Proof.verifyBatch E cfg sts ps ts).1
  unwrap (Proof.verifyBatchWithSingleBlame E cfg sts ps ts).1
  unwrap (Proof.verifyBatchWithFullBlame E cfg sts ps ts).1

/-- benches/parallel.rs:100-107 (134-141 with the other timing): `k` iterations of a prover call, each on a copy of the transcript, the
generator going on. -/
def proveLoop (E : Env F P) (R : Rng σ) (timing : OperationTiming) (w : Witness F P) (st : Statement P) (t : Transcript) :
    ℕ → σ → Outcome Unit σ
  | 0, s => .ok s
  | k + 1, s => do
    let r := Proof.proveInternal E R w st s t timing
    let _ ← unwrap r.1
    proveLoop E R timing w st t k r.2.2

/-- benches/parallel.rs:85-112, `generate_proof`, and 114-146, `generate_proof_vartime`, for arbitrary sizes and `k` iterations. -/
def benchProve (E : Env F P) (cfg : Config) (R : Rng σ) (timing : OperationTiming) (n m k : ℕ) (s : σ) : Outcome Unit Unit := do
  let params ← unwrap (Params.new E n m)
  let (ws, sts, ts, s) ← generateData E cfg R params 1 s
  match ws, sts, ts with
  | w :: _, st :: _, t :: _ => do
    let _ ← proveLoop E R timing w st t k s
    .ok ()
  | _, _, _ => .panic

/-- benches/parallel.rs:168-175: `k` iterations of a verification, each on a copy of the transcript. -/
def verifyLoop (E : Env F P) (cfg : Config) (p : Proof F P) (st : Statement P) (t : Transcript) : ℕ → Outcome Unit Unit
  | 0 => .ok ()
  | k + 1 => do
    unwrap (Proof.verify E cfg p st t).1
    verifyLoop E cfg p st t k

/-- benches/parallel.rs:148-180, `verify_proof`, for arbitrary sizes and `k` iterations. -/
def benchVerify (E : Env F P) (cfg : Config) (R : Rng σ) (n m k : ℕ) (s : σ) : Outcome Unit Unit := do
  let params ← unwrap (Params.new E n m)
  let (ws, sts, ts, s) ← generateData E cfg R params 1 s
  match ws, sts, ts with
  | w :: _, st :: _, t :: _ => do
    let p ← unwrap (Proof.proveWithRng E R w st s t).1
    verifyLoop E cfg p st t k
  | _, _, _ => .panic

end Triptych.Parallel.Bench
