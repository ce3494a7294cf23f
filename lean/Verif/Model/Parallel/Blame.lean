import Verif.Model.Blame
import Verif.Model.Parallel.Verify

/-! # Parallel batch verification with blame (src/parallel/proof.rs:459-575)

The bisection loop and the full-blame loop are identical to the non-parallel ones (`bisect`, `blameLoop`). -/
set_option autoImplicit false

namespace Triptych.Parallel
namespace Proof
variable {F P : Type} [Field F] [AddCommGroup P] [Module F P] [DecidableEq F] [DecidableEq P]

/-- src/parallel/proof.rs:506-511: verification of the sub-batch `left..mid`; slicing panics out of range. -/
def subBatch (E : Env F P) (cfg : Config) (statements : List (Statement P)) (proofs : List (Proof F P))
    (transcripts : List Transcript) (left mid : Nat) : Outcome ProofError Unit := do
  let sts ← slice statements left mid
  let ps ← slice proofs left mid
  let ts ← slice transcripts left mid
  (verifyBatch E cfg sts ps ts).1

/-- src/parallel/proof.rs:473-541, `verify_batch_with_single_blame`. -/
def verifyBatchWithSingleBlame (E : Env F P) (cfg : Config) (statements : List (Statement P))
    (proofs : List (Proof F P)) (transcripts : List Transcript) :
    Outcome ProofError Unit × List (Nat × Nat) × List Transcript :=
  match (verifyBatch E cfg statements proofs transcripts).1 with
  | .ok () => (.ok (), [], transcripts)
  | .panic => (.panic, [], transcripts)
  | .diverge => (.diverge, [], transcripts)
  | .err _ =>
    let (res, calls) := bisect cfg (subBatch E cfg statements proofs transcripts) (proofs.length + 1) 0 proofs.length
    (res, calls, transcripts)

/-- src/parallel/proof.rs:556-575, `verify_batch_with_full_blame`. -/
def verifyBatchWithFullBlame (E : Env F P) (cfg : Config) (statements : List (Statement P))
    (proofs : List (Proof F P)) (transcripts : List Transcript) : Outcome ProofError Unit × List Transcript :=
  match (verifyBatch E cfg statements proofs transcripts).1 with
  | .ok () => (.ok (), transcripts)
  | .panic => (.panic, transcripts)
  | .diverge => (.diverge, transcripts)
  | .err _ =>
    let (failures, transcripts) :=
      blameLoop (fun st p t => verify E cfg p st t) 0 statements proofs transcripts
    (failures >>= fun is => .err (.FailedBatchVerificationWithFullBlame is), transcripts)

end Proof
end Triptych.Parallel
