import Verif.Model.Verify

/-! # Batch verification with blame (src/proof.rs:419-535, src/parallel/proof.rs:459-575) -/
set_option autoImplicit false

namespace Triptych

/-- `usize::checked_add`. -/
def checkedAddUsize (cfg : Config) (a b : Nat) : Option Nat := if a + b ≤ cfg.usizeMax then some (a + b) else none

/-- src/proof.rs:447-500 (parallel: 487-540): the bisection loop. `sub left mid` is the verification of the sub-batch
`left..mid` on copies of the transcripts. The second component is the list of sub-batches verified, in order. `fuel`
bounds the iterations (`proofs.len() + 1` is used, which is never exhausted: `C30`). -/
def bisect (cfg : Config) (sub : Nat → Nat → Outcome ProofError Unit) :
    Nat → Nat → Nat → Outcome ProofError Unit × List (Nat × Nat)
  | 0, _, _ => (.diverge, [])
  | fuel + 1, left, right =>
    if left < right then
      match checkedAddUsize cfg left ((right - left) / 2) with
      | none => (.err (.FailedBatchVerificationWithSingleBlame none), [])
      | some average =>
        match (if (right - left) % 2 = 0 then some average else checkedAddUsize cfg average 1) with
        | none => (.err (.FailedBatchVerificationWithSingleBlame none), [])
        | some mid =>
          match sub left mid with
          | .panic => (.panic, [(left, mid)])
          | .diverge => (.diverge, [(left, mid)])
          | .err _ =>
            match checkedSub mid 1 with
            | none => (.err (.FailedBatchVerificationWithSingleBlame none), [(left, mid)])
            | some leftCheck =>
              if left = leftCheck then
                (.err (.FailedBatchVerificationWithSingleBlame (some left)), [(left, mid)])
              else
                let (res, calls) := bisect cfg sub fuel left mid
                (res, (left, mid) :: calls)
          | .ok () =>
            match checkedAddUsize cfg mid 1 with
            | none => (.err (.FailedBatchVerificationWithSingleBlame none), [(left, mid)])
            | some rightCheck =>
              if right = rightCheck then
                match checkedSub right 1 with
                | none => (.err (.FailedBatchVerificationWithSingleBlame none), [(left, mid)])
                | some rightResult =>
                  (.err (.FailedBatchVerificationWithSingleBlame (some rightResult)), [(left, mid)])
              else
                let (res, calls) := bisect cfg sub fuel mid right
                (res, (left, mid) :: calls)
    else (.err (.FailedBatchVerificationWithSingleBlame none), [])

/-- src/proof.rs:527-534 (parallel: 567-574): the loop of the full-blame variant over zipped statements, proofs and
transcripts; `index` is the current index. `verifyOne` is `proof.verify(statement, transcript)`. Returns the failing indexes
and the transcripts afterwards (those beyond the shortest list are untouched). -/
def blameLoop {S Q : Type} (verifyOne : S → Q → Transcript → Outcome ProofError Unit × List Transcript) :
    Nat → List S → List Q → List Transcript → Outcome ProofError (List Nat) × List Transcript
  | index, st :: sts, p :: ps, t :: ts =>
    let (res, t') := verifyOne st p t
    match res with
    | .panic => (.panic, t' ++ ts)
    | .diverge => (.diverge, t' ++ ts)
    | .ok () =>
      let (rest, ts') := blameLoop verifyOne (index + 1) sts ps ts
      (rest, t' ++ ts')
    | .err _ =>
      let (rest, ts') := blameLoop verifyOne (index + 1) sts ps ts
      (rest >>= fun is => .ok (index :: is), t' ++ ts')
  | _, _, _, ts => (.ok [], ts)

namespace Proof
variable {F P : Type} [Field F] [AddCommGroup P] [Module F P] [DecidableEq F] [DecidableEq P]

/-- src/proof.rs:466-470: verification of the sub-batch `left..mid`; slicing panics out of range. -/
def subBatch (E : Env F P) (cfg : Config) (statements : List (Statement P)) (proofs : List (Proof F P))
    (transcripts : List Transcript) (left mid : Nat) : Outcome ProofError Unit := do
  let sts ← slice statements left mid
  let ps ← slice proofs left mid
  let ts ← slice transcripts left mid
  (verifyBatch E cfg sts ps ts).1

/-- src/proof.rs:433-501, `verify_batch_with_single_blame`: result, sub-batches verified, transcripts afterwards
(verification only ever uses copies of them). -/
def verifyBatchWithSingleBlame (E : Env F P) (cfg : Config) (statements : List (Statement P))
    (proofs : List (Proof F P)) (transcripts : List Transcript) :
    Outcome ProofError Unit × List (Nat × Nat) × List Transcript :=
  match (verifyBatch E cfg statements proofs transcripts).1 with
  | .ok () => (.ok (), [], transcripts)
  | .panic => (.panic, [], transcripts)
  | .diverge => (.diverge, [], transcripts)
  | .err _ =>
    let (res, calls) := bisect cfg (subBatch E cfg statements proofs transcripts) (proofs.length + 1) 0 proofs.length
    (res, calls, transcripts)

/-- src/proof.rs:516-535, `verify_batch_with_full_blame`. -/
def verifyBatchWithFullBlame (E : Env F P) (cfg : Config) (statements : List (Statement P))
    (proofs : List (Proof F P)) (transcripts : List Transcript) : Outcome ProofError Unit × List Transcript :=
  match (verifyBatch E cfg statements proofs transcripts).1 with
  | .ok () => (.ok (), transcripts)
  | .panic => (.panic, transcripts)
  | .diverge => (.diverge, transcripts)
  | .err _ =>
    let (failures, transcripts) :=
      blameLoop (fun st p t => verify E cfg p st t) 0 statements proofs transcripts
    (failures >>= fun is => .err (.FailedBatchVerificationWithFullBlame is), transcripts)

end Proof
end Triptych
