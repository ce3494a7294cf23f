import Verif.Model.Verify
import Verif.Model.ProveTraced

/-! # The verifier with its multiscalar multiplications (src/proof.rs:547-810)

The same computations as in `Verif.Model.Verify`, recording the reservation of the scalar vector and the multiscalar
multiplication. Nothing else is recorded: the verifier handles public data only. -/
set_option autoImplicit false

namespace Triptych.Proof
open Traced
variable {F P : Type} [Field F] [AddCommGroup P] [Module F P] [DecidableEq F] [DecidableEq P]

/-- src/proof.rs:691-809: everything after the challenges are known. -/
def finalCheckT (E : Env F P) (cfg : Config) (statements : List (Statement P)) (proofs : List (Proof F P))
    (params : Params P) (M : List P) (xis : List (List F)) (wt : Transcript) : Traced F ProofError Unit := do
  let (trng, _) := TRng.finalize nullRng wt [] ()
  let acc ← lift (processLoop E cfg params (proofs.zip xis) (Acc.init params M) trng)
  let total ← msmT acc.finalScalars (finalPoints statements proofs params M) .Variable
  lift (if total = 0 then .ok () else .err .FailedVerification)

/-- src/proof.rs:547-810, `verify_batch`. `Vec::with_capacity(final_size)` is in line 662; between the computation of
`final_size` and the reservation nothing can fail. -/
def verifyBatchT (E : Env F P) (cfg : Config) (statements : List (Statement P)) (proofs : List (Proof F P))
    (transcripts : List Transcript) : Traced F ProofError Unit × List Transcript :=
  if statements.length ≠ proofs.length then
    (lift (.err (.InvalidParameter "number of statements and proof does not match")), transcripts)
  else if statements.length ≠ transcripts.length then
    (lift (.err (.InvalidParameter "number of statements and transcripts does not match")), transcripts)
  else
    match statements.head? with
    | none => (lift (.ok ()), transcripts)
    | some first =>
      if !allEqual (statements.map fun s => s.inputSet.hash) then
        (lift (.err (.InvalidParameter "statement input sets do not match")), transcripts)
      else if !allEqual (statements.map fun s => s.params.hash) then
        (lift (.err (.InvalidParameter "statement parameters do not match")), transcripts)
      else
        let M := first.inputSet.M
        let params := first.params
        match (do
            proofs.forM (checkShape params)
            let size ← finalSize cfg params proofs.length
            .ok size : Outcome ProofError Nat) with
        | .err e => (lift (.err e), transcripts)
        | .panic => (lift .panic, transcripts)
        | .diverge => (lift .diverge, transcripts)
        | .ok size =>
          let (challenges, transcripts) := challengeLoop E params statements proofs transcripts weightTranscriptStart
          (do
            leak (.call "Vec::with_capacity" [size])
            let (xis, wt) ← lift challenges
            finalCheckT E cfg statements proofs params M xis wt, transcripts)

end Triptych.Proof
