import Verif.Lemmas.Transcripts
import Verif.Spec.Parallel.Prover

/-! # The transcripts built by the model are those of the specification -/
set_option autoImplicit false
set_option linter.unusedSectionVars false
set_option linter.unusedVariables false
set_option linter.unusedSimpArgs false

namespace Triptych.Parallel
open Triptych.Parallel.Spec
open Triptych.Spec (grayDigit digit commit fullF ringCoeff NonzeroF maskA selector ringPoly versionBytes points scalars
  weightTranscript weightScalar queryPoint drawn)

variable {F P : Type}

/-- The transcript after `ProofTranscript.new` and `commit`. -/
theorem commit_transcript {σ : Type} [DecidableEq F] [Zero F] [One F] [Mul F] (E : Env F P) (R : Rng σ) (t : Transcript)
    (st : Statement P) (s : σ) (w : Option (Witness F P)) (params : Params P) (trng : TRng)
    (A B C D : P) (X X1 Y : List P) :
    (({ ProofTranscript.new E R t st s w with trng := trng }).commit E R params A B C D X X1 Y).2.transcript
      = challengeTranscript E t st.hash A B C D X X1 Y ∧
    (({ ProofTranscript.new E R t st s w with trng := trng }).commit E R params A B C D X X1 Y).1
      = xiPowersLoop (E.scalarOfWide (E.challenge (challengeTranscript E t st.hash A B C D X X1 Y))) (params.m + 1) 1 := by
  have h : ∀ T, (Transcript.challengeBytes E T "xi" 64) = (E.challenge (T ++ [.challenge "xi" 64]),
    T ++ [.challenge "xi" 64]) := fun _ => rfl
  simp only [ProofTranscript.commit, ProofTranscript.new, appendPoints_eq, Transcript.appendMessage, version_append, h,
    TRANSCRIPT_PARALLEL_PROOF, challengeTranscript]
  simp

theorem response_eq (E : Env F P) (pt : ProofTranscript F P Unit) (hw : pt.witness = none) (f : List (List F))
    (zA zC z z1 : F) :
    pt.response E nullRng f zA zC z z1 =
      (⟨pt.transcript ++ scalars E "f" f.flatten ++ [.append "z_A" (E.scalarBytes zA),
          .append "z_C" (E.scalarBytes zC), .append "z" (E.scalarBytes z),
          .append "z1" (E.scalarBytes z1)], [], List.replicate 32 0, []⟩,
        pt.transcript ++ scalars E "f" f.flatten ++ [.append "z_A" (E.scalarBytes zA),
          .append "z_C" (E.scalarBytes zC), .append "z" (E.scalarBytes z),
          .append "z1" (E.scalarBytes z1)], ()) := by
  simp only [ProofTranscript.response, appendMatrix_eq, Transcript.appendMessage, ProofTranscript.buildTranscriptRng, hw,
    TRng.finalize, nullRng]
  simp

end Triptych.Parallel
