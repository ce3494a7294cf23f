import Verif.Lemmas.Basic
import Verif.Spec.Transcripts

/-! # The transcripts built by the model are those of the specification -/
set_option autoImplicit false
set_option linter.unusedSectionVars false
set_option linter.unusedVariables false
set_option linter.unusedSimpArgs false

namespace Triptych
open Spec

variable {F P : Type}

theorem appendPoints_eq (E : Env F P) (label : String) (t : Transcript) (l : List P) :
    appendPoints E label t l = t ++ points E label l := by
  rw [appendPoints, points]
  induction l generalizing t with
  | nil => simp
  | cons a l ih => rw [List.foldl_cons, ih]; simp [Transcript.appendMessage]

theorem foldl_append_eq (E : Env F P) (label : String) (t : Transcript) (l : List P) :
    l.foldl (fun t item => Transcript.appendMessage t label (E.compress item)) t = t ++ points E label l :=
  appendPoints_eq E label t l

theorem foldl_append_scalars (E : Env F P) (label : String) (t : Transcript) (l : List F) :
    l.foldl (fun t x => Transcript.appendMessage t label (E.scalarBytes x)) t = t ++ scalars E label l := by
  rw [scalars]
  induction l generalizing t with
  | nil => simp
  | cons a l ih => rw [List.foldl_cons, ih]; simp [Transcript.appendMessage]

theorem appendMatrix_eq (E : Env F P) (label : String) (t : Transcript) (l : List (List F)) :
    appendMatrix E label t l = t ++ scalars E label l.flatten := by
  rw [appendMatrix]
  induction l generalizing t with
  | nil => simp [scalars]
  | cons a l ih => rw [List.foldl_cons, ih, foldl_append_scalars]; simp [scalars]

theorem leBytes8_zero : leBytes 8 VERSION = versionBytes := by decide

theorem version_append (t : Transcript) : t.appendU64 "version" VERSION = t ++ [.append "version" versionBytes] := by
  rw [Transcript.appendU64, Transcript.appendMessage, leBytes8_zero]

/-- The transcript after `ProofTranscript.new` and `commit`. -/
theorem commit_transcript {σ : Type} [DecidableEq F] [Zero F] [One F] [Mul F] (E : Env F P) (R : Rng σ) (t : Transcript)
    (st : Statement P) (s : σ) (w : Option (Witness F P)) (params : Params P) (trng : TRng)
    (A B C D : P) (X Y : List P) :
    (({ ProofTranscript.new E R t st s w with trng := trng }).commit E R params A B C D X Y).2.transcript
      = challengeTranscript E t st.hash A B C D X Y ∧
    (({ ProofTranscript.new E R t st s w with trng := trng }).commit E R params A B C D X Y).1
      = xiPowersLoop (E.scalarOfWide (E.challenge (challengeTranscript E t st.hash A B C D X Y))) (params.m + 1) 1 := by
  have h : ∀ T, (Transcript.challengeBytes E T "xi" 64) = (E.challenge (T ++ [.challenge "xi" 64]),
    T ++ [.challenge "xi" 64]) := fun _ => rfl
  simp only [ProofTranscript.commit, ProofTranscript.new, appendPoints_eq, Transcript.appendMessage, version_append, h,
    TRANSCRIPT_PROOF, challengeTranscript]
  simp

theorem response_eq (E : Env F P) (pt : ProofTranscript F P Unit) (hw : pt.witness = none) (f : List (List F))
    (zA zC z : F) :
    pt.response E nullRng f zA zC z =
      (⟨pt.transcript ++ scalars E "f" f.flatten ++ [.append "z_A" (E.scalarBytes zA),
          .append "z_C" (E.scalarBytes zC), .append "z" (E.scalarBytes z)], [], List.replicate 32 0, []⟩,
        pt.transcript ++ scalars E "f" f.flatten ++ [.append "z_A" (E.scalarBytes zA),
          .append "z_C" (E.scalarBytes zC), .append "z" (E.scalarBytes z)], ()) := by
  simp only [ProofTranscript.response, appendMatrix_eq, Transcript.appendMessage, ProofTranscript.buildTranscriptRng, hw,
    TRng.finalize, nullRng]
  simp

end Triptych
