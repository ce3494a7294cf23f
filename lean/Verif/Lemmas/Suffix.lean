import Verif.Lemmas.Binding
import Verif.Spec.Parallel.Transcripts

/-! # Decoding transcripts from the end -/
set_option autoImplicit false

namespace Triptych
open Spec

variable {F P : Type}

/-- A trailing run of appends under one label is determined by the transcript if what precedes it ends differently. -/
theorem points_suffix_inj {E : Env F P} (hE : E.Lawful) (label : String) (l l' : List P) (r r' : Transcript)
    (hr : ∀ b, r.getLast? ≠ some (.append label b)) (hr' : ∀ b, r'.getLast? ≠ some (.append label b))
    (h : r ++ points E label l = r' ++ points E label l') : l = l' ∧ r = r' := by
  have h2 := congrArg List.reverse h
  rw [List.reverse_append, List.reverse_append, points, points, ← List.map_reverse, ← List.map_reverse] at h2
  obtain ⟨h3, h4⟩ := points_append_inj hE label l.reverse l'.reverse r.reverse r'.reverse
    (by simpa using hr) (by simpa using hr') h2
  exact ⟨List.reverse_injective h3, List.reverse_injective h4⟩

/-- The same for scalars. -/
theorem scalars_suffix_inj {E : Env F P} (hE : E.Lawful) (label : String) (l l' : List F) (r r' : Transcript)
    (hr : ∀ b, r.getLast? ≠ some (.append label b)) (hr' : ∀ b, r'.getLast? ≠ some (.append label b))
    (h : r ++ scalars E label l = r' ++ scalars E label l') : l = l' ∧ r = r' := by
  let E' : Env P F := ⟨E.compress, E.decompress, fun b => E.pointOfUniform b, E.scalarBytes, E.scalarOfCanonical,
    fun b => E.scalarOfWide b, E.scalarOfWide [], E.xof, E.challenge, E.prf⟩
  have hE' : E'.Lawful := ⟨hE.compress_length, hE.point_decode_encode, hE.point_encode_decode, hE.scalarBytes_length,
    hE.scalar_decode_encode, hE.scalar_encode_decode⟩
  exact points_suffix_inj hE' label l l' r r' hr hr' h

theorem getLast?_points (E : Env F P) (label label' : String) (l : List P) (r : Transcript)
    (hl : label ≠ label') (hr : ∀ b, r.getLast? ≠ some (.append label' b)) (b : Bytes) :
    (r ++ points E label l).getLast? ≠ some (.append label' b) := by
  rcases List.eq_nil_or_concat l with rfl | ⟨l, x, rfl⟩
  · simpa [points] using hr b
  · simp [points, List.getLast?_append, hl]

/-- The parts of a challenge transcript. -/
theorem challengeTranscript_inj {E : Env F P} (hE : E.Lawful) (t t' : Transcript) (h h' : Bytes) (A B C D A' B' C' D' : P)
    (X Y X' Y' : List P)
    (heq : challengeTranscript E t h A B C D X Y = challengeTranscript E t' h' A' B' C' D' X' Y') :
    t = t' ∧ h = h' ∧ A = A' ∧ B = B' ∧ C = C' ∧ D = D' ∧ X = X' ∧ Y = Y' := by
  rw [challengeTranscript, challengeTranscript] at heq
  have h1 := List.append_cancel_right heq
  obtain ⟨hY, h2⟩ := points_suffix_inj hE "Y" Y Y' _ _
    (getLast?_points E "X" "Y" X _ (by decide) (by simp))
    (getLast?_points E "X" "Y" X' _ (by decide) (by simp)) h1
  obtain ⟨hX, h3⟩ := points_suffix_inj hE "X" X X' _ _ (by simp) (by simp) h2
  obtain ⟨ht, h4⟩ := List.append_inj' h3 rfl
  simp only [List.cons.injEq, Op.append.injEq, true_and, and_true] at h4
  exact ⟨ht, h4.1, hE.compress_inj _ _ h4.2.1, hE.compress_inj _ _ h4.2.2.1, hE.compress_inj _ _ h4.2.2.2.1,
    hE.compress_inj _ _ h4.2.2.2.2, hX, hY⟩

/-- The parts of a parallel challenge transcript. -/
theorem Parallel.challengeTranscript_inj {E : Env F P} (hE : E.Lawful) (t t' : Transcript) (h h' : Bytes)
    (A B C D A' B' C' D' : P) (X X1 Y X' X1' Y' : List P)
    (heq : Parallel.Spec.challengeTranscript E t h A B C D X X1 Y =
      Parallel.Spec.challengeTranscript E t' h' A' B' C' D' X' X1' Y') :
    t = t' ∧ h = h' ∧ A = A' ∧ B = B' ∧ C = C' ∧ D = D' ∧ X = X' ∧ X1 = X1' ∧ Y = Y' := by
  rw [Parallel.Spec.challengeTranscript, Parallel.Spec.challengeTranscript] at heq
  have h1 := List.append_cancel_right heq
  obtain ⟨hY, h2⟩ := points_suffix_inj hE "Y" Y Y' _ _
    (getLast?_points E "X1" "Y" X1 _ (by decide) (getLast?_points E "X" "Y" X _ (by decide) (by simp)))
    (getLast?_points E "X1" "Y" X1' _ (by decide) (getLast?_points E "X" "Y" X' _ (by decide) (by simp))) h1
  obtain ⟨hX1, h2⟩ := points_suffix_inj hE "X1" X1 X1' _ _
    (getLast?_points E "X" "X1" X _ (by decide) (by simp))
    (getLast?_points E "X" "X1" X' _ (by decide) (by simp)) h2
  obtain ⟨hX, h3⟩ := points_suffix_inj hE "X" X X' _ _ (by simp) (by simp) h2
  obtain ⟨ht, h4⟩ := List.append_inj' h3 rfl
  simp only [List.cons.injEq, Op.append.injEq, true_and, and_true] at h4
  exact ⟨ht, h4.1, hE.compress_inj _ _ h4.2.1, hE.compress_inj _ _ h4.2.2.1, hE.compress_inj _ _ h4.2.2.2.1,
    hE.compress_inj _ _ h4.2.2.2.2, hX, hX1, hY⟩

/-- A challenge transcript ends in a challenge. -/
theorem challengeTranscript_getLast (E : Env F P) (t : Transcript) (h : Bytes) (A B C D : P) (X Y : List P) :
    (challengeTranscript E t h A B C D X Y).getLast? = some (.challenge "xi" 64) := by
  rw [challengeTranscript, List.getLast?_concat]

theorem Parallel.challengeTranscript_getLast (E : Env F P) (t : Transcript) (h : Bytes) (A B C D : P) (X X1 Y : List P) :
    (Parallel.Spec.challengeTranscript E t h A B C D X X1 Y).getLast? = some (.challenge "xi" 64) := by
  rw [Parallel.Spec.challengeTranscript, List.getLast?_concat]

end Triptych
