import Verif.Spec.Messages

set_option autoImplicit false

namespace Triptych.Spec

theorem reports_pos {ε α : Type} (text : ε → String) (o : Outcome ε α) (c : Prop) (x : String) (rows : List (Prop × String)) (hc : c)
    (h : ∃ e, o = .err e ∧ text e = x) : Reports text o (firstRow ((c, x) :: rows)) := by
  rw [firstRow, if_pos hc]; exact h

theorem reports_neg {ε α : Type} (text : ε → String) (o : Outcome ε α) (c : Prop) (x : String) (rows : List (Prop × String)) (hc : ¬ c)
    (h : Reports text o (firstRow rows)) : Reports text o (firstRow ((c, x) :: rows)) := by
  rw [firstRow, if_neg hc]; exact h

theorem firstRow_append (a b : List (Prop × String)) : firstRow (a ++ b) = (firstRow a).or (firstRow b) := by
  induction a with
  | nil => rfl
  | cons r a ih =>
    obtain ⟨c, x⟩ := r
    rw [List.cons_append, firstRow, firstRow]
    split
    · rfl
    · exact ih

theorem reports_skip {ε α : Type} (text : ε → String) (o : Outcome ε α) (a b : List (Prop × String)) (ha : firstRow a = none)
    (h : Reports text o (firstRow b)) : Reports text o (firstRow (a ++ b)) := by
  rw [firstRow_append, ha]; exact h

theorem reports_stop {ε α : Type} (text : ε → String) (o : Outcome ε α) (a b : List (Prop × String)) (x : String) (ha : firstRow a = some x)
    (h : ∃ e, o = .err e ∧ text e = x) : Reports text o (firstRow (a ++ b)) := by
  rw [firstRow_append, ha]; exact h

end Triptych.Spec

namespace Triptych
open Spec

theorem string_append_inj (a r r' : String) : a ++ r = a ++ r' ↔ r = r' := by
  rw [String.ext_iff, String.toList_append, String.toList_append, List.append_cancel_left_eq, ← String.ext_iff]

theorem string_append_ne (a r x : String) (ha : 2 ≤ a.toList.length) (hx : x.toList.take 2 ≠ a.toList.take 2) : a ++ r ≠ x := by
  intro h
  apply hx
  rw [← h, String.toList_append, List.take_append_of_le_length ha]

/-- The message determines the error, up to failed batches. -/
theorem ProofError.text_inj (e e' : ProofError) (h : e.text = e'.text) : e = e' ∨ (BatchFailure e ∧ BatchFailure e') := by
  have hpre : 2 ≤ "An invalid parameter was provided: ".toList.length := by decide +kernel
  have k1 : "A transcript challenge was invalid".toList.take 2 ≠ "An invalid parameter was provided: ".toList.take 2 := by decide +kernel
  have k2 : "Proof deserialization failed".toList.take 2 ≠ "An invalid parameter was provided: ".toList.take 2 := by decide +kernel
  have k3 : "Single proof verification failed".toList.take 2 ≠ "An invalid parameter was provided: ".toList.take 2 := by decide +kernel
  have k4 : "Batch proof verification failed".toList.take 2 ≠ "An invalid parameter was provided: ".toList.take 2 := by decide +kernel
  have d1 : "A transcript challenge was invalid" ≠ "Proof deserialization failed" := by decide +kernel
  have d2 : "A transcript challenge was invalid" ≠ "Single proof verification failed" := by decide +kernel
  have d3 : "A transcript challenge was invalid" ≠ "Batch proof verification failed" := by decide +kernel
  have d4 : "Proof deserialization failed" ≠ "Single proof verification failed" := by decide +kernel
  have d5 : "Proof deserialization failed" ≠ "Batch proof verification failed" := by decide +kernel
  have d6 : "Single proof verification failed" ≠ "Batch proof verification failed" := by decide +kernel
  have inj := string_append_inj "An invalid parameter was provided: "
  have ne := fun r x => string_append_ne "An invalid parameter was provided: " r x hpre
  revert h
  unfold ProofError.text
  generalize "An invalid parameter was provided: " = a at *
  generalize "A transcript challenge was invalid" = b at *
  generalize "Proof deserialization failed" = c at *
  generalize "Single proof verification failed" = d at *
  generalize "Batch proof verification failed" = f at *
  intro h
  cases e <;> cases e' <;> simp only at h <;>
    first
    | exact Or.inr ⟨trivial, trivial⟩
    | exact Or.inl rfl
    | exact Or.inl (congrArg _ ((inj _ _).1 h))
    | exact absurd h (ne _ _ (by assumption))
    | exact absurd h.symm (ne _ _ (by assumption))
    | exact absurd h (by assumption)
    | exact absurd h.symm (by assumption)
end Triptych
