import Verif.Spec.Parallel.Serde
import Verif.Lemmas.Serde

/-! # Lemmas about the serde model of parallel proofs -/
set_option autoImplicit false
set_option linter.unusedSectionVars false
set_option linter.unusedVariables false
set_option linter.unusedSimpArgs false

namespace Triptych.Parallel
namespace Proof
open Triptych.Serde
variable {F P : Type}

theorem visitEntries_iff (E : Env F P) (es : List (Key × Value)) (s s' : Slots F P) :
    visitEntries E s es = some s' ↔ (∀ e ∈ es, e.1 ≠ Key.other) ∧
      collect (toPoint E) s.A (vals fieldNames 0 es) = some s'.A ∧
      collect (toPoint E) s.B (vals fieldNames 1 es) = some s'.B ∧
      collect (toPoint E) s.C (vals fieldNames 2 es) = some s'.C ∧
      collect (toPoint E) s.D (vals fieldNames 3 es) = some s'.D ∧
      collect (toVec (toPoint E)) s.X (vals fieldNames 4 es) = some s'.X ∧
      collect (toVec (toPoint E)) s.X1 (vals fieldNames 5 es) = some s'.X1 ∧
      collect (toVec (toPoint E)) s.Y (vals fieldNames 6 es) = some s'.Y ∧
      collect (toVec (toVec (toScalar E))) s.f (vals fieldNames 7 es) = some s'.f ∧
      collect (toScalar E) s.zA (vals fieldNames 8 es) = some s'.zA ∧
      collect (toScalar E) s.zC (vals fieldNames 9 es) = some s'.zC ∧
      collect (toScalar E) s.z (vals fieldNames 10 es) = some s'.z ∧
      collect (toScalar E) s.z1 (vals fieldNames 11 es) = some s'.z1 := by
  induction es generalizing s with
  | nil =>
    cases s; cases s'
    simp [visitEntries, vals, collect]
  | cons e es ih =>
    obtain ⟨k, v⟩ := e
    simp only [visitEntries, vals_cons, List.forall_mem_cons]
    cases hk : identify fieldNames k with
    | none =>
      have := (identify_none _ _).1 hk
      simp [this]
    | some o =>
      have hko : k ≠ Key.other := fun h => by rw [(identify_none _ _).2 h] at hk; simp at hk
      simp only [Option.bind_eq_bind, Option.bind_some, hko, ne_eq, not_false_eq_true, true_and]
      unfold visitEntry
      split
      · rcases ho : setOnce (toPoint E) s.A v with _ | x <;> simp [ho, ih, collect]
      · rcases ho : setOnce (toPoint E) s.B v with _ | x <;> simp [ho, ih, collect]
      · rcases ho : setOnce (toPoint E) s.C v with _ | x <;> simp [ho, ih, collect]
      · rcases ho : setOnce (toPoint E) s.D v with _ | x <;> simp [ho, ih, collect]
      · rcases ho : setOnce (toVec (toPoint E)) s.X v with _ | x <;> simp [ho, ih, collect]
      · rcases ho : setOnce (toVec (toPoint E)) s.X1 v with _ | x <;> simp [ho, ih, collect]
      · rcases ho : setOnce (toVec (toPoint E)) s.Y v with _ | x <;> simp [ho, ih, collect]
      · rcases ho : setOnce (toVec (toVec (toScalar E))) s.f v with _ | x <;> simp [ho, ih, collect]
      · rcases ho : setOnce (toScalar E) s.zA v with _ | x <;> simp [ho, ih, collect]
      · rcases ho : setOnce (toScalar E) s.zC v with _ | x <;> simp [ho, ih, collect]
      · rcases ho : setOnce (toScalar E) s.z v with _ | x <;> simp [ho, ih, collect]
      · rcases ho : setOnce (toScalar E) s.z1 v with _ | x <;> simp [ho, ih, collect]
      · rename_i h0 h1 h2 h3 h4 h5 h6 h7 h8 h9 h10 h11
        have hne : ∀ i : ℕ, ¬ o = some i → ¬ some o = some (some i) := fun i h h' => h (Option.some.inj h')
        rw [Option.bind_some, ih, if_neg (hne _ h0), if_neg (hne _ h1), if_neg (hne _ h2), if_neg (hne _ h3),
          if_neg (hne _ h4), if_neg (hne _ h5), if_neg (hne _ h6), if_neg (hne _ h7),
          if_neg (hne _ h8), if_neg (hne _ h9), if_neg (hne _ h10), if_neg (hne _ h11)]

end Proof
end Triptych.Parallel
