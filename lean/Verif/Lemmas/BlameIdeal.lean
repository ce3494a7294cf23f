import Verif.Spec.BlameIdeal
import Verif.Lemmas.Draws

/-! Tables for several weight generators. -/
set_option autoImplicit false
set_option linter.unusedSectionVars false

namespace Triptych
open Spec Finset Function

variable {F P : Type}

theorem Env.prf_ext (E : Env F P) (f g : TRng → Nat → Bytes) (h : ∀ r len, f r len = g r len) :
    ({ E with prf := f } : Env F P) = { E with prf := g } := by
  rw [show f = g from funext fun r => funext fun len => h r len]

/-- Replacing the table of one generator. -/
theorem withTables_update (E : Env F P) (L : Finset Transcript) {N : ℕ} (W : L → Fin N → Block) (v : L) (τ : Fin N → Block) :
    withTables E L (update W v τ) = withTable (withTables E L W) ⟨v.1, [], List.replicate 32 0, []⟩ τ := by
  refine Env.prf_ext E _ _ fun r len => ?_
  by_cases hr : r.log = v.1
  · by_cases h : r.reqs.length < N ∧ r = queryPoint ⟨v.1, [], List.replicate 32 0, []⟩ r.reqs.length ∧ len = 64
    · have h' : r.log ∈ L ∧ r.reqs.length < N ∧ r = queryPoint ⟨r.log, [], List.replicate 32 0, []⟩ r.reqs.length ∧ len = 64 :=
        ⟨hr ▸ v.2, h.1, by rw [hr]; exact h.2.1, h.2.2⟩
      rw [dif_pos h', dif_pos h]
      have : (⟨r.log, h'.1⟩ : L) = v := Subtype.ext hr
      rw [this, update_self]
    · have h' : ¬ (r.log ∈ L ∧ r.reqs.length < N ∧ r = queryPoint ⟨r.log, [], List.replicate 32 0, []⟩ r.reqs.length ∧ len = 64) :=
        fun x => h ⟨x.2.1, by rw [← hr]; exact x.2.2.1, x.2.2.2⟩
      rw [dif_neg h', dif_neg h]
      show _ = dite _ _ _
      rw [dif_neg h']
  · have h : ¬ (r.reqs.length < N ∧ r = queryPoint ⟨v.1, [], List.replicate 32 0, []⟩ r.reqs.length ∧ len = 64) := by
      intro x
      apply hr
      rw [x.2.1]
      rfl
    rw [dif_neg h]
    show _ = dite _ _ _
    split
    · rename_i h'
      rw [update_of_ne]
      intro e
      exact hr (congrArg Subtype.val e)
    · rfl

/-- The first entries of a table. -/
theorem withTable_append (E : Env F P) (key : TRng) {A B : ℕ} (τ₀ τ : Fin A → Block) (τ' : Fin B → Block) :
    withTable E key (Fin.append τ τ') = withTable (withTable E key (Fin.append τ₀ τ')) key τ := by
  refine Env.prf_ext E _ _ fun r len => ?_
  show _ = dite _ _ (fun _ => dite _ _ _)
  by_cases h0 : r = queryPoint key r.reqs.length ∧ len = 64
  · by_cases hA : r.reqs.length < A
    · rw [dif_pos ⟨by omega, h0⟩, dif_pos ⟨hA, h0⟩]
      congr 1
      exact Fin.append_left τ τ' ⟨_, hA⟩
    · rw [dif_neg (c := r.reqs.length < A ∧ _) fun x => hA x.1]
      by_cases hB : r.reqs.length < A + B
      · rw [dif_pos ⟨hB, h0⟩, dif_pos ⟨hB, h0⟩]
        congr 1
        have e : (⟨r.reqs.length, hB⟩ : Fin (A + B)) = Fin.natAdd A ⟨r.reqs.length - A, by omega⟩ := Fin.ext (by
          show r.reqs.length = A + (r.reqs.length - A)
          omega)
        rw [e, Fin.append_right, Fin.append_right]
      · rw [dif_neg fun x => hB x.1, dif_neg fun x => hB x.1]
  · rw [dif_neg fun x => h0 x.2, dif_neg fun x => h0 x.2, dif_neg fun x => h0 x.2]

/-- A bound for tables of one size holds for longer tables. -/
theorem avg_longer (E : Env F P) (key : TRng) (A N : ℕ) (hN : A ≤ N) (ev : Env F P → Prop) (ε : ℚ)
    (h : ∀ E' : Env F P, (∃ τ : Fin N → Block, E' = withTable E key τ) → avg (fun τ : Fin A → Block => ind (ev (withTable E' key τ))) ≤ ε) :
    avg (fun τ : Fin N → Block => ind (ev (withTable E key τ))) ≤ ε := by
  obtain ⟨B, rfl⟩ := Nat.exists_eq_add_of_le hN
  have τ₀ : Fin A → Block := Classical.arbitrary _
  rw [avg_append, avg_comm]
  refine (avg_mono _ (fun _ => ε) fun τ' => ?_).trans (le_of_eq (avg_const ε))
  have e : (fun τ : Fin A → Block => ind (ev (withTable E key (Fin.append τ τ')))) =
      fun τ => ind (ev (withTable (withTable E key (Fin.append τ₀ τ')) key τ)) :=
    funext fun τ => congrArg (fun x => ind (ev x)) (withTable_append E key τ₀ τ τ')
  rw [e]
  exact h _ ⟨_, rfl⟩

/-- A bound for each choice of the other tables. -/
theorem avg_tables (E : Env F P) (L : Finset Transcript) (N : ℕ) (v : L) (ev : Env F P → Prop) (ε : ℚ)
    (h : ∀ W : L → Fin N → Block, avg (fun τ : Fin N → Block =>
      ind (ev (withTable (withTables E L W) ⟨v.1, [], List.replicate 32 0, []⟩ τ))) ≤ ε) :
    avg (fun W : L → Fin N → Block => ind (ev (withTables E L W))) ≤ ε := by
  rw [avg_update v, avg_comm]
  refine (avg_mono _ (fun _ => ε) fun W => ?_).trans (le_of_eq (avg_const ε))
  simp only [withTables_update]
  exact h W

end Triptych
