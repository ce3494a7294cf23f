import Mathlib.Algebra.Module.Basic
import Mathlib.Algebra.BigOperators.Pi
import Mathlib.Algebra.BigOperators.Group.Finset.Basic
import Mathlib.Algebra.Field.Basic
import Mathlib.Data.Fintype.BigOperators
import Mathlib.Data.Fintype.Pi

/-! # Linear combinations that vanish for few weights -/
set_option autoImplicit false

namespace Triptych
open Finset

variable {F P ι : Type} [Field F] [AddCommGroup P] [Module F P]

theorem smul_zero_cases (c : F) (x : P) (h : c • x = 0) : c = 0 ∨ x = 0 := by
  by_cases hc : c = 0
  · exact Or.inl hc
  · right
    rw [← one_smul F x, ← inv_mul_cancel₀ hc, mul_smul, h, smul_zero]

/-- Given all other weights, at most one value of the weight of a non-zero term makes the sum vanish. -/
theorem weight_unique [Fintype ι] [DecidableEq ι] (v : ι → P) (i : ι) (hv : v i ≠ 0) (w w' : ι → F)
    (h : ∀ j, j ≠ i → w j = w' j) (hw : ∑ j, w j • v j = 0) (hw' : ∑ j, w' j • v j = 0) : w = w' := by
  rw [← Finset.add_sum_erase _ _ (Finset.mem_univ i)] at hw hw'
  have : ∑ j ∈ univ.erase i, w j • v j = ∑ j ∈ univ.erase i, w' j • v j :=
    Finset.sum_congr rfl fun j hj => by rw [h j (Finset.ne_of_mem_erase hj)]
  rw [this] at hw
  have h1 : (w i - w' i) • v i = 0 := by
    rw [sub_smul, sub_eq_zero]
    exact add_right_cancel (hw.trans hw'.symm)
  rcases smul_zero_cases _ _ h1 with h2 | h2
  · funext j
    by_cases hj : j = i
    · subst hj; exact sub_eq_zero.1 h2
    · exact h j hj
  · exact absurd h2 hv

/-- Among the weight vectors with entries in `S` at most `|S| ^ (k - 1)` make the sum vanish. -/
theorem weight_count [Fintype ι] [DecidableEq ι] [DecidableEq F] [DecidableEq P] (v : ι → P) (i : ι) (hv : v i ≠ 0)
    (S : Finset F) :
    #{w ∈ Fintype.piFinset (fun _ : ι => S) | ∑ j, w j • v j = 0} ≤ #S ^ (Fintype.card ι - 1) := by
  have hc : Fintype.card {j : ι // j ≠ i} = Fintype.card ι - 1 := by
    rw [Fintype.card_subtype_compl, Fintype.card_subtype_eq]
  have hp : #(Fintype.piFinset (fun _ : {j : ι // j ≠ i} => S)) = #S ^ Fintype.card {j : ι // j ≠ i} := by
    rw [Fintype.card_piFinset]; simp
  rw [← hc, ← hp]
  refine Finset.card_le_card_of_injOn (fun w j => w j.1) ?_ ?_
  · intro w hw
    rw [Finset.mem_coe, Finset.mem_filter, Fintype.mem_piFinset] at hw
    rw [Finset.mem_coe, Fintype.mem_piFinset]
    exact fun j => hw.1 j.1
  · intro w hw w' hw' he
    rw [Finset.mem_coe, Finset.mem_filter] at hw hw'
    exact weight_unique v i hv w w' (fun j hj => congrFun he ⟨j, hj⟩) hw.2 hw'.2

end Triptych
