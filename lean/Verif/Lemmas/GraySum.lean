import Verif.Lemmas.Gray
import Mathlib.Algebra.BigOperators.Ring.Finset
import Mathlib.Algebra.BigOperators.Fin
import Mathlib.Data.Fintype.BigOperators

/-! # Sums over all Gray codes -/
set_option autoImplicit false
set_option linter.unusedSectionVars false
set_option linter.unusedVariables false
set_option linter.unusedSimpArgs false

namespace Triptych
open Spec Finset

/-- The Gray code is a bijection from `[0, n^m)` to digit vectors. -/
theorem grayCode_bijective (n m : ℕ) (hn : 2 ≤ n) :
    Function.Bijective (fun (k : Fin (n ^ m)) (j : Fin m) =>
      (⟨grayDigit n k j, grayDigit_lt n k j (by omega)⟩ : Fin n)) := by
  rw [Fintype.bijective_iff_injective_and_card]
  refine ⟨?_, by simp⟩
  intro k k' h
  apply Fin.ext
  apply grayDigit_injective n m k k' hn k.2 k'.2
  intro j hj
  have := congrFun h ⟨j, hj⟩
  simpa using this

/-- Summing a product over all codes factorises. -/
theorem sum_gray_prod {R : Type} [CommSemiring R] (n m : ℕ) (hn : 2 ≤ n) (f : ℕ → ℕ → R) :
    ∑ k ∈ range (n ^ m), ∏ j ∈ range m, f j (grayDigit n k j) = ∏ j ∈ range m, ∑ i ∈ range n, f j i := by
  rw [Finset.sum_range]
  have h1 : ∀ k : Fin (n ^ m), ∏ j ∈ range m, f j (grayDigit n k j)
      = (fun d : Fin m → Fin n => ∏ j : Fin m, f j (d j))
        (fun j : Fin m => (⟨grayDigit n k j, grayDigit_lt n k j (by omega)⟩ : Fin n)) := by
    intro k
    rw [Finset.prod_range]
  rw [Finset.sum_congr rfl fun k _ => h1 k]
  rw [Function.Bijective.sum_comp (grayCode_bijective n m hn)
    (fun d : Fin m → Fin n => ∏ j : Fin m, f j (d j))]
  rw [Finset.prod_range, ← Fintype.piFinset_univ, ← Finset.prod_univ_sum (fun _ => univ) (fun (j : Fin m) (i : Fin n) => f j i)]
  apply Finset.prod_congr rfl
  intro j _
  rw [Finset.sum_range]

end Triptych
