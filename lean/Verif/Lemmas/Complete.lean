import Verif.Lemmas.Prove
import Mathlib.Algebra.Polynomial.Eval.Degree
import Mathlib.Algebra.Polynomial.Degree.Lemmas
import Mathlib.Tactic.LinearCombination

/-! # Honest proofs satisfy the verification equations -/
set_option autoImplicit false
set_option linter.unusedSectionVars false
set_option linter.unusedVariables false
set_option linter.unusedSimpArgs false

namespace Triptych
open Finset Spec

variable {F P : Type} [Field F] [AddCommGroup P] [Module F P] [DecidableEq F] [DecidableEq P]

/-! ## Commitments are linear -/

theorem commit_congr (n m : ℕ) (CG : List P) (H : P) (x y : ℕ → ℕ → F) (mask : F)
    (h : ∀ j < m, ∀ i < n, x j i = y j i) : commit n m CG H x mask = commit n m CG H y mask := by
  rw [commit, commit]
  congr 1
  apply Finset.sum_congr rfl
  intro j hj
  apply Finset.sum_congr rfl
  intro i hi
  rw [h j (Finset.mem_range.1 hj) i (Finset.mem_range.1 hi)]

theorem commit_add (n m : ℕ) (CG : List P) (H : P) (x y : ℕ → ℕ → F) (r s : F) :
    commit n m CG H (fun j i => x j i + y j i) (r + s) = commit n m CG H x r + commit n m CG H y s := by
  simp only [commit, add_smul, Finset.sum_add_distrib]
  abel

theorem commit_smul (n m : ℕ) (CG : List P) (H : P) (c : F) (x : ℕ → ℕ → F) (r : F) :
    commit n m CG H (fun j i => c * x j i) (c * r) = c • commit n m CG H x r := by
  simp only [commit, mul_smul, smul_add, Finset.smul_sum]

/-! ## Polynomials -/

theorem partialPoly_lead (n : ℕ) (a σ : ℕ → ℕ → F) (k t : ℕ) :
    (partialPoly n a σ k t).coeff t = ∏ j ∈ range t, σ j (grayDigit n k j) := by
  induction t with
  | zero => simp [partialPoly]
  | succ t ih =>
    rw [Finset.prod_range_succ, ← ih, partialPoly, Finset.prod_range_succ]
    change (partialPoly n a σ k t * _).coeff (t + 1) = _
    rw [mul_add, Polynomial.coeff_add, Polynomial.coeff_mul_C, ← mul_assoc, Polynomial.coeff_mul_X,
      Polynomial.coeff_mul_C, partialPoly_degree n a σ k t (t + 1) (by omega)]
    ring

theorem ringPoly_eval (n m : ℕ) (a σ : ℕ → ℕ → F) (k : ℕ) (ξ : F) :
    (ringPoly n m a σ k).eval ξ = ∏ j ∈ range m, (a j (grayDigit n k j) + σ j (grayDigit n k j) * ξ) := by
  rw [ringPoly, Polynomial.eval_prod]
  simp

theorem ringPoly_eval_coeff (n m : ℕ) (a σ : ℕ → ℕ → F) (k : ℕ) (ξ : F) :
    (ringPoly n m a σ k).eval ξ = ∑ j ∈ range (m + 1), (ringPoly n m a σ k).coeff j * ξ ^ j := by
  rw [Polynomial.eval_eq_sum_range' (n := m + 1)]
  refine Nat.lt_succ_of_le (Polynomial.natDegree_le_iff_coeff_eq_zero.2 ?_)
  intro i hi
  exact partialPoly_degree n a σ k m i hi

theorem ringPoly_lead_selector (n m l k : ℕ) (hn : 2 ≤ n) (hl : l < n ^ m) (hk : k < n ^ m) (a : ℕ → ℕ → F) :
    (ringPoly n m a (selector n l) k).coeff m = if k = l then 1 else 0 := by
  have h : (ringPoly n m a (selector n l) k).coeff m = ∏ j ∈ range m, selector n l j (grayDigit n k j) :=
    partialPoly_lead n a (selector n l) k m
  rw [h]
  split
  · rename_i e
    subst e
    apply Finset.prod_eq_one
    intro j _
    simp [selector]
  · rename_i e
    have : ∃ j < m, grayDigit n l j ≠ grayDigit n k j := by
      by_contra hc
      push Not at hc
      exact e (grayDigit_injective n m k l hn hk hl fun j hj => (hc j hj).symm)
    obtain ⟨j, hj, hne⟩ := this
    apply Finset.prod_eq_zero (Finset.mem_range.2 hj)
    rw [selector, if_neg hne]

/-! ## The honest responses -/

theorem selector_sum (n l j : ℕ) (hn : 1 ≤ n) : ∑ i ∈ range n, (selector n l j i : F) = 1 := by
  simp only [selector]
  rw [Finset.sum_ite_eq, if_pos (Finset.mem_range.2 (grayDigit_lt n l j (by omega)))]

theorem maskA_sum (n : ℕ) (hn : 1 ≤ n) (a : List (List F)) (j : ℕ) : ∑ i ∈ range n, maskA n a j i = 0 := by
  obtain ⟨k, rfl⟩ : ∃ k, n = k + 1 := ⟨n - 1, by omega⟩
  rw [Finset.sum_range_succ']
  simp [maskA]

theorem fullF_map (n m : ℕ) (hn : 1 ≤ n) (g : ℕ → ℕ → F) (ξ : F) (j i : ℕ) (hj : j < m) (hi : i < n)
    (hsum : ∑ i ∈ range n, g j i = ξ) :
    fullF ((List.range m).map fun j => (List.range (n - 1)).map fun i => g j (i + 1)) ξ j i = g j i := by
  obtain ⟨k, rfl⟩ : ∃ k, n = k + 1 := ⟨n - 1, by omega⟩
  have hrow : ((List.range m).map fun j => (List.range (k + 1 - 1)).map fun i => g j (i + 1)).getD j []
      = (List.range k).map fun i => g j (i + 1) := by simp [hj]
  cases i with
  | zero =>
    rw [fullF, hrow, sum_map_range, ← hsum, Finset.sum_range_succ']
    ring
  | succ i =>
    have : i < k := by omega
    rw [fullF, hrow]
    simp [this]

theorem honest_fullF (params : Params P) (hn : 2 ≤ params.n) (M : List P) (J : P) (l : ℕ) (r : F) (nn : Nonces F)
    (ξ : F) (j i : ℕ) (hj : j < params.m) (hi : i < params.n) :
    fullF (honestProof params M J l r nn ξ).f ξ j i = selector params.n l j i * ξ + maskA params.n nn.a j i := by
  refine fullF_map params.n params.m (by omega) (fun j i => selector params.n l j i * ξ + maskA params.n nn.a j i) ξ j i
    hj hi ?_
  rw [Finset.sum_add_distrib, ← Finset.sum_mul, selector_sum _ _ _ (by omega), maskA_sum _ (by omega)]
  ring

theorem honest_shape (params : Params P) (M : List P) (J : P) (l : ℕ) (r : F) (nn : Nonces F) (ξ : F) :
    Shape params (honestProof params M J l r nn ξ) := by
  constructor
  · simp [honestProof]
  · simp [honestProof]
  · simp [honestProof]
  · intro row hrow
    simp only [honestProof, List.mem_map] at hrow
    obtain ⟨j, _, rfl⟩ := hrow
    simp

theorem selector_idem (n l j i : ℕ) : (selector n l j i : F) * selector n l j i = selector n l j i := by
  rw [selector]; split <;> simp

/-- The four equations for the output of the prover's algorithm, run with any index and any key. -/
theorem honest_equations (params : Params P) (hp : ParamsOK params) (M : List P) (J : P) (l : ℕ) (r : F) (nn : Nonces F)
    (hl : l < params.n ^ params.m) (ξ : F) :
    E1 params (honestProof params M J l r nn ξ) ξ = 0 ∧ E2 params (honestProof params M J l r nn ξ) ξ = 0 ∧
    E3 params M (honestProof params M J l r nn ξ) ξ = ξ ^ params.m • (M.getD l 0 - r • params.G) ∧
    E4 params J (honestProof params M J l r nn ξ) ξ = ξ ^ params.m • (params.U - r • J) := by
  have hn := hp.n
  have hf : ∀ j < params.m, ∀ i < params.n, fullF (honestProof params M J l r nn ξ).f ξ j i
      = selector params.n l j i * ξ + maskA params.n nn.a j i :=
    fun j hj i hi => honest_fullF params hn M J l r nn ξ j i hj hi
  have hcoef : ∀ k, ringCoeff params.n params.m (fullF (honestProof params M J l r nn ξ).f ξ) k
      = (ringPoly params.n params.m (maskA params.n nn.a) (selector params.n l) k).eval ξ := by
    intro k
    rw [ringPoly_eval, ringCoeff]
    apply Finset.prod_congr rfl
    intro j hj
    rw [hf j (Finset.mem_range.1 hj) _ (grayDigit_lt _ _ _ (by omega)), add_comm]
  refine ⟨?_, ?_, ?_, ?_⟩
  · rw [E1, sub_eq_zero, commit_congr _ _ _ _ _ _ _ hf]
    simp only [honestProof]
    rw [← commit_smul, ← commit_add]
    apply congrFun
    congr 1
    funext j i
    ring
  · rw [E2, sub_eq_zero]
    simp only [honestProof]
    rw [← commit_smul, ← commit_add]
    apply commit_congr
    intro j hj i hi
    rw [show fullF ((List.range params.m).map fun j => (List.range (params.n - 1)).map fun i =>
        selector params.n l j (i + 1) * ξ + maskA params.n nn.a j (i + 1)) ξ j i = _ from hf j hj i hi]
    have := selector_idem (F := F) params.n l j i
    linear_combination (-ξ ^ 2) * this
  · rw [E3]
    simp only [hcoef]
    have hX : ∀ j ∈ range params.m, ξ ^ j • (honestProof params M J l r nn ξ).X.getD j 0
        = ∑ k ∈ range (params.n ^ params.m), ((ringPoly params.n params.m (maskA params.n nn.a)
            (selector params.n l) k).coeff j * ξ ^ j) • M.getD k 0 + (nn.rho.getD j 0 * ξ ^ j) • params.G := by
      intro j hj
      rw [Finset.mem_range] at hj
      have : (honestProof params M J l r nn ξ).X.getD j 0 =
          ∑ k ∈ range (params.n ^ params.m), (ringPoly params.n params.m (maskA params.n nn.a) (selector params.n l)
            k).coeff j • M.getD k 0 + nn.rho.getD j 0 • params.G := by
        simp [honestProof, hj]
      rw [this, smul_add, Finset.smul_sum, mul_comm, mul_smul]
      congr 1
      apply Finset.sum_congr rfl
      intro k _
      rw [mul_comm, mul_smul]
    rw [Finset.sum_congr rfl hX, Finset.sum_add_distrib, Finset.sum_comm, ← Finset.sum_smul]
    have hk : ∀ k ∈ range (params.n ^ params.m), (ringPoly params.n params.m (maskA params.n nn.a) (selector params.n l)
          k).eval ξ • M.getD k 0 = ∑ j ∈ range params.m, ((ringPoly params.n params.m (maskA params.n nn.a)
            (selector params.n l) k).coeff j * ξ ^ j) • M.getD k 0
          + if k = l then ξ ^ params.m • M.getD k 0 else 0 := by
      intro k hk
      rw [ringPoly_eval_coeff, Finset.sum_range_succ, add_smul, Finset.sum_smul,
        ringPoly_lead_selector _ _ _ _ hn hl (Finset.mem_range.1 hk)]
      congr 1
      split <;> simp
    rw [Finset.sum_congr rfl hk, Finset.sum_add_distrib, Finset.sum_ite_eq' , if_pos (Finset.mem_range.2 hl)]
    simp only [honestProof]
    module
  · rw [E4, sum_ringCoeff params.n params.m hn _ ξ]
    · have hY : ∀ j ∈ range params.m, ξ ^ j • (honestProof params M J l r nn ξ).Y.getD j 0
          = (nn.rho.getD j 0 * ξ ^ j) • J := by
        intro j hj
        rw [Finset.mem_range] at hj
        have : (honestProof params M J l r nn ξ).Y.getD j 0 = nn.rho.getD j 0 • J := by
          simp [honestProof, hj]
        rw [this, mul_comm, mul_smul]
      rw [Finset.sum_congr rfl hY, ← Finset.sum_smul]
      simp only [honestProof]
      module
    · intro j hj
      exact fullF_row_sum params.n params.m (by omega) _ ξ (honest_shape params M J l r nn ξ).f
        (honest_shape params M J l r nn ξ).row j hj

/-- Every honestly computed proof satisfies all four equations, whatever the challenge. -/
theorem honest_valid (params : Params P) (hp : ParamsOK params) (M : List P) (J : P) (l : ℕ) (r : F) (nn : Nonces F)
    (hl : l < params.n ^ params.m) (hrel : Rel params.G params.U M J l r) (ξ : F) :
    Valid params M J (honestProof params M J l r nn ξ) ξ := by
  obtain ⟨h1, h2, h3, h4⟩ := honest_equations params hp M J l r nn hl ξ
  have hMl : M.getD l 0 = r • params.G := by
    rw [List.getD_eq_getElem?_getD, hrel.1]; rfl
  exact ⟨h1, h2, by rw [h3, hMl, sub_self, smul_zero], by rw [h4, hrel.2, sub_self, smul_zero]⟩

/-- When the full response matrix of an honest proof is free of zeros. -/
theorem honest_nonzeroF (params : Params P) (hn : 2 ≤ params.n) (M : List P) (J : P) (l : ℕ) (r : F) (nn : Nonces F)
    (ξ : F) : NonzeroF params.n params.m (honestProof params M J l r nn ξ).f ξ ↔
      ∀ j < params.m, ∀ i < params.n, selector params.n l j i * ξ + maskA params.n nn.a j i ≠ 0 := by
  constructor
  · intro h j hj i hi
    rw [← honest_fullF params hn M J l r nn ξ j i hj hi]
    exact h j hj i hi
  · intro h j hj i hi
    rw [honest_fullF params hn M J l r nn ξ j i hj hi]
    exact h j hj i hi

end Triptych
