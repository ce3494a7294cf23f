import Verif.Lemmas.Complete
import Verif.Lemmas.Parallel.Prove

/-! # Honest parallel proofs satisfy the verification equations -/
set_option autoImplicit false
set_option linter.unusedSectionVars false
set_option linter.unusedVariables false
set_option linter.unusedSimpArgs false

namespace Triptych.Parallel
open Finset
open Triptych.Parallel.Spec
open Triptych.Spec (grayDigit digit commit fullF ringCoeff NonzeroF maskA selector ringPoly versionBytes points scalars
  weightTranscript weightScalar queryPoint drawn)

variable {F P : Type} [Field F] [AddCommGroup P] [Module F P] [DecidableEq F] [DecidableEq P]

theorem honest_fullF (params : Params P) (hn : 2 ≤ params.n) (M M1 : List P) (offset J : P) (l : ℕ) (r r1 : F)
    (nn : Nonces F) (ξ : F) (j i : ℕ) (hj : j < params.m) (hi : i < params.n) :
    fullF (honestProof params M M1 offset J l r r1 nn ξ).f ξ j i = selector params.n l j i * ξ + maskA params.n nn.a j i := by
  refine fullF_map params.n params.m (by omega) (fun j i => selector params.n l j i * ξ + maskA params.n nn.a j i) ξ j i
    hj hi ?_
  rw [Finset.sum_add_distrib, ← Finset.sum_mul, selector_sum _ _ _ (by omega), maskA_sum _ (by omega)]
  ring

theorem honest_shape (params : Params P) (M M1 : List P) (offset J : P) (l : ℕ) (r r1 : F) (nn : Nonces F) (ξ : F) :
    Shape params (honestProof params M M1 offset J l r r1 nn ξ) := by
  constructor
  · simp [honestProof]
  · simp [honestProof]
  · simp [honestProof]
  · simp [honestProof]
  · intro row hrow
    simp only [honestProof, List.mem_map] at hrow
    obtain ⟨j, _, rfl⟩ := hrow
    simp

/-- The ring equation for the prover's algorithm, for any vector of points. -/
theorem ring_equation (n m : ℕ) (hn : 2 ≤ n) (a : ℕ → ℕ → F) (l : ℕ) (hl : l < n ^ m) (V : ℕ → P) (G : P) (rho : ℕ → F)
    (r ξ : F) (X : ℕ → P)
    (hX : ∀ j < m, X j = ∑ k ∈ range (n ^ m), (ringPoly n m a (selector n l) k).coeff j • V k + rho j • G) :
    ∑ k ∈ range (n ^ m), (ringPoly n m a (selector n l) k).eval ξ • V k - ∑ j ∈ range m, ξ ^ j • X j
      - (r * ξ ^ m - ∑ j ∈ range m, rho j * ξ ^ j) • G = ξ ^ m • (V l - r • G) := by
  have hX : ∀ j ∈ range m, ξ ^ j • X j
      = ∑ k ∈ range (n ^ m), ((ringPoly n m a (selector n l) k).coeff j * ξ ^ j) • V k + (rho j * ξ ^ j) • G := by
    intro j hj
    rw [hX j (Finset.mem_range.1 hj), smul_add, Finset.smul_sum, mul_comm, mul_smul]
    congr 1
    apply Finset.sum_congr rfl
    intro k _
    rw [mul_comm, mul_smul]
  rw [Finset.sum_congr rfl hX, Finset.sum_add_distrib, Finset.sum_comm, ← Finset.sum_smul]
  have hk : ∀ k ∈ range (n ^ m), (ringPoly n m a (selector n l) k).eval ξ • V k
      = ∑ j ∈ range m, ((ringPoly n m a (selector n l) k).coeff j * ξ ^ j) • V k
        + if k = l then ξ ^ m • V k else 0 := by
    intro k hk
    rw [ringPoly_eval_coeff, Finset.sum_range_succ, add_smul, Finset.sum_smul,
      ringPoly_lead_selector _ _ _ _ hn hl (Finset.mem_range.1 hk)]
    congr 1
    split <;> simp
  rw [Finset.sum_congr rfl hk, Finset.sum_add_distrib, Finset.sum_ite_eq' , if_pos (Finset.mem_range.2 hl)]
  module

/-- The five equations for the output of the prover's algorithm, run with any index and any keys. -/
theorem honest_equations (params : Params P) (hp : ParamsOK params) (M M1 : List P) (offset J : P) (l : ℕ) (r r1 : F)
    (nn : Nonces F) (hl : l < params.n ^ params.m) (ξ : F) :
    E1 params (honestProof params M M1 offset J l r r1 nn ξ) ξ = 0 ∧ E2 params (honestProof params M M1 offset J l r r1 nn ξ) ξ = 0 ∧
    E3 params M (honestProof params M M1 offset J l r r1 nn ξ) ξ = ξ ^ params.m • (M.getD l 0 - r • params.G) ∧
    E4 params J (honestProof params M M1 offset J l r r1 nn ξ) ξ = ξ ^ params.m • (params.U - r • J) ∧
    E5 params M1 offset (honestProof params M M1 offset J l r r1 nn ξ) ξ = ξ ^ params.m • (M1.getD l 0 - offset - r1 • params.G1) := by
  have hn := hp.n
  have hf : ∀ j < params.m, ∀ i < params.n, fullF (honestProof params M M1 offset J l r r1 nn ξ).f ξ j i
      = selector params.n l j i * ξ + maskA params.n nn.a j i :=
    fun j hj i hi => honest_fullF params hn M M1 offset J l r r1 nn ξ j i hj hi
  have hcoef : ∀ k, ringCoeff params.n params.m (fullF (honestProof params M M1 offset J l r r1 nn ξ).f ξ) k
      = (ringPoly params.n params.m (maskA params.n nn.a) (selector params.n l) k).eval ξ := by
    intro k
    rw [ringPoly_eval, ringCoeff]
    apply Finset.prod_congr rfl
    intro j hj
    rw [hf j (Finset.mem_range.1 hj) _ (grayDigit_lt _ _ _ (by omega)), add_comm]
  refine ⟨?_, ?_, ?_, ?_, ?_⟩
  · rw [E1, sub_eq_zero, commit_congr _ _ _ _ _ _ _ hf]
    simp only [honestProof]
    rw [← commit_smul, ← commit_add]
    apply congrFun
    congr 1
    funext j i
    ring
  · rw [E2, sub_eq_zero]
    simp only [honestProof]
    rw [← commit_smul, ← commit_add]
    apply commit_congr
    intro j hj i hi
    rw [show fullF ((List.range params.m).map fun j => (List.range (params.n - 1)).map fun i =>
        selector params.n l j (i + 1) * ξ + maskA params.n nn.a j (i + 1)) ξ j i = _ from hf j hj i hi]
    have := selector_idem (F := F) params.n l j i
    linear_combination (-ξ ^ 2) * this
  · rw [E3]
    simp only [hcoef]
    exact ring_equation params.n params.m hn (maskA params.n nn.a) l hl (fun k => M.getD k 0) params.G
      (fun j => nn.rho.getD j 0) r ξ (fun j => (honestProof params M M1 offset J l r r1 nn ξ).X.getD j 0)
      (fun j hj => by simp [honestProof, hj])
  · rw [E4, sum_ringCoeff params.n params.m hn _ ξ]
    · have hY : ∀ j ∈ range params.m, ξ ^ j • (honestProof params M M1 offset J l r r1 nn ξ).Y.getD j 0
          = (nn.rho.getD j 0 * ξ ^ j) • J := by
        intro j hj
        rw [Finset.mem_range] at hj
        have : (honestProof params M M1 offset J l r r1 nn ξ).Y.getD j 0 = nn.rho.getD j 0 • J := by
          simp [honestProof, hj]
        rw [this, mul_comm, mul_smul]
      rw [Finset.sum_congr rfl hY, ← Finset.sum_smul]
      simp only [honestProof]
      module
    · intro j hj
      exact fullF_row_sum params.n params.m (by omega) _ ξ (honest_shape params M M1 offset J l r r1 nn ξ).f
        (honest_shape params M M1 offset J l r r1 nn ξ).row j hj
  · rw [E5]
    simp only [hcoef]
    exact ring_equation params.n params.m hn (maskA params.n nn.a) l hl (fun k => M1.getD k 0 - offset) params.G1
      (fun j => nn.rho1.getD j 0) r1 ξ (fun j => (honestProof params M M1 offset J l r r1 nn ξ).X1.getD j 0)
      (fun j hj => by simp [honestProof, hj])

/-- Every honestly computed proof satisfies all five equations, whatever the challenge. -/
theorem honest_valid (params : Params P) (hp : ParamsOK params) (M M1 : List P) (offset J : P) (l : ℕ) (r r1 : F)
    (nn : Nonces F) (hl : l < params.n ^ params.m)
    (hrel : Rel params.G params.G1 params.U M M1 offset J l r r1) (ξ : F) :
    Valid params M M1 offset J (honestProof params M M1 offset J l r r1 nn ξ) ξ := by
  obtain ⟨h1, h2, h3, h4, h5⟩ := honest_equations params hp M M1 offset J l r r1 nn hl ξ
  have hMl : M.getD l 0 = r • params.G := by
    rw [List.getD_eq_getElem?_getD, hrel.1]; rfl
  have hMl1 : M1.getD l 0 = r1 • params.G1 + offset := by
    rw [List.getD_eq_getElem?_getD, hrel.2.1]; rfl
  exact ⟨h1, h2, by rw [h3, hMl, sub_self, smul_zero], by rw [h4, hrel.2.2, sub_self, smul_zero],
    by rw [h5, hMl1, add_sub_cancel_right, sub_self, smul_zero]⟩

/-- When the full response matrix of an honest proof is free of zeros. -/
theorem honest_nonzeroF (params : Params P) (hn : 2 ≤ params.n) (M M1 : List P) (offset J : P) (l : ℕ) (r r1 : F)
    (nn : Nonces F) (ξ : F) : NonzeroF params.n params.m (honestProof params M M1 offset J l r r1 nn ξ).f ξ ↔
      ∀ j < params.m, ∀ i < params.n, selector params.n l j i * ξ + maskA params.n nn.a j i ≠ 0 := by
  constructor
  · intro h j hj i hi
    rw [← honest_fullF params hn M M1 offset J l r r1 nn ξ j i hj hi]
    exact h j hj i hi
  · intro h j hj i hi
    rw [honest_fullF params hn M M1 offset J l r r1 nn ξ j i hj hi]
    exact h j hj i hi

end Triptych.Parallel
