import Verif.Lemmas.Complete
import Verif.Lemmas.Hyperplane
import Verif.Spec.Soundness
import Mathlib.LinearAlgebra.Lagrange
import Mathlib.Algebra.BigOperators.Field

/-! # Special soundness -/
set_option autoImplicit false
set_option linter.unusedSectionVars false
set_option linter.unusedVariables false

namespace Triptych
open Finset Spec

variable {F P : Type} [Field F] [AddCommGroup P] [Module F P] [DecidableEq F] [DecidableEq P]

theorem lagrange_lead (m : ℕ) (ξ : ℕ → F) (hξ : Set.InjOn ξ (range (m + 1))) (j : ℕ) (hj : j ≤ m) :
    extractKey m ξ (fun e => ξ e ^ j) = if j = m then 1 else 0 := by
  have h := Lagrange.coeff_eq_sum (s := range (m + 1)) (v := ξ) hξ (P := (Polynomial.X ^ j : Polynomial F)) (by
    rw [Polynomial.degree_X_pow, Finset.card_range]
    exact_mod_cast Nat.lt_succ_of_le hj)
  rw [Finset.card_range, Nat.add_sub_cancel, Polynomial.coeff_X_pow] at h
  rw [extractKey]
  simp only [Polynomial.eval_pow, Polynomial.eval_X] at h
  rw [← h]
  by_cases hjm : j = m
  · simp [hjm]
  · rw [if_neg hjm, if_neg (Ne.symm hjm)]

/-- Interpolation in the group: the leading coefficient. -/
theorem lagrange_group (m : ℕ) (ξ z : ℕ → F) (hξ : Set.InjOn ξ (range (m + 1))) (V : P) (W : ℕ → P) (G : P)
    (h : ∀ e ≤ m, ξ e ^ m • V + ∑ j ∈ range m, ξ e ^ j • W j = z e • G) : V = extractKey m ξ z • G := by
  have hsum : ∑ e ∈ range (m + 1), (∏ e' ∈ (range (m + 1)).erase e, (ξ e - ξ e'))⁻¹ •
      (ξ e ^ m • V + ∑ j ∈ range m, ξ e ^ j • W j) = extractKey m ξ z • G := by
    rw [extractKey, Finset.sum_smul]
    apply Finset.sum_congr rfl
    intro e he
    rw [h e (Nat.lt_succ_iff.1 (Finset.mem_range.1 he)), smul_smul]
    congr 1
    rw [div_eq_mul_inv, mul_comm]
  rw [← hsum]
  have hlead : ∀ j ≤ m, ∑ e ∈ range (m + 1), (∏ e' ∈ (range (m + 1)).erase e, (ξ e - ξ e'))⁻¹ * ξ e ^ j
      = if j = m then 1 else 0 := by
    intro j hj
    rw [← lagrange_lead m ξ hξ j hj, extractKey]
    apply Finset.sum_congr rfl
    intro e _
    rw [div_eq_mul_inv, mul_comm]
  have e1 : ∑ e ∈ range (m + 1), (∏ e' ∈ (range (m + 1)).erase e, (ξ e - ξ e'))⁻¹ •
      (ξ e ^ m • V + ∑ j ∈ range m, ξ e ^ j • W j)
      = (∑ e ∈ range (m + 1), (∏ e' ∈ (range (m + 1)).erase e, (ξ e - ξ e'))⁻¹ * ξ e ^ m) • V
        + ∑ j ∈ range m, (∑ e ∈ range (m + 1), (∏ e' ∈ (range (m + 1)).erase e, (ξ e - ξ e'))⁻¹ * ξ e ^ j) • W j := by
    simp only [smul_add, Finset.sum_add_distrib, Finset.smul_sum, smul_smul, Finset.sum_smul]
    congr 1
    rw [Finset.sum_comm]
  rw [e1, hlead m le_rfl, if_pos rfl, one_smul, Finset.sum_eq_zero, add_zero]
  intro j hj
  have := Finset.mem_range.1 hj
  rw [hlead j (by omega), if_neg (by omega), zero_smul]

/-- Subtracting commitments. -/
theorem commit_sub (n m : ℕ) (CG : List P) (H : P) (x y : ℕ → ℕ → F) (r s : F) :
    commit n m CG H (fun j i => x j i - y j i) (r - s) = commit n m CG H x r - commit n m CG H y s := by
  simp only [commit, sub_smul, Finset.sum_sub_distrib]
  abel

/-- The defects of openings of an affine family of commitments open zero. -/
theorem defect_commit (n m : ℕ) (CG : List P) (H : P) (ξ : ℕ → F) (x : ℕ → ℕ → ℕ → F) (s : ℕ → F) (A B : P) (e : ℕ)
    (h : ∀ e' ∈ [0, 1, e], commit n m CG H (x e') (s e') = A + ξ e' • B) :
    commit n m CG H (fun j i => defect ξ (fun e' => x e' j i) e) (defect ξ s e) = 0 := by
  simp only [defect]
  rw [commit_sub n m CG H (fun j i => (ξ 1 - ξ 0) * x e j i - (ξ 1 - ξ e) * x 0 j i) (fun j i => (ξ e - ξ 0) * x 1 j i),
    commit_sub n m CG H (fun j i => (ξ 1 - ξ 0) * x e j i) (fun j i => (ξ 1 - ξ e) * x 0 j i), commit_smul, commit_smul,
    commit_smul, h 0 (by simp), h 1 (by simp), h e (by simp)]
  module

theorem defect_zero (ξ u : ℕ → F) (e : ℕ) (h01 : ξ 0 ≠ ξ 1) (h : defect ξ u e = 0) :
    u e = (u 0 - ξ 0 * ((u 1 - u 0) / (ξ 1 - ξ 0))) + ξ e * ((u 1 - u 0) / (ξ 1 - ξ 0)) := by
  have h' : ξ 1 - ξ 0 ≠ 0 := sub_ne_zero.2 (Ne.symm h01)
  rw [defect] at h
  field_simp
  linear_combination h

/-- A quadratic with three distinct roots. -/
theorem quadratic_zero (x y z a b c : F) (hxy : x ≠ y) (hxz : x ≠ z) (hyz : y ≠ z)
    (h1 : a * x ^ 2 + b * x + c = 0) (h2 : a * y ^ 2 + b * y + c = 0) (h3 : a * z ^ 2 + b * z + c = 0) : a = 0 := by
  have e1 : (x - y) * (a * (x + y) + b) = 0 := by linear_combination h1 - h2
  have e2 : (x - z) * (a * (x + z) + b) = 0 := by linear_combination h1 - h3
  have f1 := (mul_eq_zero.1 e1).resolve_left (sub_ne_zero.2 hxy)
  have f2 := (mul_eq_zero.1 e2).resolve_left (sub_ne_zero.2 hxz)
  have f3 : a * (y - z) = 0 := by linear_combination f1 - f2
  exact (mul_eq_zero.1 f3).resolve_right (sub_ne_zero.2 hyz)

/-- A row of zeros and ones with sum one has exactly one one. -/
theorem row_selector (n : ℕ) (hs : SmallSums F n) (b : ℕ → F) (hb : ∀ i < n, b i = 0 ∨ b i = 1)
    (hsum : ∑ i ∈ range n, b i = 1) : ∃ d < n, ∀ i < n, b i = if d = i then 1 else 0 := by
  have hcount : ∑ i ∈ range n, b i = ((#{i ∈ range n | b i = 1} : ℕ) : F) := by
    rw [Finset.card_filter, Nat.cast_sum]
    apply Finset.sum_congr rfl
    intro i hi
    rcases hb i (Finset.mem_range.1 hi) with h | h <;> simp [h]
  have hone : #{i ∈ range n | b i = 1} = 1 := by
    apply hs
    · exact (Finset.card_filter_le _ _).trans (by simp)
    · rw [← hcount, hsum]
  obtain ⟨d, hd⟩ := Finset.card_eq_one.1 hone
  have hmem : ∀ i, i ∈ ({i ∈ range n | b i = 1} : Finset ℕ) ↔ i = d := by
    intro i; rw [hd, Finset.mem_singleton]
  refine ⟨d, Finset.mem_range.1 (Finset.mem_filter.1 ((hmem d).2 rfl)).1, ?_⟩
  intro i hi
  by_cases h : d = i
  · subst h
    rw [if_pos rfl]
    exact (Finset.mem_filter.1 ((hmem d).2 rfl)).2
  · rw [if_neg h]
    rcases hb i hi with h1 | h1
    · exact h1
    · exact absurd ((hmem i).1 (Finset.mem_filter.2 ⟨Finset.mem_range.2 hi, h1⟩)).symm h

theorem gray_exists (n m : ℕ) (hn : 2 ≤ n) (d : ℕ → ℕ) (hd : ∀ j < m, d j < n) :
    ∃ l < n ^ m, ∀ j < m, grayDigit n l j = d j := by
  obtain ⟨l, hl⟩ := (grayCode_bijective n m hn).2 fun j => ⟨d j, hd j j.2⟩
  refine ⟨l, l.2, fun j hj => ?_⟩
  have := congrFun hl ⟨j, hj⟩
  simpa using congrArg Fin.val this

/-- From the first two equations of at least three runs: a relation among the generators, or all responses are of the form
`a + ξ σ` with `σ` the selector matrix of the extracted index. -/
theorem extract_bits (n m : ℕ) (hn : 2 ≤ n) (hm : 2 ≤ m) (hs : SmallSums F n) (CG : List P) (H A B C D : P)
    (f : ℕ → ℕ → ℕ → F) (zA zC ξ : ℕ → F) (hξ : Set.InjOn ξ (range (m + 1)))
    (hrow : ∀ e ≤ m, ∀ j < m, ∑ i ∈ range n, f e j i = ξ e)
    (h1 : ∀ e ≤ m, commit n m CG H (f e) (zA e) = A + ξ e • B)
    (h2 : ∀ e ≤ m, commit n m CG H (fun j i => f e j i * (ξ e - f e j i)) (zC e) = ξ e • C + D) :
    (∃ e ≤ m, Relation n m CG H (fun j i => defect ξ (fun e' => f e' j i) e) (defect ξ zA e)) ∨
    Relation n m CG H (fun j i => defect ξ (fun e' => f e' j i * (ξ e' - f e' j i)) 2) (defect ξ zC 2) ∨
    (extractIndex n m ξ f < n ^ m ∧ ∃ a : ℕ → ℕ → F, ∀ e ≤ m, ∀ j < m, ∀ i < n,
      f e j i = a j i + ξ e * selector n (extractIndex n m ξ f) j i) := by
  have hinj : ∀ e e', e ≤ m → e' ≤ m → e ≠ e' → ξ e ≠ ξ e' := fun e e' he he' hne h =>
    hne (hξ (by simpa using Nat.lt_succ_of_le he) (by simpa using Nat.lt_succ_of_le he') h)
  have h01 := hinj 0 1 (by omega) (by omega) (by omega)
  have h02 := hinj 0 2 (by omega) (by omega) (by omega)
  have h12 := hinj 1 2 (by omega) (by omega) (by omega)
  by_cases hr1 : ∃ e ≤ m, Relation n m CG H (fun j i => defect ξ (fun e' => f e' j i) e) (defect ξ zA e)
  · exact Or.inl hr1
  by_cases hr2 : Relation n m CG H (fun j i => defect ξ (fun e' => f e' j i * (ξ e' - f e' j i)) 2) (defect ξ zC 2)
  · exact Or.inr (Or.inl hr2)
  right; right
  have d1 : ∀ e ≤ m, ∀ j < m, ∀ i < n, defect ξ (fun e' => f e' j i) e = 0 := by
    intro e he j hj i hi
    by_contra hne
    refine hr1 ⟨e, he, defect_commit n m CG H ξ f zA A B e ?_, Or.inl ⟨j, hj, i, hi, hne⟩⟩
    intro e' he'
    simp only [List.mem_cons, List.not_mem_nil, or_false] at he'
    exact h1 e' (by omega)
  have d2 : ∀ j < m, ∀ i < n, defect ξ (fun e' => f e' j i * (ξ e' - f e' j i)) 2 = 0 := by
    intro j hj i hi
    by_contra hne
    refine hr2 ⟨defect_commit n m CG H ξ (fun e j i => f e j i * (ξ e - f e j i)) zC D C 2 ?_,
      Or.inl ⟨j, hj, i, hi, hne⟩⟩
    intro e' he'
    simp only [List.mem_cons, List.not_mem_nil, or_false] at he'
    rw [h2 e' (by omega), add_comm]
  -- the slopes
  let b : ℕ → ℕ → F := fun j i => (f 1 j i - f 0 j i) / (ξ 1 - ξ 0)
  let a : ℕ → ℕ → F := fun j i => f 0 j i - ξ 0 * b j i
  have hf : ∀ e ≤ m, ∀ j < m, ∀ i < n, f e j i = a j i + ξ e * b j i := fun e he j hj i hi =>
    defect_zero ξ (fun e' => f e' j i) e h01 (d1 e he j hj i hi)
  have hbit : ∀ j < m, ∀ i < n, b j i = 0 ∨ b j i = 1 := by
    intro j hj i hi
    have hg := d2 j hj i hi
    have hq := defect_zero ξ (fun e' => f e' j i * (ξ e' - f e' j i)) 2 h01 hg
    have f0 := hf 0 (by omega) j hj i hi
    have f1 := hf 1 (by omega) j hj i hi
    have f2 := hf 2 (by omega) j hj i hi
    have h' : ξ 1 - ξ 0 ≠ 0 := sub_ne_zero.2 (Ne.symm h01)
    -- `c` and `d` are the affine coefficients of `f (ξ - f)`
    obtain ⟨c, hc⟩ : ∃ c, c = (f 1 j i * (ξ 1 - f 1 j i) - f 0 j i * (ξ 0 - f 0 j i)) / (ξ 1 - ξ 0) := ⟨_, rfl⟩
    obtain ⟨d, hd⟩ : ∃ d, d = f 0 j i * (ξ 0 - f 0 j i) - ξ 0 * c := ⟨_, rfl⟩
    have g0 : f 0 j i * (ξ 0 - f 0 j i) = d + ξ 0 * c := by rw [hd]; ring
    have g1 : f 1 j i * (ξ 1 - f 1 j i) = d + ξ 1 * c := by
      have : c * (ξ 1 - ξ 0) = f 1 j i * (ξ 1 - f 1 j i) - f 0 j i * (ξ 0 - f 0 j i) := by
        rw [hc, div_mul_cancel₀ _ h']
      rw [hd]
      linear_combination -this
    have g2 : f 2 j i * (ξ 2 - f 2 j i) = d + ξ 2 * c := by
      rw [hq, ← hc, hd]
    rw [f0] at g0
    rw [f1] at g1
    rw [f2] at g2
    have hz := quadratic_zero (ξ 0) (ξ 1) (ξ 2) (b j i * (1 - b j i)) (a j i * (1 - 2 * b j i) - c)
      (-(a j i) ^ 2 - d) h01 h02 h12 (by linear_combination g0) (by linear_combination g1) (by linear_combination g2)
    rcases mul_eq_zero.1 hz with hb | hb
    · exact Or.inl hb
    · exact Or.inr (sub_eq_zero.1 hb).symm
  have hbsum : ∀ j < m, ∑ i ∈ range n, b j i = 1 := by
    intro j hj
    have h' : ξ 1 - ξ 0 ≠ 0 := sub_ne_zero.2 (Ne.symm h01)
    simp only [b]
    rw [← Finset.sum_div, Finset.sum_sub_distrib, hrow 1 (by omega) j hj, hrow 0 (by omega) j hj, div_self h']
  have hdig : ∀ j < m, ∃ d < n, ∀ i < n, b j i = if d = i then 1 else 0 := fun j hj =>
    row_selector n hs (b j) (hbit j hj) (hbsum j hj)
  choose! d hd hbd using hdig
  obtain ⟨l, hl, hld⟩ := gray_exists n m hn d hd
  have hpred : ∀ k, (∀ j < m, f 1 j (grayDigit n k j) - f 0 j (grayDigit n k j) = ξ 1 - ξ 0) ↔
      ∀ j < m, grayDigit n k j = grayDigit n l j := by
    intro k
    refine forall_congr' fun j => forall_congr' fun hj => ?_
    have hlt := grayDigit_lt n k j (by omega)
    have h' : ξ 1 - ξ 0 ≠ 0 := sub_ne_zero.2 (Ne.symm h01)
    rw [hf 1 (by omega) j hj _ hlt, hf 0 (by omega) j hj _ hlt, hbd j hj _ hlt, hld j hj]
    constructor
    · intro h
      by_contra hne
      rw [if_neg (Ne.symm hne)] at h
      apply h'
      rw [← h]; ring
    · intro h
      rw [if_pos h.symm]; ring
  have hidx : extractIndex n m ξ f = l := by
    rw [extractIndex]
    have hfind : (List.range (n ^ m)).find? (fun l => decide (∀ j < m,
        f 1 j (grayDigit n l j) - f 0 j (grayDigit n l j) = ξ 1 - ξ 0)) = some l := by
      cases hc : (List.range (n ^ m)).find? (fun l => decide (∀ j < m,
          f 1 j (grayDigit n l j) - f 0 j (grayDigit n l j) = ξ 1 - ξ 0)) with
      | none =>
        have := List.find?_eq_none.1 hc l (List.mem_range.2 hl)
        exact absurd (decide_eq_true ((hpred l).2 fun j _ => rfl)) this
      | some k =>
        have hk1 := List.mem_range.1 (List.mem_of_find?_eq_some hc)
        have hk2 : ∀ j < m, f 1 j (grayDigit n k j) - f 0 j (grayDigit n k j) = ξ 1 - ξ 0 := by
          have := List.find?_some hc
          simpa using this
        rw [grayDigit_injective n m k l hn hk1 hl ((hpred k).1 hk2)]
    rw [hfind]; rfl
  rw [hidx]
  refine ⟨hl, a, ?_⟩
  intro e he j hj i hi
  rw [hf e he j hj i hi, hbd j hj i hi, selector, hld j hj]

/-- From the third equation: the extracted key is the discrete logarithm of the key at the extracted index. -/
theorem extract_ring (n m : ℕ) (hn : 2 ≤ n) (l : ℕ) (hl : l < n ^ m) (a : ℕ → ℕ → F) (f : ℕ → ℕ → ℕ → F) (ξ z : ℕ → F)
    (hξ : Set.InjOn ξ (range (m + 1)))
    (hf : ∀ e ≤ m, ∀ j < m, ∀ i < n, f e j i = a j i + ξ e * selector n l j i) (V : ℕ → P) (X : ℕ → P) (G : P)
    (h : ∀ e ≤ m, ∑ k ∈ range (n ^ m), ringCoeff n m (f e) k • V k - ∑ j ∈ range m, ξ e ^ j • X j - z e • G = 0) :
    V l = extractKey m ξ z • G := by
  apply lagrange_group m ξ z hξ (V l) (fun j => ∑ k ∈ range (n ^ m), (ringPoly n m a (selector n l) k).coeff j • V k - X j)
  intro e he
  have hcoef : ∀ k, ringCoeff n m (f e) k = (ringPoly n m a (selector n l) k).eval (ξ e) := by
    intro k
    rw [ringPoly_eval, ringCoeff]
    apply Finset.prod_congr rfl
    intro j hj
    rw [hf e he j (Finset.mem_range.1 hj) _ (grayDigit_lt _ _ _ (by omega)), mul_comm]
  have hh := h e he
  rw [sub_eq_zero] at hh
  rw [← hh]
  simp only [hcoef]
  have hk : ∀ k ∈ range (n ^ m), (ringPoly n m a (selector n l) k).eval (ξ e) • V k
      = ∑ j ∈ range m, ((ringPoly n m a (selector n l) k).coeff j * ξ e ^ j) • V k
        + if k = l then ξ e ^ m • V k else 0 := by
    intro k hk
    rw [ringPoly_eval_coeff, Finset.sum_range_succ, add_smul, Finset.sum_smul,
      ringPoly_lead_selector _ _ _ _ hn hl (Finset.mem_range.1 hk)]
    congr 1
    split <;> simp
  rw [Finset.sum_congr rfl hk, Finset.sum_add_distrib, Finset.sum_ite_eq', if_pos (Finset.mem_range.2 hl)]
  simp only [smul_sub, Finset.sum_sub_distrib, Finset.smul_sum, smul_smul]
  rw [Finset.sum_comm (s := range m)]
  simp only [mul_comm]
  abel

end Triptych
