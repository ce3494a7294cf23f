import Verif.Spec.ZeroKnowledge
import Verif.Lemmas.Complete
import Mathlib.Algebra.BigOperators.Fin
import Mathlib.Probability.Distributions.Uniform

set_option autoImplicit false
set_option linter.unusedSectionVars false

namespace Triptych
open Spec Finset

variable {F P : Type} [Field F] [AddCommGroup P] [Module F P] [DecidableEq F] [DecidableEq P]

/-- A map of the uniform distribution which factors through the first component of a bijection to a product. -/
theorem uniform_map {α β γ δ : Type} [Fintype α] [Nonempty α] [Fintype β] [Nonempty β] [Fintype γ] [Nonempty γ]
    (e : α ≃ β × γ) (f : α → δ) (g : β → δ) (h : ∀ a, f a = g (e a).1) :
    (PMF.uniformOfFintype α).map f = (PMF.uniformOfFintype β).map g := by
  classical
  ext d
  rw [PMF.map_apply, PMF.map_apply, tsum_fintype, tsum_fintype]
  simp only [PMF.uniformOfFintype_apply]
  have hcard : Fintype.card α = Fintype.card β * Fintype.card γ := by
    rw [Fintype.card_congr e, Fintype.card_prod]
  rw [← e.symm.sum_comp, Fintype.sum_prod_type]
  apply Finset.sum_congr rfl
  intro b _
  simp only [h, Equiv.apply_symm_apply]
  rw [Finset.sum_const, nsmul_eq_mul]
  split
  · rw [hcard, Finset.card_univ, Nat.cast_mul, ENNReal.mul_inv (Or.inr (by simp)) (Or.inr (by simp)), mul_comm, mul_assoc,
      ENNReal.inv_mul_cancel (by simp) (by simp), mul_one]
  · simp

/-- The same for a bijection. -/
theorem uniform_map' {α β δ : Type} [Fintype α] [Nonempty α] [Fintype β] [Nonempty β]
    (e : α ≃ β) (f : α → δ) (g : β → δ) (h : ∀ a, f a = g (e a)) :
    (PMF.uniformOfFintype α).map f = (PMF.uniformOfFintype β).map g :=
  uniform_map (e.trans (Equiv.prodUnique β Unit).symm) f g (by intro a; exact h a)

theorem range_map_ofFn {α : Type} (m : ℕ) (g : ℕ → α) : (List.range m).map g = List.ofFn fun j : Fin m => g j := by
  apply List.ext_getElem <;> simp

/-- Logarithms of commitments. -/
theorem commit_log (n m : ℕ) (CG : List P) (H : P) (g : ℕ → F) (hg : ∀ k < n * m, CG.getD k 0 = g k • H) (x : ℕ → ℕ → F)
    (mask : F) :
    commit n m CG H x mask = (mask + ∑ j ∈ range m, ∑ i ∈ range n, x j i * g (j * n + i)) • H := by
  rw [commit, add_smul, add_comm, Finset.sum_smul]
  congr 1
  apply Finset.sum_congr rfl
  intro j hj
  rw [Finset.sum_smul]
  apply Finset.sum_congr rfl
  intro i hi
  rw [Finset.mem_range] at hi hj
  have : j * n + i < n * m := by nlinarith
  rw [hg _ this, mul_smul]

theorem maskA_ofFn (n m : ℕ) (a : Fin m → Fin n → F) (j : Fin m) (i : Fin (n - 1)) :
    maskA n (List.ofFn fun j => List.ofFn (a j)) j (i.val + 1) = a j ⟨i.val + 1, by have := i.2; omega⟩ := by
  have h : i.val + 1 < n := by have := i.2; omega
  simp [maskA, h]

theorem maskA_congr (n m : ℕ) (a a' : Fin m → Fin n → F)
    (h : ∀ (j : Fin m) (i : Fin (n - 1)), a j ⟨i.val + 1, by have := i.2; omega⟩ = a' j ⟨i.val + 1, by have := i.2; omega⟩) :
    maskA n (List.ofFn fun j => List.ofFn (a j)) = maskA n (List.ofFn fun j => List.ofFn (a' j)) := by
  have key : ∀ j i : ℕ, ((List.ofFn fun j => List.ofFn (a j)).getD j []).getD (i + 1) 0
      = ((List.ofFn fun j => List.ofFn (a' j)).getD j []).getD (i + 1) 0 := by
    intro j i
    by_cases hj : j < m
    · by_cases hi : i + 1 < n
      · have := h ⟨j, hj⟩ ⟨i, by omega⟩
        simpa [hj, hi] using this
      · simp [hj, hi]
    · simp [hj]
  funext j i
  cases i with
  | zero => simp only [maskA, key]
  | succ i => exact key j i

section Equivs
variable (params : Params P) (M : List P) (l : ℕ) (r ξ : F) (g : ℕ → F)

/-- From `ρ` to `z, ρ_1, …`. -/
def zEquiv (m : ℕ) (hm : 0 < m) (r ξ : F) : (Fin m → F) ≃ F × (Fin (m - 1) → F) where
  toFun ρ := (r * ξ ^ m - ∑ j : Fin m, ρ j * ξ ^ j.val, fun j => ρ ⟨j.val + 1, by have := j.2; omega⟩)
  invFun x j := match h : j.val with
    | 0 => r * ξ ^ m - ∑ j, x.2 j * ξ ^ (j.val + 1) - x.1
    | k + 1 => x.2 ⟨k, by have := j.2; omega⟩
  left_inv := by
    intro ρ
    obtain ⟨k, rfl⟩ : ∃ k, m = k + 1 := ⟨m - 1, by omega⟩
    funext j
    refine Fin.cases ?_ (fun j => rfl) j
    simp only [Fin.val_zero]
    rw [Fin.sum_univ_succ]
    simp only [Fin.val_zero, Fin.val_succ, pow_zero, mul_one]
    have : ∑ j : Fin (k + 1 - 1), ρ ⟨j.val + 1, by have := j.2; omega⟩ * ξ ^ (j.val + 1)
        = ∑ i : Fin k, ρ i.succ * ξ ^ (i.val + 1) := rfl
    rw [this]
    ring
  right_inv := by
    intro x
    obtain ⟨k, rfl⟩ : ∃ k, m = k + 1 := ⟨m - 1, by omega⟩
    apply Prod.ext
    · simp only
      rw [Fin.sum_univ_succ]
      simp only [Fin.val_zero, Fin.val_succ, pow_zero, mul_one]
      have : ∑ j : Fin (k + 1 - 1), x.2 j * ξ ^ (j.val + 1) = ∑ i : Fin k, x.2 ⟨i.val, i.2⟩ * ξ ^ (i.val + 1) := rfl
      rw [this]
      ring
    · rfl

/-- From the prover's coins to those of the hybrid and the exponents of its elements. -/
def hybEquiv (n m : ℕ) (hm : 0 < m) (r ξ : F) : Coins F n m ≃ HybridCoins F n m × (Fin (m - 1) → F) where
  toFun c := (⟨c.a, c.rA, c.rB, c.rC, c.rD, (zEquiv m hm r ξ c.rho).1⟩, (zEquiv m hm r ξ c.rho).2)
  invFun x := ⟨x.1.a, x.1.rA, x.1.rB, x.1.rC, x.1.rD, (zEquiv m hm r ξ).symm (x.1.z, x.2)⟩
  left_inv c := by simp
  right_inv x := by simp

/-- The commitment exponent of a matrix. -/
def logSum (n m : ℕ) (g : ℕ → F) (x : ℕ → ℕ → F) : F := ∑ j ∈ range m, ∑ i ∈ range n, x j i * g (j * n + i)

/-- The masking matrix of given coins. -/
abbrev maskOf {n m : ℕ} (a : Fin m → Fin n → F) : ℕ → ℕ → F := maskA n (List.ofFn fun j => List.ofFn (a j))

/-- The matrix from its column 0 and its other columns. -/
def joinA {n m : ℕ} (c : Fin m → F) (a : Fin m → Fin (n - 1) → F) (j : Fin m) (i : Fin n) : F :=
  match h : i.val with
  | 0 => c j
  | k + 1 => a j ⟨k, by have := i.2; omega⟩

/-- From the coins of the hybrid, with its elements, to those of the simulator. -/
def simEquiv (params : Params P) (hn : 0 < params.n) (l : ℕ) (ξ : F) (g : ℕ → F)
    (X : (ℕ → ℕ → F) → Fin (params.m - 1) → P) :
    (HybridCoins F params.n params.m × (Fin (params.m - 1) → F)) × (Fin (params.m - 1) → P) ≃
    (SimCoins F params.n params.m × (Fin (params.m - 1) → P)) × (Fin params.m → F) where
  toFun x :=
    let c := x.1.1
    ((⟨fun j i => selector params.n l j (i + 1) * ξ + c.a j ⟨i.val + 1, by have := i.2; omega⟩, c.rA + ξ * c.rB,
        ξ * c.rC + c.rD, c.z, c.rB + logSum params.n params.m g (selector params.n l),
        c.rC + logSum params.n params.m g (fun j i => maskOf c.a j i * (1 - 2 * selector params.n l j i)), x.1.2⟩,
        X (maskOf c.a) + x.2), fun j => c.a j ⟨0, hn⟩)
  invFun y :=
    let s := y.1.1
    let a : Fin params.m → Fin params.n → F := joinA y.2 fun j i => s.f j i - selector params.n l j (i + 1) * ξ
    let rB := s.b - logSum params.n params.m g (selector params.n l)
    let rC := s.c - logSum params.n params.m g (fun j i => maskOf a j i * (1 - 2 * selector params.n l j i))
    ((⟨a, s.zA - ξ * rB, rB, rC, s.zC - ξ * rC, s.z⟩, s.y), y.1.2 - X (maskOf a))
  left_inv := by
    rintro ⟨⟨⟨a, rA, rB, rC, rD, z⟩, y⟩, T⟩
    have ha : (joinA (fun j => a j ⟨0, hn⟩) fun j i => selector params.n l j (i + 1) * ξ +
        a j ⟨i.val + 1, by have := i.2; omega⟩ - selector params.n l j (i + 1) * ξ) = a := by
      funext j ⟨i, hi⟩
      cases i with
      | zero => rfl
      | succ i => simp [joinA]
    simp only [ha]
    simp
  right_inv := by
    rintro ⟨⟨⟨f, zA, zC, z, b, c, y⟩, R⟩, a0⟩
    have h0 : ∀ (a : Fin params.m → Fin (params.n - 1) → F) j, joinA a0 a j ⟨0, hn⟩ = a0 j := fun _ _ => rfl
    have h1 : ∀ (a : Fin params.m → Fin (params.n - 1) → F) (j : Fin params.m) (i : Fin (params.n - 1)),
      joinA a0 a j ⟨i.val + 1, by have := i.2; omega⟩ = a j i := fun _ _ _ => rfl
    simp only [h0, h1]
    simp

end Equivs

/-- The response matrix of the prover for given coins. -/
theorem honest_f (params : Params P) (M : List P) (J : P) (l : ℕ) (r : F) (c : Coins F params.n params.m) (ξ : F) :
    (honestProof params M J l r c.nonces ξ).f = List.ofFn fun j : Fin params.m => List.ofFn fun i : Fin (params.n - 1) =>
      selector params.n l j (i + 1) * ξ + c.a j ⟨i.val + 1, by have := i.2; omega⟩ := by
  simp only [honestProof, Coins.nonces]
  rw [range_map_ofFn]
  congr 1
  funext j
  rw [range_map_ofFn]
  congr 1
  funext i
  rw [maskA_ofFn]

/-- The unmasked part of `X_{j + 1}`. -/
noncomputable def xPart (params : Params P) (M : List P) (l : ℕ) (a : ℕ → ℕ → F) (j : Fin (params.m - 1)) : P :=
  ∑ k ∈ range (params.n ^ params.m), (ringPoly params.n params.m a (selector params.n l) k).coeff (j.val + 1) • M.getD k 0

theorem honest_X (params : Params P) (M : List P) (J : P) (l : ℕ) (r : F) (c : Coins F params.n params.m) (ξ : F)
    (j : Fin (params.m - 1)) :
    (honestProof params M J l r c.nonces ξ).X.getD (j.val + 1) 0
      = xPart params M l (maskOf c.a) j + c.rho ⟨j.val + 1, by have := j.2; omega⟩ • params.G := by
  have hj : j.val + 1 < params.m := by have := j.2; omega
  simp [honestProof, Coins.nonces, hj, xPart, maskOf]

theorem honest_Y (params : Params P) (M : List P) (J : P) (l : ℕ) (r : F) (c : Coins F params.n params.m) (ξ : F)
    (j : Fin (params.m - 1)) :
    (honestProof params M J l r c.nonces ξ).Y.getD (j.val + 1) 0 = c.rho ⟨j.val + 1, by have := j.2; omega⟩ • J := by
  have hj : j.val + 1 < params.m := by have := j.2; omega
  simp [honestProof, Coins.nonces, hj]

/-- A list of positive length from its first element and the others. -/
theorem list_split {α : Type} (d : α) (m : ℕ) (hm : 0 < m) (L : List α) (hL : L.length = m) :
    L = L.getD 0 d :: List.ofFn fun j : Fin (m - 1) => L.getD (j.val + 1) d := by
  subst hL
  cases L with
  | nil => simp at hm
  | cons x L =>
    simp only [List.getD_cons_zero, List.getD_cons_succ, List.cons.injEq, true_and]
    apply List.ext_getElem
    · simp
    · intro i h1 h2
      simp

theorem sum_split (m : ℕ) (hm : 0 < m) (ξ : F) (L : ℕ → P) :
    ∑ j ∈ range m, ξ ^ j • L j = L 0 + ∑ j : Fin (m - 1), ξ ^ (j.val + 1) • L (j.val + 1) := by
  obtain ⟨k, rfl⟩ : ∃ k, m = k + 1 := ⟨m - 1, by omega⟩
  rw [Finset.sum_range_succ', add_comm]
  simp only [pow_zero, one_smul]
  congr 1
  exact (Fin.sum_univ_eq_sum_range (fun j => ξ ^ (j + 1) • L (j + 1)) k).symm

theorem sub_rearr (s x t z : P) (h : s - (x + t) - z = 0) : x = s - t - z := by
  rw [sub_eq_zero, sub_eq_iff_eq_add] at h
  rw [h]; abel

/-- The third equation determines `X_0`. -/
theorem X_of_E3 (params : Params P) (hm : 0 < params.m) (M : List P) (p : Proof F P) (hX : p.X.length = params.m) (ξ : F)
    (h : E3 params M p ξ = 0) :
    p.X = (∑ k ∈ range (params.n ^ params.m), ringCoeff params.n params.m (fullF p.f ξ) k • M.getD k 0
        - ∑ j : Fin (params.m - 1), ξ ^ (j.val + 1) • p.X.getD (j.val + 1) 0 - p.z • params.G)
        :: List.ofFn fun j : Fin (params.m - 1) => p.X.getD (j.val + 1) 0 := by
  rw [E3, sum_split _ hm ξ fun j => p.X.getD j 0] at h
  conv_lhs => rw [list_split 0 _ hm _ hX]
  congr 1
  exact sub_rearr _ _ _ _ h

/-- The fourth equation determines `Y_0`. -/
theorem Y_of_E4 (params : Params P) (hn : 2 ≤ params.n) (hm : 0 < params.m) (J : P) (p : Proof F P)
    (hs : Shape params p) (ξ : F) (h : E4 params J p ξ = 0) :
    p.Y = (ξ ^ params.m • params.U - ∑ j : Fin (params.m - 1), ξ ^ (j.val + 1) • p.Y.getD (j.val + 1) 0 - p.z • J)
        :: List.ofFn fun j : Fin (params.m - 1) => p.Y.getD (j.val + 1) 0 := by
  rw [E4, sum_ringCoeff params.n params.m hn _ ξ (fun j hj =>
    fullF_row_sum params.n params.m (by omega) _ ξ hs.f hs.row j hj), sum_split _ hm ξ fun j => p.Y.getD j 0] at h
  conv_lhs => rw [list_split 0 _ hm _ hs.Y]
  congr 1
  exact sub_rearr _ _ _ _ h

/-- The prover is the hybrid run on Diffie-Hellman tuples. -/
theorem honest_hybrid (params : Params P) (hp : ParamsOK params) (M : List P) (J : P) (l : ℕ) (r : F)
    (hl : l < params.n ^ params.m) (hrel : Rel params.G params.U M J l r) (ξ : F) (c : Coins F params.n params.m)
    (hm : 0 < params.m) :
    honestProof params M J l r c.nonces ξ = hybrid params M J l ξ (hybEquiv _ _ hm r ξ c).1
      (fun j => (hybEquiv _ _ hm r ξ c).2 j • J) (fun j => (hybEquiv _ _ hm r ξ c).2 j • params.G) := by
  have hv := honest_valid params hp M J l r c.nonces hl hrel ξ
  have hshape := honest_shape params M J l r c.nonces ξ
  have h3 := X_of_E3 params hm M _ hshape.X ξ hv.e3
  have h4 := Y_of_E4 params hp.n hm J _ hshape ξ hv.e4
  have hz : (honestProof params M J l r c.nonces ξ).z = (hybEquiv _ _ hm r ξ c).1.z := by
    simp only [honestProof, hybEquiv, zEquiv, Equiv.coe_fn_mk, Coins.nonces]
    rw [← Fin.sum_univ_eq_sum_range (fun j => (List.ofFn c.rho).getD j 0 * ξ ^ j) params.m]
    congr 1
    apply Finset.sum_congr rfl
    intro j _
    simp
  have hx : ∀ j : Fin (params.m - 1), (honestProof params M J l r c.nonces ξ).X.getD (j.val + 1) 0 =
      (honestProof params M J l 0 (Coins.nonces ⟨c.a, c.rA, c.rB, c.rC, c.rD, fun _ => 0⟩) ξ).X.getD (j.val + 1) 0
      + (hybEquiv _ _ hm r ξ c).2 j • params.G := by
    intro j
    rw [honest_X, honest_X]
    simp only [zero_smul, add_zero]
    rfl
  have hy : ∀ j : Fin (params.m - 1), (honestProof params M J l r c.nonces ξ).Y.getD (j.val + 1) 0 =
      (hybEquiv _ _ hm r ξ c).2 j • J := fun j => honest_Y _ _ _ _ _ _ _ _
  simp only [hx, hz] at h3
  simp only [hy, hz] at h4
  rw [hybrid]
  generalize hq : (hybEquiv _ _ hm r ξ c) = q at *
  have hqa : q.1 = ⟨c.a, c.rA, c.rB, c.rC, c.rD, q.1.z⟩ := by rw [← hq]; rfl
  rw [hqa]
  simp only
  rw [Proof.mk.injEq]
  exact ⟨rfl, rfl, rfl, rfl, h3, h4, rfl, rfl, rfl, hz⟩

/-- The hybrid on random elements is the simulator. -/
theorem hybrid_simulate (params : Params P) (hp : ParamsOK params) (M : List P) (J : P) (l : ℕ)
    (hl : l < params.n ^ params.m) (ξ : F) (g : ℕ → F)
    (hg : ∀ k < params.n * params.m, params.CommitmentG.getD k 0 = g k • params.CommitmentH)
    (x : (HybridCoins F params.n params.m × (Fin (params.m - 1) → F)) × (Fin (params.m - 1) → P)) (hn : 0 < params.n) :
    hybrid params M J l ξ x.1.1 (fun j => x.1.2 j • J) x.2 =
      simulate params M J ξ (simEquiv params hn l ξ g (xPart params M l) x).1.1
        (simEquiv params hn l ξ g (xPart params M l) x).1.2 := by
  obtain ⟨⟨⟨a, rA, rB, rC, rD, z⟩, y⟩, T⟩ := x
  obtain ⟨h1, h2, -, -⟩ := honest_equations params hp M J l 0 (Coins.nonces ⟨a, rA, rB, rC, rD, fun _ => 0⟩) hl ξ
  rw [E1, sub_eq_zero] at h1
  rw [E2, sub_eq_zero] at h2
  have hB : (honestProof params M J l 0 (Coins.nonces ⟨a, rA, rB, rC, rD, fun _ => (0 : F)⟩) ξ).B
      = (rB + logSum params.n params.m g (selector params.n l)) • params.CommitmentH :=
    commit_log _ _ _ _ g hg _ _
  have hC : (honestProof params M J l 0 (Coins.nonces ⟨a, rA, rB, rC, rD, fun _ => (0 : F)⟩) ξ).C
      = (rC + logSum params.n params.m g (fun j i => maskOf a j i * (1 - 2 * selector params.n l j i))) •
        params.CommitmentH :=
    commit_log _ _ _ _ g hg _ _
  have hx := honest_X params M J l 0 ⟨a, rA, rB, rC, rD, fun _ => 0⟩ ξ
  have hf := honest_f params M J l 0 ⟨a, rA, rB, rC, rD, fun _ => 0⟩ ξ
  simp only [zero_smul, add_zero] at hx
  rw [hf] at h1 h2
  simp only [hybrid, simulate, simEquiv, Equiv.coe_fn_mk, hx]
  rw [Proof.mk.injEq]
  refine ⟨?_, hB, hC, ?_, ?_, rfl, hf, rfl, rfl, rfl⟩
  · rw [← hB, eq_sub_iff_add_eq]; exact h1.symm
  · rw [← hC, eq_sub_iff_add_eq, add_comm]; exact h2.symm
  · rw [hf]; rfl

/-- Simulated proofs have the right dimensions. -/
theorem simulate_shape (params : Params P) (hm : 0 < params.m) (M : List P) (J : P) (ξ : F)
    (s : SimCoins F params.n params.m) (R : Fin (params.m - 1) → P) : Shape params (simulate params M J ξ s R) := by
  constructor
  · simp [simulate]; omega
  · simp [simulate]; omega
  · simp [simulate]
  · intro row hrow
    simp only [simulate, List.mem_ofFn] at hrow
    obtain ⟨j, rfl⟩ := hrow
    simp

/-- Simulated proofs satisfy the equations. -/
theorem simulate_valid (params : Params P) (hn : 2 ≤ params.n) (hm : 0 < params.m) (M : List P) (J : P) (ξ : F)
    (s : SimCoins F params.n params.m) (R : Fin (params.m - 1) → P) :
    Valid params M J (simulate params M J ξ s R) ξ := by
  have hs := simulate_shape params hm M J ξ s R
  constructor
  · simp [E1, simulate]
  · simp [E2, simulate]
  · rw [E3, sum_split _ hm ξ fun j => (simulate params M J ξ s R).X.getD j 0]
    have hR : ∀ j : Fin (params.m - 1), (List.ofFn R).getD j.val 0 = R j := fun j => by simp
    simp only [simulate, List.getD_cons_zero, List.getD_cons_succ, hR]
    abel
  · rw [E4, sum_ringCoeff params.n params.m hn _ ξ (fun j hj =>
      fullF_row_sum params.n params.m (by omega) _ ξ hs.f hs.row j hj),
      sum_split _ hm ξ fun j => (simulate params M J ξ s R).Y.getD j 0]
    have hR : ∀ j : Fin (params.m - 1), (List.ofFn fun j => s.y j • J).getD j.val 0 = s.y j • J := fun j => by simp
    simp only [simulate, List.getD_cons_zero, List.getD_cons_succ, hR]
    abel

end Triptych
