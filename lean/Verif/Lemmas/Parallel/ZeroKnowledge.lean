import Verif.Spec.Parallel.ZeroKnowledge
import Verif.Lemmas.Parallel.Complete
import Verif.Lemmas.ZeroKnowledge

set_option autoImplicit false
set_option linter.unusedSectionVars false

namespace Triptych.Parallel
open Finset
open Triptych.Parallel.Spec
open Triptych.Spec (grayDigit commit fullF ringCoeff maskA selector ringPoly)

variable {F P : Type} [Field F] [AddCommGroup P] [Module F P] [DecidableEq F] [DecidableEq P]

/-- From the prover's coins to those of the hybrid and the exponents of its elements. -/
def hybEquiv (n m : ℕ) (hm : 0 < m) (r r1 ξ : F) : Coins F n m ≃ HybridCoins F n m × (Fin (m - 1) → F) where
  toFun c := (⟨c.a, c.rA, c.rB, c.rC, c.rD, (zEquiv m hm r ξ c.rho).1, (zEquiv m hm r1 ξ c.rho1).1,
    (zEquiv m hm r1 ξ c.rho1).2⟩, (zEquiv m hm r ξ c.rho).2)
  invFun x := ⟨x.1.a, x.1.rA, x.1.rB, x.1.rC, x.1.rD, (zEquiv m hm r ξ).symm (x.1.z, x.2),
    (zEquiv m hm r1 ξ).symm (x.1.z1, x.1.rho1)⟩
  left_inv c := by simp
  right_inv x := by simp

/-- From the coins of the hybrid, with its elements, to those of the simulator. -/
def simEquiv (params : Params P) (hn : 0 < params.n) (l : ℕ) (ξ : F) (g : ℕ → F)
    (X : (ℕ → ℕ → F) → Fin (params.m - 1) → P) (x1 : (ℕ → ℕ → F) → Fin (params.m - 1) → F) :
    (HybridCoins F params.n params.m × (Fin (params.m - 1) → F)) × (Fin (params.m - 1) → P) ≃
    (SimCoins F params.n params.m × (Fin (params.m - 1) → P)) × (Fin params.m → F) where
  toFun x :=
    let c := x.1.1
    ((⟨fun j i => selector params.n l j (i + 1) * ξ + c.a j ⟨i.val + 1, by have := i.2; omega⟩, c.rA + ξ * c.rB,
        ξ * c.rC + c.rD, c.z, c.z1, c.rB + logSum params.n params.m g (selector params.n l),
        c.rC + logSum params.n params.m g (fun j i => maskOf c.a j i * (1 - 2 * selector params.n l j i)), x.1.2,
        x1 (maskOf c.a) + c.rho1⟩,
        X (maskOf c.a) + x.2), fun j => c.a j ⟨0, hn⟩)
  invFun y :=
    let s := y.1.1
    let a : Fin params.m → Fin params.n → F := joinA y.2 fun j i => s.f j i - selector params.n l j (i + 1) * ξ
    let rB := s.b - logSum params.n params.m g (selector params.n l)
    let rC := s.c - logSum params.n params.m g (fun j i => maskOf a j i * (1 - 2 * selector params.n l j i))
    ((⟨a, s.zA - ξ * rB, rB, rC, s.zC - ξ * rC, s.z, s.z1, s.x1 - x1 (maskOf a)⟩, s.y), y.1.2 - X (maskOf a))
  left_inv := by
    rintro ⟨⟨⟨a, rA, rB, rC, rD, z, z1, rho1⟩, y⟩, T⟩
    have ha : (joinA (fun j => a j ⟨0, hn⟩) fun j i => selector params.n l j (i + 1) * ξ +
        a j ⟨i.val + 1, by have := i.2; omega⟩ - selector params.n l j (i + 1) * ξ) = a := by
      funext j ⟨i, hi⟩
      cases i with
      | zero => rfl
      | succ i => simp [joinA]
    simp only [ha]
    simp
  right_inv := by
    rintro ⟨⟨⟨f, zA, zC, z, z1, b, c, y, x1'⟩, R⟩, a0⟩
    have h0 : ∀ (a : Fin params.m → Fin (params.n - 1) → F) j, joinA a0 a j ⟨0, hn⟩ = a0 j := fun _ _ => rfl
    have h1 : ∀ (a : Fin params.m → Fin (params.n - 1) → F) (j : Fin params.m) (i : Fin (params.n - 1)),
      joinA a0 a j ⟨i.val + 1, by have := i.2; omega⟩ = a j i := fun _ _ _ => rfl
    simp only [h0, h1]
    simp

/-- The response matrix of the prover for given coins. -/
theorem honest_f (params : Params P) (M M1 : List P) (offset J : P) (l : ℕ) (r r1 : F) (c : Coins F params.n params.m)
    (ξ : F) :
    (honestProof params M M1 offset J l r r1 c.nonces ξ).f =
      List.ofFn fun j : Fin params.m => List.ofFn fun i : Fin (params.n - 1) =>
        selector params.n l j (i + 1) * ξ + c.a j ⟨i.val + 1, by have := i.2; omega⟩ := by
  simp only [honestProof, Coins.nonces]
  rw [range_map_ofFn]
  congr 1
  funext j
  rw [range_map_ofFn]
  congr 1
  funext i
  rw [maskA_ofFn]

/-- The unmasked part of `X_{j + 1}` or `X1_{j + 1}`, for the ring `V`. -/
noncomputable def ringPart (params : Params P) (V : ℕ → P) (l : ℕ) (a : ℕ → ℕ → F) (j : Fin (params.m - 1)) : P :=
  ∑ k ∈ range (params.n ^ params.m), (ringPoly params.n params.m a (selector params.n l) k).coeff (j.val + 1) • V k

theorem honest_X (params : Params P) (M M1 : List P) (offset J : P) (l : ℕ) (r r1 : F) (c : Coins F params.n params.m)
    (ξ : F) (j : Fin (params.m - 1)) :
    (honestProof params M M1 offset J l r r1 c.nonces ξ).X.getD (j.val + 1) 0
      = ringPart params (fun k => M.getD k 0) l (maskOf c.a) j + c.rho ⟨j.val + 1, by have := j.2; omega⟩ • params.G := by
  have hj : j.val + 1 < params.m := by have := j.2; omega
  simp [honestProof, Coins.nonces, hj, ringPart, maskOf]

theorem honest_X1 (params : Params P) (M M1 : List P) (offset J : P) (l : ℕ) (r r1 : F) (c : Coins F params.n params.m)
    (ξ : F) (j : Fin (params.m - 1)) :
    (honestProof params M M1 offset J l r r1 c.nonces ξ).X1.getD (j.val + 1) 0
      = ringPart params (fun k => M1.getD k 0 - offset) l (maskOf c.a) j
        + c.rho1 ⟨j.val + 1, by have := j.2; omega⟩ • params.G1 := by
  have hj : j.val + 1 < params.m := by have := j.2; omega
  simp [honestProof, Coins.nonces, hj, ringPart, maskOf]

theorem honest_Y (params : Params P) (M M1 : List P) (offset J : P) (l : ℕ) (r r1 : F) (c : Coins F params.n params.m)
    (ξ : F) (j : Fin (params.m - 1)) :
    (honestProof params M M1 offset J l r r1 c.nonces ξ).Y.getD (j.val + 1) 0
      = c.rho ⟨j.val + 1, by have := j.2; omega⟩ • J := by
  have hj : j.val + 1 < params.m := by have := j.2; omega
  simp [honestProof, Coins.nonces, hj]

/-- The third equation determines `X_0`. -/
theorem X_of_E3 (params : Params P) (hm : 0 < params.m) (M : List P) (p : Proof F P) (hX : p.X.length = params.m) (ξ : F)
    (h : E3 params M p ξ = 0) :
    p.X = (∑ k ∈ range (params.n ^ params.m), ringCoeff params.n params.m (fullF p.f ξ) k • M.getD k 0
        - ∑ j : Fin (params.m - 1), ξ ^ (j.val + 1) • p.X.getD (j.val + 1) 0 - p.z • params.G)
        :: List.ofFn fun j : Fin (params.m - 1) => p.X.getD (j.val + 1) 0 := by
  rw [E3, sum_split _ hm ξ fun j => p.X.getD j 0] at h
  conv_lhs => rw [list_split 0 _ hm _ hX]
  congr 1
  exact sub_rearr _ _ _ _ h

/-- The fifth equation determines `X1_0`. -/
theorem X1_of_E5 (params : Params P) (hm : 0 < params.m) (M1 : List P) (offset : P) (p : Proof F P)
    (hX : p.X1.length = params.m) (ξ : F) (h : E5 params M1 offset p ξ = 0) :
    p.X1 = (∑ k ∈ range (params.n ^ params.m), ringCoeff params.n params.m (fullF p.f ξ) k • (M1.getD k 0 - offset)
        - ∑ j : Fin (params.m - 1), ξ ^ (j.val + 1) • p.X1.getD (j.val + 1) 0 - p.z1 • params.G1)
        :: List.ofFn fun j : Fin (params.m - 1) => p.X1.getD (j.val + 1) 0 := by
  rw [E5, sum_split _ hm ξ fun j => p.X1.getD j 0] at h
  conv_lhs => rw [list_split 0 _ hm _ hX]
  congr 1
  exact sub_rearr _ _ _ _ h

/-- The fourth equation determines `Y_0`. -/
theorem Y_of_E4 (params : Params P) (hn : 2 ≤ params.n) (hm : 0 < params.m) (J : P) (p : Proof F P)
    (hs : Shape params p) (ξ : F) (h : E4 params J p ξ = 0) :
    p.Y = (ξ ^ params.m • params.U - ∑ j : Fin (params.m - 1), ξ ^ (j.val + 1) • p.Y.getD (j.val + 1) 0 - p.z • J)
        :: List.ofFn fun j : Fin (params.m - 1) => p.Y.getD (j.val + 1) 0 := by
  rw [E4, sum_ringCoeff params.n params.m hn _ ξ (fun j hj =>
    fullF_row_sum params.n params.m (by omega) _ ξ hs.f hs.row j hj), sum_split _ hm ξ fun j => p.Y.getD j 0] at h
  conv_lhs => rw [list_split 0 _ hm _ hs.Y]
  congr 1
  exact sub_rearr _ _ _ _ h

theorem sum_rho (m : ℕ) (ρ : Fin m → F) (ξ : F) :
    ∑ j ∈ range m, (List.ofFn ρ).getD j 0 * ξ ^ j = ∑ j : Fin m, ρ j * ξ ^ j.val := by
  rw [← Fin.sum_univ_eq_sum_range (fun j => (List.ofFn ρ).getD j 0 * ξ ^ j) m]
  apply Finset.sum_congr rfl
  intro j _
  simp

/-- The prover is the hybrid run on Diffie-Hellman tuples. -/
theorem honest_hybrid (params : Params P) (hp : ParamsOK params) (M M1 : List P) (offset J : P) (l : ℕ) (r r1 : F)
    (hl : l < params.n ^ params.m) (hrel : Rel params.G params.G1 params.U M M1 offset J l r r1) (ξ : F)
    (c : Coins F params.n params.m) (hm : 0 < params.m) :
    honestProof params M M1 offset J l r r1 c.nonces ξ = hybrid params M M1 offset J l ξ (hybEquiv _ _ hm r r1 ξ c).1
      (fun j => (hybEquiv _ _ hm r r1 ξ c).2 j • J) (fun j => (hybEquiv _ _ hm r r1 ξ c).2 j • params.G) := by
  have hv := honest_valid params hp M M1 offset J l r r1 c.nonces hl hrel ξ
  have hshape := honest_shape params M M1 offset J l r r1 c.nonces ξ
  have h3 := X_of_E3 params hm M _ hshape.X ξ hv.e3
  have h4 := Y_of_E4 params hp.n hm J _ hshape ξ hv.e4
  have h5 := X1_of_E5 params hm M1 offset _ hshape.X1 ξ hv.e5
  have hz : (honestProof params M M1 offset J l r r1 c.nonces ξ).z = (hybEquiv _ _ hm r r1 ξ c).1.z := by
    simp only [honestProof, hybEquiv, zEquiv, Equiv.coe_fn_mk, Coins.nonces]
    rw [sum_rho]
  have hz1 : (honestProof params M M1 offset J l r r1 c.nonces ξ).z1 = (hybEquiv _ _ hm r r1 ξ c).1.z1 := by
    simp only [honestProof, hybEquiv, zEquiv, Equiv.coe_fn_mk, Coins.nonces]
    rw [sum_rho]
  have hx : ∀ j : Fin (params.m - 1), (honestProof params M M1 offset J l r r1 c.nonces ξ).X.getD (j.val + 1) 0 =
      (honestProof params M M1 offset J l 0 0 (Coins.nonces ⟨c.a, c.rA, c.rB, c.rC, c.rD, fun _ => 0, fun _ => 0⟩)
        ξ).X.getD (j.val + 1) 0 + (hybEquiv _ _ hm r r1 ξ c).2 j • params.G := by
    intro j
    rw [honest_X, honest_X]
    simp only [zero_smul, add_zero]
    rfl
  have hx1 : ∀ j : Fin (params.m - 1), (honestProof params M M1 offset J l r r1 c.nonces ξ).X1.getD (j.val + 1) 0 =
      (honestProof params M M1 offset J l 0 0 (Coins.nonces ⟨c.a, c.rA, c.rB, c.rC, c.rD, fun _ => 0, fun _ => 0⟩)
        ξ).X1.getD (j.val + 1) 0 + (hybEquiv _ _ hm r r1 ξ c).1.rho1 j • params.G1 := by
    intro j
    rw [honest_X1, honest_X1]
    simp only [zero_smul, add_zero]
    rfl
  have hy : ∀ j : Fin (params.m - 1), (honestProof params M M1 offset J l r r1 c.nonces ξ).Y.getD (j.val + 1) 0 =
      (hybEquiv _ _ hm r r1 ξ c).2 j • J := fun j => honest_Y _ _ _ _ _ _ _ _ _ _ _
  simp only [hx, hz] at h3
  simp only [hx1, hz1] at h5
  simp only [hy, hz] at h4
  rw [hybrid]
  generalize hq : (hybEquiv _ _ hm r r1 ξ c) = q at *
  have hqa : q.1 = ⟨c.a, c.rA, c.rB, c.rC, c.rD, q.1.z, q.1.z1, q.1.rho1⟩ := by rw [← hq]; rfl
  rw [hqa]
  simp only
  rw [Proof.mk.injEq]
  exact ⟨rfl, rfl, rfl, rfl, h3, h5, h4, rfl, rfl, rfl, hz, hz1⟩

/-- The hybrid on random elements is the simulator. -/
theorem hybrid_simulate (params : Params P) (hp : ParamsOK params) (M M1 : List P) (offset J : P) (l : ℕ)
    (hl : l < params.n ^ params.m) (ξ : F) (g : ℕ → F)
    (hg : ∀ k < params.n * params.m, params.CommitmentG.getD k 0 = g k • params.CommitmentH)
    (x1 : (ℕ → ℕ → F) → Fin (params.m - 1) → F)
    (hx1 : ∀ a j, ringPart params (fun k => M1.getD k 0 - offset) l a j = x1 a j • params.G1)
    (x : (HybridCoins F params.n params.m × (Fin (params.m - 1) → F)) × (Fin (params.m - 1) → P)) (hn : 0 < params.n) :
    hybrid params M M1 offset J l ξ x.1.1 (fun j => x.1.2 j • J) x.2 =
      simulate params M M1 offset J ξ
        (simEquiv params hn l ξ g (ringPart params (fun k => M.getD k 0) l) x1 x).1.1
        (simEquiv params hn l ξ g (ringPart params (fun k => M.getD k 0) l) x1 x).1.2 := by
  obtain ⟨⟨⟨a, rA, rB, rC, rD, z, z1, rho1⟩, y⟩, T⟩ := x
  obtain ⟨h1, h2, -⟩ := honest_equations params hp M M1 offset J l 0 0
    (Coins.nonces ⟨a, rA, rB, rC, rD, fun _ => 0, fun _ => 0⟩) hl ξ
  rw [E1, sub_eq_zero] at h1
  rw [E2, sub_eq_zero] at h2
  have hB : (honestProof params M M1 offset J l 0 0
      (Coins.nonces ⟨a, rA, rB, rC, rD, fun _ => (0 : F), fun _ => (0 : F)⟩) ξ).B
      = (rB + logSum params.n params.m g (selector params.n l)) • params.CommitmentH :=
    commit_log _ _ _ _ g hg _ _
  have hC : (honestProof params M M1 offset J l 0 0
      (Coins.nonces ⟨a, rA, rB, rC, rD, fun _ => (0 : F), fun _ => (0 : F)⟩) ξ).C
      = (rC + logSum params.n params.m g (fun j i => maskOf a j i * (1 - 2 * selector params.n l j i))) •
        params.CommitmentH :=
    commit_log _ _ _ _ g hg _ _
  have hx := honest_X params M M1 offset J l 0 0 ⟨a, rA, rB, rC, rD, fun _ => 0, fun _ => 0⟩ ξ
  have hxx := honest_X1 params M M1 offset J l 0 0 ⟨a, rA, rB, rC, rD, fun _ => 0, fun _ => 0⟩ ξ
  have hf := honest_f params M M1 offset J l 0 0 ⟨a, rA, rB, rC, rD, fun _ => 0, fun _ => 0⟩ ξ
  simp only [zero_smul, add_zero] at hx hxx
  rw [hf] at h1 h2
  have hsum : ∀ j, x1 (maskOf a) j • params.G1 + rho1 j • params.G1 = (x1 (maskOf a) + rho1) j • params.G1 := by
    intro j; rw [← add_smul]; rfl
  simp only [hybrid, simulate, simEquiv, Equiv.coe_fn_mk, hx, hxx, hx1, hsum]
  rw [Proof.mk.injEq]
  refine ⟨?_, hB, hC, ?_, ?_, ?_, rfl, hf, rfl, rfl, rfl, rfl⟩
  · rw [← hB, eq_sub_iff_add_eq]; exact h1.symm
  · rw [← hC, eq_sub_iff_add_eq, add_comm]; exact h2.symm
  · rw [hf]; rfl
  · rw [hf]

/-- Simulated proofs have the right dimensions. -/
theorem simulate_shape (params : Params P) (hm : 0 < params.m) (M M1 : List P) (offset J : P) (ξ : F)
    (s : SimCoins F params.n params.m) (R : Fin (params.m - 1) → P) :
    Shape params (simulate params M M1 offset J ξ s R) := by
  constructor
  · simp [simulate]; omega
  · simp [simulate]; omega
  · simp [simulate]; omega
  · simp [simulate]
  · intro row hrow
    simp only [simulate, List.mem_ofFn] at hrow
    obtain ⟨j, rfl⟩ := hrow
    simp

/-- Simulated proofs satisfy the equations. -/
theorem simulate_valid (params : Params P) (hn : 2 ≤ params.n) (hm : 0 < params.m) (M M1 : List P) (offset J : P) (ξ : F)
    (s : SimCoins F params.n params.m) (R : Fin (params.m - 1) → P) :
    Valid params M M1 offset J (simulate params M M1 offset J ξ s R) ξ := by
  have hs := simulate_shape params hm M M1 offset J ξ s R
  constructor
  · simp [E1, simulate]
  · simp [E2, simulate]
  · rw [E3, sum_split _ hm ξ fun j => (simulate params M M1 offset J ξ s R).X.getD j 0]
    have hR : ∀ j : Fin (params.m - 1), (List.ofFn R).getD j.val 0 = R j := fun j => by simp
    simp only [simulate, List.getD_cons_zero, List.getD_cons_succ, hR]
    abel
  · rw [E4, sum_ringCoeff params.n params.m hn _ ξ (fun j hj =>
      fullF_row_sum params.n params.m (by omega) _ ξ hs.f hs.row j hj),
      sum_split _ hm ξ fun j => (simulate params M M1 offset J ξ s R).Y.getD j 0]
    have hR : ∀ j : Fin (params.m - 1), (List.ofFn fun j => s.y j • J).getD j.val 0 = s.y j • J := fun j => by simp
    simp only [simulate, List.getD_cons_zero, List.getD_cons_succ, hR]
    abel
  · rw [E5, sum_split _ hm ξ fun j => (simulate params M M1 offset J ξ s R).X1.getD j 0]
    have hR : ∀ j : Fin (params.m - 1), (List.ofFn fun j => s.x1 j • params.G1).getD j.val 0 = s.x1 j • params.G1 :=
      fun j => by simp
    simp only [simulate, List.getD_cons_zero, List.getD_cons_succ, hR]
    abel

end Triptych.Parallel
