import Verif.Spec.DLog
import Verif.Lemmas.SubsetSum

/-! Setting up random generators and users' keys from a discrete-logarithm challenge. -/
set_option autoImplicit false
set_option linter.unusedSectionVars false
set_option linter.unusedVariables false

namespace Triptych
open Spec Finset Function

variable {F P : Type} [Field F] [AddCommGroup P] [Module F P] [DecidableEq F] [DecidableEq P]

/-- `SetupCoins` as a product. -/
def Spec.SetupCoins.equiv (n m : ℕ) (F υ : Type) [Monoid F] :
    SetupCoins n m F υ ≃ ((υ → Fˣ) × Fˣ × Fˣ) × (Fin (n * m) → F) × (Fin (n * m) → F) where
  toFun ρ := ((ρ.t, ρ.u, ρ.h), ρ.b, ρ.a)
  invFun x := ⟨x.1.1, x.1.2.1, x.1.2.2, x.2.2, x.2.1⟩
  left_inv _ := rfl
  right_inv _ := rfl

noncomputable instance (n m : ℕ) (F υ : Type) [Monoid F] [Fintype F] [DecidableEq F] [Fintype υ] [DecidableEq υ] :
    Fintype (SetupCoins n m F υ) := Fintype.ofEquiv _ (SetupCoins.equiv n m F υ).symm

/-- `x ↦ x • G`. -/
noncomputable def logEquiv (G : P) (hG : G ≠ 0) (hgen : ∀ X : P, ∃ x : F, x • G = X) : F ≃ P :=
  Equiv.ofBijective (fun x => x • G) ⟨fun x y h => by
    by_contra hne
    have h1 : (x - y) • G = 0 := by rw [sub_smul, sub_eq_zero]; exact h
    have h2 : ((x - y)⁻¹ * (x - y)) • G = 0 := by rw [mul_smul, h1, smul_zero]
    rw [inv_mul_cancel₀ (sub_ne_zero.2 hne), one_smul] at h2
    exact hG h2, hgen⟩

/-- `u ↦ u • Y` for `Y = y • G`, from units to points that are not zero. -/
noncomputable def unitEquiv (G : P) (hG : G ≠ 0) (hgen : ∀ X : P, ∃ x : F, x • G = X) (y : Fˣ) : Fˣ ≃ {X : P // X ≠ 0} :=
  Equiv.ofBijective (fun u => ⟨(u : F) • (y : F) • G, unit_smul_ne (unit_smul_ne hG y) u⟩) ⟨fun u v h => by
    have h1 : (u : F) • (y : F) • G = (v : F) • (y : F) • G := congrArg Subtype.val h
    rw [smul_smul, smul_smul] at h1
    have h2 : (u : F) * y = v * y := (logEquiv G hG hgen).injective h1
    exact Units.ext (mul_right_cancel₀ y.ne_zero h2), fun X => by
    obtain ⟨x, hx⟩ := hgen X.1
    have hx0 : x ≠ 0 := by rintro rfl; rw [zero_smul] at hx; exact X.2 hx.symm
    refine ⟨Units.mk0 x hx0 * y⁻¹, Subtype.ext ?_⟩
    show ((Units.mk0 x hx0 * y⁻¹ : Fˣ) : F) • (y : F) • G = X.1
    rw [smul_smul, ← Units.val_mul, inv_mul_cancel_right, Units.val_mk0, hx]⟩

/-- `a ↦ a i • G + b i • Y`. -/
noncomputable def combEquiv (G : P) (hG : G ≠ 0) (hgen : ∀ X : P, ∃ x : F, x • G = X) (Y : P) {k : ℕ} (b : Fin k → F) :
    (Fin k → F) ≃ (Fin k → P) :=
  Equiv.piCongrRight fun i => (logEquiv G hG hgen).trans (Equiv.addRight (b i • Y))

variable [Fintype F] [Fintype P]

/-- Setting up the public data from `Y = y • G` gives the same distribution as drawing generators and users' keys; `b` is
independent of them. -/
theorem avg_setup {n m : ℕ} {υ : Type} [Fintype υ] [DecidableEq υ] (G : P) (hG : G ≠ 0) (hgen : ∀ X : P, ∃ x : F, x • G = X) (y : Fˣ)
    (f : Generators n m P → (υ → Fˣ) → (Fin (n * m) → F) → Fˣ → ℚ) :
    (avg fun ρ : SetupCoins n m F υ => f (setup G ⟨(y : F) • G, unit_smul_ne hG y⟩ ρ).gens (fun i => ρ.t i * y) ρ.b ρ.h) =
      avg fun g : Generators n m P => avg fun x : υ → Fˣ => avg fun b : Fin (n * m) → F =>
        f g x b ((unitEquiv G hG hgen y).symm g.2.1) := by
  refine (avg_equiv (SetupCoins.equiv n m F υ) _ (fun z => f (setup G ⟨(y : F) • G, unit_smul_ne hG y⟩
    ((SetupCoins.equiv n m F υ).symm z)).gens (fun i => z.1.1 i * y) z.2.1 z.1.2.2) fun ρ => rfl).trans ?_
  simp only [avg_prod]
  have e1 : ∀ (t : υ → Fˣ) (u h : Fˣ), (avg fun b : Fin (n * m) → F => avg fun a : Fin (n * m) → F =>
      f (setup G ⟨(y : F) • G, unit_smul_ne hG y⟩ ((SetupCoins.equiv n m F υ).symm ((t, u, h), b, a))).gens (fun i => t i * y) b h) =
      avg fun c : Fin (n * m) → P => avg fun b : Fin (n * m) → F =>
        f (c, unitEquiv G hG hgen y h, unitEquiv G hG hgen y u) (fun i => t i * y) b h := by
    intro t u h
    rw [avg_comm (fun (c : Fin (n * m) → P) (b : Fin (n * m) → F) =>
      f (c, unitEquiv G hG hgen y h, unitEquiv G hG hgen y u) (fun i => t i * y) b h)]
    refine congrArg avg (funext fun b => ?_)
    exact avg_equiv (combEquiv G hG hgen ((y : F) • G) b) _ _ fun a => rfl
  simp only [e1]
  refine (avg_equiv (Equiv.piCongrRight fun _ : υ => Equiv.mulRight y) _ (fun x : υ → Fˣ => avg fun u : Fˣ => avg fun h : Fˣ =>
    avg fun c : Fin (n * m) → P => avg fun b : Fin (n * m) → F =>
        f (c, unitEquiv G hG hgen y h, unitEquiv G hG hgen y u) x b h) fun t => rfl).trans ?_
  have e2 : ∀ x : υ → Fˣ, (avg fun u : Fˣ => avg fun h : Fˣ => avg fun c : Fin (n * m) → P => avg fun b : Fin (n * m) → F =>
        f (c, unitEquiv G hG hgen y h, unitEquiv G hG hgen y u) x b h) =
      avg fun c : Fin (n * m) → P => avg fun H : {X : P // X ≠ 0} => avg fun U : {X : P // X ≠ 0} => avg fun b : Fin (n * m) → F =>
        f (c, H, U) x b ((unitEquiv G hG hgen y).symm H) := by
    intro x
    rw [avg_equiv (unitEquiv G hG hgen y) _ (fun U : {X : P // X ≠ 0} => avg fun H : {X : P // X ≠ 0} =>
      avg fun c : Fin (n * m) → P => avg fun b : Fin (n * m) → F => f (c, H, U) x b ((unitEquiv G hG hgen y).symm H)) fun u => ?_]
    · rw [avg_comm]
      rw [show (fun H : {X : P // X ≠ 0} => avg fun U : {X : P // X ≠ 0} => avg fun c : Fin (n * m) → P =>
        avg fun b : Fin (n * m) → F => f (c, H, U) x b ((unitEquiv G hG hgen y).symm H)) =
        fun H : {X : P // X ≠ 0} => avg fun c : Fin (n * m) → P => avg fun U : {X : P // X ≠ 0} =>
        avg fun b : Fin (n * m) → F => f (c, H, U) x b ((unitEquiv G hG hgen y).symm H) from funext fun H => avg_comm _]
      rw [avg_comm]
    · exact avg_equiv (unitEquiv G hG hgen y) _ _ fun h => by rw [Equiv.symm_apply_apply]
  rw [show (fun x : υ → Fˣ => avg fun u : Fˣ => avg fun h : Fˣ => avg fun c : Fin (n * m) → P => avg fun b : Fin (n * m) → F =>
        f (c, unitEquiv G hG hgen y h, unitEquiv G hG hgen y u) x b h) = _ from funext e2]
  rw [avg_comm]
  refine congrArg avg (funext fun c => ?_)
  rw [avg_comm]
  refine congrArg avg (funext fun H => ?_)
  rw [avg_comm]

/-- What is set up from `Y = y • G` is what users with the signing keys `t i * y` publish. -/
theorem setup_publish {n m : ℕ} {υ : Type} (G : P) (hG : G ≠ 0) (y : Fˣ) (ρ : SetupCoins n m F υ) :
    setup G ⟨(y : F) • G, unit_smul_ne hG y⟩ ρ =
      publish G (setup G ⟨(y : F) • G, unit_smul_ne hG y⟩ ρ).gens fun i => ρ.t i * y := by
  have hy : (y : F) ≠ 0 := y.ne_zero
  rw [publish, setup]
  congr 1
  · funext i
    rw [smul_smul, Units.val_mul]
  · funext i
    have ht : (ρ.t i : F) ≠ 0 := (ρ.t i).ne_zero
    rw [smul_smul, smul_smul, Units.val_mul]
    congr 1
    field_simp

omit [DecidableEq F] [DecidableEq P] [Fintype F] [Fintype P] in
theorem smul_inj {G : P} (hG : G ≠ 0) {x y : F} (h : x • G = y • G) : x = y := by
  by_contra hne
  have h1 : (x - y) • G = 0 := by rw [sub_smul, sub_eq_zero]; exact h
  have h2 : ((x - y)⁻¹ * (x - y)) • G = 0 := by rw [mul_smul, h1, smul_zero]
  rw [inv_mul_cancel₀ (sub_ne_zero.2 hne), one_smul] at h2
  exact hG h2

theorem getD_ofFn {k : ℕ} (v : Fin k → P) (i : ℕ) : (List.ofFn v).getD i 0 = if h : i < k then v ⟨i, h⟩ else 0 := by
  rw [List.getD_eq_getElem?_getD, List.getElem?_ofFn]
  by_cases h : i < k
  · simp [h]
  · simp [h]

/-- A relation among the generators of `setup` in which `Y` occurs gives the discrete logarithm of `Y`. -/
theorem relationAnswer_eq {n m : ℕ} {υ : Type} (G : P) (hG : G ≠ 0) (y : Fˣ) (ρ : SetupCoins n m F υ) (z : ℕ → ℕ → F) (s : F)
    (h : commit n m (List.ofFn (setup G ⟨(y : F) • G, unit_smul_ne hG y⟩ ρ).gens.1)
      (setup G ⟨(y : F) • G, unit_smul_ne hG y⟩ ρ).gens.2.1.1 z s = 0) (ht : timesY ρ z s ≠ 0) : relationAnswer ρ z s = y := by
  have e : ∀ i, (List.ofFn (setup G ⟨(y : F) • G, unit_smul_ne hG y⟩ ρ).gens.1).getD i 0 =
      (padded ρ.a i + padded ρ.b i * y) • G := by
    intro i
    rw [getD_ofFn, padded, padded]
    split
    · show ρ.a _ • G + ρ.b _ • (y : F) • G = _
      rw [smul_smul, ← add_smul]
    · rw [zero_mul, add_zero, zero_smul]
  rw [commit] at h
  simp only [e] at h
  simp only [smul_smul, ← Finset.sum_smul] at h
  rw [show (setup G ⟨(y : F) • G, unit_smul_ne hG y⟩ ρ).gens.2.1.1 = ((ρ.h : F) * y) • G from smul_smul _ _ _, smul_smul, ← add_smul] at h
  have h1 := smul_inj hG (h.trans (zero_smul F G).symm)
  rw [relationAnswer, div_eq_iff ht, timesY]
  simp only [mul_add, sum_add_distrib] at h1
  have h2 : ∑ j ∈ range m, ∑ i ∈ range n, z j i * (padded ρ.b (j * n + i) * (y : F)) =
      (∑ j ∈ range m, ∑ i ∈ range n, z j i * padded ρ.b (j * n + i)) * y := by
    rw [sum_mul]
    refine sum_congr rfl fun j _ => ?_
    rw [sum_mul]
    exact sum_congr rfl fun i _ => by ring
  rw [h2] at h1
  linear_combination -h1

/-- A random linear form has a given value at coefficients that are not all zero with probability one over the size of the field. -/
theorem avg_form {n m : ℕ} (z : ℕ → ℕ → F) (j i : ℕ) (hj : j < m) (hi : i < n) (hz : z j i ≠ 0) (c : F) :
    (avg fun b : Fin (n * m) → F => ind (∑ j ∈ range m, ∑ i ∈ range n, z j i * padded b (j * n + i) + c = 0)) ≤ 1 / Fintype.card F := by
  have hk : j * n + i < n * m := by
    have : (j + 1) * n ≤ m * n := Nat.mul_le_mul_right n hj
    rw [Nat.add_mul, Nat.one_mul] at this
    rw [Nat.mul_comm n m]
    omega
  rw [avg_resample ⟨j * n + i, hk⟩]
  have h : ∀ b : Fin (n * m) → F, (avg fun v : F => ind (∑ j' ∈ range m, ∑ i' ∈ range n,
      z j' i' * padded (update b ⟨j * n + i, hk⟩ v) (j' * n + i') + c = 0)) ≤ 1 / Fintype.card F := by
    intro b
    rw [avg_ind']
    gcongr
    have h1 : #{v : F | ∑ j' ∈ range m, ∑ i' ∈ range n, z j' i' * padded (update b ⟨j * n + i, hk⟩ v) (j' * n + i') + c = 0} ≤ 1 := by
      refine card_le_one.2 fun v hv w hw => ?_
      rw [mem_filter] at hv hw
      have h3 := sub_eq_zero.2 (hv.2.trans hw.2.symm)
      rw [add_sub_add_right_eq_sub, ← sum_sub_distrib] at h3
      simp only [← sum_sub_distrib, ← mul_sub] at h3
      have h4 : ∀ j' ∈ range m, ∀ i' ∈ range n, (j' = j ∧ i' = i → padded (update b ⟨j * n + i, hk⟩ v) (j' * n + i') -
          padded (update b ⟨j * n + i, hk⟩ w) (j' * n + i') = v - w) ∧ (¬ (j' = j ∧ i' = i) →
          padded (update b ⟨j * n + i, hk⟩ v) (j' * n + i') - padded (update b ⟨j * n + i, hk⟩ w) (j' * n + i') = 0) := by
        intro j' hj' i' hi'
        rw [mem_range] at hj' hi'
        have hk' : j' * n + i' < n * m := by
          have : (j' + 1) * n ≤ m * n := Nat.mul_le_mul_right n hj'
          rw [Nat.add_mul, Nat.one_mul] at this
          rw [Nat.mul_comm n m]
          omega
        rw [padded, padded, dif_pos hk', dif_pos hk']
        constructor
        · rintro ⟨rfl, rfl⟩
          rw [update_self, update_self]
        · intro hne
          have hne' : (⟨j' * n + i', hk'⟩ : Fin (n * m)) ≠ ⟨j * n + i, hk⟩ := by
            intro h5
            have h6 : j' * n + i' = j * n + i := congrArg Fin.val h5
            have hn : 0 < n := by omega
            have h7 := congrArg (· / n) h6
            have h8 := congrArg (· % n) h6
            simp only [Nat.mul_add_mod', Nat.mod_eq_of_lt hi', Nat.mod_eq_of_lt hi] at h8
            rw [h8] at h6
            have h9 : j' * n = j * n := by omega
            exact hne ⟨Nat.eq_of_mul_eq_mul_right hn h9, h8⟩
          rw [update_of_ne hne', update_of_ne hne', sub_self]
      rw [sum_eq_single j, sum_eq_single i] at h3
      · rw [(h4 j (mem_range.2 hj) i (mem_range.2 hi)).1 ⟨rfl, rfl⟩] at h3
        exact sub_eq_zero.1 ((mul_eq_zero.1 h3).resolve_left hz)
      · intro i' hi' hne
        rw [(h4 j (mem_range.2 hj) i' hi').2 fun h => hne h.2, mul_zero]
      · intro h; exact absurd (mem_range.2 hi) h
      · intro j' hj' hne
        exact sum_eq_zero fun i' hi' => by rw [(h4 j' hj' i' hi').2 fun h => hne h.1, mul_zero]
      · intro h; exact absurd (mem_range.2 hj) h
    exact_mod_cast h1
  exact (avg_mono _ _ h).trans (avg_const _).le

/-- Whatever gives a discrete logarithm directly, or from a relation among the generators in which `Y` occurs, does so, if the
generators and users' keys are set up from `Y`, as often as if they are drawn at random, but for one over the size of the field. -/
theorem dlog_setup {n m : ℕ} {υ Ω : Type} [Fintype υ] [DecidableEq υ] [Fintype Ω] (G : P) (hG : G ≠ 0)
    (hgen : ∀ X : P, ∃ x : F, x • G = X) (yields : Generators n m P → (υ → Fˣ) → Ω → Prop)
    (solved : {Y : P // Y ≠ 0} → SetupCoins n m F υ → Ω → Prop)
    (h : ∀ g x ω, yields g x ω →
      (∀ (y : Fˣ) ρ, (setup G ⟨(y : F) • G, unit_smul_ne hG y⟩ ρ).gens = g → (fun i => ρ.t i * y) = x →
        solved ⟨(y : F) • G, unit_smul_ne hG y⟩ ρ ω) ∨
      ∃ (z : ℕ → ℕ → F) (s : F), Relation n m (List.ofFn g.1) g.2.1.1 z s ∧
        ∀ (y : Fˣ) ρ, (setup G ⟨(y : F) • G, unit_smul_ne hG y⟩ ρ).gens = g → (fun i => ρ.t i * y) = x → timesY ρ z s ≠ 0 →
          solved ⟨(y : F) • G, unit_smul_ne hG y⟩ ρ ω) :
    (avg fun g : Generators n m P => avg fun x : υ → Fˣ => avg fun ω : Ω => ind (yields g x ω)) ≤
      1 / Fintype.card F +
      avg fun y : Fˣ => avg fun ρ : SetupCoins n m F υ => avg fun ω : Ω => ind (solved ⟨(y : F) • G, unit_smul_ne hG y⟩ ρ ω) := by
  classical
  have hex : ∀ g x ω, ∃ zs : (ℕ → ℕ → F) × F, yields g x ω →
      (∀ (y : Fˣ) ρ, (setup G ⟨(y : F) • G, unit_smul_ne hG y⟩ ρ).gens = g → (fun i => ρ.t i * y) = x →
        solved ⟨(y : F) • G, unit_smul_ne hG y⟩ ρ ω) ∨
      (Relation n m (List.ofFn g.1) g.2.1.1 zs.1 zs.2 ∧
        ∀ (y : Fˣ) ρ, (setup G ⟨(y : F) • G, unit_smul_ne hG y⟩ ρ).gens = g → (fun i => ρ.t i * y) = x → timesY ρ zs.1 zs.2 ≠ 0 →
          solved ⟨(y : F) • G, unit_smul_ne hG y⟩ ρ ω) := by
    intro g x ω
    by_cases hy : yields g x ω
    · rcases h g x ω hy with h1 | ⟨z, s, h1⟩
      · exact ⟨(0, 0), fun _ => Or.inl h1⟩
      · exact ⟨(z, s), fun _ => Or.inr h1⟩
    · exact ⟨(0, 0), fun h1 => absurd h1 hy⟩
  choose zs hzs using hex
  rw [← avg_const (α := Fˣ) (avg fun g : Generators n m P => avg fun x : υ → Fˣ => avg fun ω : Ω => ind (yields g x ω)),
    ← avg_const (α := Fˣ) (1 / (Fintype.card F : ℚ)), ← avg_add]
  refine avg_mono _ _ fun y => ?_
  have h1 := avg_setup (n := n) (m := m) (υ := υ) G hG hgen y fun g x _ _ => avg fun ω : Ω => ind (yields g x ω)
  simp only [avg_const] at h1
  rw [← h1]
  have h2 := avg_setup (n := n) (m := m) (υ := υ) G hG hgen y fun g x b c => avg fun ω : Ω =>
    ind (Relation n m (List.ofFn g.1) g.2.1.1 (zs g x ω).1 (zs g x ω).2 ∧
      ∑ j ∈ range m, ∑ i ∈ range n, (zs g x ω).1 j i * padded b (j * n + i) + (zs g x ω).2 * c = 0)
  have h3 : (avg fun g : Generators n m P => avg fun x : υ → Fˣ => avg fun b : Fin (n * m) → F => avg fun ω : Ω =>
      ind (Relation n m (List.ofFn g.1) g.2.1.1 (zs g x ω).1 (zs g x ω).2 ∧
        ∑ j ∈ range m, ∑ i ∈ range n, (zs g x ω).1 j i * padded b (j * n + i) +
          (zs g x ω).2 * ((unitEquiv G hG hgen y).symm g.2.1 : Fˣ) = 0)) ≤ 1 / Fintype.card F := by
    have hnn : (0 : ℚ) ≤ 1 / Fintype.card F := by positivity
    have hle : ∀ {A : Type} [Fintype A] (f : A → ℚ), (∀ a, f a ≤ 1 / Fintype.card F) → avg f ≤ 1 / Fintype.card F := by
      intro A _ f hf
      cases isEmpty_or_nonempty A
      · rw [avg, Finset.univ_eq_empty, Finset.sum_empty, zero_div]; exact hnn
      · exact (avg_mono _ _ hf).trans (avg_const _).le
    refine hle _ fun g => hle _ fun x => ?_
    rw [avg_comm]
    refine hle _ fun ω => ?_
    by_cases hr : Relation n m (List.ofFn g.1) g.2.1.1 (zs g x ω).1 (zs g x ω).2
    · simp only [hr, true_and]
      by_cases hz : ∃ j < m, ∃ i < n, (zs g x ω).1 j i ≠ 0
      · obtain ⟨j, hj, i, hi, hz⟩ := hz
        exact avg_form _ j i hj hi hz _
      · exfalso
        push Not at hz
        have hc := hr.1
        rw [commit, sum_eq_zero fun j hj => sum_eq_zero fun i hi => by
          rw [hz j (mem_range.1 hj) i (mem_range.1 hi), zero_smul], zero_add] at hc
        rcases hr.2 with ⟨j, hj, i, hi, h4⟩ | h4
        · exact h4 (hz j hj i hi)
        · exact unit_smul_ne g.2.1.2 (Units.mk0 _ h4) hc
    · simp only [hr, false_and, ind_neg not_false]
      exact hle _ fun _ => hnn
  refine le_trans ?_ (add_le_add_left (h2.trans_le h3) _)
  rw [add_comm, ← avg_add]
  refine avg_mono _ _ fun ρ => ?_
  rw [← avg_add]
  refine avg_mono _ _ fun ω => ?_
  have key : ∀ a b c : Prop, (a → b ∨ c) → ind a ≤ ind b + ind c := by
    intro a b c habc
    by_cases ha : a
    · rw [ind_pos ha]
      rcases habc ha with hb | hc
      · rw [ind_pos hb]; exact le_add_of_nonneg_right (ind_nonneg _)
      · rw [ind_pos hc]; exact le_add_of_nonneg_left (ind_nonneg _)
    · rw [ind_neg ha]; exact add_nonneg (ind_nonneg _) (ind_nonneg _)
  refine key _ _ _ fun hy => ?_
  rcases hzs _ _ _ hy with h4 | ⟨h4, h5⟩
  · exact Or.inl (h4 y ρ rfl rfl)
  · by_cases h6 : timesY ρ (zs (setup G ⟨(y : F) • G, unit_smul_ne hG y⟩ ρ).gens (fun i => ρ.t i * y) ω).1
        (zs (setup G ⟨(y : F) • G, unit_smul_ne hG y⟩ ρ).gens (fun i => ρ.t i * y) ω).2 = 0
    · exact Or.inr ⟨h4, h6⟩
    · exact Or.inl (h5 y ρ rfl rfl h6)

end Triptych
