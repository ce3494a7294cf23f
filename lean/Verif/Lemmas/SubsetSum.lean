import Verif.Lemmas.KnownWeights
import Verif.Lemmas.Rewind

/-! # Lemmas: subset sums with random coefficients, collisions of random functions

Both by the second-moment method: if pairwise independent events are expected to happen often, one of them happens. -/
set_option autoImplicit false
set_option linter.unusedSectionVars false
set_option linter.unusedVariables false

namespace Triptych
open Spec Finset Function

theorem avg_resample {ι β : Type} [DecidableEq ι] [Fintype ι] [Fintype β] [Nonempty β] (s : ι) (f : (ι → β) → ℚ) :
    avg f = avg fun O : ι → β => avg fun b : β => f (update O s b) := by
  rw [avg_update s, avg_comm]

theorem avg_resample₂ {ι β : Type} [DecidableEq ι] [Fintype ι] [Fintype β] [Nonempty β] (s s' : ι) (f : (ι → β) → ℚ) :
    avg f = avg fun O : ι → β => avg fun x : β => avg fun y : β => f (update (update O s x) s' y) := by
  rw [avg_resample s', avg_resample s]

theorem avg_mul_right {α : Type} [Fintype α] (f : α → ℚ) (c : ℚ) : (avg fun a => f a * c) = avg f * c := by
  simp only [avg, ← sum_mul, div_mul_eq_mul_div]

theorem avg_mul_left {α : Type} [Fintype α] (c : ℚ) (f : α → ℚ) : (avg fun a => c * f a) = c * avg f := by
  simp only [avg, ← mul_sum, mul_div_assoc]

/-- The second-moment method. -/
theorem second_moment {Ω B : Type} [Fintype Ω] [Nonempty Ω] [Fintype B] [Nonempty B] (A : B → Ω → Prop) (q μ : ℚ) (hq : 0 < q)
    (h1 : ∀ b, q ≤ avg fun ω => ind (A b ω)) (h2 : ∀ b b', b ≠ b' → (avg fun ω => ind (A b ω ∧ A b' ω)) ≤ μ ^ 2) :
    (avg fun ω => ind (∀ b, ¬ A b ω)) ≤ 1 / (Fintype.card B * q) + (μ / q) ^ 2 - 1 := by
  classical
  obtain ⟨N, hN⟩ : ∃ N : Ω → ℚ, N = fun ω => ∑ b, ind (A b ω) := ⟨_, rfl⟩
  obtain ⟨X, hX⟩ : ∃ X : ℚ, X = avg N := ⟨_, rfl⟩
  have hB : (0 : ℚ) < Fintype.card B := by exact_mod_cast Fintype.card_pos
  have hXs : X = ∑ b, avg fun ω => ind (A b ω) := by rw [hX, hN, avg_sum']
  have hXq : Fintype.card B * q ≤ X := by
    rw [hXs, ← nsmul_eq_mul, ← Finset.card_univ]
    exact card_nsmul_le_sum _ _ _ fun b _ => h1 b
  have hX0 : 0 < X := lt_of_lt_of_le (mul_pos hB hq) hXq
  have hmul : ∀ p p' : Prop, ind p * ind p' = ind (p ∧ p') := by
    intro p p'
    by_cases hp : p <;> by_cases hp' : p' <;> simp [ind, hp, hp']
  have hN2 : (avg fun ω => N ω ^ 2) ≤ X + (Fintype.card B * μ) ^ 2 := by
    have e : (fun ω => N ω ^ 2) = fun ω => ∑ b, ∑ b', ind (A b ω ∧ A b' ω) := by
      funext ω
      rw [hN, sq, sum_mul_sum]
      simp only [hmul]
    rw [e, avg_sum']
    simp only [avg_sum']
    have h3 : ∀ b, (∑ b', avg fun ω => ind (A b ω ∧ A b' ω)) ≤ (avg fun ω => ind (A b ω)) + Fintype.card B * μ ^ 2 := by
      intro b
      rw [← add_sum_erase _ _ (mem_univ b)]
      refine add_le_add (le_of_eq (by simp only [and_self])) ?_
      refine (sum_le_card_nsmul _ _ (μ ^ 2) fun b' hb' => h2 b b' (ne_of_mem_erase hb').symm).trans ?_
      rw [nsmul_eq_mul]
      refine mul_le_mul_of_nonneg_right ?_ (sq_nonneg _)
      exact_mod_cast (card_erase_le).trans (le_of_eq Finset.card_univ)
    refine (sum_le_sum fun b _ => h3 b).trans ?_
    rw [sum_add_distrib, ← hXs, sum_const, nsmul_eq_mul, Finset.card_univ]
    exact le_of_eq (by ring)
  have hP : (avg fun ω => ind (∀ b, ¬ A b ω)) * X ^ 2 ≤ (avg fun ω => N ω ^ 2) - X ^ 2 := by
    have h4 : (avg fun ω => ind (∀ b, ¬ A b ω) * X ^ 2) ≤ avg fun ω => N ω ^ 2 + (-(2 * X) * N ω + X ^ 2) := by
      refine avg_mono _ _ fun ω => ?_
      by_cases h : ∀ b, ¬ A b ω
      · have : N ω = 0 := by
          rw [hN]
          exact sum_eq_zero fun b _ => ind_neg (h b)
        rw [ind_pos h, this]
        linarith
      · rw [ind_neg h]
        nlinarith [sq_nonneg (N ω - X)]
    have e1 : (avg fun ω => ind (∀ b, ¬ A b ω) * X ^ 2) = (avg fun ω => ind (∀ b, ¬ A b ω)) * X ^ 2 := by
      simp only [avg, ← sum_mul, div_mul_eq_mul_div]
    have e2 : (avg fun ω => -(2 * X) * N ω) = -(2 * X) * X := by
      rw [hX]
      simp only [avg, ← mul_sum, mul_div_assoc]
    rw [e1, avg_add, avg_add, avg_const, e2] at h4
    linarith
  have h5 : (avg fun ω => ind (∀ b, ¬ A b ω)) ≤ (X + (Fintype.card B * μ) ^ 2 - X ^ 2) / X ^ 2 := by
    rw [le_div_iff₀ (by positivity)]
    linarith
  refine h5.trans ?_
  have e6 : (X + (Fintype.card B * μ) ^ 2 - X ^ 2) / X ^ 2 = 1 / X + (Fintype.card B * μ / X) ^ 2 - 1 := by
    field_simp
  rw [e6]
  have h7 : 1 / X ≤ 1 / (Fintype.card B * q) := one_div_le_one_div_of_le (mul_pos hB hq) hXq
  have h8 : (Fintype.card B * μ / X) ^ 2 ≤ (μ / q) ^ 2 := by
    rw [div_pow, div_pow, div_le_div_iff₀ (by positivity) (by positivity)]
    calc (Fintype.card B * μ) ^ 2 * q ^ 2 = μ ^ 2 * (Fintype.card B * q) ^ 2 := by ring
      _ ≤ μ ^ 2 * X ^ 2 := by gcongr
  linarith

section Sums
variable {F R : Type} [Field F] [DecidableEq F] [Fintype R] [Nonempty R] [DecidableEq R]

/-- One of the `2 ^ k` sums of random values with given coefficients, two for each value but the first, vanishes. -/
theorem subset_sum (val : R → F) (D a K : ℕ) (hD : Fintype.card R = D) (ha : 0 < a) (hlow : ∀ x, a ≤ #{r | val r = x})
    (hhigh : ∀ x, #{r | val r = x} ≤ K) (k : ℕ) (c0 : F) (hc0 : c0 ≠ 0) (c : Fin k → Bool → F) (hc : ∀ i, c i false ≠ c i true)
    (t : F) :
    (avg fun v : Fin (k + 1) → R => ind (∀ b : Fin k → Bool, c0 * val (v 0) + ∑ i, c i (b i) * val (v i.succ) + t ≠ 0)) ≤
      D / (2 ^ k * a) + (K / a : ℚ) ^ 2 - 1 := by
  have hD0 : (0 : ℚ) < D := by rw [← hD]; exact_mod_cast Fintype.card_pos
  have ha0 : (0 : ℚ) < a := by exact_mod_cast ha
  have hs := second_moment (Ω := Fin (k + 1) → R) (B := Fin k → Bool)
    (fun b v => c0 * val (v 0) + ∑ i, c i (b i) * val (v i.succ) + t = 0) (a / D) (K / D) (by positivity) ?_ ?_
  · refine hs.trans (le_of_eq ?_)
    rw [Fintype.card_fun, Fintype.card_bool, Fintype.card_fin]
    push_cast
    rw [div_div_div_cancel_right₀ hD0.ne']
    congr 2
    field_simp
  · intro b
    rw [avg_resample (0 : Fin (k + 1))]
    refine le_trans (le_of_eq (avg_const (α := Fin (k + 1) → R) _).symm) (avg_mono _ _ fun v => ?_)
    have e : ∀ r, (c0 * val (update v 0 r 0) + ∑ i, c i (b i) * val (update v 0 r i.succ) + t = 0) ↔
        val r = -(c0⁻¹ * (∑ i, c i (b i) * val (v i.succ) + t)) := by
      intro r
      have : ∀ i : Fin k, update v 0 r i.succ = v i.succ := fun i => update_of_ne (Fin.succ_ne_zero i) _ _
      simp only [update_self, this]
      constructor
      · intro h
        field_simp
        linear_combination h
      · intro h
        rw [h]
        field_simp
        ring
    simp only [e]
    rw [avg_ind', hD]
    gcongr
    exact hlow _
  · intro b b' hb
    obtain ⟨i, hi⟩ := Function.ne_iff.1 hb
    have hval : ∀ x : F, (avg fun r : R => ind (val r = x)) ≤ K / D := by
      intro x
      rw [avg_ind', hD]
      gcongr
      exact hhigh _
    rw [avg_resample₂ (0 : Fin (k + 1)) i.succ]
    refine le_trans (avg_mono _ _ fun v => ?_) (le_of_eq (avg_const (α := Fin (k + 1) → R) _))
    have h0 : ∀ (x y : R) (i : Fin k), update (update v 0 x) i.succ y 0 = x := fun x y i => by
      rw [update_of_ne (Fin.succ_ne_zero i).symm, update_self]
    have hj : ∀ (x y : R) (j : Fin k), update (update v 0 x) i.succ y j.succ = if j = i then y else v j.succ := fun x y j => by
      by_cases h : j = i
      · subst h
        rw [update_self, if_pos rfl]
      · rw [update_of_ne (by simpa using h), update_of_ne (Fin.succ_ne_zero j), if_neg h]
    have hne : c i (b i) - c i (b' i) ≠ 0 := by
      rw [sub_ne_zero]
      have := hc i
      cases h1 : b i <;> cases h2 : b' i <;> rw [h1, h2] at hi
      · exact absurd rfl hi
      · exact this
      · exact this.symm
      · exact absurd rfl hi
    have hS : ∀ (b : Fin k → Bool) (x y : R), (∑ j, c j (b j) * val (update (update v 0 x) i.succ y j.succ)) =
        c i (b i) * val y + ∑ j ∈ univ.erase i, c j (b j) * val (v j.succ) := by
      intro b x y
      rw [← add_sum_erase _ _ (mem_univ i), hj, if_pos rfl]
      congr 1
      refine sum_congr rfl fun j hj' => ?_
      rw [hj, if_neg (ne_of_mem_erase hj')]
    simp only [h0, hS]
    generalize (∑ j ∈ univ.erase i, c j (b j) * val (v j.succ)) = s
    generalize (∑ j ∈ univ.erase i, c j (b' j) * val (v j.succ)) = s'
    have hcomm : (avg fun x : R => avg fun y : R => ind (c0 * val x + (c i (b i) * val y + s) + t = 0 ∧
          c0 * val x + (c i (b' i) * val y + s') + t = 0)) ≤
        avg fun x : R => avg fun y : R => ind (val y = (s' - s) / (c i (b i) - c i (b' i))) *
          ind (val x = -(c0⁻¹ * (c i (b i) * ((s' - s) / (c i (b i) - c i (b' i))) + s + t))) := by
      refine avg_mono _ _ fun x => avg_mono _ _ fun y => ?_
      by_cases h : c0 * val x + (c i (b i) * val y + s) + t = 0 ∧ c0 * val x + (c i (b' i) * val y + s') + t = 0
      · obtain ⟨h1, h2⟩ := h
        have h3 : val y = (s' - s) / (c i (b i) - c i (b' i)) := by
          rw [eq_div_iff hne]
          linear_combination h1 - h2
        have h4 : val x = -(c0⁻¹ * (c i (b i) * ((s' - s) / (c i (b i) - c i (b' i))) + s + t)) := by
          rw [← h3]
          field_simp
          linear_combination h1
        rw [ind_pos ⟨h1, h2⟩, ind_pos h3, ind_pos h4, mul_one]
      · rw [ind_neg h]
        exact mul_nonneg (ind_nonneg _) (ind_nonneg _)
    refine hcomm.trans ?_
    generalize (s' - s) / (c i (b i) - c i (b' i)) = y0
    generalize -(c0⁻¹ * (c i (b i) * y0 + s + t)) = x0
    have e : (avg fun x : R => avg fun y : R => ind (val y = y0) * ind (val x = x0)) =
        (avg fun y : R => ind (val y = y0)) * avg fun x : R => ind (val x = x0) := by
      simp only [avg_mul_right, avg_mul_left]
    rw [e, sq]
    exact mul_le_mul (hval _) (hval _) (avg_nonneg _ fun _ => ind_nonneg _) (by positivity)

/-- Averaging over several coordinates. -/
theorem avg_extend {ι κ β : Type} [DecidableEq ι] [Fintype ι] [DecidableEq κ] [Fintype κ] [Fintype β] [Nonempty β] (g : κ → ι)
    (hg : Injective g) (f : (ι → β) → ℚ) : avg f = avg fun u : ι → β => avg fun v : κ → β => f (extend g v u) := by
  have e1 : ∀ (u : ι → β) (v : κ → β), extend g (u ∘ g) (extend g v u) = u := by
    intro u v
    funext i
    by_cases h : ∃ j, g j = i
    · obtain ⟨j, rfl⟩ := h
      rw [hg.extend_apply, comp_apply]
    · rw [extend_apply' _ _ _ h, extend_apply' _ _ _ h]
  have e2 : ∀ (u : ι → β) (v : κ → β), extend g v u ∘ g = v := fun u v => funext fun j => hg.extend_apply _ _ _
  have h : ∑ x : (ι → β) × (κ → β), f x.1 = ∑ x : (ι → β) × (κ → β), f (extend g x.2 x.1) := by
    refine Finset.sum_nbij' (fun x => (extend g x.2 x.1, x.1 ∘ g)) (fun x => (extend g x.2 x.1, x.1 ∘ g)) ?_ ?_ ?_ ?_ ?_
    · intro x _; exact mem_univ _
    · intro x _; exact mem_univ _
    · intro x _; exact Prod.ext (e1 _ _) (e2 _ _)
    · intro x _; exact Prod.ext (e1 _ _) (e2 _ _)
    · intro x _; exact congrArg f (e1 _ _).symm
  have h1 : avg (fun x : (ι → β) × (κ → β) => f x.1) = avg fun x : (ι → β) × (κ → β) => f (extend g x.2 x.1) := by
    rw [avg, avg, h]
  rw [avg_prod, avg_prod] at h1
  simp only [avg_const] at h1
  exact h1

/-- The contribution of class `d` to sum `e`, for the choices `b` of this class. -/
def classSum {k E : ℕ} {ι : Type} (val : R → F) (s : Fin E → Fin (k + 1) → Fin E → ι) (c : Fin E → Fin E → F)
    (α : Fin E → Fin k → Bool → Fin E → F) (u : ι → R) (d e : Fin E) (b : Fin k → Bool) : F :=
  c d e * val (u (s d 0 e)) + ∑ i, α d i (b i) e * val (u (s d i.succ e))

/-- Several sums at once, with a class of random values and choices for each of them; a class does not contribute to earlier sums. -/
theorem subset_sums {ι : Type} [DecidableEq ι] [Fintype ι] (val : R → F) (D a K : ℕ) (hD : Fintype.card R = D) (ha : 0 < a)
    (hlow : ∀ x, a ≤ #{r | val r = x}) (hhigh : ∀ x, #{r | val r = x} ≤ K) (k E : ℕ) (s : Fin E → Fin (k + 1) → Fin E → ι)
    (hs : ∀ d i e d' i' e', s d i e = s d' i' e' → d = d' ∧ i = i' ∧ e = e') (c : Fin E → Fin E → F)
    (α : Fin E → Fin k → Bool → Fin E → F) (hc0 : ∀ d e, e < d → c d e = 0) (hα0 : ∀ d i b e, e < d → α d i b e = 0)
    (hc : ∀ e, c e e ≠ 0) (hα : ∀ e i, α e i false e ≠ α e i true e) :
    (avg fun u : ι → R => ind (¬ ∃ b : Fin E → Fin k → Bool, ∀ e, ∑ d, classSum val s c α u d e (b d) = 0)) ≤
      E * (D / (2 ^ k * a) + (K / a : ℚ) ^ 2 - 1) := by
  have key : ∀ m ≤ E, (avg fun u : ι → R => ind (¬ ∃ b : Fin E → Fin k → Bool, ∀ e : Fin E, e.val < m →
      ∑ d, classSum val s c α u d e (b d) = 0)) ≤ m * (D / (2 ^ k * a) + (K / a : ℚ) ^ 2 - 1) := by
    intro m
    induction m with
    | zero =>
      intro _
      have : ∀ u : ι → R, ind (¬ ∃ b : Fin E → Fin k → Bool, ∀ e : Fin E, e.val < 0 → ∑ d, classSum val s c α u d e (b d) = 0) = 0 :=
        fun u => ind_neg fun h => h ⟨fun _ _ => false, fun e he => absurd he (Nat.not_lt_zero _)⟩
      simp only [this]
      rw [avg_const, Nat.cast_zero, zero_mul]
    | succ m ih =>
      intro hm
      obtain ⟨μ, hμ⟩ : ∃ μ : Fin E, μ.val = m := ⟨⟨m, hm⟩, rfl⟩
      have hg : Injective fun i => s μ i μ := fun i j h => (hs _ _ _ _ _ _ h).2.1
      have hstep : ∀ u : ι → R, (avg fun v : Fin (k + 1) → R => ind (¬ ∃ b : Fin E → Fin k → Bool, ∀ e : Fin E, e.val < m + 1 →
          ∑ d, classSum val s c α (extend (fun i => s μ i μ) v u) d e (b d) = 0)) ≤
          ind (¬ ∃ b : Fin E → Fin k → Bool, ∀ e : Fin E, e.val < m → ∑ d, classSum val s c α u d e (b d) = 0) +
            (D / (2 ^ k * a) + (K / a : ℚ) ^ 2 - 1) := by
        intro u
        by_cases hu : ∃ b : Fin E → Fin k → Bool, ∀ e : Fin E, e.val < m → ∑ d, classSum val s c α u d e (b d) = 0
        · rw [ind_neg (not_not.2 hu), zero_add]
          obtain ⟨b, hb⟩ := hu
          refine le_trans (avg_mono _ _ fun v => ind_mono ?_) (subset_sum val D a K hD ha hlow hhigh k (c μ μ) (hc μ)
            (fun i x => α μ i x μ) (hα μ) (∑ d ∈ univ.erase μ, classSum val s c α u d μ (b d)))
          intro hno b' h0
          refine hno ⟨update b μ b', fun e he => ?_⟩
          have hother : ∀ d e b', (d ≠ μ ∨ e ≠ μ) → classSum val s c α (extend (fun i => s μ i μ) v u) d e b' =
              classSum val s c α u d e b' := by
            intro d e b' hde
            have hne : ∀ i, extend (fun i => s μ i μ) v u (s d i e) = u (s d i e) := by
              intro i
              refine extend_apply' _ _ _ ?_
              rintro ⟨j, hj⟩
              obtain ⟨h1, -, h2⟩ := hs _ _ _ _ _ _ hj
              rcases hde with h | h
              · exact h h1.symm
              · exact h h2.symm
            simp only [classSum, hne]
          rw [← add_sum_erase _ _ (mem_univ μ), update_self]
          by_cases hem : e = μ
          · subst hem
            rw [← h0, classSum, hg.extend_apply v u 0]
            congr 1
            · congr 1
              exact sum_congr rfl fun i _ => by rw [hg.extend_apply v u i.succ]
            · refine sum_congr rfl fun d hd => ?_
              rw [hother _ _ _ (Or.inl (ne_of_mem_erase hd)), update_of_ne (ne_of_mem_erase hd)]
          · have hlt : e.val < m := lt_of_le_of_ne (Nat.lt_succ_iff.1 he) fun h => hem (Fin.ext (h.trans hμ.symm))
            have hlt' : e < μ := by rw [Fin.lt_def, hμ]; exact hlt
            have hz : ∀ (w : ι → R) b', classSum val s c α w μ e b' = 0 := by
              intro w b'
              rw [classSum, hc0 _ _ hlt', zero_mul, zero_add]
              exact sum_eq_zero fun i _ => by rw [hα0 _ _ _ _ hlt', zero_mul]
            have := hb e hlt
            rw [← add_sum_erase _ _ (mem_univ μ), hz, zero_add] at this
            rw [hz, zero_add, ← this]
            refine sum_congr rfl fun d hd => ?_
            rw [hother _ _ _ (Or.inl (ne_of_mem_erase hd)), update_of_ne (ne_of_mem_erase hd)]
        · rw [ind_pos hu]
          have hη : (0 : ℚ) ≤ D / (2 ^ k * a) + (K / a : ℚ) ^ 2 - 1 :=
            le_trans (avg_nonneg _ fun v => ind_nonneg _) (subset_sum val D a K hD ha hlow hhigh k (c μ μ) (hc μ)
              (fun i x => α μ i x μ) (hα μ) 0)
          exact (avg_le_one _ fun v => ind_le_one _).trans (le_add_of_nonneg_right hη)
      rw [avg_extend _ hg]
      refine (avg_mono _ _ fun u => hstep u).trans ?_
      rw [avg_add, avg_const]
      have := ih (Nat.le_of_succ_le hm)
      push_cast
      linarith
  refine le_trans (avg_mono _ _ fun u => ind_mono ?_) (key E le_rfl)
  intro h h'
  obtain ⟨b, hb⟩ := h'
  exact h ⟨b, fun e => hb e e.2⟩

end Sums

section Collisions
variable {A X : Type} [DecidableEq A] [Fintype A] [DecidableEq X] [Fintype X] [Nonempty X]

/-- A random function takes a common value on two sets of `N` points, unless `N` is small. -/
theorem collision (N : ℕ) (hN : 0 < N) (a : Bool → Fin N → A) (ha : ∀ b i b' i', a b i = a b' i' → b = b' ∧ i = i') :
    (avg fun H : A → X => ind (∀ i j, H (a false i) ≠ H (a true j))) ≤ Fintype.card X / (N : ℚ) ^ 2 := by
  have hX : (0 : ℚ) < Fintype.card X := by exact_mod_cast Fintype.card_pos
  have hone : ∀ x : X, (avg fun y : X => ind (y = x)) = 1 / Fintype.card X := by
    intro x
    rw [avg_ind']
    rw [filter_eq' univ x, if_pos (mem_univ x), card_singleton, Nat.cast_one]
  have hprod : ∀ x y : X, (avg fun x' : X => avg fun y' : X => ind (x' = x ∧ y' = y)) = (1 / Fintype.card X) ^ 2 := by
    intro x y
    have hmul : ∀ p p' : Prop, ind (p ∧ p') = ind p * ind p' := by
      intro p p'
      by_cases hp : p <;> by_cases hp' : p' <;> simp [ind, hp, hp']
    have e : (avg fun x' : X => avg fun y' : X => ind (x' = x ∧ y' = y)) =
        (avg fun x' : X => ind (x' = x)) * avg fun y' : X => ind (y' = y) := by
      simp only [hmul, avg_mul_right, avg_mul_left]
    rw [e, hone, hone, sq]
  have : Nonempty (Fin N) := ⟨⟨0, hN⟩⟩
  have hs := second_moment (Ω := A → X) (B := Fin N × Fin N) (fun b H => H (a false b.1) = H (a true b.2))
    (1 / Fintype.card X) (1 / Fintype.card X) (by positivity) ?_ ?_
  · refine le_trans (le_of_eq ?_) (hs.trans (le_of_eq ?_))
    · congr 1
      funext H
      congr 1
      rw [eq_iff_iff]
      exact ⟨fun h b => h b.1 b.2, fun h i j => h (i, j)⟩
    · rw [div_self (by positivity), Fintype.card_prod, Fintype.card_fin]
      push_cast
      field_simp
      ring
  · intro b
    rw [avg_resample (a false b.1)]
    refine le_trans (le_of_eq (avg_const (α := A → X) _).symm) (avg_mono _ _ fun H => le_of_eq ?_)
    have hne : a true b.2 ≠ a false b.1 := fun h => by simpa using (ha _ _ _ _ h).1
    simp only [update_self, update_of_ne hne]
    exact (hone _).symm
  · rintro ⟨i, j⟩ ⟨i', j'⟩ hb
    simp only
    by_cases hi : i = i'
    · have hj : j ≠ j' := fun h => hb (by rw [hi, h])
      have n1 : ∀ i j, a false i ≠ a true j := fun i j h => by simpa using (ha _ _ _ _ h).1
      have n2 : a true j ≠ a true j' := fun h => hj (ha _ _ _ _ h).2
      rw [avg_resample₂ (a true j') (a true j)]
      refine le_trans (avg_mono _ _ fun H => le_of_eq ?_) (le_of_eq (avg_const (α := A → X) _))
      have : ∀ x y : X, ind (update (update H (a true j') x) (a true j) y (a false i) = update (update H (a true j') x) (a true j) y (a true j) ∧
          update (update H (a true j') x) (a true j) y (a false i') = update (update H (a true j') x) (a true j) y (a true j')) =
          ind (x = H (a false i') ∧ y = H (a false i)) := by
        intro x y
        rw [update_of_ne (n1 _ _), update_of_ne (n1 _ _), update_of_ne (n1 _ _), update_of_ne (n1 _ _), update_self,
          update_of_ne n2.symm, update_self]
        congr 1
        rw [eq_iff_iff]
        exact ⟨fun h => ⟨h.2.symm, h.1.symm⟩, fun h => ⟨h.2.symm, h.1.symm⟩⟩
      simp only [this]
      exact hprod _ _
    · have n1 : ∀ i j, a true j ≠ a false i := fun i j h => by simpa using (ha _ _ _ _ h).1
      have n2 : a false i ≠ a false i' := fun h => hi (ha _ _ _ _ h).2
      rw [avg_resample₂ (a false i') (a false i)]
      refine le_trans (avg_mono _ _ fun H => le_of_eq ?_) (le_of_eq (avg_const (α := A → X) _))
      have : ∀ x y : X, ind (update (update H (a false i') x) (a false i) y (a false i) = update (update H (a false i') x) (a false i) y (a true j) ∧
          update (update H (a false i') x) (a false i) y (a false i') = update (update H (a false i') x) (a false i) y (a true j')) =
          ind (x = H (a true j') ∧ y = H (a true j)) := by
        intro x y
        rw [update_of_ne (n1 _ _), update_of_ne (n1 _ _), update_of_ne (n1 _ _), update_of_ne (n1 _ _), update_self,
          update_of_ne n2.symm, update_self]
        congr 1
        rw [eq_iff_iff]
        exact ⟨fun h => ⟨h.2, h.1⟩, fun h => ⟨h.2, h.1⟩⟩
      simp only [this]
      exact hprod _ _

end Collisions
end Triptych
