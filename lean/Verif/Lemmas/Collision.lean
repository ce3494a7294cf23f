import Verif.Lemmas.SubsetSum

/-! # Lemmas: a program that looks for seeds common to two proofs -/
set_option autoImplicit false
set_option linter.unusedSectionVars false
set_option linter.unusedVariables false

namespace Triptych
open Spec Finset Function

variable {A X V Y α : Type}

/-- Ask for the seeds of `n` transcripts. -/
def askAll : (n : ℕ) → (Fin n → A) → ((Fin n → X) → GrindProgram A X V Y α) → GrindProgram A X V Y α
  | 0, _, next => next Fin.elim0
  | n + 1, a, next => .seed (a 0) fun x => askAll n (fun i => a i.succ) fun xs => next (Fin.cons x xs)

theorem run_askAll (H : A → X) (W : V → Y) : ∀ (n : ℕ) (a : Fin n → A) (next : (Fin n → X) → GrindProgram A X V Y α),
    (askAll n a next).run H W = (next fun i => H (a i)).run H W
  | 0, a, next => by
    rw [askAll]
    congr 2
    funext i
    exact i.elim0
  | n + 1, a, next => by
    rw [askAll, GrindProgram.run, run_askAll H W n]
    congr 2
    funext i
    exact Fin.cases rfl (fun _ => rfl) i

theorem atMost_askAll (T : ℕ) : ∀ (n : ℕ) (a : Fin n → A) (next : (Fin n → X) → GrindProgram A X V Y α) (Q : ℕ)
    (h : ∀ xs, (next xs).AtMost Q T), (askAll n a next).AtMost (n + Q) T
  | 0, a, next, Q, h => by
    rw [askAll, Nat.zero_add]
    exact h _
  | n + 1, a, next, Q, h => by
    rw [askAll]
    refine ⟨by omega, fun x => ?_⟩
    rw [show n + 1 + Q - 1 = n + Q by omega]
    exact atMost_askAll T n _ _ Q fun xs => h _

/-- Ask for the seeds of a finite family of transcripts. -/
noncomputable def askEach {I : Type} [Fintype I] (a : I → A) (next : (I → X) → GrindProgram A X V Y α) : GrindProgram A X V Y α :=
  askAll (Fintype.card I) (fun i => a ((Fintype.equivFin I).symm i)) fun xs => next fun i => xs (Fintype.equivFin I i)

theorem run_askEach {I : Type} [Fintype I] (H : A → X) (W : V → Y) (a : I → A) (next : (I → X) → GrindProgram A X V Y α) :
    (askEach a next).run H W = (next fun i => H (a i)).run H W := by
  rw [askEach, run_askAll]
  simp only [Equiv.symm_apply_apply]

theorem atMost_askEach {I : Type} [Fintype I] (a : I → A) (next : (I → X) → GrindProgram A X V Y α) (T : ℕ)
    (h : ∀ xs, (next xs).AtMost 0 T) : (askEach a next).AtMost (Fintype.card I) T :=
  atMost_askAll T _ _ _ 0 fun xs => h _

/-- The seeds of a batch with `k + 1` proofs of each of `E` classes: a given one first, then proofs with the common seed. -/
def seedVector {E k N : ℕ} (fixed : Fin E → X) (pool : Fin E → Bool → Fin N → X) (ij : Fin E → Fin N × Fin N) :
    Fin (E * (k + 1)) → X := fun p =>
  Fin.cases (motive := fun _ => X) (fixed (finProdFinEquiv.symm p).1)
    (fun _ => pool (finProdFinEquiv.symm p).1 false (ij (finProdFinEquiv.symm p).1).1) (finProdFinEquiv.symm p).2

theorem avg_apply [DecidableEq V] [Fintype V] [Fintype Y] [Nonempty Y] (v : V) (g : Y → ℚ) :
    (avg fun W : V → Y => g (W v)) = avg g := by
  rw [avg_resample v]
  simp only [update_self]
  exact avg_const _

open Classical in
/-- What the program does with the seeds: find a common seed for each class, ask for the weights it gives, choose. -/
noncomputable def collisionNext [Inhabited α] {E k N : ℕ}
    (Good : (Fin E → Fin N × Fin N) → (Fin E → Fin k → Bool) → Y → Prop)
    (out : (Fin E → Fin N × Fin N) → (Fin E → Fin k → Bool) → α) (fixed : Fin E → X) (pool : Fin E → Bool → Fin N → X) :
    GrindProgram A X (Fin (E * (k + 1)) → X) Y α :=
  if h : ∃ ij : Fin E → Fin N × Fin N, ∀ d, pool d false (ij d).1 = pool d true (ij d).2 then
    .weights (seedVector fixed pool h.choose) fun y => if h' : ∃ b, Good h.choose b y then .done (out h.choose h'.choose) else .done default
  else .done default

open Classical in
theorem run_collisionNext [Inhabited α] {E k N : ℕ} (H : A → X) (W : (Fin (E * (k + 1)) → X) → Y)
    (Good : (Fin E → Fin N × Fin N) → (Fin E → Fin k → Bool) → Y → Prop)
    (out : (Fin E → Fin N × Fin N) → (Fin E → Fin k → Bool) → α) (fixed : Fin E → X) (pool : Fin E → Bool → Fin N → X)
    (h : ∃ ij : Fin E → Fin N × Fin N, ∀ d, pool d false (ij d).1 = pool d true (ij d).2)
    (h' : ∃ b, Good h.choose b (W (seedVector fixed pool h.choose))) :
    (collisionNext Good out fixed pool).run H W = out h.choose h'.choose := by
  rw [collisionNext, dif_pos h, GrindProgram.run, dif_pos h', GrindProgram.run]

theorem atMost_collisionNext [Inhabited α] {E k N : ℕ}
    (Good : (Fin E → Fin N × Fin N) → (Fin E → Fin k → Bool) → Y → Prop)
    (out : (Fin E → Fin N × Fin N) → (Fin E → Fin k → Bool) → α) (fixed : Fin E → X) (pool : Fin E → Bool → Fin N → X) :
    (collisionNext Good out fixed pool : GrindProgram A X (Fin (E * (k + 1)) → X) Y α).AtMost 0 1 := by
  rw [collisionNext]
  split
  · refine ⟨by norm_num, fun y => ?_⟩
    dsimp only
    split <;> trivial
  · trivial

/-- The program: ask for all seeds, then proceed as above. -/
noncomputable def collisionProgram [Inhabited α] {E k N : ℕ} (pool : Fin E → Bool → Fin N → A) (fixed : Fin E → A)
    (Good : (Fin E → Fin N × Fin N) → (Fin E → Fin k → Bool) → Y → Prop)
    (out : (Fin E → Fin N × Fin N) → (Fin E → Fin k → Bool) → α) : GrindProgram A X (Fin (E * (k + 1)) → X) Y α :=
  askEach (I := (Fin E × Bool × Fin N) ⊕ Fin E) (Sum.elim (fun x => pool x.1 x.2.1 x.2.2) fixed) fun xs =>
    collisionNext Good out (fun d => xs (.inr d)) fun d b i => xs (.inl (d, b, i))

theorem collision_attack [DecidableEq A] [Fintype A] [DecidableEq X] [Fintype X] [Nonempty X] [Fintype Y] [Nonempty Y]
    [Inhabited α] {E k N : ℕ} (hN : 0 < N) (pool : Fin E → Bool → Fin N → A) (fixed : Fin E → A)
    (hinj : ∀ d b i b' i', pool d b i = pool d b' i' → b = b' ∧ i = i')
    (Good : (Fin E → Fin N × Fin N) → (Fin E → Fin k → Bool) → Y → Prop)
    (out : (Fin E → Fin N × Fin N) → (Fin E → Fin k → Bool) → α) (β : ℚ)
    (hβ : ∀ ij, (avg fun y => ind (¬ ∃ b, Good ij b y)) ≤ β) :
    (collisionProgram (X := X) pool fixed Good out).AtMost (E * (2 * N) + E) 1 ∧
    1 - (E * (Fintype.card X / (N : ℚ) ^ 2) + β) ≤ avg fun H : A → X => avg fun W : (Fin (E * (k + 1)) → X) → Y =>
      ind (∃ ij b, (∀ d, H (pool d false (ij d).1) = H (pool d true (ij d).2)) ∧
        Good ij b (W (seedVector (fun d => H (fixed d)) (fun d b i => H (pool d b i)) ij)) ∧
        (collisionProgram (X := X) pool fixed Good out).run H W = out ij b) := by
  classical
  constructor
  · have hcard : Fintype.card ((Fin E × Bool × Fin N) ⊕ Fin E) = E * (2 * N) + E := by
      simp [Fintype.card_sum, Fintype.card_prod]
    rw [← hcard]
    exact atMost_askEach _ _ 1 fun xs => atMost_collisionNext _ _ _ _
  · have hpt : ∀ (H : A → X), 1 - ((∑ d : Fin E, ind (∀ i j, H (pool d false i) ≠ H (pool d true j))) + β) ≤
        avg fun W : (Fin (E * (k + 1)) → X) → Y =>
          ind (∃ ij b, (∀ d, H (pool d false (ij d).1) = H (pool d true (ij d).2)) ∧
            Good ij b (W (seedVector (fun d => H (fixed d)) (fun d b i => H (pool d b i)) ij)) ∧
            (collisionProgram (X := X) pool fixed Good out).run H W = out ij b) := by
      intro H
      have hs0 : 0 ≤ ∑ d : Fin E, ind (∀ i j, H (pool d false i) ≠ H (pool d true j)) := sum_nonneg fun d _ => ind_nonneg _
      by_cases h : ∃ ij : Fin E → Fin N × Fin N, ∀ d, H (pool d false (ij d).1) = H (pool d true (ij d).2)
      · have hb := hβ h.choose
        rw [← avg_apply (V := Fin (E * (k + 1)) → X) (seedVector (fun d => H (fixed d)) (fun d b i => H (pool d b i)) h.choose)] at hb
        have h1 : (avg fun W : (Fin (E * (k + 1)) → X) → Y => 1 - ind (¬ ∃ b, Good h.choose b
            (W (seedVector (fun d => H (fixed d)) (fun d b i => H (pool d b i)) h.choose)))) ≤
          avg fun W : (Fin (E * (k + 1)) → X) → Y =>
            ind (∃ ij b, (∀ d, H (pool d false (ij d).1) = H (pool d true (ij d).2)) ∧
              Good ij b (W (seedVector (fun d => H (fixed d)) (fun d b i => H (pool d b i)) ij)) ∧
              (collisionProgram (X := X) pool fixed Good out).run H W = out ij b) := by
          refine avg_mono _ _ fun W => ?_
          by_cases h' : ∃ b, Good h.choose b (W (seedVector (fun d => H (fixed d)) (fun d b i => H (pool d b i)) h.choose))
          · rw [ind_neg (not_not.2 h'), ind_pos, sub_zero]
            refine ⟨h.choose, h'.choose, h.choose_spec, h'.choose_spec, ?_⟩
            rw [collisionProgram, run_askEach]
            exact run_collisionNext H W Good out _ _ h h'
          · rw [ind_pos h', sub_self]
            exact ind_nonneg _
        rw [avg_sub, avg_const] at h1
        linarith
      · have : ∃ d, ∀ i j, H (pool d false i) ≠ H (pool d true j) := by
          by_contra hc
          push Not at hc
          choose i j hij using hc
          exact h ⟨fun d => (i d, j d), hij⟩
        obtain ⟨d, hd⟩ := this
        have h1 := single_le_sum (f := fun d : Fin E => ind (∀ i j, H (pool d false i) ≠ H (pool d true j)))
          (fun d _ => ind_nonneg _) (mem_univ d)
        rw [ind_pos hd] at h1
        by_cases hE : Nonempty (Fin E → Fin N × Fin N)
        · obtain ⟨ij⟩ := hE
          have hβ0 : 0 ≤ β := (avg_nonneg _ fun y => ind_nonneg _).trans (hβ ij)
          have := avg_nonneg (fun W : (Fin (E * (k + 1)) → X) → Y =>
            ind (∃ ij b, (∀ d, H (pool d false (ij d).1) = H (pool d true (ij d).2)) ∧
              Good ij b (W (seedVector (fun d => H (fixed d)) (fun d b i => H (pool d b i)) ij)) ∧
              (collisionProgram (X := X) pool fixed Good out).run H W = out ij b)) fun W => ind_nonneg _
          linarith
        · exact absurd ⟨fun _ => (⟨0, hN⟩, ⟨0, hN⟩)⟩ hE
    refine le_trans ?_ (avg_mono _ _ hpt)
    rw [avg_sub, avg_add, avg_const, avg_const, avg_sum']
    refine sub_le_sub_left (add_le_add_left ?_ _) _
    refine (sum_le_card_nsmul _ _ _ fun d _ => collision N hN (pool d) (hinj d)).trans (le_of_eq ?_)
    rw [nsmul_eq_mul, Finset.card_univ, Fintype.card_fin]

/-- The place of a weight in the table, if none is rejected. -/
def place {n j d : ℕ} (hj : 0 < j) (i : Fin n) (e : Fin d) : Fin (n * j * d) :=
  finProdFinEquiv (⟨i.val, lt_of_lt_of_le i.2 (Nat.le_mul_of_pos_right _ hj)⟩, e)

theorem place_val {n j d : ℕ} (hj : 0 < j) (i : Fin n) (e : Fin d) : (place hj i e : Fin (n * j * d)).val = e.val + d * i.val := rfl

theorem place_inj {n j d : ℕ} (hj : 0 < j) (i i' : Fin n) (e e' : Fin d) (h : place hj i e = place hj i' e') : i = i' ∧ e = e' := by
  have := finProdFinEquiv.injective h
  rw [Prod.mk.injEq, Fin.mk.injEq] at this
  exact ⟨Fin.ext this.1, this.2⟩

/-- The tables in which no weight is rejected and for some choices all sums vanish. -/
theorem good_table {F R : Type} [Field F] [DecidableEq F] [Fintype R] [Nonempty R] [DecidableEq R] (val : R → F) (D a K : ℕ)
    (hD : Fintype.card R = D) (ha : 0 < a) (hlow : ∀ x, a ≤ #{r | val r = x}) (hhigh : ∀ x, #{r | val r = x} ≤ K) {k E d j : ℕ}
    (hj : 0 < j) (eqn : Fin E → Fin d) (heqn : Injective eqn) (c : Fin E → Fin E → F)
    (α : Fin E → Fin k → Bool → Fin E → F) (hc0 : ∀ d e, e < d → c d e = 0) (hα0 : ∀ d i b e, e < d → α d i b e = 0)
    (hc : ∀ e, c e e ≠ 0) (hα : ∀ e i, α e i false e ≠ α e i true e) :
    (avg fun y : Fin (E * (k + 1) * j * d) → R => ind (¬ ∃ b : Fin E → Fin k → Bool,
      (∀ (p : Fin (E * (k + 1))) (e : Fin d), val (y (place hj p e)) ≠ 0) ∧
      ∀ e, ∑ d, classSum val (fun d i e => place hj (finProdFinEquiv (d, i)) (eqn e)) c α y d e (b d) = 0)) ≤
      E * (D / (2 ^ k * a) + (K / a : ℚ) ^ 2 - 1) + (E * (k + 1) * d : ℕ) * (K / D) := by
  have h1 := subset_sums (ι := Fin (E * (k + 1) * j * d)) val D a K hD ha hlow hhigh k E
    (fun d i e => place hj (finProdFinEquiv (d, i)) (eqn e)) (by
      intro d i e d' i' e' h
      obtain ⟨h1, h2⟩ := place_inj hj _ _ _ _ h
      have := finProdFinEquiv.injective h1
      rw [Prod.mk.injEq] at this
      exact ⟨this.1, this.2, heqn h2⟩) c α hc0 hα0 hc hα
  have h2 : (avg fun y : Fin (E * (k + 1) * j * d) → R => ∑ x : Fin (E * (k + 1)) × Fin d, ind (val (y (place hj x.1 x.2)) = 0)) ≤
      (E * (k + 1) * d : ℕ) * (K / D) := by
    rw [avg_sum']
    refine (sum_le_card_nsmul _ _ ((K : ℚ) / D) fun x _ => ?_).trans (le_of_eq ?_)
    · rw [avg_apply (V := Fin (E * (k + 1) * j * d)) (place hj x.1 x.2) fun r => ind (val r = 0), avg_ind', hD]
      gcongr
      exact hhigh _
    · rw [nsmul_eq_mul, Finset.card_univ, Fintype.card_prod, Fintype.card_fin, Fintype.card_fin]
  refine le_trans (avg_mono _ (fun y => ind (¬ ∃ b : Fin E → Fin k → Bool, ∀ e, ∑ d, classSum val
    (fun d i e => place hj (finProdFinEquiv (d, i)) (eqn e)) c α y d e (b d) = 0) +
      ∑ x : Fin (E * (k + 1)) × Fin d, ind (val (y (place hj x.1 x.2)) = 0)) fun y => ?_) (le_of_eq_of_le (avg_add _ _) (add_le_add h1 h2))
  have hs0 : 0 ≤ ∑ x : Fin (E * (k + 1)) × Fin d, ind (val (y (place hj x.1 x.2)) = 0) := sum_nonneg fun _ _ => ind_nonneg _
  by_cases hb : ∃ b : Fin E → Fin k → Bool, ∀ e, ∑ d, classSum val
    (fun d i e => place hj (finProdFinEquiv (d, i)) (eqn e)) c α y d e (b d) = 0
  · rw [ind_neg (not_not.2 hb), zero_add]
    by_cases hz : ∀ (p : Fin (E * (k + 1))) (e : Fin d), val (y (place hj p e)) ≠ 0
    · obtain ⟨b, hb⟩ := hb
      rw [ind_neg (not_not.2 ⟨b, hz, hb⟩)]
      exact hs0
    · push Not at hz
      obtain ⟨p, e, hpe⟩ := hz
      refine (ind_le_one _).trans ?_
      have := single_le_sum (f := fun x : Fin (E * (k + 1)) × Fin d => ind (val (y (place hj x.1 x.2)) = 0)) (fun _ _ => ind_nonneg _)
        (mem_univ (p, e))
      rw [ind_pos hpe] at this
      exact this
  · rw [ind_pos hb]
    exact (ind_le_one _).trans (le_add_of_nonneg_right hs0)

end Triptych
