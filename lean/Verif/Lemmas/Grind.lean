import Verif.Spec.Grind
import Verif.Lemmas.Draws

/-! # Lemmas: how likely a program finds convenient weights -/
set_option autoImplicit false
set_option linter.unusedSectionVars false
set_option linter.unusedVariables false

namespace Triptych
open Spec Finset Function

variable {A X Y α : Type} [DecidableEq A] [Fintype A] [DecidableEq X] [Fintype X] [Nonempty X] [DecidableEq Y] [Fintype Y] [Nonempty Y]

theorem avg_ind_mem {B : Type} [Fintype B] [DecidableEq B] (S : Finset B) : avg (fun b => ind (b ∈ S)) = #S / Fintype.card B := by
  rw [avg_ind']
  simp

variable (crit : α → Option A) (bad : A → Finset Y)

/-- The output is a transcript whose weights are bad. -/
def Spec.GrindWins (c : GrindProgram A X X Y α) (H : A → X) (W : X → Y) : Prop :=
  ∃ a, crit (c.run H W) = some a ∧ W (H a) ∈ bad a

theorem grind_state (β : ℚ) (hβ : ∀ a, (#(bad a) : ℚ) ≤ β * Fintype.card Y) (hβ0 : 0 ≤ β) (T : ℕ) (c : GrindProgram A X X Y α) :
    ∀ (q t : ℕ) (hc : c.AtMost q t) (DH : Finset A) (h : A → X) (DW : Finset X) (w : X → Y) (hT : #DW + t ≤ T)
      (hinv : ∀ a ∈ DH, h a ∈ DW → w (h a) ∉ bad a),
      avg (fun H : A → X => avg fun W : X → Y => ind (GrindWins crit bad c (DH.piecewise h H) (DW.piecewise w W))) ≤
        (q + 1) * (T / Fintype.card X + β) + #{a ∈ DH | h a ∉ DW} * β := by
  have hX : (0 : ℚ) < Fintype.card X := by exact_mod_cast Fintype.card_pos
  have hY : (0 : ℚ) < Fintype.card Y := by exact_mod_cast Fintype.card_pos
  have hbad : ∀ a, avg (fun y => ind (y ∈ bad a)) ≤ β := by
    intro a
    rw [avg_ind_mem, div_le_iff₀ hY]
    exact hβ a
  have hq0 : (0 : ℚ) ≤ T / Fintype.card X := by positivity
  have hDT : ∀ (DW : Finset X) (t : ℕ), #DW + t ≤ T → avg (fun x => ind (x ∈ DW)) ≤ T / Fintype.card X := by
    intro DW t h
    rw [avg_ind_mem]
    gcongr
    exact_mod_cast (by omega : #DW ≤ T)
  have hval : ∀ c' : GrindProgram A X X Y α, ∀ (DH : Finset A) (h : A → X) (DW : Finset X) (w : X → Y), avg (fun H : A → X => avg fun W : X → Y =>
      ind (GrindWins crit bad c' (DH.piecewise h H) (DW.piecewise w W))) ≤ 1 :=
    fun c' DH h DW w => avg_le_one _ fun H => avg_le_one _ fun W => ind_le_one _
  induction c with
  | done a =>
    intro q t hc DH h DW w hT hinv
    have hpend : (0 : ℚ) ≤ #{a ∈ DH | h a ∉ DW} * β := by positivity
    have hqq : T / Fintype.card X + β ≤ ((q : ℚ) + 1) * (T / Fintype.card X + β) := by
      have : (0 : ℚ) ≤ q := by positivity
      nlinarith
    cases ha : crit a with
    | none =>
      have : ∀ H W, ind (GrindWins crit bad (.done a : GrindProgram A X X Y α) H W) = 0 := fun H W => ind_neg (by
        rintro ⟨a', h1, -⟩
        exact absurd (ha.symm.trans h1) (by simp))
      simp only [this]
      rw [avg_const, avg_const]
      positivity
    | some a' =>
      have hw : ∀ H W, GrindWins crit bad (.done a : GrindProgram A X X Y α) H W ↔ W (H a') ∈ bad a' := by
        intro H W
        constructor
        · rintro ⟨a'', h1, h2⟩
          have h3 : a' = a'' := Option.some.inj (ha.symm.trans h1)
          rw [h3]; exact h2
        · exact fun h2 => ⟨a', ha, h2⟩
      simp only [hw]
      by_cases h1 : a' ∈ DH
      · have e1 : ∀ H : A → X, DH.piecewise h H a' = h a' := fun H => piecewise_eq_of_mem DH h H h1
        have e2 : ∀ (H : A → X) (W : X → Y), ind (DW.piecewise w W (DH.piecewise h H a') ∈ bad a') =
            ind (DW.piecewise w W (h a') ∈ bad a') := fun H W => by rw [e1]
        simp only [e2]
        rw [avg_const]
        by_cases h2 : h a' ∈ DW
        · simp only [piecewise_eq_of_mem DW w _ h2]
          rw [ind_neg (hinv a' h1 h2), avg_const]
          positivity
        · rw [avg_piecewise DW w (h a') h2 (fun W => ind (W (h a') ∈ bad a'))]
          have : ∀ (b : Y) (O : X → Y), ind (((insert (h a') DW).piecewise (update w (h a') b) O) (h a') ∈ bad a') =
              ind (b ∈ bad a') := by intro b O; simp
          simp only [this]
          have e : (fun b : Y => avg fun O : X → Y => ind (b ∈ bad a')) = fun b => ind (b ∈ bad a') := by
            funext b; rw [avg_const]
          rw [e]
          have hp1 : (1 : ℚ) ≤ #{a ∈ DH | h a ∉ DW} := by
            exact_mod_cast card_pos.2 ⟨a', mem_filter.2 ⟨h1, h2⟩⟩
          have := hbad a'
          nlinarith [mul_nonneg (sub_nonneg.2 hp1) hβ0]
      · rw [avg_piecewise DH h a' h1 (fun H => avg fun W : X → Y => ind ((DW.piecewise w W) (H a') ∈ bad a'))]
        have : ∀ (x : X) (O : A → X), ((insert a' DH).piecewise (update h a' x) O) a' = x := by intro x O; simp
        have e2 : ∀ (x : X) (O : A → X) (W : X → Y), ind (DW.piecewise w W (((insert a' DH).piecewise (update h a' x) O) a') ∈ bad a') =
            ind (DW.piecewise w W x ∈ bad a') := fun x O W => by rw [this]
        simp only [e2]
        have key : ∀ x : X, avg (fun O : A → X => avg fun W : X → Y => ind ((DW.piecewise w W) x ∈ bad a')) ≤
            ind (x ∈ DW) + β := by
          intro x
          rw [avg_const]
          by_cases hx : x ∈ DW
          · rw [ind_pos hx]
            have := avg_le_one (fun W : X → Y => ind ((DW.piecewise w W) x ∈ bad a')) fun W => ind_le_one _
            linarith
          · rw [avg_piecewise DW w x hx (fun W => ind (W x ∈ bad a'))]
            have : ∀ (b : Y) (O : X → Y), ind (((insert x DW).piecewise (update w x b) O) x ∈ bad a') =
                ind (b ∈ bad a') := by intro b O; simp
            simp only [this]
            have e : (fun b : Y => avg fun O : X → Y => ind (b ∈ bad a')) = fun b => ind (b ∈ bad a') := by
              funext b; rw [avg_const]
            rw [e, ind_neg hx]
            linarith [hbad a']
        refine (avg_mono _ _ key).trans ?_
        rw [avg_add, avg_const]
        linarith [hDT DW t hT]
  | seed a next ih =>
    intro q t hc DH h DW w hT hinv
    have hq1 : ((q - 1 : ℕ) : ℚ) + 1 = q := by
      have := hc.1
      rw [Nat.cast_sub (by omega)]
      simp
    by_cases h1 : a ∈ DH
    · have hw : ∀ H W, ind (GrindWins crit bad (.seed a next) (DH.piecewise h H) W) =
          ind (GrindWins crit bad (next (h a)) (DH.piecewise h H) W) := by
        intro H W
        rw [GrindWins, GrindWins, GrindProgram.run, piecewise_eq_of_mem DH h _ h1]
      simp only [hw]
      have := ih (h a) (q - 1) t (hc.2 _) DH h DW w hT hinv
      rw [hq1] at this
      nlinarith
    · rw [avg_piecewise DH h a h1 (fun H => avg fun W : X → Y => ind (GrindWins crit bad (.seed a next) H (DW.piecewise w W)))]
      have hw : ∀ (x : X) (O : A → X) W, ind (GrindWins crit bad (.seed a next) ((insert a DH).piecewise (update h a x) O) W) =
          ind (GrindWins crit bad (next x) ((insert a DH).piecewise (update h a x) O) W) := by
        intro x O W
        rw [GrindWins, GrindWins, GrindProgram.run]
        simp
      simp only [hw]
      have key : ∀ x : X, avg (fun O : A → X => avg fun W : X → Y =>
          ind (GrindWins crit bad (next x) ((insert a DH).piecewise (update h a x) O) (DW.piecewise w W))) ≤
          ind (x ∈ DW) + (q * (T / Fintype.card X + β) + (#{a ∈ DH | h a ∉ DW} + 1) * β) := by
        intro x
        by_cases hx : x ∈ DW
        · rw [ind_pos hx]
          have h0 : (0 : ℚ) ≤ q * (T / Fintype.card X + β) + (#{a ∈ DH | h a ∉ DW} + 1) * β := by positivity
          linarith [hval (next x) (insert a DH) (update h a x) DW w]
        · rw [ind_neg hx, zero_add]
          have := ih x (q - 1) t (hc.2 _) (insert a DH) (update h a x) DW w hT (by
            intro a' ha' hm
            rcases eq_or_ne a' a with rfl | hne
            · rw [update_self] at hm; exact absurd hm hx
            · rw [update_of_ne hne] at hm ⊢
              exact hinv a' ((mem_insert.1 ha').resolve_left hne) hm)
          rw [hq1] at this
          refine this.trans ?_
          have hcard : #{a' ∈ insert a DH | update h a x a' ∉ DW} ≤ #{a ∈ DH | h a ∉ DW} + 1 := by
            refine (card_le_card (t := insert a {a ∈ DH | h a ∉ DW}) ?_).trans (card_insert_le _ _)
            intro a' ha'
            rw [mem_filter] at ha'
            rcases eq_or_ne a' a with rfl | hne
            · exact mem_insert_self _ _
            · rw [update_of_ne hne] at ha'
              exact mem_insert_of_mem (mem_filter.2 ⟨(mem_insert.1 ha'.1).resolve_left hne, ha'.2⟩)
          have hcard' : (#{a' ∈ insert a DH | update h a x a' ∉ DW} : ℚ) ≤ #{a ∈ DH | h a ∉ DW} + 1 := by exact_mod_cast hcard
          have := mul_le_mul_of_nonneg_right hcard' hβ0
          linarith
      refine (avg_mono _ _ key).trans ?_
      rw [avg_add, avg_const]
      have := hDT DW t hT
      linarith
  | weights x next ih =>
    intro q t hc DH h DW w hT hinv
    by_cases h1 : x ∈ DW
    · have hw : ∀ H W, ind (GrindWins crit bad (.weights x next) H (DW.piecewise w W)) =
          ind (GrindWins crit bad (next (w x)) H (DW.piecewise w W)) := by
        intro H W
        rw [GrindWins, GrindWins, GrindProgram.run, piecewise_eq_of_mem DW w _ h1]
      simp only [hw]
      exact ih (w x) q (t - 1) (hc.2 _) DH h DW w (by omega) hinv
    · have hcomm : ∀ f : (A → X) → (X → Y) → ℚ, avg (fun H => avg fun W => f H W) = avg fun W => avg fun H => f H W :=
        fun f => avg_comm f
      rw [hcomm, avg_piecewise DW w x h1 (fun W => avg fun H : A → X =>
        ind (GrindWins crit bad (.weights x next) (DH.piecewise h H) W))]
      have hw : ∀ (y : Y) H (O : X → Y), ind (GrindWins crit bad (.weights x next) H ((insert x DW).piecewise (update w x y) O)) =
          ind (GrindWins crit bad (next y) H ((insert x DW).piecewise (update w x y) O)) := by
        intro y H O
        rw [GrindWins, GrindWins, GrindProgram.run]
        simp
      simp only [hw]
      have key : ∀ y : Y, avg (fun O : X → Y => avg fun H : A → X =>
          ind (GrindWins crit bad (next y) (DH.piecewise h H) ((insert x DW).piecewise (update w x y) O))) ≤
          (∑ a ∈ DH with h a = x, ind (y ∈ bad a)) +
            ((q + 1) * (T / Fintype.card X + β) + #{a ∈ DH | h a ∉ insert x DW} * β) := by
        intro y
        have hs : ∀ a ∈ ({a ∈ DH | h a = x} : Finset A), 0 ≤ ind (y ∈ bad a) := fun a _ => ind_nonneg _
        have h0 : (0 : ℚ) ≤ (q + 1) * (T / Fintype.card X + β) + #{a ∈ DH | h a ∉ insert x DW} * β := by positivity
        by_cases hy : ∃ a ∈ DH, h a = x ∧ y ∈ bad a
        · obtain ⟨a, ha, hax, hya⟩ := hy
          have := single_le_sum hs (mem_filter.2 ⟨ha, hax⟩)
          rw [ind_pos hya] at this
          rw [← hcomm]
          linarith [hval (next y) DH h (insert x DW) (update w x y)]
        · rw [← hcomm]
          have := ih y q (t - 1) (hc.2 _) DH h (insert x DW) (update w x y)
            (by have := hc.1; rw [card_insert_of_notMem h1]; omega) (by
              intro a ha hm
              rcases eq_or_ne (h a) x with he | hne
              · rw [he, update_self]
                exact fun hb => hy ⟨a, ha, he, hb⟩
              · rw [update_of_ne hne]
                exact hinv a ha ((mem_insert.1 hm).resolve_left hne))
          linarith [sum_nonneg hs]
      refine (avg_mono _ _ key).trans ?_
      rw [avg_add, avg_const]
      have hsum : avg (fun y : Y => ∑ a ∈ DH with h a = x, ind (y ∈ bad a)) ≤ #{a ∈ DH | h a = x} * β := by
        have e : avg (fun y : Y => ∑ a ∈ DH with h a = x, ind (y ∈ bad a)) =
            ∑ a ∈ DH with h a = x, avg fun y : Y => ind (y ∈ bad a) := by
          simp only [avg]
          rw [sum_comm, sum_div]
        rw [e, ← nsmul_eq_mul]
        exact sum_le_card_nsmul _ _ _ fun a _ => hbad a
      have hcard : (#{a ∈ DH | h a = x} : ℚ) + #{a ∈ DH | h a ∉ insert x DW} ≤ #{a ∈ DH | h a ∉ DW} := by
        have hdis : Disjoint ({a ∈ DH | h a = x} : Finset A) {a ∈ DH | h a ∉ insert x DW} := by
          rw [disjoint_filter]
          intro a _ he hn
          exact hn (he ▸ mem_insert_self _ _)
        have hle : #(({a ∈ DH | h a = x} : Finset A) ∪ {a ∈ DH | h a ∉ insert x DW}) ≤ #{a ∈ DH | h a ∉ DW} := by
          apply card_le_card
          intro a ha
          rw [mem_union, mem_filter, mem_filter] at ha
          rw [mem_filter]
          rcases ha with ⟨h2, h3⟩ | ⟨h2, h3⟩
          · exact ⟨h2, h3 ▸ h1⟩
          · exact ⟨h2, fun hm => h3 (mem_insert_of_mem hm)⟩
        rw [card_union_of_disjoint hdis] at hle
        exact_mod_cast hle
      have := mul_le_mul_of_nonneg_right hcard hβ0
      linarith

/-- A program that asks for at most `Q` seeds and the weights of at most `T` seeds outputs a transcript with bad weights with
probability at most `(Q + 1) (T / |X| + β)`. -/
theorem grind_bound (β : ℚ) (hβ : ∀ a, (#(bad a) : ℚ) ≤ β * Fintype.card Y) (hβ0 : 0 ≤ β) (c : GrindProgram A X X Y α) (Q T : ℕ)
    (hc : c.AtMost Q T) :
    avg (fun H : A → X => avg fun W : X → Y => ind (GrindWins crit bad c H W)) ≤ (Q + 1) * (T / Fintype.card X + β) := by
  have := grind_state crit bad β hβ hβ0 T c Q T hc ∅ (fun _ => Classical.arbitrary X) ∅ (fun _ => Classical.arbitrary Y)
    (by simp) (by simp)
  simpa using this

/-! ## Batches -/

namespace Spec.GrindProgram
variable {V : Type}

/-- The transcripts whose seeds are asked for. -/
def seedsAsked (H : A → X) (W : V → Y) : GrindProgram A X V Y α → List A
  | done _ => []
  | seed a next => a :: seedsAsked H W (next (H a))
  | weights v next => seedsAsked H W (next (W v))

/-- The seeds whose weights are asked for. -/
def weightsAsked (H : A → X) (W : V → Y) : GrindProgram A X V Y α → List V
  | done _ => []
  | seed a next => weightsAsked H W (next (H a))
  | weights v next => v :: weightsAsked H W (next (W v))

/-- The program followed by another one. -/
def bind {β : Type} : GrindProgram A X V Y α → (α → GrindProgram A X V Y β) → GrindProgram A X V Y β
  | done a, f => f a
  | seed a next, f => .seed a fun x => (next x).bind f
  | weights v next, f => .weights v fun y => (next y).bind f

/-- Asks for the seeds of a list of transcripts. -/
def askAll : List A → GrindProgram A X V Y (List X)
  | [] => .done []
  | a :: l => .seed a fun x => (askAll l).bind fun xs => .done (x :: xs)

theorem run_bind {β : Type} (H : A → X) (W : V → Y) (c : GrindProgram A X V Y α) (f : α → GrindProgram A X V Y β) :
    (c.bind f).run H W = (f (c.run H W)).run H W := by
  induction c with
  | done a => rfl
  | seed a next ih => exact ih _
  | weights v next ih => exact ih _

theorem seedsAsked_bind {β : Type} (H : A → X) (W : V → Y) (c : GrindProgram A X V Y α) (f : α → GrindProgram A X V Y β) :
    (c.bind f).seedsAsked H W = c.seedsAsked H W ++ (f (c.run H W)).seedsAsked H W := by
  induction c with
  | done a => rfl
  | seed a next ih => exact congrArg (a :: ·) (ih _)
  | weights v next ih => exact ih _

theorem weightsAsked_bind {β : Type} (H : A → X) (W : V → Y) (c : GrindProgram A X V Y α) (f : α → GrindProgram A X V Y β) :
    (c.bind f).weightsAsked H W = c.weightsAsked H W ++ (f (c.run H W)).weightsAsked H W := by
  induction c with
  | done a => rfl
  | seed a next ih => exact ih _
  | weights v next ih => exact congrArg (v :: ·) (ih _)

theorem AtMost.mono {c : GrindProgram A X V Y α} : ∀ {Q T Q' T' : ℕ}, c.AtMost Q T → Q ≤ Q' → T ≤ T' → c.AtMost Q' T' := by
  induction c with
  | done a => intros; trivial
  | seed a next ih =>
    intro Q T Q' T' h h1 h2
    exact ⟨by have := h.1; omega, fun x => ih x (h.2 x) (by omega) h2⟩
  | weights v next ih =>
    intro Q T Q' T' h h1 h2
    exact ⟨by have := h.1; omega, fun y => ih y (h.2 y) h1 (by omega)⟩

theorem AtMost.bind {β : Type} {c : GrindProgram A X V Y α} {f : α → GrindProgram A X V Y β} {Q' T' : ℕ}
    (hf : ∀ a, (f a).AtMost Q' T') : ∀ {Q T : ℕ}, c.AtMost Q T → (c.bind f).AtMost (Q + Q') (T + T') := by
  induction c with
  | done a => intro Q T _; exact (hf a).mono (by omega) (by omega)
  | seed a next ih =>
    intro Q T h
    have h1 := h.1
    refine ⟨by omega, fun x => ?_⟩
    have := ih x (h.2 x)
    rwa [show Q - 1 + Q' = Q + Q' - 1 by omega] at this
  | weights v next ih =>
    intro Q T h
    have h1 := h.1
    refine ⟨by omega, fun y => ?_⟩
    have := ih y (h.2 y)
    rwa [show T - 1 + T' = T + T' - 1 by omega] at this

theorem askAll_run (H : A → X) (W : V → Y) (l : List A) : (askAll l).run H W = l.map H := by
  induction l with
  | nil => rfl
  | cons a l ih =>
    show ((askAll l).bind _).run H W = _
    rw [run_bind, ih]
    rfl

theorem askAll_asked (H : A → X) (W : V → Y) (l : List A) : (askAll l).seedsAsked H W = l := by
  induction l with
  | nil => rfl
  | cons a l ih =>
    show a :: ((askAll l).bind _).seedsAsked H W = _
    rw [seedsAsked_bind, ih]
    show a :: (l ++ []) = _
    rw [List.append_nil]

theorem askAll_atMost (l : List A) : (askAll l : GrindProgram A X V Y (List X)).AtMost l.length 0 := by
  induction l with
  | nil => trivial
  | cons a l ih => exact ⟨by simp, fun x => AtMost.bind (f := fun xs => .done (x :: xs)) (Q' := 0) (T' := 0) (fun _ => trivial) ih⟩

end Spec.GrindProgram

variable {k : ℕ} (badB : (Fin k → A) → Finset Y)

/-- Some batch of transcripts, whose seeds are known as are the weights they give, has bad weights. -/
def KnownBad (DH : Finset A) (DW : Finset (Fin k → X)) (H : A → X) (W : (Fin k → X) → Y) : Prop :=
  ∃ a : Fin k → A, (∀ i, a i ∈ DH) ∧ H ∘ a ∈ DW ∧ W (H ∘ a) ∈ badB a

theorem batch_state (β : ℚ) (hβ : ∀ a, (#(badB a) : ℚ) ≤ β * Fintype.card Y) (hβ0 : 0 ≤ β) (Q T : ℕ)
    (c : GrindProgram A X (Fin k → X) Y α) :
    ∀ (q t : ℕ) (hc : c.AtMost q t) (DH : Finset A) (h : A → X) (DW : Finset (Fin k → X)) (w : (Fin k → X) → Y)
      (hQ : #DH + q ≤ Q) (hT : #DW + t ≤ T) (hinj : Set.InjOn h DH) (hinv : ¬ KnownBad badB DH DW h w),
      avg (fun H : A → X => avg fun W : (Fin k → X) → Y =>
        ind (KnownBad badB (DH ∪ (c.seedsAsked (DH.piecewise h H) (DW.piecewise w W)).toFinset)
          (DW ∪ (c.weightsAsked (DH.piecewise h H) (DW.piecewise w W)).toFinset) (DH.piecewise h H) (DW.piecewise w W))) ≤
        q * ((Q + k * T) / Fintype.card X) + t * β := by
  have hX : (0 : ℚ) < Fintype.card X := by exact_mod_cast Fintype.card_pos
  have hY : (0 : ℚ) < Fintype.card Y := by exact_mod_cast Fintype.card_pos
  have hbad : ∀ a, avg (fun y => ind (y ∈ badB a)) ≤ β := by
    intro a
    rw [avg_ind_mem, div_le_iff₀ hY]
    exact hβ a
  have hR0 : (0 : ℚ) ≤ (Q + k * T) / Fintype.card X := by positivity
  have hcongr : ∀ (DH : Finset A) (DW : Finset (Fin k → X)) (H H' : A → X) (W W' : (Fin k → X) → Y), (∀ a ∈ DH, H a = H' a) →
      (∀ v ∈ DW, W v = W' v) → KnownBad badB DH DW H W → KnownBad badB DH DW H' W' := by
    rintro DH DW H H' W W' h1 h2 ⟨a, ha, hv, hb⟩
    have e : H ∘ a = H' ∘ a := funext fun i => h1 _ (ha i)
    refine ⟨a, ha, e ▸ hv, ?_⟩
    rw [← e, ← h2 _ hv]
    exact hb
  induction c with
  | done a =>
    intro q t hc DH h DW w hQ hT hinj hinv
    have : ∀ (H : A → X) (W : (Fin k → X) → Y), ind (KnownBad badB (DH ∪ ((GrindProgram.done a : GrindProgram A X (Fin k → X) Y α).seedsAsked
        (DH.piecewise h H) (DW.piecewise w W)).toFinset) (DW ∪ ((GrindProgram.done a : GrindProgram A X (Fin k → X) Y α).weightsAsked
        (DH.piecewise h H) (DW.piecewise w W)).toFinset) (DH.piecewise h H) (DW.piecewise w W)) = 0 := by
      intro H W
      refine ind_neg fun hk => hinv ?_
      rw [GrindProgram.seedsAsked, GrindProgram.weightsAsked, List.toFinset_nil, List.toFinset_nil, union_empty, union_empty] at hk
      exact hcongr _ _ _ _ _ _ (fun a ha => piecewise_eq_of_mem _ _ _ ha) (fun v hv => piecewise_eq_of_mem _ _ _ hv) hk
    simp only [this]
    rw [avg_const, avg_const]
    positivity
  | seed a next ih =>
    intro q t hc DH h DW w hQ hT hinj hinv
    have hq1 : ((q - 1 : ℕ) : ℚ) + 1 = q := by
      have := hc.1
      rw [Nat.cast_sub (by omega)]
      simp
    have hq := hc.1
    by_cases h1 : a ∈ DH
    · have hw : ∀ (H : A → X) (W : (Fin k → X) → Y), ind (KnownBad badB (DH ∪ ((GrindProgram.seed a next).seedsAsked
          (DH.piecewise h H) W).toFinset) (DW ∪ ((GrindProgram.seed a next).weightsAsked (DH.piecewise h H) W).toFinset)
          (DH.piecewise h H) W) = ind (KnownBad badB (DH ∪ ((next (h a)).seedsAsked (DH.piecewise h H) W).toFinset)
          (DW ∪ ((next (h a)).weightsAsked (DH.piecewise h H) W).toFinset) (DH.piecewise h H) W) := by
        intro H W
        rw [GrindProgram.seedsAsked, GrindProgram.weightsAsked, piecewise_eq_of_mem DH h _ h1, List.toFinset_cons, union_insert,
          insert_eq_of_mem (mem_union_left _ h1)]
      simp only [hw]
      have := ih (h a) (q - 1) t (hc.2 _) DH h DW w (by omega) hT hinj hinv
      nlinarith
    · rw [avg_piecewise DH h a h1 (fun H => avg fun W : (Fin k → X) → Y => ind (KnownBad badB (DH ∪ ((GrindProgram.seed a next).seedsAsked
          H (DW.piecewise w W)).toFinset) (DW ∪ ((GrindProgram.seed a next).weightsAsked H (DW.piecewise w W)).toFinset)
          H (DW.piecewise w W)))]
      have hw : ∀ (x : X) (O : A → X) (W : (Fin k → X) → Y), ind (KnownBad badB (DH ∪ ((GrindProgram.seed a next).seedsAsked
          ((insert a DH).piecewise (update h a x) O) W).toFinset) (DW ∪ ((GrindProgram.seed a next).weightsAsked
          ((insert a DH).piecewise (update h a x) O) W).toFinset) ((insert a DH).piecewise (update h a x) O) W) =
          ind (KnownBad badB (insert a DH ∪ ((next x).seedsAsked ((insert a DH).piecewise (update h a x) O) W).toFinset)
          (DW ∪ ((next x).weightsAsked ((insert a DH).piecewise (update h a x) O) W).toFinset)
          ((insert a DH).piecewise (update h a x) O) W) := by
        intro x O W
        have e : (insert a DH).piecewise (update h a x) O a = x := by simp
        rw [GrindProgram.seedsAsked, GrindProgram.weightsAsked, e, List.toFinset_cons, union_insert, insert_union]
      simp only [hw]
      have key : ∀ x : X, avg (fun O : A → X => avg fun W : (Fin k → X) → Y => ind (KnownBad badB (insert a DH ∪ ((next x).seedsAsked
          ((insert a DH).piecewise (update h a x) O) (DW.piecewise w W)).toFinset) (DW ∪ ((next x).weightsAsked
          ((insert a DH).piecewise (update h a x) O) (DW.piecewise w W)).toFinset)
          ((insert a DH).piecewise (update h a x) O) (DW.piecewise w W))) ≤
          ind (x ∈ DH.image h ∪ DW.biUnion fun v => univ.image v) + ((q - 1 : ℕ) * ((Q + k * T) / Fintype.card X) + t * β) := by
        intro x
        by_cases hx : x ∈ DH.image h ∪ DW.biUnion fun v => univ.image v
        · rw [ind_pos hx]
          have h0 : (0 : ℚ) ≤ (q - 1 : ℕ) * ((Q + k * T) / Fintype.card X) + t * β := by positivity
          have := avg_le_one (fun O : A → X => avg fun W : (Fin k → X) → Y => ind (KnownBad badB (insert a DH ∪ ((next x).seedsAsked
            ((insert a DH).piecewise (update h a x) O) (DW.piecewise w W)).toFinset) (DW ∪ ((next x).weightsAsked
            ((insert a DH).piecewise (update h a x) O) (DW.piecewise w W)).toFinset)
            ((insert a DH).piecewise (update h a x) O) (DW.piecewise w W))) fun O => avg_le_one _ fun W => ind_le_one _
          linarith
        · rw [ind_neg hx, zero_add]
          rw [mem_union, not_or, mem_image, mem_biUnion] at hx
          refine ih x (q - 1) t (hc.2 _) (insert a DH) (update h a x) DW w
            (by rw [card_insert_of_notMem h1]; omega) hT ?_ ?_
          · intro b hb b' hb' he
            rw [coe_insert] at hb hb'
            rcases eq_or_ne b a with rfl | hn <;> rcases eq_or_ne b' b with rfl | hn'
            · rfl
            · rw [update_self, update_of_ne hn'] at he
              exact absurd ⟨b', hb'.resolve_left hn', he.symm⟩ hx.1
            · rfl
            · rw [update_of_ne hn] at he
              rcases eq_or_ne b' a with rfl | hn2
              · rw [update_self] at he
                exact absurd ⟨b, hb.resolve_left hn, he⟩ hx.1
              · rw [update_of_ne hn2] at he
                exact hinj (hb.resolve_left hn) (hb'.resolve_left hn2) he
          · rintro ⟨a', ha', hv, hb⟩
            have hne : ∀ i, a' i ≠ a := by
              intro i hi
              refine hx.2 ⟨_, hv, mem_image.2 ⟨i, mem_univ _, ?_⟩⟩
              rw [comp_apply, hi, update_self]
            have e : update h a x ∘ a' = h ∘ a' := funext fun i => update_of_ne (hne i) _ _
            rw [e] at hv hb
            exact hinv ⟨a', fun i => (mem_insert.1 (ha' i)).resolve_left (hne i), hv, hb⟩
      refine (avg_mono _ _ key).trans ?_
      rw [avg_add, avg_const, avg_ind_mem]
      have hcard : #(DH.image h ∪ DW.biUnion fun v => univ.image v) ≤ Q + k * T := by
        refine (card_union_le _ _).trans (add_le_add (card_image_le.trans (by omega)) ?_)
        refine (card_biUnion_le_card_mul _ _ k fun v _ => card_image_le.trans (by simp)).trans ?_
        rw [mul_comm]
        exact Nat.mul_le_mul_left _ (by omega)
      have hcard' : (#(DH.image h ∪ DW.biUnion fun v => univ.image v) : ℚ) / Fintype.card X ≤ (Q + k * T) / Fintype.card X := by
        gcongr
        exact_mod_cast hcard
      nlinarith
  | weights v next ih =>
    intro q t hc DH h DW w hQ hT hinj hinv
    have ht := hc.1
    have ht1 : ((t - 1 : ℕ) : ℚ) + 1 = t := by
      rw [Nat.cast_sub (by omega)]
      simp
    by_cases h1 : v ∈ DW
    · have hw : ∀ (H : A → X) (W : (Fin k → X) → Y), ind (KnownBad badB (DH ∪ ((GrindProgram.weights v next).seedsAsked
          H (DW.piecewise w W)).toFinset) (DW ∪ ((GrindProgram.weights v next).weightsAsked H (DW.piecewise w W)).toFinset)
          H (DW.piecewise w W)) = ind (KnownBad badB (DH ∪ ((next (w v)).seedsAsked H (DW.piecewise w W)).toFinset)
          (DW ∪ ((next (w v)).weightsAsked H (DW.piecewise w W)).toFinset) H (DW.piecewise w W)) := by
        intro H W
        rw [GrindProgram.seedsAsked, GrindProgram.weightsAsked, piecewise_eq_of_mem DW w _ h1, List.toFinset_cons, union_insert,
          insert_eq_of_mem (mem_union_left _ h1)]
      simp only [hw]
      have := ih (w v) q (t - 1) (hc.2 _) DH h DW w hQ (by omega) hinj hinv
      nlinarith
    · have hcomm : ∀ f : (A → X) → ((Fin k → X) → Y) → ℚ, avg (fun H => avg fun W => f H W) = avg fun W => avg fun H => f H W :=
        fun f => avg_comm f
      rw [hcomm, avg_piecewise DW w v h1 (fun W => avg fun H : A → X => ind (KnownBad badB (DH ∪ ((GrindProgram.weights v next).seedsAsked
          (DH.piecewise h H) W).toFinset) (DW ∪ ((GrindProgram.weights v next).weightsAsked (DH.piecewise h H) W).toFinset)
          (DH.piecewise h H) W))]
      have hw : ∀ (y : Y) (H : A → X) (O : (Fin k → X) → Y), ind (KnownBad badB (DH ∪ ((GrindProgram.weights v next).seedsAsked
          H ((insert v DW).piecewise (update w v y) O)).toFinset) (DW ∪ ((GrindProgram.weights v next).weightsAsked
          H ((insert v DW).piecewise (update w v y) O)).toFinset) H ((insert v DW).piecewise (update w v y) O)) =
          ind (KnownBad badB (DH ∪ ((next y).seedsAsked H ((insert v DW).piecewise (update w v y) O)).toFinset)
          (insert v DW ∪ ((next y).weightsAsked H ((insert v DW).piecewise (update w v y) O)).toFinset)
          H ((insert v DW).piecewise (update w v y) O)) := by
        intro y H O
        have e : (insert v DW).piecewise (update w v y) O v = y := by simp
        rw [GrindProgram.seedsAsked, GrindProgram.weightsAsked, e, List.toFinset_cons, union_insert, insert_union]
      simp only [hw]
      obtain ⟨a₀, ha₀⟩ : ∃ a₀ : Option (Fin k → A), ∀ a : Fin k → A, (∀ i, a i ∈ DH) → h ∘ a = v → a₀ = some a := by
        by_cases he : ∃ a : Fin k → A, (∀ i, a i ∈ DH) ∧ h ∘ a = v
        · obtain ⟨a, ha, hav⟩ := he
          refine ⟨some a, fun a' ha' hav' => ?_⟩
          congr 1
          funext i
          exact hinj (ha i) (ha' i) (congrFun (hav.trans hav'.symm) i)
        · exact ⟨none, fun a ha hav => absurd ⟨a, ha, hav⟩ he⟩
      have key : ∀ y : Y, avg (fun O : (Fin k → X) → Y => avg fun H : A → X =>
          ind (KnownBad badB (DH ∪ ((next y).seedsAsked (DH.piecewise h H) ((insert v DW).piecewise (update w v y) O)).toFinset)
          (insert v DW ∪ ((next y).weightsAsked (DH.piecewise h H) ((insert v DW).piecewise (update w v y) O)).toFinset)
          (DH.piecewise h H) ((insert v DW).piecewise (update w v y) O))) ≤
          ind (∃ a, a₀ = some a ∧ y ∈ badB a) + (q * ((Q + k * T) / Fintype.card X) + (t - 1 : ℕ) * β) := by
        intro y
        rw [← hcomm]
        by_cases hy : ∃ a, a₀ = some a ∧ y ∈ badB a
        · rw [ind_pos hy]
          have h0 : (0 : ℚ) ≤ q * ((Q + k * T) / Fintype.card X) + (t - 1 : ℕ) * β := by positivity
          have := avg_le_one (fun H : A → X => avg fun O : (Fin k → X) → Y =>
            ind (KnownBad badB (DH ∪ ((next y).seedsAsked (DH.piecewise h H) ((insert v DW).piecewise (update w v y) O)).toFinset)
            (insert v DW ∪ ((next y).weightsAsked (DH.piecewise h H) ((insert v DW).piecewise (update w v y) O)).toFinset)
            (DH.piecewise h H) ((insert v DW).piecewise (update w v y) O))) fun O => avg_le_one _ fun W => ind_le_one _
          linarith
        · rw [ind_neg hy, zero_add]
          refine ih y q (t - 1) (hc.2 _) DH h (insert v DW) (update w v y) hQ
            (by rw [card_insert_of_notMem h1]; omega) hinj ?_
          rintro ⟨a, ha, hv, hb⟩
          by_cases hav : h ∘ a = v
          · rw [hav, update_self] at hb
            exact hy ⟨a, ha₀ a ha hav, hb⟩
          · rw [update_of_ne hav] at hb
            exact hinv ⟨a, ha, (mem_insert.1 hv).resolve_left hav, hb⟩
      refine (avg_mono _ _ key).trans ?_
      rw [avg_add, avg_const]
      have hpay : avg (fun y : Y => ind (∃ a, a₀ = some a ∧ y ∈ badB a)) ≤ β := by
        cases a₀ with
        | none =>
          have : ∀ y : Y, ind (∃ a, (none : Option (Fin k → A)) = some a ∧ y ∈ badB a) = 0 := fun y => ind_neg (by simp)
          simp only [this]
          rw [avg_const]
          exact hβ0
        | some a =>
          refine le_trans (avg_mono _ _ fun y => ind_mono ?_) (hbad a)
          rintro ⟨a', he, hy⟩
          rw [Option.some.inj he]
          exact hy
      rw [← ht1]
      linarith

/-- A program that asks for at most `Q` seeds and at most `T` times for weights outputs a batch with bad weights with probability
at most `(Q + k) (Q + k + k (T + 1)) / |X| + (T + 1) β`. -/
theorem batch_bound (critB : α → Option (Fin k → A)) (β : ℚ) (hβ : ∀ a, (#(badB a) : ℚ) ≤ β * Fintype.card Y) (hβ0 : 0 ≤ β)
    (c : GrindProgram A X (Fin k → X) Y α) (Q T : ℕ) (hc : c.AtMost Q T) :
    avg (fun H : A → X => avg fun W : (Fin k → X) → Y => ind (∃ a, critB (c.run H W) = some a ∧ W (H ∘ a) ∈ badB a)) ≤
      (Q + k) * ((Q + k + k * (T + 1)) / Fintype.card X) + (T + 1) * β := by
  let fin : α → GrindProgram A X (Fin k → X) Y α := fun x => match critB x with
    | none => .done x
    | some a => (GrindProgram.askAll (List.ofFn a)).bind fun xs => .weights (fun i => xs.getD i (Classical.arbitrary X)) fun _ => .done x
  have hfin : ∀ x, (fin x).AtMost k 1 := by
    intro x
    show GrindProgram.AtMost (match critB x with | none => _ | some a => _) k 1
    cases critB x with
    | none => trivial
    | some a =>
      have := GrindProgram.AtMost.bind (f := fun xs => GrindProgram.weights (fun i : Fin k => xs.getD i (Classical.arbitrary X))
        fun _ : Y => (GrindProgram.done x : GrindProgram A X (Fin k → X) Y α)) (Q' := 0) (T' := 1)
        (fun _ => ⟨by omega, fun _ => trivial⟩) (GrindProgram.askAll_atMost (List.ofFn a))
      rwa [List.length_ofFn] at this
  have hb := batch_state badB β hβ hβ0 (Q + k) (T + 1) (c.bind fin) (Q + k) (T + 1) (GrindProgram.AtMost.bind hfin hc) ∅
    (fun _ => Classical.arbitrary X) ∅ (fun _ => Classical.arbitrary Y) (by simp) (by simp) (by simp)
    (by rintro ⟨a, -, h, -⟩; simp at h)
  simp only [piecewise_empty, empty_union] at hb
  push_cast at hb
  refine le_trans (avg_mono _ _ fun H => avg_mono _ _ fun W => ind_mono ?_) hb
  rintro ⟨a, ha, hw⟩
  have e : fin (c.run H W) = (GrindProgram.askAll (List.ofFn a)).bind fun xs =>
      .weights (fun i : Fin k => xs.getD i (Classical.arbitrary X)) fun _ => .done (c.run H W) := by
    show (match critB (c.run H W) with | none => _ | some a => _) = _
    rw [ha]
  refine ⟨a, fun i => ?_, ?_, hw⟩
  · rw [GrindProgram.seedsAsked_bind, e, GrindProgram.seedsAsked_bind, GrindProgram.askAll_asked, List.mem_toFinset]
    exact List.mem_append_right _ (List.mem_append_left _ (List.mem_ofFn.2 ⟨i, rfl⟩))
  · rw [GrindProgram.weightsAsked_bind, e, GrindProgram.weightsAsked_bind, GrindProgram.askAll_run, List.mem_toFinset]
    refine List.mem_append_right _ (List.mem_append_right _ ?_)
    rw [GrindProgram.weightsAsked, List.mem_cons]
    left
    funext i
    simp

end Triptych
