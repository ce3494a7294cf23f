import Verif.Props.Grind
import Mathlib.LinearAlgebra.Dual.Lemmas

/-! # Lemmas: looking for convenient weights when the weights of all seeds are known

If no class of tables contains the tables of more than `s` seeds, each seed asked for is convenient with probability at most
`s / |X|`, however the transcript was chosen. -/
set_option autoImplicit false
set_option linter.unusedSectionVars false
set_option linter.unusedVariables false

namespace Triptych
open Spec Finset Function

section General
variable {A X Y α : Type} [DecidableEq A] [Fintype A] [DecidableEq X] [Fintype X] [Nonempty X] [DecidableEq Y] [Fintype Y] [Nonempty Y]

/-- With the weights fixed: each transcript has at most `s` convenient seeds. -/
theorem known_state (crit : α → Option A) (bad : A → Finset Y) (W : X → Y) (s : ℕ) (hs : ∀ a, #{x | W x ∈ bad a} ≤ s)
    (c : GrindProgram A X X Y α) :
    ∀ (q t : ℕ) (hc : c.AtMost q t) (DH : Finset A) (h : A → X) (hinv : ∀ a ∈ DH, W (h a) ∉ bad a),
      avg (fun H : A → X => ind (GrindWins crit bad c (DH.piecewise h H) W)) ≤ (q + 1) * (s / Fintype.card X) := by
  have hX : (0 : ℚ) < Fintype.card X := by exact_mod_cast Fintype.card_pos
  have hq0 : (0 : ℚ) ≤ s / Fintype.card X := by positivity
  have hhit : ∀ a, avg (fun x => ind (W x ∈ bad a)) ≤ s / Fintype.card X := by
    intro a
    rw [avg_ind']
    gcongr
    exact_mod_cast hs a
  induction c with
  | done x =>
    intro q t hc DH h hinv
    have hqq : (s : ℚ) / Fintype.card X ≤ ((q : ℚ) + 1) * (s / Fintype.card X) := by
      have : (0 : ℚ) ≤ q := by positivity
      nlinarith
    cases ha : crit x with
    | none =>
      have : ∀ H, ind (GrindWins crit bad (.done x : GrindProgram A X X Y α) H W) = 0 := fun H => ind_neg (by
        rintro ⟨a', h1, -⟩
        exact absurd (ha.symm.trans h1) (by simp))
      simp only [this]
      rw [avg_const]
      positivity
    | some a =>
      have hw : ∀ H, GrindWins crit bad (.done x : GrindProgram A X X Y α) H W ↔ W (H a) ∈ bad a := by
        intro H
        constructor
        · rintro ⟨a'', h1, h2⟩
          have h3 : a = a'' := Option.some.inj (ha.symm.trans h1)
          rw [h3]; exact h2
        · exact fun h2 => ⟨a, ha, h2⟩
      simp only [hw]
      by_cases h1 : a ∈ DH
      · have e2 : ∀ H : A → X, ind (W (DH.piecewise h H a) ∈ bad a) = 0 := fun H => ind_neg (by
          rw [piecewise_eq_of_mem DH h H h1]; exact hinv a h1)
        simp only [e2]
        rw [avg_const]
        positivity
      · rw [avg_piecewise DH h a h1 (fun H => ind (W (H a) ∈ bad a))]
        have e2 : ∀ (y : X) (O : A → X), ind (W (((insert a DH).piecewise (update h a y) O) a) ∈ bad a) = ind (W y ∈ bad a) := by
          intro y O; simp
        simp only [e2]
        have e : (fun y : X => avg fun O : A → X => ind (W y ∈ bad a)) = fun y => ind (W y ∈ bad a) := by
          funext y; rw [avg_const]
        rw [e]
        exact (hhit a).trans hqq
  | seed a next ih =>
    intro q t hc DH h hinv
    have hq1 : ((q - 1 : ℕ) : ℚ) + 1 = q := by
      have := hc.1
      rw [Nat.cast_sub (by omega)]
      simp
    by_cases h1 : a ∈ DH
    · have hw : ∀ H, ind (GrindWins crit bad (.seed a next) (DH.piecewise h H) W) =
          ind (GrindWins crit bad (next (h a)) (DH.piecewise h H) W) := by
        intro H
        rw [GrindWins, GrindWins, GrindProgram.run, piecewise_eq_of_mem DH h _ h1]
      simp only [hw]
      have := ih (h a) (q - 1) t (hc.2 _) DH h hinv
      rw [hq1] at this
      nlinarith
    · rw [avg_piecewise DH h a h1 (fun H => ind (GrindWins crit bad (.seed a next) H W))]
      have hw : ∀ (x : X) (O : A → X), ind (GrindWins crit bad (.seed a next) ((insert a DH).piecewise (update h a x) O) W) =
          ind (GrindWins crit bad (next x) ((insert a DH).piecewise (update h a x) O) W) := by
        intro x O
        rw [GrindWins, GrindWins, GrindProgram.run]
        simp
      simp only [hw]
      have key : ∀ x : X, avg (fun O : A → X =>
          ind (GrindWins crit bad (next x) ((insert a DH).piecewise (update h a x) O) W)) ≤
          ind (W x ∈ bad a) + q * (s / Fintype.card X) := by
        intro x
        by_cases hx : W x ∈ bad a
        · rw [ind_pos hx]
          have h0 : (0 : ℚ) ≤ q * (s / Fintype.card X) := by positivity
          have := avg_le_one (fun O : A → X => ind (GrindWins crit bad (next x) ((insert a DH).piecewise (update h a x) O) W))
            fun O => ind_le_one _
          linarith
        · rw [ind_neg hx, zero_add]
          have := ih x (q - 1) t (hc.2 _) (insert a DH) (update h a x) (by
            intro a' ha'
            rcases eq_or_ne a' a with rfl | hne
            · rw [update_self]; exact hx
            · rw [update_of_ne hne]
              exact hinv a' ((mem_insert.1 ha').resolve_left hne))
          rw [hq1] at this
          exact this
      refine (avg_mono _ _ key).trans ?_
      rw [avg_add, avg_const]
      linarith [hhit a]
  | weights x next ih =>
    intro q t hc DH h hinv
    exact ih (W x) q (t - 1) (hc.2 _) DH h hinv

/-- The probability that the weights of all seeds in `S` are in `B`. -/
theorem avg_forall_mem (S : Finset X) (B : Finset Y) :
    avg (fun W : X → Y => ind (∀ x ∈ S, W x ∈ B)) = (#B / Fintype.card Y : ℚ) ^ #S := by
  have hY : (0 : ℚ) < Fintype.card Y := by exact_mod_cast Fintype.card_pos
  rw [avg_ind']
  have h : ({W | ∀ x ∈ S, W x ∈ B} : Finset (X → Y)) = Fintype.piFinset fun x => if x ∈ S then B else univ := by
    ext W
    simp only [mem_filter, mem_univ, true_and, Fintype.mem_piFinset]
    refine forall_congr' fun x => ?_
    by_cases hx : x ∈ S <;> simp [hx]
  rw [h, Fintype.card_piFinset, Fintype.card_fun]
  have h2 : ∏ x : X, #(if x ∈ S then B else univ : Finset Y) = #B ^ #S * Fintype.card Y ^ (Fintype.card X - #S) := by
    have e : ∀ x, #(if x ∈ S then B else univ : Finset Y) = if x ∈ S then #B else Fintype.card Y := fun x => by
      split <;> rfl
    simp only [e]
    rw [prod_ite, prod_const, prod_const]
    congr 2
    · congr 1; ext x; simp
    · rw [← card_compl]; congr 1; ext x; simp
  rw [h2]
  push_cast
  have hc : #S ≤ Fintype.card X := card_le_univ S
  rw [div_pow, div_eq_div_iff (pow_ne_zero _ hY.ne') (pow_ne_zero _ hY.ne'), mul_assoc, ← pow_add, Nat.sub_add_cancel hc]

/-- A program that knows the weights of all seeds and asks for at most `Q` seeds: if the convenient tables of every transcript are
in one of `N` classes, each with a fraction of at most `β` of the tables, then it succeeds with probability at most
`(Q + 1) s / |X| + N |X| ^ (s + 1) β ^ (s + 1)`. -/
theorem known_bound {ι : Type} [Fintype ι] (cls : ι → Finset Y) (crit : α → Option A) (bad : A → Finset Y)
    (hcls : ∀ a, ∃ i, bad a ⊆ cls i) (β : ℚ) (hβ : ∀ i, (#(cls i) : ℚ) ≤ β * Fintype.card Y) (hβ0 : 0 ≤ β)
    (c : GrindProgram A X X Y α) (Q T : ℕ) (hc : c.AtMost Q T) (s : ℕ) :
    avg (fun H : A → X => avg fun W : X → Y => ind (GrindWins crit bad c H W)) ≤
      (Q + 1) * (s / Fintype.card X) + Fintype.card ι * (Fintype.card X * β) ^ (s + 1) := by
  have hY : (0 : ℚ) < Fintype.card Y := by exact_mod_cast Fintype.card_pos
  have hX : (0 : ℚ) < Fintype.card X := by exact_mod_cast Fintype.card_pos
  rw [avg_comm]
  have key : ∀ W : X → Y, avg (fun H : A → X => ind (GrindWins crit bad c H W)) ≤
      (Q + 1) * (s / Fintype.card X) + ∑ i : ι, ∑ S ∈ powersetCard (s + 1) (univ : Finset X), ind (∀ x ∈ S, W x ∈ cls i) := by
    intro W
    have hn : ∀ i : ι, ∀ S ∈ powersetCard (s + 1) (univ : Finset X), 0 ≤ ind (∀ x ∈ S, W x ∈ cls i) := fun i S _ => ind_nonneg _
    have h0 : (0 : ℚ) ≤ (Q + 1) * (s / Fintype.card X) := by positivity
    by_cases hgood : ∀ i, #{x | W x ∈ cls i} ≤ s
    · have := known_state crit bad W s (fun a => by
        obtain ⟨i, hi⟩ := hcls a
        refine (card_le_card ?_).trans (hgood i)
        intro x hx
        rw [mem_filter] at hx ⊢
        exact ⟨hx.1, hi hx.2⟩) c Q T hc ∅ (fun _ => Classical.arbitrary X) (by simp)
      simp only [piecewise_empty] at this
      have h1 := sum_nonneg fun i (_ : i ∈ (univ : Finset ι)) => sum_nonneg (hn i)
      linarith
    · push Not at hgood
      obtain ⟨i, hi⟩ := hgood
      obtain ⟨S, hS, hS2⟩ := exists_subset_card_eq (Nat.succ_le_of_lt hi)
      have hone : ind (∀ x ∈ S, W x ∈ cls i) = 1 := ind_pos fun x hx => (mem_filter.1 (hS hx)).2
      have h1 := single_le_sum (hn i) (mem_powersetCard.2 ⟨subset_univ S, hS2⟩)
      have h2 := single_le_sum (f := fun i => ∑ S ∈ powersetCard (s + 1) (univ : Finset X), ind (∀ x ∈ S, W x ∈ cls i))
        (fun i (_ : i ∈ (univ : Finset ι)) => sum_nonneg (hn i)) (mem_univ i)
      have h3 := avg_le_one (fun H : A → X => ind (GrindWins crit bad c H W)) fun H => ind_le_one _
      rw [hone] at h1
      linarith
  refine (avg_mono _ _ key).trans ?_
  rw [avg_add, avg_const]
  gcongr
  have e : avg (fun W : X → Y => ∑ i : ι, ∑ S ∈ powersetCard (s + 1) (univ : Finset X), ind (∀ x ∈ S, W x ∈ cls i)) =
      ∑ i : ι, ∑ S ∈ powersetCard (s + 1) (univ : Finset X), avg fun W : X → Y => ind (∀ x ∈ S, W x ∈ cls i) := by
    simp only [avg]
    rw [sum_comm, sum_div]
    refine sum_congr rfl fun i _ => ?_
    rw [sum_comm, sum_div]
  rw [e]
  have hle : ∀ i : ι, ∑ S ∈ powersetCard (s + 1) (univ : Finset X), avg (fun W : X → Y => ind (∀ x ∈ S, W x ∈ cls i)) ≤
      (Fintype.card X * β) ^ (s + 1) := by
    intro i
    have h1 : ∀ S ∈ powersetCard (s + 1) (univ : Finset X), avg (fun W : X → Y => ind (∀ x ∈ S, W x ∈ cls i)) ≤ β ^ (s + 1) := by
      intro S hS
      rw [avg_forall_mem, (mem_powersetCard.1 hS).2]
      gcongr
      rw [div_le_iff₀ hY]
      exact hβ i
    refine (sum_le_card_nsmul _ _ _ h1).trans ?_
    rw [nsmul_eq_mul, card_powersetCard, card_univ, mul_pow]
    gcongr
    exact_mod_cast Nat.choose_le_pow _ _
  refine (sum_le_card_nsmul _ _ _ fun i _ => hle i).trans (le_of_eq ?_)
  rw [nsmul_eq_mul, card_univ]

end General

section Classes
variable {F P : Type} [Field F] [AddCommGroup P] [Module F P] [DecidableEq F] [DecidableEq P]

/-- Coefficients, one of them 1. -/
abbrev Direction (F : Type) [Field F] (d : ℕ) := {c : Fin d → F // ∃ e, c e = 1}

theorem direction_card [Fintype F] (d : ℕ) : Fintype.card (Direction F d) ≤ d * Fintype.card F ^ (d - 1) := by
  classical
  rw [Fintype.card_subtype]
  have h : ({c : Fin d → F | ∃ e, c e = 1} : Finset _) ⊆ univ.biUnion fun e : Fin d =>
      Fintype.piFinset fun e' => if e' = e then {1} else univ := by
    intro c hc
    obtain ⟨e, he⟩ := (mem_filter.1 hc).2
    refine mem_biUnion.2 ⟨e, mem_univ _, Fintype.mem_piFinset.2 fun e' => ?_⟩
    by_cases h : e' = e
    · rw [if_pos h, h, he]; exact mem_singleton_self _
    · rw [if_neg h]; exact mem_univ _
  refine (card_le_card h).trans ((card_biUnion_le_card_mul _ _ (Fintype.card F ^ (d - 1)) fun e _ => ?_).trans
    (le_of_eq (by rw [card_univ, Fintype.card_fin])))
  rw [Fintype.card_piFinset]
  have e1 : ∀ e', #(if e' = e then {1} else univ : Finset F) = if e' = e then 1 else Fintype.card F := fun e' => by
    split <;> rfl
  simp only [e1]
  rw [prod_ite, prod_const, prod_const, one_pow, one_mul, filter_not, filter_eq', if_pos (mem_univ e), sdiff_singleton_eq_erase,
    card_erase_of_mem (mem_univ e), card_univ, Fintype.card_fin]

open Classical in
/-- The tables with too few usable tuples, or whose first usable tuple is orthogonal to `c`. -/
noncomputable def rowClass (E : Env F P) (d j : ℕ) (c : Direction F d) : Finset (Fin (1 * j * d) → Block) :=
  {τ | (usableDraws (rowValue E) (rowsOf τ)).length < 1 ∨
    ∃ w : Fin 1 × Fin d → F, (∀ x, w x ≠ 0) ∧ ∑ x, w x * c.1 x.2 = 0 ∧
      (List.ofFn fun i => fun e => w (i, e)) <+: usableDraws (rowValue E) (rowsOf τ)}

theorem mem_rowClass (E : Env F P) (d j : ℕ) (c : Direction F d) (τ : Fin (1 * j * d) → Block) : τ ∈ rowClass E d j c ↔
    (usableDraws (rowValue E) (rowsOf τ)).length < 1 ∨
    ∃ w : Fin 1 × Fin d → F, (∀ x, w x ≠ 0) ∧ ∑ x, w x * c.1 x.2 = 0 ∧
      (List.ofFn fun i => fun e => w (i, e)) <+: usableDraws (rowValue E) (rowsOf τ) := by
  classical
  rw [rowClass]
  exact mem_filter.trans (and_iff_right (mem_univ _))

theorem rowClass_card [Fintype F] (E : Env F P) (D K : ℕ) (hD : D = 2 ^ 512)
    (hK : ∀ x : F, #{b : Block | E.scalarOfWide b.bytes = x} ≤ K) (hK2 : K < D) (d j : ℕ) (c : Direction F d) :
    (#(rowClass E d j c) : ℚ) ≤ weightBound d (Fintype.card F) K D 1 j * Fintype.card (Fin (1 * j * d) → Block) := by
  have hcard : (0 : ℚ) < Fintype.card (Fin (1 * j * d) → Block) := by exact_mod_cast Fintype.card_pos
  rw [← div_le_iff₀ hcard, ← avg_ind_mem]
  have hD' : Fintype.card Block = D := by rw [block_card, hD]
  have hKD : (K : ℚ) < D := by exact_mod_cast hK2
  have hp0 : (0 : ℚ) ≤ (K / (D - K)) ^ (d * 1) := pow_nonneg (div_nonneg (Nat.cast_nonneg _) (sub_nonneg.2 hKD.le)) _
  obtain ⟨e, he⟩ := c.2
  have hcount := weight_count (F := F) (P := F) (fun x : Fin 1 × Fin d => c.1 x.2) (0, e) (by rw [he]; exact one_ne_zero)
    (univ.erase 0)
  rw [Finset.card_erase_of_mem (Finset.mem_univ 0), Finset.card_univ, Fintype.card_prod, Fintype.card_fin, Fintype.card_fin,
    Nat.mul_comm 1 d] at hcount
  obtain ⟨S, hS⟩ : ∃ S, S = ({w | (∀ x, w x ≠ 0) ∧ ∑ x, w x * c.1 x.2 = 0} : Finset (Fin 1 × Fin d → F)) := ⟨_, rfl⟩
  have hset : #S ≤ (Fintype.card F - 1) ^ (d * 1 - 1) := by
    rw [hS]
    clear hp0 hKD hD' hD hK hK2 hcard
    convert hcount using 2
    ext w
    simp [smul_eq_mul]
  refine (draws_event E D K hD' hK hK2 1 j d S _ fun τ hτ => ?_).trans ?_
  · rcases (mem_rowClass E d j c τ).1 hτ with h | ⟨w, h1, h2, h3⟩
    · exact Or.inl h
    · exact Or.inr ⟨w, by rw [hS]; exact mem_filter.2 ⟨mem_univ _, h1, h2⟩, h3⟩
  · rw [weightBound]
    have b2' : (#S : ℚ) ≤ ((Fintype.card F - 1 : ℕ) : ℚ) ^ (d * 1 - 1) := by exact_mod_cast hset
    exact add_le_add (mul_le_mul_of_nonneg_right b2' hp0) (le_of_eq (by rw [Nat.cast_one]))

/-- Orthogonality to elements of the group, not all zero, implies orthogonality to a direction. -/
theorem exists_direction {d : ℕ} (v : Fin d → P) (e : Fin d) (hv : v e ≠ 0) :
    ∃ c : Direction F d, ∀ w : Fin 1 × Fin d → F, ∑ x, w x • v x.2 = 0 → ∑ x, w x * c.1 x.2 = 0 := by
  have hex : ∃ φ : Module.Dual F P, φ (v e) ≠ 0 := by
    by_contra hn
    push Not at hn
    exact hv ((Module.forall_dual_apply_eq_zero_iff F (v e)).1 hn)
  obtain ⟨φ, hφ⟩ := hex
  refine ⟨⟨fun e' => (φ (v e))⁻¹ * φ (v e'), e, inv_mul_cancel₀ hφ⟩, fun w hw => ?_⟩
  have := congrArg φ hw
  rw [map_sum, map_zero] at this
  simp only [map_smul, smul_eq_mul] at this
  calc ∑ x, w x * ((φ (v e))⁻¹ * φ (v x.2)) = (φ (v e))⁻¹ * ∑ x, w x * φ (v x.2) := by
        rw [mul_sum]; exact sum_congr rfl fun x _ => by ring
    _ = 0 := by rw [this, mul_zero]

end Classes

end Triptych
