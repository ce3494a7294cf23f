import Verif.Lemmas.Generator
import Mathlib.Algebra.Order.Ring.Pow
import Mathlib.Logic.Equiv.Fin.Basic
import Mathlib.Data.Fin.Tuple.Basic

/-! # Lemmas: drawing until something usable comes up -/
set_option autoImplicit false
set_option linter.unusedSectionVars false
set_option linter.unusedVariables false

namespace Triptych
open Spec Finset

/-- 1 if a proposition holds, else 0. -/
noncomputable def ind (p : Prop) : ℚ := by
  classical exact if p then 1 else 0

theorem ind_pos {p : Prop} (h : p) : ind p = 1 := if_pos h
theorem ind_neg {p : Prop} (h : ¬ p) : ind p = 0 := if_neg h
theorem ind_nonneg (p : Prop) : 0 ≤ ind p := by rw [ind]; split <;> norm_num
theorem ind_le_one (p : Prop) : ind p ≤ 1 := by rw [ind]; split <;> norm_num
theorem ind_mono {p q : Prop} (h : p → q) : ind p ≤ ind q := by
  by_cases hp : p
  · rw [ind_pos hp, ind_pos (h hp)]
  · rw [ind_neg hp]; exact ind_nonneg q

theorem avg_ind {A : Type} [Fintype A] (p : A → Prop) [DecidablePred p] (x : ℚ) :
    avg (fun a => ind (p a) * x) = #{a | p a} * x / Fintype.card A := by
  rw [avg]
  congr 1
  have : ∀ a, ind (p a) * x = if p a then x else 0 := by
    intro a
    by_cases h : p a
    · rw [ind_pos h, if_pos h, one_mul]
    · rw [ind_neg h, if_neg h, zero_mul]
  simp only [this]
  rw [← sum_filter, sum_const, nsmul_eq_mul]

theorem avg_ind' {A : Type} [Fintype A] (p : A → Prop) [DecidablePred p] : avg (fun a => ind (p a)) = #{a | p a} / Fintype.card A := by
  have := avg_ind p 1
  simpa using this

section draws
variable {R V : Type} [Fintype R] [Nonempty R] [DecidableEq V] (val : R → Option V)

/-- The usable draws, in order. -/
def usableDraws {L : ℕ} (rows : Fin L → R) : List V := (List.ofFn rows).filterMap val

theorem avg_cons {L : ℕ} (f : (Fin (L + 1) → R) → ℚ) : avg f = avg fun r : R => avg fun rows : Fin L → R => f (Fin.cons r rows) := by
  rw [← avg_prod (fun x : R × (Fin L → R) => f (Fin.cons x.1 x.2))]
  refine (avg_equiv (Fin.consEquiv fun _ : Fin (L + 1) => R) _ _ fun x => rfl).symm

theorem usableDraws_cons {L : ℕ} (r : R) (rows : Fin L → R) :
    usableDraws val (Fin.cons r rows : Fin (L + 1) → R) = (val r).toList ++ usableDraws val rows := by
  rw [usableDraws, usableDraws, List.ofFn_succ]
  simp only [Fin.cons_zero, Fin.cons_succ]
  cases h : val r with
  | none => rw [List.filterMap_cons_none h]; rfl
  | some v => rw [List.filterMap_cons_some h]; rfl

/-- The probability that the first usable draws are the given ones. -/
theorem prefix_bound (p : ℚ) (hp0 : 0 ≤ p) (hp : ∀ v, (#{r | val r = some v} : ℚ) ≤ p * #{r | val r ≠ none}) (L : ℕ) (ws : List V) :
    avg (fun rows : Fin L → R => ind (ws <+: usableDraws val rows)) ≤ p ^ ws.length := by
  have hR : (0 : ℚ) < Fintype.card R := by exact_mod_cast Fintype.card_pos
  induction L generalizing ws with
  | zero =>
    cases ws with
    | nil => exact (avg_le_one _ fun a => ind_le_one _).trans (by simp)
    | cons w ws =>
      have : ∀ rows : Fin 0 → R, ind (w :: ws <+: usableDraws val rows) = 0 := fun rows => ind_neg (by simp [usableDraws])
      simp only [this]
      rw [avg_const]
      positivity
  | succ L ih =>
    cases ws with
    | nil => exact (avg_le_one _ fun a => ind_le_one _).trans (by simp)
    | cons w ws =>
      rw [avg_cons]
      have key : ∀ r : R, avg (fun rows : Fin L → R =>
          ind ((w :: ws) <+: usableDraws val (Fin.cons r rows : Fin (L + 1) → R))) ≤
          ind (val r = some w) * p ^ ws.length + ind (val r = none) * p ^ (ws.length + 1) := by
        intro r
        simp only [usableDraws_cons]
        cases h : val r with
        | none =>
          rw [ind_neg (show ¬ none = some w by simp), ind_pos rfl, zero_mul, zero_add, one_mul]
          exact ih (w :: ws)
        | some v =>
          simp only [Option.toList_some, List.cons_append, List.nil_append, List.cons_prefix_cons]
          rw [ind_neg (show ¬ some v = none by simp), zero_mul, add_zero]
          by_cases hv : w = v
          · subst hv
            rw [ind_pos rfl, one_mul]
            exact (avg_mono _ _ fun rows => ind_mono And.right).trans (ih ws)
          · rw [ind_neg (show ¬ some v = some w by simpa using fun h => hv h.symm), zero_mul]
            have : ∀ rows : Fin L → R, ind (w = v ∧ ws <+: usableDraws val rows) = 0 := fun rows => ind_neg fun h => hv h.1
            simp only [this]
            rw [avg_const]
      refine (avg_mono _ _ key).trans ?_
      rw [avg_add, avg_ind, avg_ind, ← add_div, div_le_iff₀ hR]
      have hcard : (#{r | val r = none} : ℚ) + #{r | val r ≠ none} = Fintype.card R := by
        have := card_filter_add_card_filter_not (s := (univ : Finset R)) (fun r => val r = none)
        rw [card_univ] at this
        exact_mod_cast this
      have h := mul_le_mul_of_nonneg_right (hp w) (pow_nonneg hp0 ws.length)
      rw [List.length_cons]
      calc (#{r | val r = some w} : ℚ) * p ^ ws.length + #{r | val r = none} * p ^ (ws.length + 1)
          ≤ p * #{r | val r ≠ none} * p ^ ws.length + #{r | val r = none} * p ^ (ws.length + 1) := by gcongr
        _ = p ^ (ws.length + 1) * (#{r | val r = none} + #{r | val r ≠ none}) := by ring
        _ = _ := by rw [hcard]

theorem avg_append {L L' : ℕ} (f : (Fin (L + L') → R) → ℚ) :
    avg f = avg fun a : Fin L → R => avg fun b : Fin L' → R => f (Fin.append a b) := by
  rw [← avg_prod (fun x : (Fin L → R) × (Fin L' → R) => f (Fin.append x.1 x.2))]
  exact (avg_equiv (Fin.appendEquiv L L') _ _ fun x => rfl).symm

theorem usableDraws_append {L L' : ℕ} (a : Fin L → R) (b : Fin L' → R) :
    usableDraws val (Fin.append a b) = usableDraws val a ++ usableDraws val b := by
  rw [usableDraws, List.ofFn_fin_append, List.filterMap_append]
  rfl

theorem none_bound (u : ℚ) (hu : (#{r | val r = none} : ℚ) ≤ u * Fintype.card R) (j : ℕ) :
    avg (fun rows : Fin j → R => ind (usableDraws val rows = [])) ≤ u ^ j := by
  have hR : (0 : ℚ) < Fintype.card R := by exact_mod_cast Fintype.card_pos
  have hu0 : 0 ≤ u := by
    by_contra h
    have : (0 : ℚ) ≤ #{r | val r = none} := by positivity
    nlinarith
  induction j with
  | zero => exact (avg_le_one _ fun a => ind_le_one _).trans (by simp)
  | succ j ih =>
    rw [avg_cons]
    have key : ∀ r : R, avg (fun rows : Fin j → R =>
        ind (usableDraws val (Fin.cons r rows : Fin (j + 1) → R) = [])) ≤ ind (val r = none) * u ^ j := by
      intro r
      simp only [usableDraws_cons]
      cases h : val r with
      | none =>
        rw [ind_pos rfl, one_mul]
        exact ih
      | some v =>
        have : ∀ rows : Fin j → R, ind ((some v).toList ++ usableDraws val rows = []) = 0 := fun rows => ind_neg (by simp)
        simp only [this]
        rw [avg_const, ind_neg (by simp), zero_mul]
    refine (avg_mono _ _ key).trans ?_
    rw [avg_ind, div_le_iff₀ hR, pow_succ]
    have := mul_le_mul_of_nonneg_right hu (pow_nonneg hu0 j)
    nlinarith

/-- The probability that `k j` draws contain fewer than `k` usable ones. -/
theorem short_bound (u : ℚ) (hu : (#{r | val r = none} : ℚ) ≤ u * Fintype.card R) (k j : ℕ) :
    avg (fun rows : Fin (k * j) → R => ind ((usableDraws val rows).length < k)) ≤ k * u ^ j := by
  induction k with
  | zero =>
    have : ∀ rows : Fin (0 * j) → R, ind ((usableDraws val rows).length < 0) = 0 := fun rows => ind_neg (by simp)
    simp only [this]
    rw [avg_const]
    simp
  | succ k ih =>
    have e : (k + 1) * j = j + k * j := by ring
    rw [e, avg_append]
    have key : ∀ a : Fin j → R, ∀ b : Fin (k * j) → R,
        ind ((usableDraws val (Fin.append a b)).length < k + 1) ≤
          ind (usableDraws val a = []) + ind ((usableDraws val b).length < k) := by
      intro a b
      rw [usableDraws_append, List.length_append]
      by_cases h1 : usableDraws val a = []
      · rw [ind_pos h1]
        linarith [ind_le_one ((usableDraws val a).length + (usableDraws val b).length < k + 1),
          ind_nonneg ((usableDraws val b).length < k)]
      · have := List.length_pos_iff.2 h1
        rw [ind_neg h1, zero_add]
        exact ind_mono fun h => by omega
    refine (avg_mono _ _ fun a => avg_mono _ _ fun b => key a b).trans ?_
    have e2 : ∀ a : Fin j → R, avg (fun b : Fin (k * j) → R => ind (usableDraws val a = []) +
        ind ((usableDraws val b).length < k)) = ind (usableDraws val a = []) +
        avg fun b : Fin (k * j) → R => ind ((usableDraws val b).length < k) := by
      intro a
      rw [avg_add, avg_const]
    simp only [e2]
    rw [avg_add, avg_const]
    have := none_bound val u hu j
    push_cast
    linarith

end draws

theorem row_arith_prob (a : ℚ) (Z K D d : ℕ) (hz : Z ≤ K) (hK2 : K < D) (h1 : a ≤ (K : ℚ) ^ d) :
    a ≤ (K / (D - K)) ^ d * ((D - Z) ^ d : ℕ) := by
  have hD' : (0 : ℚ) < D - K := by
    have : (K : ℚ) < D := by exact_mod_cast hK2
    linarith
  have hZ : ((D - Z : ℕ) : ℚ) = D - Z := Nat.cast_sub (by omega)
  have hZK : (Z : ℚ) ≤ K := by exact_mod_cast hz
  rw [Nat.cast_pow, hZ, ← mul_pow]
  refine h1.trans (pow_le_pow_left₀ (by positivity) ?_ d)
  rw [div_mul_eq_mul_div, le_div_iff₀ hD']
  have : (0 : ℚ) ≤ K := by positivity
  nlinarith

theorem row_arith_none (a : ℚ) (Z K D d : ℕ) (hz : Z ≤ K) (hK2 : K < D) (h3 : a + ((D - Z) ^ d : ℕ) = (D : ℚ) ^ d) :
    a ≤ d * K / D * (D : ℚ) ^ d := by
  have hZ : ((D - Z : ℕ) : ℚ) = D - Z := Nat.cast_sub (by omega)
  rw [Nat.cast_pow, hZ] at h3
  have hZK : (Z : ℚ) ≤ K := by exact_mod_cast hz
  have hZD : (Z : ℚ) ≤ D := by exact_mod_cast (show Z ≤ D by omega)
  have hD' : (0 : ℚ) < D := by exact_mod_cast (show 0 < D by omega)
  have hb := one_add_mul_le_pow (a := -(Z / D : ℚ)) (by
    have : (Z : ℚ) / D ≤ 1 := div_le_one_of_le₀ hZD hD'.le
    linarith) d
  have e : ((D : ℚ) - Z) ^ d = (D : ℚ) ^ d * (1 + -(Z / D)) ^ d := by
    rw [← mul_pow]
    congr 1
    field_simp
    ring
  rw [e] at h3
  have h4 : a = (1 - (1 + -(Z / D : ℚ)) ^ d) * (D : ℚ) ^ d := by linarith
  rw [h4]
  refine mul_le_mul_of_nonneg_right ?_ (by positivity)
  have h5 : (d : ℚ) * Z / D ≤ d * K / D := by gcongr
  have h6 : (d : ℚ) * -(Z / D) = -(d * Z / D) := by ring
  linarith

section rows
variable {F P : Type} [Zero F] [DecidableEq F] (E : Env F P)

/-- A tuple of scalars drawn from the table, if none of them is zero. -/
def rowValue {d : ℕ} (row : Fin d → Block) : Option (Fin d → F) :=
  if ∀ e, E.scalarOfWide (row e).bytes ≠ 0 then some fun e => E.scalarOfWide (row e).bytes else none

theorem row_usable (D : ℕ) (hD : Fintype.card Block = D) {d : ℕ} : #{row : Fin d → Block | rowValue E row ≠ none} =
    (D - #{b : Block | E.scalarOfWide b.bytes = 0}) ^ d := by
  have h : ({row : Fin d → Block | rowValue E row ≠ none} : Finset _) =
      Fintype.piFinset fun _ => ({b : Block | E.scalarOfWide b.bytes ≠ 0} : Finset Block) := by
    ext row
    simp [rowValue, Fintype.mem_piFinset]
  have h2 : #{b : Block | E.scalarOfWide b.bytes ≠ 0} = D - #{b : Block | E.scalarOfWide b.bytes = 0} := by
    have := card_filter_add_card_filter_not (s := (univ : Finset Block)) (fun b => E.scalarOfWide b.bytes = 0)
    rw [card_univ, hD] at this
    exact Nat.eq_sub_of_add_eq' this
  rw [h, Fintype.card_piFinset_const, h2]

theorem row_some (K : ℕ) (hK : ∀ x : F, #{b : Block | E.scalarOfWide b.bytes = x} ≤ K) {d : ℕ} (v : Fin d → F) :
    #{row : Fin d → Block | rowValue E row = some v} ≤ K ^ d := by
  refine (card_le_card ?_).trans (table_fibre E K d hK v)
  intro row h
  rw [mem_filter] at h ⊢
  refine ⟨mem_univ _, ?_⟩
  have h2 := h.2
  rw [rowValue] at h2
  split at h2
  · exact Option.some.inj h2
  · simp at h2

theorem row_prob (D K : ℕ) (hD : Fintype.card Block = D) (hK : ∀ x : F, #{b : Block | E.scalarOfWide b.bytes = x} ≤ K)
    (hK2 : K < D) {d : ℕ} (v : Fin d → F) :
    (#{row : Fin d → Block | rowValue E row = some v} : ℚ) ≤
      (K / (D - K)) ^ d * #{row : Fin d → Block | rowValue E row ≠ none} := by
  have h1 : (#{row : Fin d → Block | rowValue E row = some v} : ℚ) ≤ (K : ℚ) ^ d := by exact_mod_cast row_some E K hK v
  rw [row_usable E D hD]
  exact row_arith_prob _ _ _ _ d (hK 0) hK2 h1

theorem row_none (D K : ℕ) (hD : Fintype.card Block = D) (hK : ∀ x : F, #{b : Block | E.scalarOfWide b.bytes = x} ≤ K)
    (hK2 : K < D) {d : ℕ} :
    (#{row : Fin d → Block | rowValue E row = none} : ℚ) ≤ d * K / D * Fintype.card (Fin d → Block) := by
  have h1 := row_usable E D hD (d := d)
  have h2 := card_filter_add_card_filter_not (s := (univ : Finset (Fin d → Block))) (fun r => rowValue E r = none)
  rw [card_univ] at h2
  have hcard : (Fintype.card (Fin d → Block) : ℚ) = (D : ℚ) ^ d := by
    rw [Fintype.card_fun, hD, Fintype.card_fin, Nat.cast_pow]
  have h3 : (#{row : Fin d → Block | rowValue E row = none} : ℚ) + #{row : Fin d → Block | rowValue E row ≠ none} =
      Fintype.card (Fin d → Block) := by exact_mod_cast h2
  rw [h1, hcard] at h3
  rw [hcard]
  exact row_arith_none _ _ _ _ d (hK 0) hK2 h3

theorem draws_list {W : Type} {d : ℕ} (c : (Fin d → F) → W) (us : W → Bool) (hus : ∀ v, us (c v) = true ↔ ∀ e, v e ≠ 0)
    (l : List (Fin d → Block)) :
    (l.map fun row => c fun e => E.scalarOfWide (row e).bytes).filter us = (l.filterMap (rowValue E)).map c := by
  induction l with
  | nil => rfl
  | cons row l ih =>
    rw [List.map_cons]
    by_cases h : ∀ e, E.scalarOfWide (row e).bytes ≠ 0
    · rw [List.filter_cons_of_pos ((hus _).2 h), List.filterMap_cons_some (b := fun e => E.scalarOfWide (row e).bytes)
        (by rw [rowValue, if_pos h]), List.map_cons, ih]
    · rw [List.filter_cons_of_neg (fun h' => h ((hus _).1 h')), List.filterMap_cons_none (by rw [rowValue, if_neg h]), ih]

/-- The usable tuples drawn from the table. -/
theorem draws_tuples {W : Type} {d : ℕ} (c : (Fin d → F) → W) (us : W → Bool) (hus : ∀ v, us (c v) = true ↔ ∀ e, v e ≠ 0)
    (tuple : ℕ → W) {L : ℕ} (rows : Fin L → Fin d → Block)
    (h : ∀ q (hq : q < L), tuple q = c fun e => E.scalarOfWide (rows ⟨q, hq⟩ e).bytes) :
    ((List.range L).map tuple).filter us = (usableDraws (rowValue E) rows).map c := by
  rw [usableDraws, ← draws_list E c us hus]
  congr 1
  apply List.ext_getElem (by simp)
  intro q h1 h2
  rw [List.getElem_map, List.getElem_map, List.getElem_range, List.getElem_ofFn]
  exact h q (by simpa using h1)

/-- The table as a list of tuples. -/
def rowsOf {A : Type} {L d : ℕ} (τ : Fin (L * d) → A) : Fin L → Fin d → A := fun q e => τ (finProdFinEquiv (q, e))

theorem avg_rows {A : Type} [Fintype A] [Nonempty A] {L d : ℕ} (f : (Fin L → Fin d → A) → ℚ) :
    avg (fun τ : Fin (L * d) → A => f (rowsOf τ)) = avg f := by
  refine avg_equiv ((Equiv.arrowCongr finProdFinEquiv.symm (Equiv.refl A)).trans (Equiv.curry _ _ _)) _ _ fun τ => ?_
  rfl

/-- The probability that the table has too few usable tuples. -/
theorem draws_short (D K : ℕ) (hD : Fintype.card Block = D) (hK : ∀ x : F, #{b : Block | E.scalarOfWide b.bytes = x} ≤ K)
    (hK2 : K < D) (k j d : ℕ) (ev : (Fin (k * j * d) → Block) → Prop)
    (hev : ∀ τ, ev τ → (usableDraws (rowValue E) (rowsOf τ)).length < k) :
    avg (fun τ => ind (ev τ)) ≤ k * (d * K / D : ℚ) ^ j := by
  refine (avg_mono _ (fun τ => ind ((usableDraws (rowValue E) (rowsOf τ)).length < k)) fun τ => ind_mono (hev τ)).trans ?_
  rw [avg_rows (fun rows : Fin (k * j) → Fin d → Block => ind ((usableDraws (rowValue E) rows).length < k))]
  exact short_bound (rowValue E) _ (row_none E D K hD hK hK2) k j

/-- The probability that the first usable tuples of the table are in a given set, or that there are too few. -/
theorem draws_event (D K : ℕ) (hD : Fintype.card Block = D) (hK : ∀ x : F, #{b : Block | E.scalarOfWide b.bytes = x} ≤ K)
    (hK2 : K < D) (k j d : ℕ) (bad : Finset (Fin k × Fin d → F)) (ev : (Fin (k * j * d) → Block) → Prop)
    (hev : ∀ τ, ev τ → (usableDraws (rowValue E) (rowsOf τ)).length < k ∨
      ∃ w ∈ bad, (List.ofFn fun i => fun e => w (i, e)) <+: usableDraws (rowValue E) (rowsOf τ)) :
    avg (fun τ => ind (ev τ)) ≤ #bad * (K / (D - K) : ℚ) ^ (d * k) + k * (d * K / D : ℚ) ^ j := by
  have h1 : ∀ τ, ind (ev τ) ≤ (∑ w ∈ bad, ind ((List.ofFn fun i => fun e => w (i, e)) <+: usableDraws (rowValue E) (rowsOf τ))) +
      ind ((usableDraws (rowValue E) (rowsOf τ)).length < k) := by
    intro τ
    have hs : ∀ w ∈ bad, 0 ≤ ind ((List.ofFn fun i => fun e => w (i, e)) <+: usableDraws (rowValue E) (rowsOf τ)) :=
      fun w _ => ind_nonneg _
    have hs' := sum_nonneg hs
    have hn := ind_nonneg ((usableDraws (rowValue E) (rowsOf τ)).length < k)
    by_cases he : ev τ
    · rw [ind_pos he]
      rcases hev τ he with h | ⟨w, hw, h⟩
      · rw [ind_pos h]; linarith
      · have := single_le_sum hs hw
        rw [ind_pos h] at this
        linarith
    · rw [ind_neg he]; linarith
  refine (avg_mono _ _ h1).trans ?_
  rw [avg_add]
  refine add_le_add ?_ (draws_short E D K hD hK hK2 k j d _ fun τ h => h)
  have h2 : avg (fun τ : Fin (k * j * d) → Block => ∑ w ∈ bad, ind ((List.ofFn fun i => fun e => w (i, e)) <+:
      usableDraws (rowValue E) (rowsOf τ))) = ∑ w ∈ bad, avg (fun τ : Fin (k * j * d) → Block =>
        ind ((List.ofFn fun i => fun e => w (i, e)) <+: usableDraws (rowValue E) (rowsOf τ))) := by
    simp only [avg]
    rw [sum_comm, sum_div]
  have hKD : (K : ℚ) < D := by exact_mod_cast hK2
  have hp : (0 : ℚ) ≤ K / (D - K) := div_nonneg (Nat.cast_nonneg _) (sub_nonneg.2 hKD.le)
  rw [h2, ← nsmul_eq_mul]
  refine sum_le_card_nsmul _ _ _ fun w hw => ?_
  rw [avg_rows (fun rows : Fin (k * j) → Fin d → Block =>
    ind ((List.ofFn fun i => fun e => w (i, e)) <+: usableDraws (rowValue E) rows))]
  have := prefix_bound (rowValue E) _ (pow_nonneg hp d) (fun v => row_prob E D K hD hK hK2 v) (k * j)
    (List.ofFn fun i => fun e => w (i, e))
  rw [List.length_ofFn, ← pow_mul] at this
  exact this

end rows
end Triptych
