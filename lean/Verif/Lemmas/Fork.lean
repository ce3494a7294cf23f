import Verif.Spec.Oracle
import Mathlib.Algebra.Order.BigOperators.Group.Finset
import Mathlib.Algebra.BigOperators.Ring.Finset
import Mathlib.Data.Finset.Card
import Mathlib.Data.Fintype.Card
import Mathlib.Data.Fintype.BigOperators

/-! Counting argument for rewinding a program with a random oracle. -/
set_option autoImplicit false
set_option linter.unusedSectionVars false

namespace Triptych
open Finset Spec Function

variable {ι β α : Type} [DecidableEq ι]

/-- A program does not see changes of the oracle where it does not ask. -/
theorem run_update (c : OracleProgram ι β α) (O : ι → β) (s : ι) (b : β) (h : s ∉ c.asked O) :
    c.run (update O s b) = c.run O ∧ c.asked (update O s b) = c.asked O := by
  induction c with
  | done a => exact ⟨rfl, rfl⟩
  | ask i next ih =>
    simp only [OracleProgram.asked, List.mem_cons, not_or] at h
    have hi : update O s b i = O i := update_of_ne (fun h' => h.1 h'.symm) _ _
    simp only [OracleProgram.run, OracleProgram.asked, hi]
    exact ⟨(ih _ h.2).1, by rw [(ih _ h.2).2]⟩

/-- Whether a question is asked does not depend on its answer. -/
theorem asked_update (c : OracleProgram ι β α) (O : ι → β) (s : ι) (b : β) :
    s ∈ c.asked (update O s b) ↔ s ∈ c.asked O := by
  by_cases h : s ∈ c.asked O
  · refine ⟨fun _ => h, fun _ => ?_⟩
    by_contra h'
    have := (run_update c (update O s b) s (O s) h').2
    rw [update_idem, update_eq_self] at this
    rw [this] at h
    exact h' h
  · rw [(run_update c O s b h).2]

theorem touched_update (c : OracleProgram ι β α) (crit : α → Option ι) (O : ι → β) (s : ι) (b : β) :
    s ∈ c.touched crit (update O s b) ↔ s ∈ c.touched crit O := by
  by_cases h : s ∈ c.asked O
  · have := (asked_update c O s b).2 h
    simp [OracleProgram.touched, h, this]
  · rw [OracleProgram.touched, OracleProgram.touched, (run_update c O s b h).1, (run_update c O s b h).2]

theorem touched_card (c : OracleProgram ι β α) (crit : α → Option ι) (O : ι → β) :
    #(c.touched crit O) ≤ (c.asked O).length + 1 := by
  refine (card_union_le _ _).trans (Nat.add_le_add (List.toFinset_card_le _) ?_)
  cases crit (c.run O) <;> simp

variable [Fintype ι] [Fintype β]

/-- Averaging over the answer at one point. -/
theorem sum_update (s : ι) (f : (ι → β) → ℕ) :
    Fintype.card β * ∑ O, f O = ∑ O : ι → β, ∑ b, f (update O s b) := by
  have h : ∑ x : (ι → β) × β, f x.1 = ∑ x : (ι → β) × β, f (update x.1 s x.2) := by
    refine Finset.sum_nbij' (fun x => (update x.1 s x.2, x.1 s)) (fun x => (update x.1 s x.2, x.1 s)) ?_ ?_ ?_ ?_ ?_
    · intro x _; exact mem_univ _
    · intro x _; exact mem_univ _
    · intro x _; simp
    · intro x _; simp
    · intro x _; simp
  rw [Fintype.sum_prod_type, Fintype.sum_prod_type] at h
  rw [← h, mul_sum]
  apply sum_congr rfl
  intro O _
  simp

open Classical in
/-- The forking count: successes are paid for by forking points, up to `k` answers for each point touched. -/
theorem fork_count (c : OracleProgram ι β α) (crit : α → Option ι) (good : α → β → Prop) (Q k : ℕ)
    (hQ : ∀ O, (c.asked O).length ≤ Q) :
    Fintype.card β * #{O : ι → β | ∃ s, crit (c.run O) = some s ∧ good (c.run O) (O s)} ≤
      k * (Q + 1) * Fintype.card (ι → β) + Fintype.card β * ∑ O : ι → β, #{s ∈ c.touched crit O |
        k < #{b | crit (c.run (update O s b)) = some s ∧ good (c.run (update O s b)) b}} := by
  let N : (ι → β) → ι → ℕ := fun O s => #{b | crit (c.run (update O s b)) = some s ∧ good (c.run (update O s b)) b}
  let g : ι → (ι → β) → ℕ := fun s O => if crit (c.run O) = some s ∧ good (c.run O) (O s) then 1 else 0
  have h1 : #{O : ι → β | ∃ s, crit (c.run O) = some s ∧ good (c.run O) (O s)} = ∑ s, ∑ O, g s O := by
    rw [sum_comm, card_filter]
    apply sum_congr rfl
    intro O _
    by_cases h : ∃ s, crit (c.run O) = some s ∧ good (c.run O) (O s)
    · obtain ⟨s, hs⟩ := h
      rw [if_pos ⟨s, hs⟩, sum_eq_single s]
      · simp only [g]; rw [if_pos hs]
      · intro s' _ hne
        simp only [g]
        rw [if_neg]
        rintro ⟨h', -⟩
        rw [hs.1] at h'
        exact hne (Option.some.inj h').symm
      · intro h; exact absurd (mem_univ s) h
    · rw [if_neg h, sum_eq_zero]
      intro s _
      simp only [g]
      rw [if_neg]
      intro h'
      exact h ⟨s, h'⟩
  have h2 : ∀ s, Fintype.card β * ∑ O, g s O = ∑ O : ι → β, N O s := by
    intro s
    rw [sum_update s]
    apply sum_congr rfl
    intro O _
    simp only [g, N, card_filter, update_self]
  have h3 : ∀ O s, N O s ≤ if s ∈ c.touched crit O then (k + if k < N O s then Fintype.card β else 0) else 0 := by
    intro O s
    by_cases hs : s ∈ c.touched crit O
    · rw [if_pos hs]
      split
      · exact le_trans (card_le_univ _) (Nat.le_add_left _ _)
      · omega
    · rw [if_neg hs, Nat.le_zero, card_eq_zero, filter_eq_empty_iff]
      rintro b _ ⟨hb, -⟩
      apply hs
      rw [← touched_update c crit O s b, OracleProgram.touched, hb]
      simp
  rw [h1, mul_sum]
  simp only [h2]
  rw [sum_comm]
  calc ∑ O : ι → β, ∑ s, N O s
      ≤ ∑ O : ι → β, (k * (Q + 1) + Fintype.card β * #{s ∈ c.touched crit O | k < N O s}) := by
        apply sum_le_sum
        intro O _
        calc ∑ s, N O s ≤ ∑ s, (if s ∈ c.touched crit O then (k + if k < N O s then Fintype.card β else 0) else 0) :=
              sum_le_sum fun s _ => h3 O s
          _ = ∑ s ∈ c.touched crit O, (k + if k < N O s then Fintype.card β else 0) := by
              rw [sum_ite_mem, univ_inter]
          _ = #(c.touched crit O) * k + ∑ s ∈ c.touched crit O, (if k < N O s then Fintype.card β else 0) := by
              rw [sum_add_distrib, sum_const, smul_eq_mul]
          _ ≤ k * (Q + 1) + Fintype.card β * #{s ∈ c.touched crit O | k < N O s} := by
              refine Nat.add_le_add ?_ (le_of_eq ?_)
              · rw [Nat.mul_comm]
                exact Nat.mul_le_mul_left _ ((touched_card c crit O).trans (Nat.add_le_add_right (hQ O) 1))
              · rw [← sum_filter, sum_const, smul_eq_mul, Nat.mul_comm]
    _ = k * (Q + 1) * Fintype.card (ι → β) + Fintype.card β * ∑ O : ι → β, #{s ∈ c.touched crit O | k < N O s} := by
        rw [sum_add_distrib, sum_const, smul_eq_mul, mul_sum, card_univ, Nat.mul_comm (Fintype.card (ι → β))]

/-- Many answers decode to many values. -/
theorem exists_distinct {F : Type} [DecidableEq F] (dec : β → F) (K m : ℕ)
    (hK : ∀ x : F, #{b | dec b = x} ≤ K) (B : Finset β) (hB : m * K < #B) :
    ∃ b : ℕ → β, Set.InjOn (fun e => dec (b e)) (range (m + 1)) ∧ ∀ e ≤ m, b e ∈ B := by
  have hne : B.Nonempty := card_pos.1 (by omega)
  have him : m < #(B.image dec) := by
    by_contra h
    have h1 : #B ≤ ∑ x ∈ B.image dec, #{b ∈ B | dec b = x} :=
      le_of_eq (card_eq_sum_card_image dec B)
    have h2 : ∑ x ∈ B.image dec, #{b ∈ B | dec b = x} ≤ #(B.image dec) * K := by
      rw [← smul_eq_mul]
      apply sum_le_card_nsmul
      intro x _
      exact le_trans (card_le_card (filter_subset_filter _ (subset_univ _))) (hK x)
    have h3 : #(B.image dec) * K ≤ m * K := Nat.mul_le_mul_right _ (by omega)
    omega
  obtain ⟨T, hT, hTc⟩ := exists_subset_card_eq (show m + 1 ≤ #(B.image dec) by omega)
  obtain ⟨b0, hb0⟩ := hne
  let e := T.equivFinOfCardEq hTc
  have hpre : ∀ x ∈ T, ∃ b ∈ B, dec b = x := fun x hx => mem_image.1 (hT hx)
  choose pre hpre1 hpre2 using hpre
  refine ⟨fun i => if h : i < m + 1 then pre _ (e.symm ⟨i, h⟩).2 else b0, ?_, ?_⟩
  · intro i hi j hj hij
    rw [coe_range, Set.mem_Iio] at hi hj
    simp only [dif_pos hi, dif_pos hj] at hij
    rw [hpre2, hpre2] at hij
    have := e.symm.injective (Subtype.ext hij)
    simpa using this
  · intro i hi
    simp only [dif_pos (show i < m + 1 by omega)]
    exact hpre1 _ _

open Classical in
/-- Rewinding: `Ext O s` holds if the program, rerun with `m + 1` answers of distinct values at `s`, succeeds with each. -/
theorem fork_extract {F : Type} [DecidableEq F] (c : OracleProgram ι β α) (crit : α → Option ι) (good : α → β → Prop)
    (dec : β → F) (Q K m : ℕ) (hQ : ∀ O, (c.asked O).length ≤ Q) (hK : ∀ x : F, #{b | dec b = x} ≤ K)
    (Ext : (ι → β) → ι → Prop)
    (hext : ∀ O s (b : ℕ → β), Set.InjOn (fun e => dec (b e)) (range (m + 1)) →
      (∀ e ≤ m, crit (c.run (update O s (b e))) = some s ∧ good (c.run (update O s (b e))) (b e)) → Ext O s) :
    Fintype.card β * #{O : ι → β | ∃ s, crit (c.run O) = some s ∧ good (c.run O) (O s)} ≤
      m * K * (Q + 1) * Fintype.card (ι → β) + Fintype.card β * ∑ O : ι → β, #{s ∈ c.touched crit O | Ext O s} := by
  refine (fork_count c crit good Q (m * K) hQ).trans (Nat.add_le_add_left (Nat.mul_le_mul_left _ ?_) _)
  apply sum_le_sum
  intro O _
  apply card_le_card
  intro s hs
  rw [mem_filter] at hs ⊢
  refine ⟨hs.1, ?_⟩
  obtain ⟨b, hb, hB⟩ := exists_distinct dec K m hK _ hs.2
  exact hext O s b hb fun e he => (mem_filter.1 (hB e he)).2

end Triptych
