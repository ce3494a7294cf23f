import Verif.Lemmas.Soundness
import Verif.Lemmas.Fork
import Verif.Spec.Equations

/-! A fixed proof satisfies the equations of a fixed statement for few challenges; counting hits of a program that does not
influence what is hit. -/
set_option autoImplicit false
set_option linter.unusedSectionVars false

namespace Triptych
open Finset Spec Function

section hits
variable {ι β α : Type} [DecidableEq ι] [Fintype ι] [Fintype β]

open Classical in
/-- If for every point at most `k` answers are good, then few oracles are good at the point the output determines. -/
theorem hit_count (c : OracleProgram ι β α) (crit : α → Option ι) (good : (ι → β) → Prop) (Q k : ℕ)
    (hQ : ∀ O, (c.asked O).length ≤ Q)
    (hk : ∀ O s, #{b | crit (c.run (update O s b)) = some s ∧ good (update O s b)} ≤ k) :
    Fintype.card β * #{O : ι → β | (∃ s, crit (c.run O) = some s) ∧ good O} ≤ k * (Q + 1) * Fintype.card (ι → β) := by
  let N : (ι → β) → ι → ℕ := fun O s => #{b | crit (c.run (update O s b)) = some s ∧ good (update O s b)}
  let g : ι → (ι → β) → ℕ := fun s O => if crit (c.run O) = some s ∧ good O then 1 else 0
  have h1 : #{O : ι → β | (∃ s, crit (c.run O) = some s) ∧ good O} = ∑ s, ∑ O, g s O := by
    rw [sum_comm, card_filter]
    apply sum_congr rfl
    intro O _
    by_cases h : (∃ s, crit (c.run O) = some s) ∧ good O
    · rw [if_pos h]
      obtain ⟨⟨s, hs⟩, hg⟩ := h
      rw [sum_eq_single s]
      · simp only [g]; rw [if_pos ⟨hs, hg⟩]
      · intro s' _ hne
        simp only [g]
        rw [if_neg]
        rintro ⟨h', -⟩
        rw [hs] at h'
        exact hne (Option.some.inj h').symm
      · intro h; exact absurd (mem_univ s) h
    · rw [if_neg h, sum_eq_zero]
      intro s _
      simp only [g]
      rw [if_neg]
      intro h'
      exact h ⟨⟨s, h'.1⟩, h'.2⟩
  have h2 : ∀ s, Fintype.card β * ∑ O, g s O = ∑ O : ι → β, N O s := by
    intro s
    rw [sum_update s]
    apply sum_congr rfl
    intro O _
    simp only [g, N, card_filter]
  have h3 : ∀ O s, N O s ≤ if s ∈ c.touched crit O then k else 0 := by
    intro O s
    by_cases hs : s ∈ c.touched crit O
    · rw [if_pos hs]
      exact hk O s
    · rw [if_neg hs, Nat.le_zero, card_eq_zero, filter_eq_empty_iff]
      rintro b _ ⟨hb, -⟩
      apply hs
      rw [← touched_update c crit O s b, OracleProgram.touched, hb]
      simp
  rw [h1, mul_sum]
  simp only [h2]
  rw [sum_comm]
  calc ∑ O : ι → β, ∑ s, N O s
      ≤ ∑ O : ι → β, k * (Q + 1) := by
        apply sum_le_sum
        intro O _
        calc ∑ s, N O s ≤ ∑ s, (if s ∈ c.touched crit O then k else 0) := sum_le_sum fun s _ => h3 O s
          _ = #(c.touched crit O) * k := by rw [sum_ite_mem, univ_inter, sum_const, smul_eq_mul]
          _ ≤ k * (Q + 1) := by
              rw [Nat.mul_comm]
              exact Nat.mul_le_mul_left _ ((touched_card c crit O).trans (Nat.add_le_add_right (hQ O) 1))
    _ = k * (Q + 1) * Fintype.card (ι → β) := by
        rw [sum_const, smul_eq_mul, card_univ, Nat.mul_comm]

/-- More than `m * K` good answers decode to more than `m` values. -/
theorem exists_distinct_pred {F : Type} [DecidableEq F] (dec : β → F) (K m : ℕ)
    (hK : ∀ x : F, #{b | dec b = x} ≤ K) (p : β → Prop) {_ : DecidablePred p} (hB : ¬ #{b | p b} ≤ m * K) :
    ∃ b : ℕ → β, Set.InjOn (fun e => dec (b e)) (range (m + 1)) ∧ ∀ e ≤ m, p (b e) := by
  obtain ⟨b, hb, h⟩ := exists_distinct dec K m hK _ (not_le.1 hB)
  exact ⟨b, hb, fun e he => (mem_filter.1 (h e he)).2⟩

end hits

variable {F P : Type} [Field F] [AddCommGroup P] [Module F P] [DecidableEq F] [DecidableEq P]

theorem grayDigit_zero (n j : ℕ) (hn : 0 < n) : grayDigit n 0 j = 0 := by
  simp [grayDigit, digit]

/-- Changing the challenge changes the full response matrix in the first column only. -/
theorem fullF_selector (f : List (List F)) (n : ℕ) (hn : 0 < n) (ξ : F) (j i : ℕ) :
    fullF f ξ j i = fullF f 0 j i + ξ * selector n 0 j i := by
  cases i with
  | zero => simp [fullF, selector, grayDigit_zero n j hn]; ring
  | succ i => simp [fullF, selector, grayDigit_zero n j hn]

/-- If fixed responses and commitments satisfy the third equation for `m + 1` challenges then the first key is zero. -/
theorem ring_challenges (n m : ℕ) (hn : 2 ≤ n) (hm : 0 < m) (f : List (List F)) (z : F) (ξ : ℕ → F)
    (hξ : Set.InjOn ξ (range (m + 1))) (V X : ℕ → P) (G : P)
    (h : ∀ e ≤ m, ∑ k ∈ range (n ^ m), ringCoeff n m (fullF f (ξ e)) k • V k - ∑ j ∈ range m, ξ e ^ j • X j - z • G = 0) :
    V 0 = 0 := by
  have h1 := extract_ring n m hn 0 (by positivity) (fullF f 0) (fun e => fullF f (ξ e)) ξ (fun _ => z) hξ
    (fun e _ j _ i _ => fullF_selector f n (by omega) (ξ e) j i) V X G h
  have h2 := lagrange_lead m ξ hξ 0 (Nat.zero_le _)
  rw [if_neg (by omega)] at h2
  have h3 : extractKey m ξ (fun _ => z) = z * extractKey m ξ (fun e => ξ e ^ 0) := by
    rw [extractKey, extractKey, mul_sum]
    apply sum_congr rfl
    intro e _
    rw [pow_zero, mul_one_div]
  rw [h1, h3, h2, mul_zero, zero_smul]

end Triptych
