import Verif.Spec.Rewind
import Verif.Lemmas.Fork
import Verif.Lemmas.Draws

/-! # Lemmas about rewinding as an algorithm -/
set_option autoImplicit false
set_option linter.unusedSectionVars false
set_option linter.unusedVariables false

namespace Triptych
open Finset Spec Function

/-- `x (1 - x) ^ τ ≤ 1 / (τ + 1)` -/
theorem mul_pow_le (x : ℚ) (h0 : 0 ≤ x) (h1 : x ≤ 1) (τ : ℕ) : x * (1 - x) ^ τ ≤ 1 / (τ + 1) := by
  have hy0 : (0 : ℚ) ≤ 1 - x := by linarith
  have hy1 : 1 - x ≤ 1 := by linarith
  have key : (τ + 1 : ℚ) * (x * (1 - x) ^ τ) ≤ 1 - (1 - x) ^ (τ + 1) := by
    induction τ with
    | zero => simp
    | succ τ ih =>
      push_cast
      have hp : (0 : ℚ) ≤ (1 - x) ^ (τ + 1) := pow_nonneg hy0 _
      have hp1 : (1 - x) ^ (τ + 1) ≤ 1 := pow_le_one₀ hy0 hy1
      have e : (τ + 1 + 1 : ℚ) * (x * (1 - x) ^ (τ + 1)) =
          (1 - x) * ((τ + 1 : ℚ) * (x * (1 - x) ^ τ)) + x * (1 - x) ^ (τ + 1) := by ring
      rw [e, pow_succ _ (τ + 1)]
      nlinarith [mul_le_mul_of_nonneg_left ih hy0, mul_le_mul_of_nonneg_left hp1 h0]
  rw [le_div_iff₀ (by positivity)]
  have hp : (0 : ℚ) ≤ (1 - x) ^ (τ + 1) := pow_nonneg hy0 _
  linarith

section rounds
variable {β F : Type} [Fintype β] [Nonempty β] [DecidableEq β] [DecidableEq F]

/-- The values found: those in `D`, and the values of the tried answers in `H`. -/
def found (H : Finset β) (dec : β → F) (D : Finset F) {r τ : ℕ} (tape : Fin r → Fin τ → β) : Finset F :=
  D ∪ image dec {b ∈ H | ∃ i j, tape i j = b}

theorem found_cons (H : Finset β) (dec : β → F) (D : Finset F) {r τ : ℕ} (row : Fin τ → β) (tape : Fin r → Fin τ → β) :
    found H dec D (Fin.cons row tape : Fin (r + 1) → Fin τ → β) = found H dec (D ∪ image dec {b ∈ H | ∃ j, row j = b}) tape := by
  rw [found, found, union_assoc, ← image_union]
  congr 2
  ext b
  simp only [mem_filter, mem_union, Fin.exists_fin_succ, Fin.cons_zero, Fin.cons_succ]
  tauto

/-- The probability that `τ` tries all miss a set. -/
theorem avg_miss (A : Finset β) (τ : ℕ) :
    avg (fun row : Fin τ → β => ind (∀ j, row j ∉ A)) = (1 - #A / Fintype.card β) ^ τ := by
  have hN : (0 : ℚ) < Fintype.card β := by exact_mod_cast Fintype.card_pos
  rw [avg_ind']
  have h : ({row : Fin τ → β | ∀ j, row j ∉ A} : Finset _) = Fintype.piFinset fun _ => Aᶜ := by
    ext row
    simp [Fintype.mem_piFinset]
  rw [h, Fintype.card_piFinset, Fintype.card_pi_const, prod_const, card_univ, Fintype.card_fin, Nat.cast_pow, Nat.cast_pow, ← div_pow,
    card_compl, Nat.cast_sub (card_le_univ A), sub_div, div_self hN.ne']

/-- In each round a new value is found except with probability `(1 - x) ^ τ`. -/
theorem rounds (H : Finset β) (dec : β → F) (K m τ : ℕ) (hK : ∀ y : F, #{b | dec b = y} ≤ K) (x : ℚ) (h0 : 0 ≤ x) (h1 : x ≤ 1)
    (hx : x * Fintype.card β ≤ #H - m * K) (r : ℕ) : ∀ D : Finset F, m + 1 ≤ #D + r →
      1 - r * (1 - x) ^ τ ≤ avg fun tape : Fin r → Fin τ → β => ind (m + 1 ≤ #(found H dec D tape)) := by
  have hN : (0 : ℚ) < Fintype.card β := by exact_mod_cast Fintype.card_pos
  have hq0 : (0 : ℚ) ≤ (1 - x) ^ τ := pow_nonneg (by linarith) _
  have hq1 : (1 - x) ^ τ ≤ 1 := pow_le_one₀ (by linarith) (by linarith)
  induction r with
  | zero =>
    intro D hD
    have : ∀ tape : Fin 0 → Fin τ → β, ind (m + 1 ≤ #(found H dec D tape)) = 1 := fun tape =>
      ind_pos (le_trans (by omega) (card_le_card subset_union_left))
    simp only [this, avg_const]
    simp
  | succ r ih =>
    intro D hD
    by_cases hm : m + 1 ≤ #D
    · have : ∀ tape : Fin (r + 1) → Fin τ → β, ind (m + 1 ≤ #(found H dec D tape)) = 1 := fun tape =>
        ind_pos (hm.trans (card_le_card subset_union_left))
      simp only [this, avg_const]
      have : (0 : ℚ) ≤ (r + 1 : ℕ) := by positivity
      nlinarith [mul_nonneg this hq0]
    by_cases hneg : 1 - r * (1 - x) ^ τ < 0
    · refine le_trans ?_ (avg_nonneg _ fun _ => ind_nonneg _)
      push_cast
      linarith
    rw [not_lt] at hneg
    let A : Finset β := {b ∈ H | dec b ∉ D}
    have hA : x * Fintype.card β ≤ #A := by
      have hsplit : #H ≤ #A + #D * K := by
        have e : H ⊆ A ∪ D.biUnion fun y => {b | dec b = y} := by
          intro b hb
          by_cases hd : dec b ∈ D
          · exact mem_union_right _ (mem_biUnion.2 ⟨_, hd, by simp⟩)
          · exact mem_union_left _ (mem_filter.2 ⟨hb, hd⟩)
        refine (card_le_card e).trans ((card_union_le _ _).trans (Nat.add_le_add_left ?_ _))
        exact card_biUnion_le_card_mul _ _ _ fun y _ => hK y
      have hDK : #D * K ≤ m * K := Nat.mul_le_mul_right _ (by omega)
      have : (#H : ℚ) ≤ #A + m * K := by exact_mod_cast hsplit.trans (Nat.add_le_add_left hDK _)
      linarith
    have hmiss : avg (fun row : Fin τ → β => ind (∀ j, row j ∉ A)) ≤ (1 - x) ^ τ := by
      rw [avg_miss]
      apply pow_le_pow_left₀
      · have : (#A : ℚ) ≤ Fintype.card β := by exact_mod_cast card_le_univ A
        have := (div_le_one hN).2 this
        linarith
      · have := (le_div_iff₀ hN).2 hA
        linarith
    rw [avg_cons]
    have hrow : ∀ row : Fin τ → β, (1 - ind (∀ j, row j ∉ A)) * (1 - r * (1 - x) ^ τ) ≤
        avg fun tape : Fin r → Fin τ → β => ind (m + 1 ≤ #(found H dec D (Fin.cons row tape : Fin (r + 1) → Fin τ → β))) := by
      intro row
      by_cases hr : ∀ j, row j ∉ A
      · rw [ind_pos hr, sub_self, zero_mul]
        exact avg_nonneg _ fun _ => ind_nonneg _
      · rw [ind_neg hr, sub_zero, one_mul]
        simp only [found_cons]
        apply ih
        push Not at hr
        obtain ⟨j, hj⟩ := hr
        obtain ⟨hj1, hj2⟩ := mem_filter.1 hj
        have : #D + 1 ≤ #(D ∪ image dec {b ∈ H | ∃ j, row j = b}) := by
          rw [← card_insert_of_notMem hj2]
          apply card_le_card
          intro y hy
          rcases mem_insert.1 hy with rfl | hy
          · exact mem_union_right _ (mem_image_of_mem _ (mem_filter.2 ⟨hj1, j, rfl⟩))
          · exact mem_union_left _ hy
        omega
    refine le_trans ?_ (avg_mono _ _ hrow)
    have e : (avg fun row : Fin τ → β => (1 - ind (∀ j, row j ∉ A)) * (1 - r * (1 - x) ^ τ)) =
        (1 - avg (fun row : Fin τ → β => ind (∀ j, row j ∉ A))) * (1 - r * (1 - x) ^ τ) := by
      rw [avg, ← sum_mul, mul_div_right_comm]
      congr 1
      rw [← avg, avg_sub, avg_const]
    rw [e]
    push_cast
    have hr0 : (0 : ℚ) ≤ r := by positivity
    calc 1 - (r + 1) * (1 - x) ^ τ ≤ (1 - (1 - x) ^ τ) * (1 - r * (1 - x) ^ τ) := by nlinarith [mul_nonneg hr0 (mul_nonneg hq0 hq0)]
      _ ≤ _ := by
        apply mul_le_mul_of_nonneg_right _ hneg
        linarith

/-- What the tries yield for a set `H` of good answers, the first of which has been found already. -/
theorem tries_bound (H : Finset β) (dec : β → F) (K m τ : ℕ) (hK : ∀ y : F, #{b | dec b = y} ≤ K) (y : F) :
    (#H : ℚ) / Fintype.card β - (m / (τ + 1) + m * m * K / Fintype.card β) ≤
      #H / Fintype.card β * avg fun tape : Fin m → Fin τ → β => ind (m + 1 ≤ #(found H dec {y} tape)) := by
  have hN : (0 : ℚ) < Fintype.card β := by exact_mod_cast Fintype.card_pos
  have hHN : (#H : ℚ) ≤ Fintype.card β := by exact_mod_cast card_le_univ H
  have hp0 : (0 : ℚ) ≤ #H / Fintype.card β := by positivity
  by_cases hH : #H < m * K
  · refine le_trans ?_ (mul_nonneg hp0 (avg_nonneg _ fun _ => ind_nonneg _))
    have hm : 1 ≤ m := by
      rcases Nat.eq_zero_or_pos m with rfl | h
      · simp at hH
      · exact h
    have h1 : (#H : ℚ) ≤ m * m * K := by
      have : #H ≤ m * m * K := by
        rw [mul_assoc]
        exact hH.le.trans (Nat.le_mul_of_pos_left _ hm)
      exact_mod_cast this
    have h2 : (#H : ℚ) / Fintype.card β ≤ m * m * K / Fintype.card β := by gcongr
    have h3 : (0 : ℚ) ≤ m / (τ + 1) := by positivity
    linarith
  rw [not_lt] at hH
  have hH' : (m : ℚ) * K ≤ #H := by exact_mod_cast hH
  obtain ⟨x, hx⟩ : ∃ x : ℚ, x = (#H - m * K) / Fintype.card β := ⟨_, rfl⟩
  have h0 : 0 ≤ x := by rw [hx]; apply div_nonneg <;> linarith
  have h1 : x ≤ 1 := by
    rw [hx, div_le_one hN]
    have : (0 : ℚ) ≤ m * K := by positivity
    linarith
  have hr := rounds H dec K m τ hK x h0 h1 (by rw [hx, div_mul_cancel₀ _ hN.ne']) m {y} (by simp [add_comm])
  have hm0 : (0 : ℚ) ≤ m := by positivity
  have e : (#H : ℚ) / Fintype.card β = x + m * K / Fintype.card β := by rw [hx]; ring
  have hq1 : (1 - x) ^ τ ≤ 1 := pow_le_one₀ (by linarith) (by linarith)
  have hb := mul_pow_le x h0 h1 τ
  have hkn : (0 : ℚ) ≤ m * K / Fintype.card β := by positivity
  have hmm : (m : ℚ) * m * K / Fintype.card β = m * (m * K / Fintype.card β) := by ring
  have hmt : (m : ℚ) / (τ + 1) = m * (1 / (τ + 1)) := by ring
  calc (#H : ℚ) / Fintype.card β - (m / (τ + 1) + m * m * K / Fintype.card β)
      ≤ #H / Fintype.card β * (1 - m * (1 - x) ^ τ) := by
        rw [hmm, hmt]
        have : (#H : ℚ) / Fintype.card β * (1 - m * (1 - x) ^ τ) = #H / Fintype.card β -
            (m * (x * (1 - x) ^ τ) + m * (m * K / Fintype.card β * (1 - x) ^ τ)) := by rw [e]; ring
        rw [this]
        have h2 := mul_le_mul_of_nonneg_left hb hm0
        have h3 := mul_le_mul_of_nonneg_left (mul_le_of_le_one_right hkn hq1) hm0
        linarith
    _ ≤ _ := mul_le_mul_of_nonneg_left hr hp0

end rounds

section rewind
variable {ι β α F : Type} [DecidableEq ι] [Fintype ι] [Fintype β] [Nonempty β] [DecidableEq β] [DecidableEq F]

open Classical in
/-- The answers at `s` with which the program succeeds at `s`. -/
noncomputable def hits (c : OracleProgram ι β α) (crit : α → Option ι) (good : α → β → Prop) (O : ι → β) (s : ι) : Finset β :=
  {b | crit (c.run (update O s b)) = some s ∧ good (c.run (update O s b)) b}

theorem hits_update (c : OracleProgram ι β α) (crit : α → Option ι) (good : α → β → Prop) (O : ι → β) (s : ι) (b : β) :
    hits c crit good (update O s b) s = hits c crit good O s := by
  ext b'
  simp [hits, update_idem]

theorem mem_hits (c : OracleProgram ι β α) (crit : α → Option ι) (good : α → β → Prop) (O : ι → β) (s : ι) (b : β) :
    b ∈ hits c crit good O s ↔ crit (c.run (update O s b)) = some s ∧ good (c.run (update O s b)) b := by
  simp [hits]

theorem hits_touched (c : OracleProgram ι β α) (crit : α → Option ι) (good : α → β → Prop) (O : ι → β) (s : ι)
    (h : s ∉ c.touched crit O) : hits c crit good O s = ∅ := by
  rw [eq_empty_iff_forall_notMem]
  intro b hb
  apply h
  rw [← touched_update c crit O s b, OracleProgram.touched, ((mem_hits ..).1 hb).1]
  simp

theorem ind_exists {A : Type} [Fintype A] (p : A → Prop) (h : ∀ a a', p a → p a' → a = a') : ind (∃ a, p a) = ∑ a, ind (p a) := by
  classical
  by_cases he : ∃ a, p a
  · obtain ⟨a, ha⟩ := he
    rw [ind_pos ⟨a, ha⟩, sum_eq_single a, ind_pos ha]
    · intro a' _ hne
      exact ind_neg fun h' => hne (h _ _ h' ha)
    · intro h'; exact absurd (mem_univ a) h'
  · rw [ind_neg he, sum_eq_zero]
    intro a _
    exact ind_neg fun h' => he ⟨a, h'⟩

theorem avg_sum' {A B : Type} [Fintype A] [Fintype B] (f : B → A → ℚ) : avg (fun a => ∑ b, f b a) = ∑ b, avg (f b) := by
  simp only [avg, ← sum_div]
  rw [sum_comm]

/-- Rewinding: up to an error for each point touched, a program that succeeds does so again, with `m` answers of other values, when it is
rewound `m τ` times. -/
theorem rewind_bound (c : OracleProgram ι β α) (crit : α → Option ι) (good : α → β → Prop) (dec : β → F) (Q K m τ : ℕ)
    (hQ : ∀ O, (c.asked O).length ≤ Q) (hK : ∀ y : F, #{b | dec b = y} ≤ K) :
    avg (fun O => ind (∃ s, crit (c.run O) = some s ∧ good (c.run O) (O s))) ≤
      (Q + 1) * (m / (τ + 1) + m * m * K / Fintype.card β) +
      avg fun O => avg fun tape : Fin m → Fin τ → β => ind (∃ s, (crit (c.run O) = some s ∧ good (c.run O) (O s)) ∧
        m + 1 ≤ #(found (hits c crit good O s) dec {dec (O s)} tape)) := by
  have hN : (0 : ℚ) < Fintype.card β := by exact_mod_cast Fintype.card_pos
  obtain ⟨δ, hδ⟩ : ∃ δ : ℚ, δ = m / (τ + 1) + m * m * K / Fintype.card β := ⟨_, rfl⟩
  have hδ0 : 0 ≤ δ := by rw [hδ]; positivity
  have huniq : ∀ O (s s' : ι), crit (c.run O) = some s → crit (c.run O) = some s' → s = s' := fun O s s' h h' =>
    Option.some.inj (h.symm.trans h')
  rw [← hδ]
  have e1 : ∀ O, ind (∃ s, crit (c.run O) = some s ∧ good (c.run O) (O s)) =
      ∑ s, ind (crit (c.run O) = some s ∧ good (c.run O) (O s)) := fun O =>
    ind_exists _ fun s s' h h' => huniq O s s' h.1 h'.1
  have e2 : ∀ O (tape : Fin m → Fin τ → β), ind (∃ s, (crit (c.run O) = some s ∧ good (c.run O) (O s)) ∧
        m + 1 ≤ #(found (hits c crit good O s) dec {dec (O s)} tape)) =
      ∑ s, ind ((crit (c.run O) = some s ∧ good (c.run O) (O s)) ∧
        m + 1 ≤ #(found (hits c crit good O s) dec {dec (O s)} tape)) := fun O tape =>
    ind_exists _ fun s s' h h' => huniq O s s' h.1.1 h'.1.1
  simp only [e1, e2, avg_sum']
  have key : ∀ s, avg (fun O => ind (crit (c.run O) = some s ∧ good (c.run O) (O s))) ≤
      avg (fun O => ind (s ∈ c.touched crit O) * δ) +
      avg fun O => avg fun tape : Fin m → Fin τ → β => ind ((crit (c.run O) = some s ∧ good (c.run O) (O s)) ∧
        m + 1 ≤ #(found (hits c crit good O s) dec {dec (O s)} tape)) := by
    intro s
    rw [← avg_add]
    rw [avg_update s, avg_update s fun O => _ + _, avg_comm, avg_comm fun b O => _ + _]
    refine avg_mono _ _ fun O => ?_
    have h1 : (avg fun b : β => ind (crit (c.run (update O s b)) = some s ∧ good (c.run (update O s b)) (update O s b s))) =
        #(hits c crit good O s) / Fintype.card β := by
      simp only [update_self]
      classical
      rw [avg_ind']
      congr 2
    rw [h1]
    simp only [touched_update, hits_update, update_self]
    rw [avg_add, avg_const]
    have h2 : ∀ b : β, (avg fun tape : Fin m → Fin τ → β =>
        ind ((crit (c.run (update O s b)) = some s ∧ good (c.run (update O s b)) b) ∧
          m + 1 ≤ #(found (hits c crit good O s) dec {dec b} tape))) =
        ind (b ∈ hits c crit good O s) * avg fun tape : Fin m → Fin τ → β =>
          ind (m + 1 ≤ #(found (hits c crit good O s) dec {dec b} tape)) := by
      intro b
      by_cases hb : b ∈ hits c crit good O s
      · rw [ind_pos hb, one_mul]
        congr 1
        funext tape
        rw [mem_hits] at hb
        simp only [hb, true_and]
      · rw [ind_neg hb, zero_mul]
        rw [mem_hits] at hb
        simp only [hb, false_and]
        simp only [ind_neg not_false, avg_const]
    simp only [h2]
    by_cases ht : s ∈ c.touched crit O
    · rw [ind_pos ht, one_mul]
      have h3 : ∀ b : β, ind (b ∈ hits c crit good O s) * (1 - δ * Fintype.card β / #(hits c crit good O s)) ≤
          ind (b ∈ hits c crit good O s) * avg fun tape : Fin m → Fin τ → β =>
          ind (m + 1 ≤ #(found (hits c crit good O s) dec {dec b} tape)) := by
        intro b
        by_cases hb : b ∈ hits c crit good O s
        · rw [ind_pos hb, one_mul, one_mul]
          have hH : (0 : ℚ) < #(hits c crit good O s) := by exact_mod_cast card_pos.2 ⟨b, hb⟩
          have := tries_bound (hits c crit good O s) dec K m τ hK (dec b)
          rw [← hδ] at this
          have h4 : (#(hits c crit good O s) : ℚ) / Fintype.card β * (1 - δ * Fintype.card β / #(hits c crit good O s)) =
              #(hits c crit good O s) / Fintype.card β - δ := by
            field_simp
          rw [← h4] at this
          exact le_of_mul_le_mul_left this (by positivity)
        · rw [ind_neg hb, zero_mul, zero_mul]
      refine le_trans ?_ (add_le_add_right (avg_mono _ _ h3) _)
      rw [avg_ind]
      have h5 : (#{a | a ∈ hits c crit good O s} : ℚ) = #(hits c crit good O s) := by
        rw [filter_mem_eq_inter, univ_inter]
      rw [h5]
      rcases Nat.eq_zero_or_pos #(hits c crit good O s) with h6 | h6
      · rw [h6]
        simp [hδ0]
      · have hH : (0 : ℚ) < #(hits c crit good O s) := by exact_mod_cast h6
        have : (#(hits c crit good O s) : ℚ) * (1 - δ * Fintype.card β / #(hits c crit good O s)) / Fintype.card β =
            #(hits c crit good O s) / Fintype.card β - δ := by
          field_simp
        rw [this]
        linarith
    · rw [hits_touched c crit good O s ht, ind_neg ht]
      simp only [card_empty, Nat.cast_zero, zero_div, zero_mul, zero_add]
      exact avg_nonneg _ fun b => mul_nonneg (ind_nonneg _) (avg_nonneg _ fun _ => ind_nonneg _)
  refine (sum_le_sum fun s _ => key s).trans ?_
  rw [sum_add_distrib, ← avg_sum']
  have e3 : ∀ O, (avg fun tape : Fin m → Fin τ → β => ∑ s, ind ((crit (c.run O) = some s ∧ good (c.run O) (O s)) ∧
        m + 1 ≤ #(found (hits c crit good O s) dec {dec (O s)} tape))) =
      ∑ s, avg fun tape : Fin m → Fin τ → β => ind ((crit (c.run O) = some s ∧ good (c.run O) (O s)) ∧
        m + 1 ≤ #(found (hits c crit good O s) dec {dec (O s)} tape)) := fun O => avg_sum' _
  refine add_le_add ?_ (le_of_eq ?_)
  · calc (avg fun O => ∑ s, ind (s ∈ c.touched crit O) * δ) ≤ avg fun _ : ι → β => (Q + 1 : ℚ) * δ := by
          refine avg_mono _ _ fun O => ?_
          rw [← sum_mul]
          apply mul_le_mul_of_nonneg_right _ hδ0
          have : ∑ s, ind (s ∈ c.touched crit O) = #(c.touched crit O) := by
            have h := avg_ind' (fun s => s ∈ c.touched crit O)
            rw [card_eq_sum_ones, Nat.cast_sum]
            rw [← sum_filter_add_sum_filter_not univ (· ∈ c.touched crit O)]
            rw [sum_congr rfl fun s hs => ind_pos (mem_filter.1 hs).2, sum_congr rfl fun s hs => ind_neg (mem_filter.1 hs).2]
            simp
          rw [this]
          exact_mod_cast (touched_card c crit O).trans (Nat.add_le_add_right (hQ O) 1)
      _ = _ := avg_const _
  · rw [← avg_sum']

end rewind

section collect
variable {ι β α F : Type} [DecidableEq ι] [DecidableEq F] (c : OracleProgram ι β α) (crit : α → Option ι) (ok : α → β → Prop)
  [∀ a b, Decidable (ok a b)] (dec : β → F) (O : ι → β) (s : ι)

theorem collect_kept (bs : List β) : ∀ kept, ∀ x ∈ kept, x ∈ c.collect crit ok dec O s bs kept := by
  induction bs with
  | nil => intro kept x hx; exact hx
  | cons b bs ih =>
    intro kept x hx
    rw [OracleProgram.collect]
    split
    · exact ih _ _ (List.mem_append_left _ hx)
    · exact ih _ _ hx

theorem collect_sound (bs : List β) : ∀ kept, ∀ x ∈ c.collect crit ok dec O s bs kept,
    x ∈ kept ∨ (x.2 = c.run (update O s x.1) ∧ crit x.2 = some s ∧ ok x.2 x.1) := by
  induction bs with
  | nil => intro kept x hx; exact Or.inl hx
  | cons b bs ih =>
    intro kept x hx
    rw [OracleProgram.collect] at hx
    split at hx
    · rename_i h
      rcases ih _ _ hx with h' | h'
      · rcases List.mem_append.1 h' with h' | h'
        · exact Or.inl h'
        · rw [List.mem_singleton] at h'
          subst h'
          exact Or.inr ⟨rfl, h.1, h.2.1⟩
      · exact Or.inr h'
    · exact ih _ _ hx

theorem collect_nodup (bs : List β) : ∀ kept : List (β × α), (kept.map fun x => dec x.1).Nodup →
    ((c.collect crit ok dec O s bs kept).map fun x => dec x.1).Nodup := by
  induction bs with
  | nil => intro kept h; exact h
  | cons b bs ih =>
    intro kept h
    rw [OracleProgram.collect]
    split
    · rename_i h'
      apply ih
      rw [List.map_append, List.nodup_append]
      refine ⟨h, by simp, ?_⟩
      intro y hy z hz
      simp only [List.map_cons, List.map_nil, List.mem_singleton] at hz
      subst hz
      intro e
      subst e
      exact h'.2.2 hy
    · exact ih _ h

theorem collect_complete (bs : List β) : ∀ kept, ∀ b ∈ bs, crit (c.run (update O s b)) = some s → ok (c.run (update O s b)) b →
    dec b ∈ (c.collect crit ok dec O s bs kept).map fun x => dec x.1 := by
  induction bs with
  | nil => intro kept b hb; cases hb
  | cons b' bs ih =>
    intro kept b hb h1 h2
    rw [OracleProgram.collect]
    rcases List.mem_cons.1 hb with rfl | hb
    · by_cases h3 : dec b ∈ kept.map fun x => dec x.1
      · rw [if_neg fun h => h.2.2 h3]
        obtain ⟨x, hx, hx'⟩ := List.mem_map.1 h3
        exact List.mem_map.2 ⟨x, collect_kept c crit ok dec O s bs kept x hx, hx'⟩
      · rw [if_pos ⟨h1, h2, h3⟩]
        exact List.mem_map.2 ⟨(b, _), collect_kept c crit ok dec O s bs _ _ (List.mem_append_right _ (List.mem_singleton_self _)), rfl⟩
    · split
      · exact ih _ b hb h1 h2
      · exact ih _ b hb h1 h2

theorem mem_tries {m τ : ℕ} (tape : Fin m → Fin τ → β) (i : Fin m) (j : Fin τ) : tape i j ∈ tries tape :=
  List.mem_flatten.2 ⟨_, List.mem_ofFn.2 ⟨i, rfl⟩, List.mem_ofFn.2 ⟨j, rfl⟩⟩

theorem tries_length {m τ : ℕ} (tape : Fin m → Fin τ → β) : (tries tape).length = m * τ := by
  simp [tries, List.length_flatten, List.sum_ofFn]

/-- What the rewinder returns if enough tries succeed. -/
theorem rewind_found [Fintype ι] [Fintype β] [Nonempty β] [DecidableEq β] (good : α → β → Prop) (hgood : ∀ a b, good a b → ok a b) (m τ : ℕ)
    (hs : crit (c.run O) = some s) (hO : good (c.run O) (O s)) (tape : Fin m → Fin τ → β)
    (h : m + 1 ≤ #(found (hits c crit good O s) dec {dec (O s)} tape)) :
    (∀ x ∈ c.rewind crit ok dec O (tries tape), x.2 = c.run (update O s x.1) ∧ crit x.2 = some s ∧ ok x.2 x.1) ∧
      ((c.rewind crit ok dec O (tries tape)).map fun x => dec x.1).Nodup ∧ m + 1 ≤ (c.rewind crit ok dec O (tries tape)).length := by
  have e : c.rewind crit ok dec O (tries tape) = c.collect crit ok dec O s (O s :: tries tape) [] := by
    rw [OracleProgram.rewind, hs]
  rw [e]
  refine ⟨fun x hx => ?_, collect_nodup c crit ok dec O s _ [] List.nodup_nil, ?_⟩
  · rcases collect_sound c crit ok dec O s _ _ x hx with h' | h'
    · cases h'
    · exact h'
  · refine h.trans ?_
    rw [← List.length_map (f := fun x : β × α => dec x.1)]
    refine le_trans (card_le_card (t := (List.map (fun x : β × α => dec x.1)
      (c.collect crit ok dec O s (O s :: tries tape) [])).toFinset) ?_) (List.toFinset_card_le _)
    intro y hy
    rw [List.mem_toFinset]
    rcases mem_union.1 hy with hy | hy
    · rw [mem_singleton] at hy
      subst hy
      apply collect_complete
      · exact List.mem_cons_self
      · rw [update_eq_self]; exact hs
      · rw [update_eq_self]; exact hgood _ _ hO
    · obtain ⟨b, hb, rfl⟩ := mem_image.1 hy
      obtain ⟨hb, i, j, rfl⟩ := mem_filter.1 hb
      obtain ⟨h1, h2⟩ := (mem_hits ..).1 hb
      exact collect_complete c crit ok dec O s _ _ _ (List.mem_cons_of_mem _ (mem_tries tape i j)) h1 (hgood _ _ h2)

end collect
end Triptych
