import Verif.Spec.Oracle
import Verif.Lemmas.Draws

/-! # Lemmas: finding collisions and preimages of a random oracle -/
set_option autoImplicit false
set_option linter.unusedSectionVars false
set_option linter.unusedVariables false

namespace Triptych
open Spec Finset Function

variable {ι β α : Type}

/-- Ask for all points of a list, then stop. -/
def thenAskList (a : α) : List ι → OracleProgram ι β α
  | [] => .done a
  | i :: l => .ask i fun _ => thenAskList a l

/-- Ask for all points assigned to the output. -/
def thenAsk (pts : α → List ι) : OracleProgram ι β α → OracleProgram ι β α
  | .done a => thenAskList a (pts a)
  | .ask i next => .ask i fun b => thenAsk pts (next b)

theorem asked_thenAskList (O : ι → β) (a : α) (l : List ι) : (thenAskList a l : OracleProgram ι β α).asked O = l := by
  induction l with
  | nil => rfl
  | cons i l ih => rw [thenAskList, OracleProgram.asked, ih]

theorem asked_thenAsk (pts : α → List ι) (O : ι → β) (c : OracleProgram ι β α) :
    (thenAsk pts c).asked O = c.asked O ++ pts (c.run O) := by
  induction c with
  | done a => rw [thenAsk, asked_thenAskList]; rfl
  | ask i next ih => rw [thenAsk, OracleProgram.asked, ih]; rfl

variable [DecidableEq ι] [Fintype ι] [DecidableEq β] [Fintype β] [Nonempty β]

/-- Two different points of `D` have the same value. -/
def Coll (D : Finset ι) (O : ι → β) : Prop := ∃ s ∈ D, ∃ s' ∈ D, s ≠ s' ∧ O s = O s'

theorem coll_congr {D : Finset ι} {O O' : ι → β} (h : ∀ s ∈ D, O s = O' s) : Coll D O ↔ Coll D O' := by
  constructor
  · rintro ⟨s, hs, s', hs', hne, he⟩
    exact ⟨s, hs, s', hs', hne, by rw [← h s hs, ← h s' hs', he]⟩
  · rintro ⟨s, hs, s', hs', hne, he⟩
    exact ⟨s, hs, s', hs', hne, by rw [h s hs, h s' hs', he]⟩

theorem ind_coll_insert (D : Finset ι) (v : ι → β) (i : ι) (hi : i ∉ D) (b : β) :
    ind (Coll (insert i D) (update v i b)) ≤ ind (Coll D v) + ind (b ∈ D.image v) := by
  by_cases h : Coll D v
  · rw [ind_pos h]
    linarith [ind_le_one (Coll (insert i D) (update v i b)), ind_nonneg (b ∈ D.image v)]
  by_cases hb : b ∈ D.image v
  · rw [ind_pos hb]
    linarith [ind_le_one (Coll (insert i D) (update v i b)), ind_nonneg (Coll D v)]
  · rw [ind_neg h, ind_neg hb, ind_neg]
    · norm_num
    · rintro ⟨s, hs, s', hs', hne, he⟩
      rw [mem_insert] at hs hs'
      have key : ∀ s ∈ D, update v i b s = v s := by
        intro x hx
        exact update_of_ne (fun h : x = i => hi (h ▸ hx)) _ _
      rcases hs with rfl | hs <;> rcases hs' with rfl | hs'
      · exact hne rfl
      · rw [update_self, key s' hs'] at he
        exact hb (mem_image.2 ⟨s', hs', he.symm⟩)
      · rw [update_self, key s hs] at he
        exact hb (mem_image.2 ⟨s, hs, he⟩)
      · rw [key s hs, key s' hs'] at he
        exact h ⟨s, hs, s', hs', hne, he⟩

theorem birthday_state (c : OracleProgram ι β α) :
    ∀ (T : ℕ) (D : Finset ι) (v : ι → β) (hc : ∀ O, (c.asked (D.piecewise v O)).length ≤ T),
      avg (fun O => ind (Coll (D ∪ (c.asked (D.piecewise v O)).toFinset) (D.piecewise v O))) ≤
        ind (Coll D v) + (T * #D + T * (T - 1) / 2) / Fintype.card β := by
  have hN : (0 : ℚ) < Fintype.card β := by exact_mod_cast Fintype.card_pos
  induction c with
  | done a =>
    intro T D v hc
    have h1 : ∀ O : ι → β, ind (Coll (D ∪ ((OracleProgram.done a : OracleProgram ι β α).asked (D.piecewise v O)).toFinset)
        (D.piecewise v O)) = ind (Coll D v) := by
      intro O
      rw [OracleProgram.asked, List.toFinset_nil, union_empty]
      congr 1
      exact propext (coll_congr fun s hs => by simp [hs])
    simp only [h1]
    rw [avg_const]
    have : (0 : ℚ) ≤ T * (T - 1) / 2 := by
      rcases Nat.eq_zero_or_pos T with rfl | hT
      · norm_num
      · have : (1 : ℚ) ≤ T := by exact_mod_cast hT
        exact div_nonneg (mul_nonneg (by linarith) (by linarith)) (by norm_num)
    have : (0 : ℚ) ≤ (T * #D + T * (T - 1) / 2) / Fintype.card β := by positivity
    linarith
  | ask i next ih =>
    intro T D v hc
    obtain ⟨T, rfl⟩ : ∃ T', T = T' + 1 := by
      refine ⟨T - 1, ?_⟩
      have := hc v
      rw [OracleProgram.asked, List.length_cons] at this
      omega
    by_cases hi : i ∈ D
    · have e : ∀ O : ι → β, D.piecewise v O i = v i := fun O => by simp [hi]
      have h1 : ∀ O : ι → β, D ∪ ((OracleProgram.ask i next).asked (D.piecewise v O)).toFinset
          = D ∪ ((next (v i)).asked (D.piecewise v O)).toFinset := by
        intro O
        rw [OracleProgram.asked, e, List.toFinset_cons, union_insert, ← insert_union, insert_eq_of_mem hi]
      simp only [h1]
      refine (ih (v i) T D v fun O => ?_).trans ?_
      · have := hc O
        rw [OracleProgram.asked, e, List.length_cons] at this
        omega
      · have : ((T : ℚ) * #D + T * (T - 1) / 2) / Fintype.card β
            ≤ (((T + 1 : ℕ) : ℚ) * #D + ((T + 1 : ℕ) : ℚ) * (((T + 1 : ℕ) : ℚ) - 1) / 2) / Fintype.card β := by
          refine div_le_div_of_nonneg_right ?_ hN.le
          push_cast
          have h0 : (0 : ℚ) ≤ #D := Nat.cast_nonneg _
          have h1 : (0 : ℚ) ≤ T := Nat.cast_nonneg _
          nlinarith
        linarith
    · rw [avg_piecewise D v i hi fun O => ind (Coll (D ∪ ((OracleProgram.ask i next).asked O).toFinset) O)]
      have h1 : ∀ (b : β) (O : ι → β),
          D ∪ ((OracleProgram.ask i next).asked ((insert i D).piecewise (update v i b) O)).toFinset
            = insert i D ∪ ((next b).asked ((insert i D).piecewise (update v i b) O)).toFinset := by
        intro b O
        rw [OracleProgram.asked, List.toFinset_cons, union_insert, ← insert_union]
        simp
      simp only [h1]
      have h2 : ∀ b : β, avg (fun O => ind (Coll (insert i D ∪ ((next b).asked ((insert i D).piecewise (update v i b) O)).toFinset)
          ((insert i D).piecewise (update v i b) O))) ≤ ind (Coll D v) + ind (b ∈ D.image v)
            + (T * (#D + 1) + T * (T - 1) / 2) / Fintype.card β := by
        intro b
        refine (ih b T (insert i D) (update v i b) fun O => ?_).trans ?_
        · have := hc ((insert i D).piecewise (update v i b) O)
          have e : D.piecewise v ((insert i D).piecewise (update v i b) O) = D.piecewise v (update O i b) := by
            funext s
            by_cases hs : s ∈ D
            · simp [hs]
            · by_cases h : s = i
              · subst h; simp [hs]
              · simp [hs, h, piecewise]
          have e' : D.piecewise v (update O i b) = (insert i D).piecewise (update v i b) O := by
            funext s
            by_cases h : s = i
            · subst h; simp [hi]
            · by_cases hs : s ∈ D <;> simp [hs, h, piecewise]
          rw [e, e', OracleProgram.asked, List.length_cons] at this
          rw [show (insert i D).piecewise (update v i b) O i = b by simp] at this
          omega
        · rw [card_insert_of_notMem hi]
          push_cast
          linarith [ind_coll_insert D v i hi b]
      refine (avg_mono _ _ h2).trans ?_
      rw [avg_add, avg_add, avg_const, avg_const, avg_ind']
      have h3 : ((#{b | b ∈ D.image v} : ℕ) : ℚ) / Fintype.card β ≤ #D / Fintype.card β := by
        refine div_le_div_of_nonneg_right ?_ hN.le
        rw [filter_mem_eq_inter, univ_inter]
        exact_mod_cast card_image_le
      have h4 : ((#D : ℚ)) / Fintype.card β + (T * (#D + 1) + T * (T - 1) / 2) / Fintype.card β
          = (((T + 1 : ℕ) : ℚ) * #D + ((T + 1 : ℕ) : ℚ) * (((T + 1 : ℕ) : ℚ) - 1) / 2) / Fintype.card β := by
        rw [← add_div]
        push_cast
        congr 1
        ring
      linarith

/-- The birthday bound for programs. -/
theorem birthday (c : OracleProgram ι β α) (pts : α → List ι) (Q k : ℕ) (hQ : ∀ O, (c.asked O).length ≤ Q)
    (hk : ∀ O, (pts (c.run O)).length ≤ k) (p : (ι → β) → Prop)
    (hp : ∀ O, p O → ∃ s ∈ pts (c.run O), ∃ s' ∈ pts (c.run O), s ≠ s' ∧ O s = O s') :
    avg (fun O => ind (p O)) ≤ ((Q + k : ℕ) : ℚ) * (((Q + k : ℕ) : ℚ) - 1) / 2 / Fintype.card β := by
  have h := birthday_state (thenAsk pts c) (Q + k) ∅ (Classical.arbitrary _) fun O => by
    rw [asked_thenAsk, List.length_append]
    exact Nat.add_le_add (hQ _) (hk _)
  have e : ind (Coll (∅ : Finset ι) (Classical.arbitrary (ι → β))) = 0 := ind_neg (by rintro ⟨s, hs, -⟩; simp at hs)
  rw [e] at h
  simp only [piecewise_empty, empty_union, card_empty, Nat.cast_zero, mul_zero, zero_add] at h
  refine (avg_mono _ _ fun O => ind_mono fun hO => ?_).trans h
  obtain ⟨s, hs, s', hs', hne, he⟩ := hp O hO
  rw [asked_thenAsk]
  exact ⟨s, by simp [hs], s', by simp [hs'], hne, he⟩

theorem preimage_state (B : Finset β) (c : OracleProgram ι β α) :
    ∀ (T : ℕ) (D : Finset ι) (v : ι → β) (hc : ∀ O, (c.asked (D.piecewise v O)).length ≤ T) (hD : ∀ s ∈ D, v s ∉ B),
      avg (fun O => ind (∃ s ∈ (c.asked (D.piecewise v O)), D.piecewise v O s ∈ B)) ≤ T * #B / Fintype.card β := by
  have hN : (0 : ℚ) < Fintype.card β := by exact_mod_cast Fintype.card_pos
  induction c with
  | done a =>
    intro T D v hc hD
    have h1 : ∀ O : ι → β, ind (∃ s ∈ ((OracleProgram.done a : OracleProgram ι β α).asked (D.piecewise v O)),
        D.piecewise v O s ∈ B) = 0 := by
      intro O
      rw [OracleProgram.asked]
      exact ind_neg (by simp)
    simp only [h1]
    rw [avg_const]
    positivity
  | ask i next ih =>
    intro T D v hc hD
    obtain ⟨T, rfl⟩ : ∃ T', T = T' + 1 := by
      refine ⟨T - 1, ?_⟩
      have := hc v
      rw [OracleProgram.asked, List.length_cons] at this
      omega
    by_cases hi : i ∈ D
    · have e : ∀ O : ι → β, D.piecewise v O i = v i := fun O => by simp [hi]
      have h1 : ∀ O : ι → β, ind (∃ s ∈ (OracleProgram.ask i next).asked (D.piecewise v O), D.piecewise v O s ∈ B)
          ≤ ind (∃ s ∈ (next (v i)).asked (D.piecewise v O), D.piecewise v O s ∈ B) := by
        intro O
        refine ind_mono ?_
        rintro ⟨s, hs, hB⟩
        rw [OracleProgram.asked, e, List.mem_cons] at hs
        rcases hs with rfl | hs
        · exact absurd (e O ▸ hB) (hD s hi)
        · exact ⟨s, hs, hB⟩
      refine (avg_mono _ _ h1).trans ((ih (v i) T D v (fun O => ?_) hD).trans ?_)
      · have := hc O
        rw [OracleProgram.asked, e, List.length_cons] at this
        omega
      · refine div_le_div_of_nonneg_right ?_ hN.le
        push_cast
        have h0 : (0 : ℚ) ≤ #B := Nat.cast_nonneg _
        nlinarith
    · rw [avg_piecewise D v i hi fun O => ind (∃ s ∈ (OracleProgram.ask i next).asked O, O s ∈ B)]
      have h2 : ∀ b : β, avg (fun O => ind (∃ s ∈ (OracleProgram.ask i next).asked ((insert i D).piecewise (update v i b) O),
          (insert i D).piecewise (update v i b) O s ∈ B)) ≤ ind (b ∈ B) + T * #B / Fintype.card β := by
        intro b
        have e : ∀ O : ι → β, (insert i D).piecewise (update v i b) O i = b := fun O => by simp
        by_cases hb : b ∈ B
        · rw [ind_pos hb]
          have : (0 : ℚ) ≤ T * #B / Fintype.card β := by positivity
          have h1 := avg_le_one (fun O : ι → β => ind (∃ s ∈ (OracleProgram.ask i next).asked
            ((insert i D).piecewise (update v i b) O), (insert i D).piecewise (update v i b) O s ∈ B)) fun O => ind_le_one _
          linarith
        · rw [ind_neg hb, zero_add]
          have h1 : ∀ O : ι → β, ind (∃ s ∈ (OracleProgram.ask i next).asked ((insert i D).piecewise (update v i b) O),
              (insert i D).piecewise (update v i b) O s ∈ B)
              ≤ ind (∃ s ∈ (next b).asked ((insert i D).piecewise (update v i b) O),
                (insert i D).piecewise (update v i b) O s ∈ B) := by
            intro O
            refine ind_mono ?_
            rintro ⟨s, hs, hB⟩
            rw [OracleProgram.asked, e, List.mem_cons] at hs
            rcases hs with rfl | hs
            · exact absurd (e O ▸ hB) hb
            · exact ⟨s, hs, hB⟩
          refine (avg_mono _ _ h1).trans (ih b T (insert i D) (update v i b) (fun O => ?_) fun s hs => ?_)
          · have := hc ((insert i D).piecewise (update v i b) O)
            have e' : D.piecewise v ((insert i D).piecewise (update v i b) O) = (insert i D).piecewise (update v i b) O := by
              funext s
              by_cases h : s = i
              · subst h; simp [hi]
              · by_cases hs : s ∈ D <;> simp [hs, h, piecewise]
            rw [e', OracleProgram.asked, e, List.length_cons] at this
            omega
          · by_cases h : s = i
            · subst h; rwa [update_self]
            · rw [update_of_ne h]
              exact hD s ((mem_insert.1 hs).resolve_left h)
      refine (avg_mono _ _ h2).trans ?_
      rw [avg_add, avg_const, avg_ind']
      have h3 : ((#{b | b ∈ B} : ℕ) : ℚ) / Fintype.card β = #B / Fintype.card β := by
        rw [filter_mem_eq_inter, univ_inter]
      rw [h3, ← add_div]
      refine le_of_eq ?_
      push_cast
      congr 1
      ring

/-- The bound on preimages for programs. -/
theorem preimage_bound (B : Finset β) (c : OracleProgram ι β α) (pts : α → List ι) (Q k : ℕ) (hQ : ∀ O, (c.asked O).length ≤ Q)
    (hk : ∀ O, (pts (c.run O)).length ≤ k) (p : (ι → β) → Prop) (hp : ∀ O, p O → ∃ s ∈ pts (c.run O), O s ∈ B) :
    avg (fun O => ind (p O)) ≤ ((Q + k : ℕ) : ℚ) * #B / Fintype.card β := by
  have h := preimage_state B (thenAsk pts c) (Q + k) ∅ (Classical.arbitrary _) (fun O => by
    rw [asked_thenAsk, List.length_append]
    exact Nat.add_le_add (hQ _) (hk _)) (by simp)
  simp only [piecewise_empty] at h
  refine (avg_mono _ _ fun O => ind_mono fun hO => ?_).trans h
  obtain ⟨s, hs, he⟩ := hp O hO
  rw [asked_thenAsk]
  exact ⟨s, by simp [hs], he⟩

/-- With targets given as images under an injective function. -/
theorem preimage_bound_image {γ : Type} [DecidableEq γ] (f : β → γ) (hf : Injective f) (targets : Finset γ)
    (c : OracleProgram ι β α) (pts : α → List ι) (Q k : ℕ) (hQ : ∀ O, (c.asked O).length ≤ Q)
    (hk : ∀ O, (pts (c.run O)).length ≤ k) (p : (ι → β) → Prop) (hp : ∀ O, p O → ∃ s ∈ pts (c.run O), f (O s) ∈ targets) :
    avg (fun O => ind (p O)) ≤ ((Q + k : ℕ) : ℚ) * #targets / Fintype.card β := by
  refine (preimage_bound {b | f b ∈ targets} c pts Q k hQ hk p fun O hO => ?_).trans ?_
  · obtain ⟨s, hs, h⟩ := hp O hO
    exact ⟨s, hs, mem_filter.2 ⟨mem_univ _, h⟩⟩
  · refine div_le_div_of_nonneg_right (mul_le_mul_of_nonneg_left ?_ (Nat.cast_nonneg _)) (Nat.cast_nonneg _)
    have : #{b | f b ∈ targets} ≤ #targets := card_le_card_of_injOn f (fun b hb => (mem_filter.1 hb).2) hf.injOn
    exact_mod_cast this

end Triptych
