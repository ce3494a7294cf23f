import Verif.Model.Blame
import Mathlib.Data.Nat.Log
import Mathlib.Tactic.Linarith

/-! # Bisection -/
set_option autoImplicit false
set_option linter.unusedVariables false

namespace Triptych

/-- The midpoint rounds up. -/
theorem bisect_step (cfg : Config) (sub : ℕ → ℕ → Outcome ProofError Unit) (fuel left right : ℕ) (h : left < right)
    (hmax : right < cfg.usizeMax) :
    bisect cfg sub (fuel + 1) left right =
      match sub left (left + (right - left + 1) / 2) with
      | .panic => (.panic, [(left, left + (right - left + 1) / 2)])
      | .diverge => (.diverge, [(left, left + (right - left + 1) / 2)])
      | .err _ =>
        if right - left ≤ 2 then
          (.err (.FailedBatchVerificationWithSingleBlame (some left)), [(left, left + (right - left + 1) / 2)])
        else
          ((bisect cfg sub fuel left (left + (right - left + 1) / 2)).1,
            (left, left + (right - left + 1) / 2) :: (bisect cfg sub fuel left (left + (right - left + 1) / 2)).2)
      | .ok () =>
        if right = left + (right - left + 1) / 2 + 1 then
          (.err (.FailedBatchVerificationWithSingleBlame (some (right - 1))), [(left, left + (right - left + 1) / 2)])
        else
          ((bisect cfg sub fuel (left + (right - left + 1) / 2) right).1,
            (left, left + (right - left + 1) / 2) :: (bisect cfg sub fuel (left + (right - left + 1) / 2) right).2) := by
  have h1 : checkedAddUsize cfg left ((right - left) / 2) = some (left + (right - left) / 2) := by
    rw [checkedAddUsize, if_pos (by omega)]
  have h2 : (if (right - left) % 2 = 0 then some (left + (right - left) / 2)
      else checkedAddUsize cfg (left + (right - left) / 2) 1) = some (left + (right - left + 1) / 2) := by
    split
    · congr 1; omega
    · rw [checkedAddUsize, if_pos (by omega)]; congr 1; omega
  have h3 : checkedSub (left + (right - left + 1) / 2) 1 = some (left + (right - left + 1) / 2 - 1) := by
    rw [checkedSub, if_pos (by omega)]
  have h4 : checkedAddUsize cfg (left + (right - left + 1) / 2) 1 = some (left + (right - left + 1) / 2 + 1) := by
    rw [checkedAddUsize, if_pos (by omega)]
  have h5 : checkedSub right 1 = some (right - 1) := by
    rw [checkedSub, if_pos (by omega)]
  rw [bisect, if_pos h]
  simp only [h1, h2]
  cases sub left (left + (right - left + 1) / 2) with
  | panic => rfl
  | diverge => rfl
  | err e =>
    simp only [h3]
    by_cases hc : right - left ≤ 2
    · rw [if_pos hc, if_pos (by omega)]
    · rw [if_neg hc, if_neg (by omega)]
  | ok u =>
    simp only [h4, h5]

/-- Bisection terminates, whatever the verifier answers, and never asks for a range outside. -/
theorem bisect_calls (cfg : Config) (sub : ℕ → ℕ → Outcome ProofError Unit) (fuel left right : ℕ) (h : left < right)
    (hmax : right < cfg.usizeMax) (hfuel : right - left < fuel) :
    (bisect cfg sub fuel left right).2.length ≤ max 1 (Nat.clog 2 (right - left)) ∧
    (∀ c ∈ (bisect cfg sub fuel left right).2, left ≤ c.1 ∧ c.1 < c.2 ∧ c.2 ≤ right) ∧
    ((bisect cfg sub fuel left right).1 = .diverge →
      ∃ c ∈ (bisect cfg sub fuel left right).2, sub c.1 c.2 = .diverge) ∧
    ((bisect cfg sub fuel left right).1 = .panic → ∃ c ∈ (bisect cfg sub fuel left right).2, sub c.1 c.2 = .panic) ∧
    (2 ≤ right - left →
      (bisect cfg sub fuel left right).1 ≠ .err (.FailedBatchVerificationWithSingleBlame none)) := by
  induction fuel generalizing left right with
  | zero => omega
  | succ fuel ih =>
    rw [bisect_step cfg sub fuel left right h hmax]
    have hone : ∀ x : Outcome ProofError Unit, ([(left, left + (right - left + 1) / 2)] : List (ℕ × ℕ)).length
        ≤ max 1 (Nat.clog 2 (right - left)) ∧ (∀ c ∈ [(left, left + (right - left + 1) / 2)],
          left ≤ c.1 ∧ c.1 < c.2 ∧ c.2 ≤ right) := by
      intro _
      refine ⟨by simp, ?_⟩
      intro c hc
      simp only [List.mem_singleton] at hc
      subst hc
      exact ⟨le_rfl, by dsimp only; omega, by dsimp only; omega⟩
    have hrec : ∀ l' r', left ≤ l' → l' < r' → r' ≤ right → 3 ≤ right - left → 2 ≤ r' - l' → r' - l' ≤ (right - left + 1) / 2 →
        ((left, left + (right - left + 1) / 2) :: (bisect cfg sub fuel l' r').2).length
          ≤ max 1 (Nat.clog 2 (right - left)) ∧
        (∀ c ∈ (left, left + (right - left + 1) / 2) :: (bisect cfg sub fuel l' r').2,
          left ≤ c.1 ∧ c.1 < c.2 ∧ c.2 ≤ right) ∧
        ((bisect cfg sub fuel l' r').1 = .diverge →
          ∃ c ∈ (left, left + (right - left + 1) / 2) :: (bisect cfg sub fuel l' r').2, sub c.1 c.2 = .diverge) ∧
        ((bisect cfg sub fuel l' r').1 = .panic →
          ∃ c ∈ (left, left + (right - left + 1) / 2) :: (bisect cfg sub fuel l' r').2, sub c.1 c.2 = .panic) ∧
        (2 ≤ right - left →
          (bisect cfg sub fuel l' r').1 ≠ .err (.FailedBatchVerificationWithSingleBlame none)) := by
      intro l' r' hl hlr hr h3 hw2 hw
      obtain ⟨i1, i2, i3, i4, i5⟩ := ih l' r' hlr (by omega) (by omega)
      refine ⟨?_, ?_, ?_, ?_, fun _ => i5 hw2⟩
      · have hc : Nat.clog 2 (right - left) = Nat.clog 2 ((right - left + 1) / 2) + 1 := by
          rw [Nat.clog_of_two_le (by omega) (by omega)]; rfl
        have hmono : Nat.clog 2 (r' - l') ≤ Nat.clog 2 ((right - left + 1) / 2) := Nat.clog_mono_right 2 hw
        have hpos : 1 ≤ Nat.clog 2 ((right - left + 1) / 2) := Nat.clog_pos (by omega) (by omega)
        rw [List.length_cons, hc]
        omega
      · intro c hc
        rcases List.mem_cons.1 hc with rfl | hc
        · exact ⟨le_rfl, by dsimp only; omega, by dsimp only; omega⟩
        · have := i2 c hc
          omega
      · intro hd
        obtain ⟨c, hc, hs⟩ := i3 hd
        exact ⟨c, List.mem_cons_of_mem _ hc, hs⟩
      · intro hd
        obtain ⟨c, hc, hs⟩ := i4 hd
        exact ⟨c, List.mem_cons_of_mem _ hc, hs⟩
    cases hs : sub left (left + (right - left + 1) / 2) with
    | panic =>
      obtain ⟨a, b⟩ := hone .panic
      exact ⟨a, b, by simp, fun _ => ⟨_, List.mem_singleton.2 rfl, hs⟩, by simp⟩
    | diverge =>
      obtain ⟨a, b⟩ := hone .panic
      exact ⟨a, b, fun _ => ⟨_, List.mem_singleton.2 rfl, hs⟩, by simp, by simp⟩
    | err e =>
      simp only
      split
      · obtain ⟨a, b⟩ := hone .panic
        exact ⟨a, b, by simp, by simp, by simp⟩
      · exact hrec left (left + (right - left + 1) / 2) le_rfl (by omega) (by omega) (by omega) (by omega) (by omega)
    | ok u =>
      simp only
      split
      · obtain ⟨a, b⟩ := hone .panic
        exact ⟨a, b, by simp, by simp, by simp⟩
      · by_cases h1 : right - left = 1
        · have hr : left + (right - left + 1) / 2 = right := by omega
          obtain ⟨fuel, rfl⟩ : ∃ f, fuel = f + 1 := ⟨fuel - 1, by omega⟩
          rw [hr, bisect, if_neg (by omega)]
          refine ⟨by simp, ?_, by simp, by simp, by omega⟩
          intro c hc
          simp only [List.mem_singleton] at hc
          subst hc
          exact ⟨le_rfl, h, le_rfl⟩
        · exact hrec (left + (right - left + 1) / 2) right (by omega) (by omega) (by omega) (by omega) (by omega) (by omega)

/-- What the blamed index rests on. `a` is the start of a range known to fail that ends at `right`; everything between `a` and
`left` is covered by accepted ranges. -/
theorem bisect_evidence (cfg : Config) (sub : ℕ → ℕ → Outcome ProofError Unit) (fuel left right : ℕ) (h : left < right)
    (hmax : right < cfg.usizeMax) (hfuel : right - left < fuel)
    (hsub : ∀ a b, left ≤ a → a < b → b ≤ right → sub a b ≠ .panic ∧ sub a b ≠ .diverge)
    (h1 : right - left = 1 → sub left right ≠ .ok ()) :
    ∃ i, left ≤ i ∧ i < right ∧
      (bisect cfg sub fuel left right).1 = .err (.FailedBatchVerificationWithSingleBlame (some i)) ∧
      (((i, i + 1) ∈ (bisect cfg sub fuel left right).2 ∧ sub i (i + 1) ≠ .ok () ∧
          ∀ j, left ≤ j → j < i → ∃ c ∈ (bisect cfg sub fuel left right).2, c.1 ≤ j ∧ j < c.2 ∧ c.2 ≤ i ∧
            sub c.1 c.2 = .ok ()) ∨
        ((i + 1 = right ∨ ∃ a, left ≤ a ∧ a ≤ i ∧ (a, i + 1) ∈ (bisect cfg sub fuel left right).2 ∧
            sub a (i + 1) ≠ .ok ()) ∧
          ∀ j, left ≤ j → j < i → ∃ c ∈ (bisect cfg sub fuel left right).2, c.1 ≤ j ∧ j < c.2 ∧ c.2 ≤ i ∧
            sub c.1 c.2 = .ok ())) := by
  induction fuel generalizing left right with
  | zero => omega
  | succ fuel ih =>
    rw [bisect_step cfg sub fuel left right h hmax]
    have hs' := hsub left (left + (right - left + 1) / 2) le_rfl (by omega) (by omega)
    cases hs : sub left (left + (right - left + 1) / 2) with
    | panic => exact absurd hs hs'.1
    | diverge => exact absurd hs hs'.2
    | err e =>
      simp only
      split
      · refine ⟨left, le_rfl, h, rfl, Or.inl ⟨?_, ?_, ?_⟩⟩
        · rw [List.mem_singleton]
          have : (right - left + 1) / 2 = 1 := by omega
          rw [this]
        · have : left + 1 = left + (right - left + 1) / 2 := by omega
          rw [this, hs]; simp
        · intro j hj hj'; omega
      · obtain ⟨i, hi1, hi2, hi3, hi4⟩ := ih left (left + (right - left + 1) / 2) (by omega) (by omega) (by omega)
          (fun a b h1 h2 h3 => hsub a b h1 h2 (by omega)) (by omega)
        refine ⟨i, hi1, by omega, hi3, ?_⟩
        have hcov : (∀ j, left ≤ j → j < i → ∃ c ∈ (bisect cfg sub fuel left (left + (right - left + 1) / 2)).2,
            c.1 ≤ j ∧ j < c.2 ∧ c.2 ≤ i ∧ sub c.1 c.2 = .ok ()) → ∀ j, left ≤ j → j < i →
            ∃ c ∈ (left, left + (right - left + 1) / 2) ::
              (bisect cfg sub fuel left (left + (right - left + 1) / 2)).2, c.1 ≤ j ∧ j < c.2 ∧ c.2 ≤ i ∧
              sub c.1 c.2 = .ok () := by
          intro hc j hj hj'
          obtain ⟨c, hc1, hc2⟩ := hc j hj hj'
          exact ⟨c, List.mem_cons_of_mem _ hc1, hc2⟩
        rcases hi4 with ⟨a1, a2, a3⟩ | ⟨a1, a2⟩
        · exact Or.inl ⟨List.mem_cons_of_mem _ a1, a2, hcov a3⟩
        · refine Or.inr ⟨Or.inr ?_, hcov a2⟩
          rcases a1 with a1 | ⟨a, b1, b2, b3, b4⟩
          · exact ⟨left, le_rfl, hi1, by rw [a1]; exact List.mem_cons_self, by rw [a1, hs]; simp⟩
          · exact ⟨a, b1, b2, List.mem_cons_of_mem _ b3, b4⟩
    | ok u =>
      simp only
      split
      · rename_i hr
        refine ⟨right - 1, by omega, by omega, rfl, Or.inr ⟨Or.inl (by omega), ?_⟩⟩
        intro j hj hj'
        exact ⟨_, List.mem_singleton.2 rfl, hj, by dsimp only; omega, by dsimp only; omega, hs⟩
      · by_cases hone : right - left = 1
        · exfalso
          apply h1 hone
          rw [← hs]
          congr 1
          omega
        obtain ⟨i, hi1, hi2, hi3, hi4⟩ := ih (left + (right - left + 1) / 2) right (by omega) (by omega) (by omega)
          (fun a b h1 h2 h3 => hsub a b (by omega) h2 h3) (by omega)
        refine ⟨i, by omega, hi2, hi3, ?_⟩
        have hcov : (∀ j, left + (right - left + 1) / 2 ≤ j → j < i →
            ∃ c ∈ (bisect cfg sub fuel (left + (right - left + 1) / 2) right).2,
            c.1 ≤ j ∧ j < c.2 ∧ c.2 ≤ i ∧ sub c.1 c.2 = .ok ()) → ∀ j, left ≤ j → j < i →
            ∃ c ∈ (left, left + (right - left + 1) / 2) ::
              (bisect cfg sub fuel (left + (right - left + 1) / 2) right).2, c.1 ≤ j ∧ j < c.2 ∧ c.2 ≤ i ∧
              sub c.1 c.2 = .ok () := by
          intro hc j hj hj'
          by_cases hjm : j < left + (right - left + 1) / 2
          · exact ⟨_, List.mem_cons_self, hj, hjm, hi1, hs⟩
          · obtain ⟨c, hc1, hc2⟩ := hc j (by omega) hj'
            exact ⟨c, List.mem_cons_of_mem _ hc1, hc2⟩
        rcases hi4 with ⟨a1, a2, a3⟩ | ⟨a1, a2⟩
        · exact Or.inl ⟨List.mem_cons_of_mem _ a1, a2, hcov a3⟩
        · refine Or.inr ⟨?_, hcov a2⟩
          rcases a1 with a1 | ⟨a, b1, b2, b3, b4⟩
          · exact Or.inl a1
          · exact Or.inr ⟨a, by omega, b2, List.mem_cons_of_mem _ b3, b4⟩

/-- If ranges of good entries are accepted, the blamed index is the first bad one, or some accepted range contains a bad
one. -/
theorem bisect_minimal (cfg : Config) (sub : ℕ → ℕ → Outcome ProofError Unit) (fuel k : ℕ) (hk : 0 < k)
    (hmax : k < cfg.usizeMax) (hfuel : k < fuel)
    (hsub : ∀ a b, a < b → b ≤ k → sub a b ≠ .panic ∧ sub a b ≠ .diverge) (hwhole : sub 0 k ≠ .ok ())
    (good : ℕ → Prop) (hgood : ∀ a b, a < b → b ≤ k → (∀ i, a ≤ i → i < b → good i) → sub a b = .ok ()) :
    ∃ i < k, (bisect cfg sub fuel 0 k).1 = .err (.FailedBatchVerificationWithSingleBlame (some i)) ∧
      ((¬ good i ∧ ∀ j < i, good j) ∨
        ∃ c ∈ (bisect cfg sub fuel 0 k).2, sub c.1 c.2 = .ok () ∧ ∃ j, c.1 ≤ j ∧ j < c.2 ∧ ¬ good j) := by
  obtain ⟨i, -, hi2, hi3, hi4⟩ := bisect_evidence cfg sub fuel 0 k hk hmax (by omega)
    (fun a b _ h2 h3 => hsub a b h2 h3) (fun h => by rwa [show k = 1 by omega] at hwhole ⊢)
  refine ⟨i, hi2, hi3, ?_⟩
  by_cases hc : ∃ c ∈ (bisect cfg sub fuel 0 k).2, sub c.1 c.2 = .ok () ∧ ∃ j, c.1 ≤ j ∧ j < c.2 ∧ ¬ good j
  · exact Or.inr hc
  left
  have hcov : (∀ j, 0 ≤ j → j < i → ∃ c ∈ (bisect cfg sub fuel 0 k).2, c.1 ≤ j ∧ j < c.2 ∧ c.2 ≤ i ∧
      sub c.1 c.2 = .ok ()) → ∀ j < i, good j := by
    intro h j hj
    obtain ⟨c, hc1, hc2, hc3, -, hc4⟩ := h j (Nat.zero_le _) hj
    by_contra hg
    exact hc ⟨c, hc1, hc4, j, hc2, hc3, hg⟩
  rcases hi4 with ⟨-, a2, a3⟩ | ⟨a1, a2⟩
  · refine ⟨fun hg => a2 (hgood i (i + 1) (by omega) (by omega) ?_), hcov a3⟩
    intro j hj hj'
    rwa [show j = i by omega]
  · refine ⟨fun hg => ?_, hcov a2⟩
    have hall : ∀ j < i + 1, good j := by
      intro j hj
      by_cases hji : j = i
      · rwa [hji]
      · exact hcov a2 j (by omega)
    rcases a1 with a1 | ⟨a, -, b2, -, b4⟩
    · apply hwhole
      rw [← a1]
      exact hgood 0 (i + 1) (by omega) (by omega) fun j _ hj => hall j hj
    · exact b4 (hgood a (i + 1) (by omega) (by omega) fun j _ hj => hall j hj)

/-- If every range is accepted, bisection blames the last index, or nothing if there is only one. -/
theorem bisect_all_ok (cfg : Config) (sub : ℕ → ℕ → Outcome ProofError Unit) (fuel left right : ℕ) (h : left < right)
    (hmax : right < cfg.usizeMax) (hfuel : right - left < fuel)
    (hok : ∀ a b, left ≤ a → a < b → b ≤ right → sub a b = .ok ()) :
    (bisect cfg sub fuel left right).1 = .err (.FailedBatchVerificationWithSingleBlame
      (if right - left = 1 then none else some (right - 1))) := by
  induction fuel generalizing left right with
  | zero => omega
  | succ fuel ih =>
    rw [bisect_step cfg sub fuel left right h hmax, hok left _ le_rfl (by omega) (by omega)]
    simp only
    split
    · rw [if_neg (by omega)]
    · by_cases h1 : right - left = 1
      · have hr : left + (right - left + 1) / 2 = right := by omega
        obtain ⟨fuel, rfl⟩ : ∃ f, fuel = f + 1 := ⟨fuel - 1, by omega⟩
        rw [hr, bisect, if_neg (by omega), if_pos h1]
      · rw [ih (left + (right - left + 1) / 2) right (by omega) (by omega) (by omega)
          (fun a b h1 h2 h3 => hok a b (by omega) h2 h3), if_neg (by omega), if_neg h1]

end Triptych
