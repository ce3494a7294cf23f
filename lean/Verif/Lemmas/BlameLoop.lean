import Verif.Model.Blame
import Mathlib.Tactic.Linarith

/-! # The full-blame loop and slices -/
set_option autoImplicit false
set_option linter.unusedVariables false

namespace Triptych

section loop
variable {S Q : Type} (v : S → Q → Transcript → Outcome ProofError Unit × List Transcript)

/-- The indexes returned are exactly those of the failing entries, in order. -/
theorem blameLoop_indexes (index : ℕ) (sts : List S) (ps : List Q) (ts : List Transcript)
    (hno : ∀ (j : ℕ) st p t, sts[j]? = some st → ps[j]? = some p → ts[j]? = some t →
      (v st p t).1 ≠ .panic ∧ (v st p t).1 ≠ .diverge) :
    ∃ is, (blameLoop v index sts ps ts).1 = .ok is ∧ is.Pairwise (· < ·) ∧
      ∀ i, i ∈ is ↔ ∃ (j : ℕ) (st : S) (p : Q) (t : Transcript), i = index + j ∧ sts[j]? = some st ∧ ps[j]? = some p ∧ ts[j]? = some t ∧
        (v st p t).1 ≠ .ok () := by
  induction sts generalizing index ps ts with
  | nil => exact ⟨[], by simp [blameLoop], List.Pairwise.nil, by simp⟩
  | cons st sts ih =>
    cases ps with
    | nil => exact ⟨[], by simp [blameLoop], List.Pairwise.nil, by simp⟩
    | cons p ps =>
      cases ts with
      | nil => exact ⟨[], by simp [blameLoop], List.Pairwise.nil, by simp⟩
      | cons t ts =>
        obtain ⟨is, h1, h2, h3⟩ := ih (index + 1) ps ts fun j st' p' t' a b c => hno (j + 1) st' p' t' a b c
        have h0 := hno 0 st p t rfl rfl rfl
        have hlt : ∀ i ∈ is, index < i := by
          intro i hi
          obtain ⟨j, _, _, _, rfl, _⟩ := (h3 i).1 hi
          omega
        have hsucc : ∀ i, i ∈ is ↔ ∃ (j : ℕ) (st' : S) (p' : Q) (t' : Transcript), i = index + (j + 1) ∧ (st :: sts)[j + 1]? = some st' ∧
            (p :: ps)[j + 1]? = some p' ∧ (t :: ts)[j + 1]? = some t' ∧ (v st' p' t').1 ≠ .ok () := by
          intro i
          rw [h3 i]
          simp only [List.getElem?_cons_succ]
          constructor
          · rintro ⟨j, a, b, c, h, rest⟩; exact ⟨j, a, b, c, by omega, rest⟩
          · rintro ⟨j, a, b, c, h, rest⟩; exact ⟨j, a, b, c, by omega, rest⟩
        rw [blameLoop]
        rcases hv : v st p t with ⟨res, t'⟩
        rw [hv] at h0
        cases res with
        | panic => exact absurd rfl h0.1
        | diverge => exact absurd rfl h0.2
        | ok u =>
          refine ⟨is, h1, h2, fun i => ?_⟩
          rw [hsucc i]
          constructor
          · rintro ⟨j, a, b, c, h⟩; exact ⟨j + 1, a, b, c, h⟩
          · rintro ⟨j, a, b, c, h, e1, e2, e3, e4⟩
            cases j with
            | zero =>
              simp only [List.getElem?_cons_zero, Option.some.injEq] at e1 e2 e3
              subst e1 e2 e3
              rw [hv] at e4
              exact absurd rfl e4
            | succ j => exact ⟨j, a, b, c, h, e1, e2, e3, e4⟩
        | err e =>
          refine ⟨index :: is, ?_, List.pairwise_cons.2 ⟨hlt, h2⟩, fun i => ?_⟩
          · simp only [h1]; rfl
          · rw [List.mem_cons, hsucc i]
            constructor
            · rintro (rfl | ⟨j, a, b, c, h⟩)
              · exact ⟨0, st, p, t, rfl, rfl, rfl, rfl, by rw [hv]; simp⟩
              · exact ⟨j + 1, a, b, c, h⟩
            · rintro ⟨j, a, b, c, h, e1, e2, e3, e4⟩
              cases j with
              | zero => exact Or.inl h
              | succ j => exact Or.inr ⟨j, a, b, c, h, e1, e2, e3, e4⟩

/-- The transcripts after the loop: each compared entry as after its own verification, the others untouched. -/
theorem blameLoop_transcripts (index : ℕ) (sts : List S) (ps : List Q) (ts : List Transcript)
    (hno : ∀ (j : ℕ) st p t, sts[j]? = some st → ps[j]? = some p → ts[j]? = some t →
      (v st p t).1 ≠ .panic ∧ (v st p t).1 ≠ .diverge)
    (hone : ∀ (j : ℕ) st p t, sts[j]? = some st → ps[j]? = some p → ts[j]? = some t → (v st p t).2.length = 1) :
    (blameLoop v index sts ps ts).2.length = ts.length ∧
    ∀ (j : ℕ) t, ts[j]? = some t →
      (∀ st p, sts[j]? = some st → ps[j]? = some p →
        ∃ t', (v st p t).2 = [t'] ∧ (blameLoop v index sts ps ts).2[j]? = some t') ∧
      ((sts.length ≤ j ∨ ps.length ≤ j) → (blameLoop v index sts ps ts).2[j]? = some t) := by
  induction sts generalizing index ps ts with
  | nil => exact ⟨by simp [blameLoop], fun j t h => ⟨by simp, fun _ => by simpa [blameLoop] using h⟩⟩
  | cons st sts ih =>
    cases ps with
    | nil => exact ⟨by simp [blameLoop], fun j t h => ⟨by simp, fun _ => by simpa [blameLoop] using h⟩⟩
    | cons p ps =>
      cases ts with
      | nil => exact ⟨by simp [blameLoop], fun j t h => by simp at h⟩
      | cons t ts =>
        obtain ⟨h1, h2⟩ := ih (index + 1) ps ts (fun j st' p' t' a b c => hno (j + 1) st' p' t' a b c)
          (fun j st' p' t' a b c => hone (j + 1) st' p' t' a b c)
        have h0 := hno 0 st p t rfl rfl rfl
        have ho := hone 0 st p t rfl rfl rfl
        obtain ⟨t', ht'⟩ := List.length_eq_one_iff.1 ho
        have hcase : (blameLoop v index (st :: sts) (p :: ps) (t :: ts)).2
            = t' :: (blameLoop v (index + 1) sts ps ts).2 := by
          rw [blameLoop]
          rcases hv : v st p t with ⟨res, x⟩
          rw [hv] at h0 ht'
          simp only at ht'
          subst ht'
          cases res with
          | panic => exact absurd rfl h0.1
          | diverge => exact absurd rfl h0.2
          | ok u => rfl
          | err e => rfl
        rw [hcase]
        refine ⟨by simp [h1], fun j x hx => ?_⟩
        cases j with
        | zero =>
          simp only [List.getElem?_cons_zero, Option.some.injEq] at hx ⊢
          subst hx
          refine ⟨?_, by simp⟩
          rintro st' p' rfl rfl
          exact ⟨t', ht', rfl⟩
        | succ j =>
          simp only [List.getElem?_cons_succ] at hx ⊢
          obtain ⟨a, b⟩ := h2 j x hx
          refine ⟨a, fun h => b ?_⟩
          simpa using h

end loop

theorem slice_eq {ε α : Type} (l : List α) (a b : ℕ) (h : a ≤ b) (hb : b ≤ l.length) :
    (slice l a b : Outcome ε (List α)) = .ok ((l.take b).drop a) := by rw [slice, if_pos ⟨h, hb⟩]

theorem slice_panic {ε α : Type} (l : List α) (a b : ℕ) (hb : l.length < b) :
    (slice l a b : Outcome ε (List α)) = .panic := by rw [slice, if_neg (by omega)]

theorem take_drop_getElem? {α : Type} (l : List α) (a b j : ℕ) :
    ((l.take b).drop a)[j]? = if a + j < b then l[a + j]? else none := by
  rw [List.getElem?_drop, List.getElem?_take]

theorem take_drop_length {α : Type} (l : List α) (a b : ℕ) (h : b ≤ l.length) : ((l.take b).drop a).length = b - a := by
  simp; omega

theorem mem_take_drop {α : Type} {l : List α} {a b : ℕ} {x : α} (h : x ∈ (l.take b).drop a) : x ∈ l :=
  List.mem_of_mem_take (List.mem_of_mem_drop h)

end Triptych
