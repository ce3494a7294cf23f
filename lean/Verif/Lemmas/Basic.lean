import Verif.Model.Prove
import Mathlib.Algebra.BigOperators.Group.Finset.Basic
import Mathlib.Algebra.BigOperators.Group.List.Basic
import Mathlib.Algebra.BigOperators.Ring.List
import Mathlib.Algebra.Module.BigOperators
import Mathlib.Algebra.BigOperators.Intervals
import Mathlib.Tactic.Ring
import Mathlib.Tactic.Abel
import Mathlib.Tactic.Module
import Mathlib.Tactic.FieldSimp

/-! # Lists, outcomes, multiscalar sums -/
set_option autoImplicit false
set_option linter.unusedSectionVars false
set_option linter.unusedVariables false
set_option linter.unusedSimpArgs false

namespace Triptych
open Finset

/-! ## Outcome -/

theorem mapM_ok {ε α β : Type} (l : List α) (f : α → Outcome ε β) (g : α → β) (h : ∀ x ∈ l, f x = .ok (g x)) :
    l.mapM f = .ok (l.map g) := by
  induction l with
  | nil => rfl
  | cons a l ih =>
    rw [List.mapM_cons, h a (by simp), ih (fun x hx => h x (by simp [hx]))]
    rfl

theorem forM_cons {ε α : Type} (a : α) (l : List α) (f : α → Outcome ε Unit) :
    (a :: l).forM f = f a >>= fun _ => l.forM f := by
  cases h : f a <;> simp [List.forM, h]

theorem forM_ok {ε α : Type} (l : List α) (f : α → Outcome ε Unit) (h : ∀ x ∈ l, f x = .ok ()) :
    l.forM f = .ok () := by
  induction l with
  | nil => rfl
  | cons a l ih =>
    rw [forM_cons, h a (by simp), Outcome.bind_ok]
    exact ih (fun x hx => h x (by simp [hx]))

theorem forM_ok_iff {ε α : Type} (l : List α) (f : α → Outcome ε Unit) :
    l.forM f = .ok () ↔ ∀ x ∈ l, f x = .ok () := by
  refine ⟨?_, forM_ok l f⟩
  induction l with
  | nil => simp
  | cons a l ih =>
    rw [forM_cons]
    intro h x hx
    cases ha : f a with
    | ok u =>
      rw [ha, Outcome.bind_ok] at h
      rcases List.mem_cons.1 hx with rfl | hx
      · exact ha
      · exact ih h x hx
    | err e => rw [ha] at h; simp at h
    | panic => rw [ha] at h; simp at h
    | diverge => rw [ha] at h; simp at h

/-- A loop of checks that only succeed or return errors only succeeds or returns an error. -/
theorem forM_cases {ε α : Type} (l : List α) (f : α → Outcome ε Unit)
    (h : ∀ x ∈ l, f x = .ok () ∨ ∃ e, f x = .err e) : l.forM f = .ok () ∨ ∃ e, l.forM f = .err e := by
  induction l with
  | nil => left; rfl
  | cons a l ih =>
    rw [forM_cons]
    rcases h a (by simp) with h1 | ⟨e, h1⟩
    · rw [h1, Outcome.bind_ok]; exact ih (fun x hx => h x (by simp [hx]))
    · rw [h1]; right; exact ⟨e, rfl⟩

theorem idx_ok {ε α : Type} (l : List α) (i : ℕ) (h : i < l.length) : (idx l i : Outcome ε α) = .ok l[i] := by
  simp [idx, h]

theorem idx_panic {ε α : Type} (l : List α) (i : ℕ) (h : l.length ≤ i) : (idx l i : Outcome ε α) = .panic := by
  simp [idx, h]

theorem idx_map_range {ε α : Type} (g : ℕ → α) (m i : ℕ) (h : i < m) :
    (idx ((List.range m).map g) i : Outcome ε α) = .ok (g i) := by
  simp [idx, h]

/-- The `m` by `n` matrix with entries `g j i`. -/
def mat {α : Type} (m n : ℕ) (g : ℕ → ℕ → α) : List (List α) :=
  (List.range m).map fun j => (List.range n).map fun i => g j i

theorem mat_length {α : Type} (m n : ℕ) (g : ℕ → ℕ → α) : (mat m n g).length = m := by simp [mat]

theorem idx_mat {ε α : Type} (m n : ℕ) (g : ℕ → ℕ → α) (j : ℕ) (hj : j < m) :
    (idx (mat m n g) j : Outcome ε (List α)) = .ok ((List.range n).map fun i => g j i) := by
  simp [mat, idx, hj]

theorem idx2_mat {ε α : Type} (m n : ℕ) (g : ℕ → ℕ → α) (j i : ℕ) (hj : j < m) (hi : i < n) :
    (idx2 (mat m n g) j i : Outcome ε α) = .ok (g j i) := by
  simp [idx2, idx_mat m n g j hj, idx_map_range _ n i hi]

theorem mapM_range_ok {ε β : Type} (m : ℕ) (f : ℕ → Outcome ε β) (g : ℕ → β) (h : ∀ j < m, f j = .ok (g j)) :
    (List.range m).mapM f = .ok ((List.range m).map g) :=
  mapM_ok _ _ _ fun x hx => h x (List.mem_range.1 hx)

theorem mat_ok {ε α : Type} (m n : ℕ) (f : ℕ → ℕ → Outcome ε α) (g : ℕ → ℕ → α)
    (h : ∀ j < m, ∀ i < n, f j i = .ok (g j i)) :
    ((List.range m).mapM fun j => (List.range n).mapM fun i => f j i) = .ok (mat m n g) :=
  mapM_range_ok m _ _ fun j hj => mapM_range_ok n _ _ fun i hi => h j hj i hi

/-- Every list is the list of its entries. -/
theorem list_eq_map_range {α : Type} (l : List α) (d : α) (n : ℕ) (h : l.length = n) :
    l = (List.range n).map fun i => l.getD i d := by
  subst h
  apply List.ext_getElem
  · simp
  · intro i h1 h2; simp [h1]

theorem matrix_eq_mat {α : Type} (l : List (List α)) (d : α) (m n : ℕ) (h : l.length = m)
    (hr : ∀ row ∈ l, row.length = n) : l = mat m n fun j i => (l.getD j []).getD i d := by
  rw [mat]
  apply List.ext_getElem
  · simp [h]
  · intro j h1 h2
    simp only [List.getElem_map, List.getElem_range]
    have : l.getD j [] = l[j] := by simp [h1]
    rw [this]
    exact list_eq_map_range _ d n (hr _ (List.getElem_mem h1))

theorem mat_congr {α : Type} (m n : ℕ) (f g : ℕ → ℕ → α) (h : ∀ j < m, ∀ i < n, f j i = g j i) :
    mat m n f = mat m n g := by
  rw [mat, mat]
  apply List.map_congr_left
  intro j hj
  apply List.map_congr_left
  intro i hi
  exact h j (List.mem_range.1 hj) i (List.mem_range.1 hi)

/-! ## Sums -/

theorem sum_map_range {α : Type} [AddCommMonoid α] (n : ℕ) (g : ℕ → α) :
    ((List.range n).map g).sum = ∑ i ∈ range n, g i := by
  induction n with
  | zero => simp
  | succ n ih => rw [List.range_succ, Finset.sum_range_succ]; simp [ih]

theorem prod_map_range {α : Type} [CommMonoid α] (n : ℕ) (g : ℕ → α) :
    ((List.range n).map g).prod = ∏ i ∈ range n, g i := by
  induction n with
  | zero => simp
  | succ n ih => rw [List.range_succ, Finset.prod_range_succ]; simp [ih]

variable {F P : Type}

/-- The multiscalar sum without the length check. -/
def msmSum [SMul F P] [Zero P] [Add P] (scalars : List F) (points : List P) : P :=
  (List.zipWith (· • ·) scalars points).sum

section
variable [Field F] [AddCommGroup P] [Module F P]

theorem msm_ok {ε : Type} (s : List F) (p : List P) (h : s.length = p.length) :
    (msm s p : Outcome ε P) = .ok (msmSum s p) := by simp [msm, h, msmSum]

@[simp] theorem msmSum_nil (p : List P) : msmSum ([] : List F) p = 0 := by simp [msmSum]

@[simp] theorem msmSum_cons (x : F) (s : List F) (q : P) (p : List P) :
    msmSum (x :: s) (q :: p) = x • q + msmSum s p := by simp [msmSum]

theorem msmSum_append (s s' : List F) (p p' : List P) (h : s.length = p.length) :
    msmSum (s ++ s') (p ++ p') = msmSum s p + msmSum s' p' := by
  induction s generalizing p with
  | nil =>
    have : p = [] := List.length_eq_zero_iff.1 (by simpa using h.symm)
    simp [this]
  | cons x s ih =>
    cases p with
    | nil => simp at h
    | cons q p =>
      simp only [List.cons_append, msmSum_cons]
      rw [ih p (by simpa using h), add_assoc]

theorem msmSum_singleton (x : F) (q : P) : msmSum [x] [q] = x • q := by simp [msmSum]

theorem msmSum_map_range (n : ℕ) (g : ℕ → F) (p : List P) (h : p.length = n) :
    msmSum ((List.range n).map g) p = ∑ i ∈ range n, g i • p.getD i 0 := by
  conv_lhs => rw [list_eq_map_range p 0 n h]
  rw [msmSum, List.zipWith_map, List.zipWith_self, sum_map_range]

theorem msmSum_map_smul (c : F) (s : List F) (p : List P) :
    msmSum (s.map fun x => c * x) p = c • msmSum s p := by
  induction s generalizing p with
  | nil => simp
  | cons x s ih =>
    cases p with
    | nil => simp [msmSum]
    | cons q p => simp [ih, mul_smul]

theorem msmSum_replicate_zero (n : ℕ) (p : List P) : msmSum (List.replicate n (0 : F)) p = 0 := by
  induction n generalizing p with
  | zero => simp
  | succ n ih =>
    cases p with
    | nil => simp [msmSum]
    | cons q p => rw [List.replicate_succ, msmSum_cons, ih]; simp

theorem msmSum_flatten_mat (m n : ℕ) (g : ℕ → ℕ → F) (p : List P) (h : p.length = m * n) :
    msmSum (mat m n g).flatten p = ∑ j ∈ range m, ∑ i ∈ range n, g j i • p.getD (j * n + i) 0 := by
  induction m generalizing p g with
  | zero => simp [mat]
  | succ m ih =>
    have hl : (p.take n).length = n := by
      rw [List.length_take, h, Nat.min_eq_left]; rw [Nat.succ_mul]; omega
    have hd : (p.drop n).length = m * n := by
      rw [List.length_drop, h, Nat.succ_mul]; omega
    have hsplit : p = p.take n ++ p.drop n := (List.take_append_drop n p).symm
    have hmat : (mat (m + 1) n g).flatten
        = (List.range n).map (g 0) ++ (mat m n fun j i => g (j + 1) i).flatten := by
      rw [mat, mat, List.range_succ_eq_map]
      simp [Function.comp_def]
    rw [hmat, hsplit, msmSum_append _ _ _ _ (by simp [hl]), msmSum_map_range n _ _ hl, ih _ _ hd, ← hsplit,
      Finset.sum_range_succ']
    rw [add_comm]
    congr 1
    · apply Finset.sum_congr rfl
      intro j _
      apply Finset.sum_congr rfl
      intro i _
      congr 1
      rw [List.getD_eq_getElem?_getD, List.getD_eq_getElem?_getD, List.getElem?_drop]
      congr 2
      ring
    · apply Finset.sum_congr rfl
      intro i hi
      congr 1
      rw [List.getD_eq_getElem?_getD, List.getD_eq_getElem?_getD, List.getElem?_take]
      simp [Finset.mem_range.1 hi]

end

theorem mat_flatten_length {α : Type} (m n : ℕ) (g : ℕ → ℕ → α) : (mat m n g).flatten.length = m * n := by
  simp [mat, List.length_flatten, Function.comp_def]

theorem mem_flatten_mat {α : Type} (m n : ℕ) (g : ℕ → ℕ → α) (x : α) :
    x ∈ (mat m n g).flatten ↔ ∃ j < m, ∃ i < n, g j i = x := by
  simp only [List.mem_flatten, mat, List.mem_map, List.mem_range]
  constructor
  · rintro ⟨l, ⟨j, hj, rfl⟩, h⟩
    obtain ⟨i, hi, rfl⟩ := List.mem_map.1 h
    exact ⟨j, hj, i, List.mem_range.1 hi, rfl⟩
  · rintro ⟨j, hj, i, hi, rfl⟩
    exact ⟨_, ⟨j, hj, rfl⟩, List.mem_map.2 ⟨i, List.mem_range.2 hi, rfl⟩⟩

theorem mat_flatten_map {α β : Type} (m n : ℕ) (g : ℕ → ℕ → α) (h : α → β) :
    (mat m n g).flatten.map h = (mat m n fun j i => h (g j i)).flatten := by
  simp [mat, List.map_flatten, Function.comp_def]

end Triptych
