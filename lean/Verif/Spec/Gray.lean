import Mathlib.Data.Nat.Notation

/-! # Specification: base-`n` Gray codes -/
set_option autoImplicit false

namespace Triptych.Spec

/-- The `j`-th digit (least significant first) of the base-`n` representation of `k`. -/
def digit (n k j : ℕ) : ℕ := k / n ^ j % n

/-- The `j`-th digit of the base-`n` modular Gray code of `k`: the difference modulo `n` of two neighbouring digits. -/
def grayDigit (n k j : ℕ) : ℕ := (digit n k j + (n - digit n k (j + 1))) % n

/-- The base-`n` Gray code of `k` with `m` digits, least significant first. -/
def grayCode (n m k : ℕ) : List ℕ := (List.range m).map (grayDigit n k)

/-- The digit vectors obtained by replaying changes `(index, old, new)` starting from `ds`. -/
def replay : List ℕ → List (ℕ × ℕ × ℕ) → List (List ℕ)
  | _, [] => []
  | ds, (index, _, new) :: items => ds.set index new :: replay (ds.set index new) items

/-- Every change names the current value of the digit it changes. -/
def consistent : List ℕ → List (ℕ × ℕ × ℕ) → Prop
  | _, [] => True
  | ds, (index, old, new) :: items => ds[index]? = some old ∧ consistent (ds.set index new) items

end Triptych.Spec
