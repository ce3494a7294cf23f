import Verif.Model.Env

/-!
# Arbitrary-base Gray codes (src/gray.rs)

`u32` values are natural numbers; each checked `u32` operation carries its own range check.
-/
set_option autoImplicit false

namespace Triptych

/-- `u32::checked_pow`. -/
def checkedPow (a b : Nat) : Option Nat := if a ^ b ≤ u32Max then some (a ^ b) else none
/-- `u32::checked_add`. -/
def checkedAdd (a b : Nat) : Option Nat := if a + b ≤ u32Max then some (a + b) else none
/-- `u32::checked_mul`. -/
def checkedMul (a b : Nat) : Option Nat := if a * b ≤ u32Max then some (a * b) else none
/-- `u32::checked_sub`. -/
def checkedSub (a b : Nat) : Option Nat := if b ≤ a then some (a - b) else none
/-- `u32::checked_rem`. -/
def checkedRem (a b : Nat) : Option Nat := if b = 0 then none else some (a % b)
/-- `u32::checked_div`. -/
def checkedDiv (a b : Nat) : Option Nat := if b = 0 then none else some (a / b)
/-- `u64::MAX`, the saturation bound of `crypto_bigint::U64`. -/
def u64Max : Nat := 2 ^ 64 - 1
/-- `U64::saturating_add`. -/
def saturatingAdd64 (a b : Nat) : Nat := min (a + b) u64Max

/-- src/gray.rs:10-17. -/
structure GrayIterator where
  N : Nat
  M : Nat
  i : Nat
  last : List Nat
deriving DecidableEq, Repr

namespace GrayIterator

/-- src/gray.rs:28-42, `GrayIterator::new`. -/
def new (N M : Nat) : Option GrayIterator :=
  if N ≤ 1 ∨ M = 0 then none
  else do
    let _ ← checkedPow N M
    some { N := N, M := M, i := 0, last := List.replicate M 0 }

/-- src/gray.rs:54-60, the loop `for _ in 0..M { push(v % N); v = v / N }`; least significant digit first. -/
def baseLoopVartime (N : Nat) : Nat → Nat → Option (List Nat)
  | 0, _ => some []
  | k + 1, v => do
    let d ← checkedRem v N
    let v' ← checkedDiv v N
    let ds ← baseLoopVartime N k v'
    some (d :: ds)

/-- src/gray.rs:62-69, the loop over `i` in `(0..M).rev()`. The recursion handles the tail (higher indexes) first, and
returns the digits from this index upwards together with the current `shift`. Both vectors have length `M`, so the
indexing in the loop is in range. -/
def grayLoopVartime (N : Nat) : List Nat → Option (List Nat × Nat)
  | [] => some ([], 0)
  | b :: bs => do
    let (ds, shift) ← grayLoopVartime N bs
    let s ← checkedAdd b shift
    let d ← checkedRem s N
    let t ← checkedAdd shift N
    let shift' ← checkedSub t d
    some (d :: ds, shift')

/-- src/gray.rs:49-72, `decompose_vartime`. -/
def decomposeVartime (N M v : Nat) : Option (List Nat) :=
  if N ≤ 1 ∨ M = 0 then none
  else do
    let base ← baseLoopVartime N M v
    let (digits, _) ← grayLoopVartime N base
    some digits

/-- src/gray.rs:89-96, base-`N` loop with `U64::div_rem`. -/
def baseLoop (N : Nat) : Nat → Nat → List Nat
  | 0, _ => []
  | k + 1, v => v % N :: baseLoop N k (v / N)

/-- src/gray.rs:98-105, Gray loop with saturating `U64` arithmetic (`saturating_sub` is truncated subtraction). -/
def grayLoop (N : Nat) : List Nat → List Nat × Nat
  | [] => ([], 0)
  | b :: bs =>
    let (ds, shift) := grayLoop N bs
    let d := saturatingAdd64 b shift % N
    (d :: ds, saturatingAdd64 shift N - d)

/-- src/gray.rs:80-112, `decompose`; the final conversion fails if a digit does not fit `u32`. -/
def decompose (N M v : Nat) : Option (List Nat) :=
  if N ≤ 1 ∨ M = 0 then none
  else
    let base := baseLoop N M v
    let (digits, _) := grayLoop N base
    digits.mapM fun d => if d ≤ u32Max then some d else none

/-- src/gray.rs:144-151: `zip(..).position(|(last, next)| last != next)` together with reading `last[index]` and
`next[index]`; `pos` is the current position. -/
def findChange : List Nat → List Nat → Nat → Option (Nat × Nat × Nat)
  | a :: as, b :: bs, pos => if a ≠ b then some (pos, a, b) else findChange as bs (pos + 1)
  | _, _, _ => none

/-- src/gray.rs:129-157, `Iterator::next`. -/
def next (g : GrayIterator) : Option ((Nat × Nat × Nat) × GrayIterator) :=
  if g.i = 0 then some ((0, 0, 0), { g with i := 1 })
  else do
    let total ← checkedPow g.N g.M
    if g.i = total then none
    else do
      let nxt ← decomposeVartime g.N g.M g.i
      let change ← findChange g.last nxt 0
      let i' ← checkedAdd g.i 1
      some (change, { g with i := i', last := nxt })

/-- A `for` loop over the iterator: the items returned until the first `None`. `fuel` bounds the number of calls. -/
def items : Nat → GrayIterator → List (Nat × Nat × Nat)
  | 0, _ => []
  | fuel + 1, g =>
    match g.next with
    | none => []
    | some (item, g') => item :: items fuel g'

/-- All items of an iterator. Fuel `N^M + 1` suffices (`gray_items_exhausted`, Lemmas/Gray.lean). -/
def toList (g : GrayIterator) : List (Nat × Nat × Nat) := items (g.N ^ g.M + 1) g

end GrayIterator
end Triptych
