/-!
# Rust outcomes

`Result<α, ε>` extended with the two ways a Rust computation can fail to return: a panic and an infinite loop.
Panics are explicit values of the model (slice indexing, slicing, dalek's length assertions, overflow checks).
`diverge` is only produced when the fuel of a `while` loop is used up.
-/
set_option autoImplicit false

namespace Triptych

/-- Outcome of a Rust function returning `Result<α, ε>`. -/
inductive Outcome (ε α : Type) where
  | ok (a : α)
  | err (e : ε)
  | panic
  | diverge
deriving DecidableEq, Repr

namespace Outcome

/-- Rust's `?` operator; panics and divergence propagate. -/
def bind {ε α β : Type} (x : Outcome ε α) (f : α → Outcome ε β) : Outcome ε β :=
  match x with
  | .ok a => f a
  | .err e => .err e
  | .panic => .panic
  | .diverge => .diverge

instance {ε : Type} : Monad (Outcome ε) where
  pure := .ok
  bind := Outcome.bind

@[simp] theorem pure_eq {ε α : Type} (a : α) : (pure a : Outcome ε α) = .ok a := rfl
@[simp] theorem bind_ok {ε α β : Type} (a : α) (f : α → Outcome ε β) : (Outcome.ok a >>= f) = f a := rfl
@[simp] theorem bind_err {ε α β : Type} (e : ε) (f : α → Outcome ε β) :
    ((Outcome.err e : Outcome ε α) >>= f) = .err e := rfl
@[simp] theorem bind_panic {ε α β : Type} (f : α → Outcome ε β) :
    ((Outcome.panic : Outcome ε α) >>= f) = .panic := rfl
@[simp] theorem bind_diverge {ε α β : Type} (f : α → Outcome ε β) :
    ((Outcome.diverge : Outcome ε α) >>= f) = .diverge := rfl

instance {ε : Type} : LawfulMonad (Outcome ε) := LawfulMonad.mk'
  (id_map := by intro α x; cases x <;> rfl)
  (pure_bind := by intros; rfl)
  (bind_assoc := by intro α β γ x f g; cases x <;> rfl)

/-- `result.is_ok()` for a computation that returned. -/
def isOk {ε α : Type} : Outcome ε α → Bool
  | .ok _ => true
  | _ => false

/-- `Result::map_err`. -/
def mapErr {ε ε' α : Type} (g : ε → ε') : Outcome ε α → Outcome ε' α
  | .ok a => .ok a
  | .err e => .err (g e)
  | .panic => .panic
  | .diverge => .diverge

/-- `Option::ok_or`. -/
def ofOption {ε α : Type} (o : Option α) (e : ε) : Outcome ε α :=
  match o with
  | some a => .ok a
  | none => .err e

end Outcome

/-- `list[i]` on a slice or `Vec`: panics out of bounds. -/
def idx {ε α : Type} (l : List α) (i : Nat) : Outcome ε α :=
  match l[i]? with
  | some a => .ok a
  | none => .panic

/-- `matrix[j][i]`. -/
def idx2 {ε α : Type} (l : List (List α)) (j i : Nat) : Outcome ε α := do
  let row ← idx l j
  idx row i

/-- `list[i] = a`: panics out of bounds. -/
def setIdx {ε α : Type} (l : List α) (i : Nat) (a : α) : Outcome ε (List α) :=
  if i < l.length then .ok (l.set i a) else .panic

/-- `list[left..right]`: panics unless `left ≤ right ≤ len`. -/
def slice {ε α : Type} (l : List α) (left right : Nat) : Outcome ε (List α) :=
  if left ≤ right ∧ right ≤ l.length then .ok ((l.take right).drop left) else .panic

end Triptych
