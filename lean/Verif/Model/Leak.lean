import Verif.Model.Outcome

/-! # Observable execution: control flow, addresses, variable-time operations

A computation together with what somebody who observes its running time, its jumps and the addresses it touches may learn.
Arithmetic on scalars, group elements and machine words, `subtle`'s `ct_eq` and `conditional_assign`, hashing and
`crypto_bigint` operations take time depending at most on the recorded sizes (the documented guarantee of these libraries,
an assumption of this model); everything else is recorded with its operands. -/
set_option autoImplicit false

namespace Triptych

/-- One observation. `F` is the type of scalars. -/
inductive Leak (F : Type) where
  /-- which way a conditional jump goes -/
  | branch (taken : Bool)
  /-- the index of an element of a vector that is read or written -/
  | access (i : Nat)
  /-- an operation whose running time depends on the given sizes only -/
  | call (name : String) (sizes : List Nat)
  /-- an operation in variable time: it may reveal all its operands -/
  | vartime (name : String) (scalars : List F) (words : List Nat)
deriving DecidableEq

/-- An outcome together with the observations up to it. -/
structure Traced (F ε α : Type) where
  trace : List (Leak F)
  out : Outcome ε α

namespace Traced
variable {F ε α β : Type}

/-- Sequential composition; nothing follows an error or a panic. -/
def bind (x : Traced F ε α) (f : α → Traced F ε β) : Traced F ε β :=
  match x.out with
  | .ok a => ⟨x.trace ++ (f a).trace, (f a).out⟩
  | .err e => ⟨x.trace, .err e⟩
  | .panic => ⟨x.trace, .panic⟩
  | .diverge => ⟨x.trace, .diverge⟩

instance : Monad (Traced F ε) where
  pure a := ⟨[], .ok a⟩
  bind := Traced.bind

/-- One observation. -/
def leak (x : Leak F) : Traced F ε Unit := ⟨[x], .ok ()⟩

/-- A computation with one observation. -/
def step (x : Leak F) (o : Outcome ε α) : Traced F ε α := ⟨[x], o⟩

/-- A conditional jump on `c`: which way it goes is observed. Every jump of the traced code is made with this, so what is
observed is by construction the condition that is tested. -/
abbrev jump (c : Prop) [Decidable c] (x y : Traced F ε α) : Traced F ε α := do
  leak (.branch (decide c))
  if c then x else y

/-- A computation without observation. -/
def lift (o : Outcome ε α) : Traced F ε α := ⟨[], o⟩

end Traced

/-- `list[i]`. -/
def idxT {F ε α : Type} (l : List α) (i : Nat) : Traced F ε α := .step (.access i) (idx l i)

/-- `matrix[j][i]`. -/
def idx2T {F ε α : Type} (l : List (List α)) (j i : Nat) : Traced F ε α := do
  let row ← idxT l j
  idxT row i

/-- `list[i] = a`. -/
def setIdxT {F ε α : Type} (l : List α) (i : Nat) (a : α) : Traced F ε (List α) := .step (.access i) (setIdx l i a)

end Triptych
