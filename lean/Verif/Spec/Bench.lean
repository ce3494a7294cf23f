import Verif.Spec.Example

/-! # Specification for C113: several signers at neighbouring positions of one ring -/
set_option autoImplicit false

namespace Triptych.Spec
variable {F P σ : Type}

/-- The `k`-th scalar drawn from a generator that is only asked for scalars and points. -/
def draw (E : Env F P) (R : Rng σ) (s : σ) (k : ℕ) : F := E.scalarOfWide (R.fill (after R s k) 64).1

/-- The `k`-th point drawn from a generator that is only asked for scalars and points. -/
def drawPoint (E : Env F P) (R : Rng σ) (s : σ) (k : ℕ) : P := E.pointOfUniform (R.fill (after R s k) 64).1

/-- `N` points: those of the `k` signers at the position `l` and the following ones (with position 0 after `N - 1`), and others. -/
def ringOf (N l k : ℕ) (own other : ℕ → P) : List P :=
  (List.range N).map fun j => if (j + N - l) % N < k then own ((j + N - l) % N) else other j

end Triptych.Spec
