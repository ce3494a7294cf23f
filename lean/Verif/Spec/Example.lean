import Verif.Model.Env
import Mathlib.Logic.Function.Iterate

/-! # Specification for C66: the random ring of the documented examples -/
set_option autoImplicit false

namespace Triptych.Spec
variable {F P σ : Type}

/-- The state of a generator after `k` requests of 64 bytes. -/
def after (R : Rng σ) (s : σ) (k : ℕ) : σ := (fun s => (R.fill s 64).2)^[k] s

/-- `N` points: the own one at position `l`, at the others the generator's outputs, in order. -/
def exampleRing (E : Env F P) (R : Rng σ) (s : σ) (N l : ℕ) (own : P) : List P :=
  (List.range N).map fun i =>
    if i = l then own else E.pointOfUniform (R.fill (after R s (if i < l then i else i - 1)) 64).1

end Triptych.Spec
