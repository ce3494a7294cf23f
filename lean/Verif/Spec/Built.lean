import Verif.Model.Serialize
import Verif.Model.Parallel.Serialize

/-! # Specification: the objects a caller can obtain from the constructors

All fields of parameters, input sets, statements and witnesses are private in the crate, so every value a caller can hold
comes from one of these constructor calls. -/
set_option autoImplicit false

namespace Triptych.Spec
variable {F P : Type} [DecidableEq F] [DecidableEq P]

/-- Parameters returned by `new_with_generators` (which `new` calls). -/
def ParamsBuilt (E : Env F P) (p : Params P) : Prop := ∃ n m G U, Params.newWithGenerators E n m G U = .ok p

/-- Input sets returned by `new` or `new_with_padding`. -/
def InputSetBuilt (E : Env F P) (i : InputSet P) : Prop :=
  (∃ M, InputSet.new E M = .ok i) ∨ ∃ M params, ParamsBuilt E params ∧ InputSet.newWithPadding E M params = .ok i

/-- Statements returned by `new` on built parameters and input sets. -/
def StatementBuilt [Zero P] (E : Env F P) (s : Statement P) : Prop :=
  ∃ params inputSet J, ParamsBuilt E params ∧ InputSetBuilt E inputSet ∧ Statement.new E params inputSet J = .ok s

/-- Witnesses returned by `new` or `random`, possibly zeroized afterwards. -/
inductive WitnessBuilt [Zero F] (E : Env F P) : Witness F P → Prop
  | new (params : Params P) (l : Nat) (r : F) (w : Witness F P) :
      ParamsBuilt E params → Witness.new params l r = .ok w → WitnessBuilt E w
  | random (σ : Type) (R : Rng σ) (s s' : σ) (params : Params P) (w : Witness F P) :
      ParamsBuilt E params → (Witness.random E R params s : Outcome Unit (Witness F P × σ)) = .ok (w, s') →
      WitnessBuilt E w
  | zeroize (w : Witness F P) : WitnessBuilt E w → WitnessBuilt E w.zeroize

end Triptych.Spec
