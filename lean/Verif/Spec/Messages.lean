import Verif.Model.Errors

/-! Tables of error messages: the first row whose condition holds tells what a function reports. -/

set_option autoImplicit false

namespace Triptych.Spec

open Classical in
/-- The message of the first row whose condition holds. -/
noncomputable def firstRow : List (Prop × String) → Option String
  | [] => none
  | (condition, message) :: rows => if condition then some message else firstRow rows

/-- The function returned a result (`none`), or an error with the given message. -/
def Reports {ε α : Type} (text : ε → String) (answer : Outcome ε α) : Option String → Prop
  | none => ∃ a, answer = .ok a
  | some message => ∃ e, answer = .err e ∧ text e = message

/-- The errors of failed batches. -/
def BatchFailure : ProofError → Prop
  | .FailedBatchVerification => True
  | .FailedBatchVerificationWithSingleBlame _ => True
  | .FailedBatchVerificationWithFullBlame _ => True
  | _ => False

end Triptych.Spec
