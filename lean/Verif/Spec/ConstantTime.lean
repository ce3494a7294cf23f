import Verif.Model.Outcome

/-! # Specification for C62, C63 -/
set_option autoImplicit false

namespace Triptych.Spec

/-- How a call ended: success or which error, forgetting the returned value. -/
def kind {ε α : Type} : Outcome ε α → Outcome ε Unit
  | .ok _ => .ok ()
  | .err e => .err e
  | .panic => .panic
  | .diverge => .diverge

end Triptych.Spec
