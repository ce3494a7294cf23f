import Verif.Spec.Equations
import Verif.Spec.Transcripts
import Mathlib.Data.Fin.VecNotation

/-! # Specification: weight vectors of a batch -/
set_option autoImplicit false

namespace Triptych.Spec
variable {F P : Type} [Field F] [AddCommGroup P] [Module F P]

/-- The four equations of one proof. -/
def equation (params : Params P) (M : List P) (J : P) (p : Proof F P) (ξ : F) : Fin 4 → P :=
  ![E1 params p ξ, E2 params p ξ, E3 params M p ξ, E4 params J p ξ]

/-- A weight vector for `k` proofs as the list of quadruples used by the verifier. -/
def weightList {k : ℕ} (w : Fin k × Fin 4 → F) : List (Proof.Weights F) :=
  List.ofFn fun i => ⟨w (i, 0), w (i, 1), w (i, 2), w (i, 3)⟩

end Triptych.Spec
