import Verif.Spec.Weights
import Verif.Spec.Parallel.Equations
import Verif.Spec.Parallel.Transcripts

/-! # Specification: weight vectors of a batch of parallel proofs -/
set_option autoImplicit false

namespace Triptych.Parallel.Spec
variable {F P : Type} [Field F] [AddCommGroup P] [Module F P]

/-- The five equations of one proof. -/
def equation (params : Params P) (M M1 : List P) (offset J : P) (p : Proof F P) (ξ : F) : Fin 5 → P :=
  ![E1 params p ξ, E2 params p ξ, E3 params M p ξ, E4 params J p ξ, E5 params M1 offset p ξ]

/-- A weight vector for `k` proofs as the list of quintuples used by the verifier. -/
def weightList {k : ℕ} (w : Fin k × Fin 5 → F) : List (Proof.Weights F) :=
  List.ofFn fun i => ⟨w (i, 0), w (i, 1), w (i, 2), w (i, 3), w (i, 4)⟩

end Triptych.Parallel.Spec
