import Verif.Spec.Insider
import Verif.Spec.Parallel.DLog

/-! # Specification: corrupted users of the parallel proving system -/
set_option autoImplicit false

namespace Triptych.Parallel.Spec

/-- The ring consists of honest users' keys, none of them the key of a corrupted user, or the linking tag is that of an honest user and
not that of a corrupted one. -/
def Untouched {n m : ℕ} {P υ : Type} [Zero P] (pub : Public n m P υ) (C : List υ) (M : List P) (J : P) : Prop :=
  (∀ X ∈ M, (∃ i, X = pub.key i) ∧ ∀ i ∈ C, X ≠ pub.key i) ∨ ((∃ i, J = pub.tag i) ∧ ∀ i ∈ C, J ≠ pub.tag i)

/-- No corrupted user has both its key in the ring and its linking tag on the proof. -/
def Clean {n m : ℕ} {P υ : Type} [Zero P] (pub : Public n m P υ) (C : List υ) (M : List P) (J : P) : Prop :=
  ∀ i ∈ C, pub.key i ∈ M → J ≠ pub.tag i

end Triptych.Parallel.Spec
