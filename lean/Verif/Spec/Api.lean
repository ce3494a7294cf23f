import Verif.Spec.Weights
import Verif.Spec.Parallel.Weights
import Mathlib.Data.Fintype.Pi
import Mathlib.Data.Fintype.Prod

/-! # Vocabulary for statements about several calls of the API -/
set_option autoImplicit false
set_option linter.unusedSectionVars false

namespace Triptych.Spec

variable {F P : Type} [Field F] [AddCommGroup P] [Module F P] [DecidableEq F] [DecidableEq P]

open Classical in
/-- A proof that violates its equations although the weights derived for it make the verifier's sum vanish; these weights are
in a set of at most `(q - 1) ^ 3` of the `(q - 1) ^ 4` quadruples of non-zero weights, `q` being the size of the field. -/
def LuckyWeights [Fintype F] (E : Env F P) (st : Statement P) (p : Proof F P) (t : Transcript) : Prop :=
  ¬ Valid st.params st.inputSet.M st.J p (challenge E t st p) ∧
    ∃ bad : Finset (Fin 1 × Fin 4 → F),
      bad = ({w | (∀ x, w x ≠ 0) ∧ batchSum st.params st.inputSet.M [st] [p] [challenge E t st p] (weightList w) = 0} :
        Finset _) ∧
      bad.card ≤ (Fintype.card F - 1) ^ 3 ∧ ∃ w ∈ bad, IsWeights E [st] [p] [t] (weightList w)

end Triptych.Spec

namespace Triptych.Parallel.Spec
open Triptych.Spec

variable {F P : Type} [Field F] [AddCommGroup P] [Module F P] [DecidableEq F] [DecidableEq P]

open Classical in
/-- The same for parallel proofs, with five weights. -/
def LuckyWeights [Fintype F] (E : Env F P) (st : Parallel.Statement P) (p : Parallel.Proof F P) (t : Transcript) : Prop :=
  ¬ Parallel.Spec.Valid st.params st.inputSet.M st.inputSet.M1 st.offset st.J p (Parallel.Spec.challenge E t st p) ∧
    ∃ bad : Finset (Fin 1 × Fin 5 → F),
      bad = ({w | (∀ x, w x ≠ 0) ∧ Parallel.Spec.batchSum st.params st.inputSet.M st.inputSet.M1 [st] [p]
        [Parallel.Spec.challenge E t st p] (Parallel.Spec.weightList w) = 0} : Finset _) ∧
      bad.card ≤ (Fintype.card F - 1) ^ 4 ∧ ∃ w ∈ bad, Parallel.Spec.IsWeights E [st] [p] [t] (Parallel.Spec.weightList w)

end Triptych.Parallel.Spec
