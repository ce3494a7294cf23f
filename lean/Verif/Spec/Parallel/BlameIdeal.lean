import Verif.Spec.BlameIdeal
import Verif.Spec.Parallel.Blame

/-! # Specification: batches for the blame functions of the parallel verifier -/
set_option autoImplicit false

namespace Triptych.Parallel.Spec

variable {F P : Type} [Field F] [AddCommGroup P] [Module F P] [DecidableEq F] [DecidableEq P]

/-- A batch as the blame functions expect it: equal lengths, statements from the constructors sharing parameters and input set, a
size that fits. -/
structure BlameInput (E : Env F P) (cfg : Config) (sts : List (Statement P)) (ps : List (Proof F P))
    (ts : List Transcript) : Prop where
  proofs : sts.length = ps.length
  transcripts : sts.length = ts.length
  built : ∀ s ∈ sts, StatementBuilt E s
  params : ∀ s ∈ sts, ∀ s' ∈ sts, s.params = s'.params
  inputSets : ∀ s ∈ sts, ∀ s' ∈ sts, s.inputSet = s'.inputSet
  size : ∀ s ∈ sts, SizeOK cfg s.params ps.length
  index : ps.length < cfg.usizeMax

end Triptych.Parallel.Spec
