import Verif.Spec.Blame
import Verif.Spec.Generator

/-! # Specification: right answers of the blame functions, and ideal weight generators -/
set_option autoImplicit false

namespace Triptych.Spec

/-- The environment `E` in which the weight generator of each transcript in `L` answers its first `N` requests of 64 bytes from
that transcript's table. -/
def withTables {F P : Type} (E : Env F P) (L : Finset Transcript) {N : ℕ} (W : L → Fin N → Block) : Env F P :=
  { E with prf := fun r len =>
      if h : r.log ∈ L ∧ r.reqs.length < N ∧ r = queryPoint ⟨r.log, [], List.replicate 32 0, []⟩ r.reqs.length ∧ len = 64 then
        (W ⟨r.log, h.1⟩ ⟨r.reqs.length, h.2.1⟩).bytes
      else E.prf r len }

/-- The answer of single blame a caller wants for `k` proofs: success if all proofs are genuine, the index of the first that is not
otherwise. -/
def SingleRight (genuine : ℕ → Prop) (k : ℕ) (answer : Outcome ProofError Unit) : Prop :=
  ((∀ i < k, genuine i) ∧ answer = .ok ()) ∨
  ∃ i < k, ¬ genuine i ∧ (∀ j < i, genuine j) ∧ answer = .err (.FailedBatchVerificationWithSingleBlame (some i))

/-- The answer of full blame a caller wants for `k` proofs: success if all proofs are genuine, the increasing list of exactly the
indexes of those that are not otherwise. -/
def FullRight (genuine : ℕ → Prop) (k : ℕ) (answer : Outcome ProofError Unit) : Prop :=
  ((∀ i < k, genuine i) ∧ answer = .ok ()) ∨
  ∃ is, is ≠ [] ∧ is.Pairwise (· < ·) ∧ (∀ i, i ∈ is ↔ i < k ∧ ¬ genuine i) ∧
    answer = .err (.FailedBatchVerificationWithFullBlame is)

variable {F P : Type} [Field F] [AddCommGroup P] [Module F P] [DecidableEq F] [DecidableEq P]

/-- A batch as the blame functions expect it: equal lengths, statements from the constructors sharing parameters and input set, a
size that fits. -/
structure BlameInput (E : Env F P) (cfg : Config) (sts : List (Statement P)) (ps : List (Proof F P))
    (ts : List Transcript) : Prop where
  proofs : sts.length = ps.length
  transcripts : sts.length = ts.length
  built : ∀ s ∈ sts, StatementBuilt E s
  params : ∀ s ∈ sts, ∀ s' ∈ sts, s.params = s'.params
  inputSets : ∀ s ∈ sts, ∀ s' ∈ sts, s.inputSet = s'.inputSet
  size : ∀ s ∈ sts, SizeOK cfg s.params ps.length
  index : ps.length < cfg.usizeMax

end Triptych.Spec
