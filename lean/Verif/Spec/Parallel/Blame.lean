import Verif.Spec.Blame
import Verif.Spec.Parallel.Equations
import Verif.Spec.Parallel.Transcripts
import Verif.Spec.Parallel.Built

/-! # Specification: genuine parallel proofs and batches for the blame functions -/
set_option autoImplicit false

namespace Triptych.Parallel.Spec
open Triptych.Spec (part NonzeroF)

variable {F P : Type} [Field F] [AddCommGroup P] [Module F P] [DecidableEq F] [DecidableEq P]

/-- A proof that deserves to be accepted: right dimensions, non-zero challenge and responses, all equations hold. -/
structure Genuine (E : Env F P) (st : Statement P) (p : Proof F P) (t : Transcript) : Prop where
  shape : Shape st.params p
  challenge : challenge E t st p ≠ 0
  responses : NonzeroF st.params.n st.params.m p.f (Parallel.Spec.challenge E t st p)
  valid : Valid st.params st.inputSet.M st.inputSet.M1 st.offset st.J p (Parallel.Spec.challenge E t st p)

/-- Entry `i` of a batch is genuine. -/
def GenuineAt (E : Env F P) (sts : List (Statement P)) (ps : List (Proof F P)) (ts : List Transcript) (i : ℕ) : Prop :=
  ∃ st p t, sts[i]? = some st ∧ ps[i]? = some p ∧ ts[i]? = some t ∧ Genuine E st p t

/-- Entry `i` of a batch, verified alone, is accepted. -/
def AcceptedAt (E : Env F P) (cfg : Config) (sts : List (Statement P)) (ps : List (Proof F P)) (ts : List Transcript)
    (i : ℕ) : Prop :=
  ∃ st p t, sts[i]? = some st ∧ ps[i]? = some p ∧ ts[i]? = some t ∧ (Proof.verify E cfg p st t).1 = .ok ()

/-- A batch as the blame functions expect it: equal lengths, statements from the constructors sharing parameters and input
set, a size that fits, and weight generators that yield enough usable weights for every part of the batch. -/
structure BlameBatch (E : Env F P) (cfg : Config) (sts : List (Statement P)) (ps : List (Proof F P))
    (ts : List Transcript) : Prop where
  proofs : sts.length = ps.length
  transcripts : sts.length = ts.length
  built : ∀ s ∈ sts, StatementBuilt E s
  params : ∀ s ∈ sts, ∀ s' ∈ sts, s.params = s'.params
  inputSets : ∀ s ∈ sts, ∀ s' ∈ sts, s.inputSet = s'.inputSet
  size : ∀ s ∈ sts, SizeOK cfg s.params ps.length
  index : ps.length < cfg.usizeMax
  fuel : ∀ a b, a < b → b ≤ ps.length → EnoughFuel E (part sts a b) (part ps a b) (part ts a b) cfg.fuel

end Triptych.Parallel.Spec
