import Verif.Spec.Oracle
import Verif.Spec.Built
import Verif.Spec.Transcripts
import Verif.Spec.Parallel.Built
import Verif.Spec.Parallel.Transcripts

/-! # Specification: finding two objects with the same hash

Parameters, input sets and statements of both proving systems carry a hash of 32 bytes, the answer of the transcript to a
challenge request. A program that may ask for such answers tries to output two different objects with the same hash. -/
set_option autoImplicit false

namespace Triptych.Spec

/-- An answer of 32 bytes. -/
abbrev Digest := Fin 32 → Fin 256

/-- As a list of bytes. -/
def Digest.bytes (b : Digest) : Bytes := List.ofFn fun i => UInt8.ofNat (b i).val

/-- The environment `E` with the challenge bytes of the transcripts in `S` given by the oracle `O`. -/
def withHash {F P : Type} (E : Env F P) (S : Finset Transcript) (O : S → Digest) : Env F P :=
  { E with challenge := fun t => if h : t ∈ S then (O ⟨t, h⟩).bytes else E.challenge t }

/-- An object with a hash; input sets and statements come with the keys (before padding) they are made from. -/
inductive Hashed (P : Type) where
  | params (p : Params P)
  | inputSet (i : InputSet P) (M : List P)
  | statement (st : Statement P) (M : List P)
  | parallelParams (p : Parallel.Params P)
  | parallelInputSet (i : Parallel.InputSet P) (M M1 : List P)
  | parallelStatement (st : Parallel.Statement P) (M M1 : List P)

/-- The input set is returned by `new` or `new_with_padding` for the keys `M`. -/
def MadeFrom {F P : Type} (E : Env F P) (i : InputSet P) (M : List P) : Prop :=
  InputSet.new E M = .ok i ∨ ∃ params, ParamsBuilt E params ∧ InputSet.newWithPadding E M params = .ok i

/-- The parallel input set is returned by `new` or `new_with_padding` for the keys `M` and `M1`. -/
def ParallelMadeFrom {F P : Type} (E : Env F P) (i : Parallel.InputSet P) (M M1 : List P) : Prop :=
  Parallel.InputSet.new E M M1 = .ok i ∨
    ∃ params, Parallel.Spec.ParamsBuilt E params ∧ Parallel.InputSet.newWithPadding E M M1 params = .ok i

namespace Hashed
variable {F P : Type}

/-- The hash stored in the object. -/
def hash : Hashed P → Bytes
  | params p => p.hash
  | inputSet i _ => i.hash
  | statement st _ => st.hash
  | parallelParams p => p.hash
  | parallelInputSet i _ _ => i.hash
  | parallelStatement st _ _ => st.hash

/-- The object is returned by the library's constructors, for these keys. -/
def Built [AddCommGroup P] [DecidableEq P] (E : Env F P) : Hashed P → Prop
  | params p => ParamsBuilt E p
  | inputSet i M => MadeFrom E i M
  | statement st M => StatementBuilt E st ∧ MadeFrom E st.inputSet M
  | parallelParams p => Parallel.Spec.ParamsBuilt E p
  | parallelInputSet i M M1 => ParallelMadeFrom E i M M1
  | parallelStatement st M M1 => Parallel.Spec.StatementBuilt E st ∧ ParallelMadeFrom E st.inputSet M M1

/-- The transcripts hashed to make the object: its own first, then those of the objects it contains. -/
def transcripts (E : Env F P) : Hashed P → List Transcript
  | params p => [paramsTranscript E p.n p.m p.G p.U p.CommitmentG p.CommitmentH]
  | inputSet i M => [inputSetTranscript E i.M M.length]
  | statement st M =>
    [statementTranscript E st.params.hash st.inputSet.hash st.J,
      paramsTranscript E st.params.n st.params.m st.params.G st.params.U st.params.CommitmentG st.params.CommitmentH,
      inputSetTranscript E st.inputSet.M M.length]
  | parallelParams p => [Parallel.Spec.paramsTranscript E p.n p.m p.G p.G1 p.U p.CommitmentG p.CommitmentH]
  | parallelInputSet i M _ => [Parallel.Spec.inputSetTranscript E i.M i.M1 M.length]
  | parallelStatement st M _ =>
    [Parallel.Spec.statementTranscript E st.params.hash st.inputSet.hash st.offset st.J,
      Parallel.Spec.paramsTranscript E st.params.n st.params.m st.params.G st.params.G1 st.params.U st.params.CommitmentG
        st.params.CommitmentH,
      Parallel.Spec.inputSetTranscript E st.inputSet.M st.inputSet.M1 M.length]

/-- The object is returned by the library's constructors with the oracle `O`, which answers for all its transcripts. -/
def Made [AddCommGroup P] [DecidableEq P] (E : Env F P) (S : Finset Transcript) (O : S → Digest) (a : Hashed P) : Prop :=
  a.Built (withHash E S O) ∧ ∀ t ∈ a.transcripts E, t ∈ S

/-- Two different ones of the objects have the same hash. -/
def Clash [AddCommGroup P] [DecidableEq P] (E : Env F P) (S : Finset Transcript) (O : S → Digest) (out : List (Hashed P)) : Prop :=
  ∃ a ∈ out, ∃ b ∈ out, a.Made E S O ∧ b.Made E S O ∧ a ≠ b ∧ a.hash = b.hash

/-- One of the objects has one of the given hashes. -/
def Hits [AddCommGroup P] [DecidableEq P] (E : Env F P) (S : Finset Transcript) (O : S → Digest) (targets : Finset Bytes)
    (out : List (Hashed P)) : Prop :=
  ∃ a ∈ out, a.Made E S O ∧ a.hash ∈ targets

end Hashed

end Triptych.Spec
