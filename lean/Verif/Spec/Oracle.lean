import Verif.Model.Env
import Mathlib.Data.Fintype.Pi
import Mathlib.Data.Finset.Option
import Mathlib.Algebra.BigOperators.Group.Finset.Basic

/-! # Specification: programs with a random oracle

A program with an oracle from `ι` to `β` either stops with an output or asks the oracle and goes on depending on the answer. -/
set_option autoImplicit false

namespace Triptych.Spec

/-- A program that may ask an oracle; its own random choices are fixed. -/
inductive OracleProgram (ι β α : Type) where
  | done (a : α)
  | ask (i : ι) (next : β → OracleProgram ι β α)

namespace OracleProgram
variable {ι β α : Type}

/-- The output with the oracle `O`. -/
def run (O : ι → β) : OracleProgram ι β α → α
  | done a => a
  | ask i next => run O (next (O i))

/-- The questions asked of the oracle `O`. -/
def asked (O : ι → β) : OracleProgram ι β α → List ι
  | done _ => []
  | ask i next => i :: asked O (next (O i))

/-- The questions asked, and the question `crit` assigns to the output. -/
def touched [DecidableEq ι] (c : OracleProgram ι β α) (crit : α → Option ι) (O : ι → β) : Finset ι :=
  (c.asked O).toFinset ∪ (crit (c.run O)).toFinset

end OracleProgram

/-- An answer of the challenge oracle: 64 bytes. -/
abbrev Block := Fin 64 → Fin 256

/-- As a list of bytes. -/
def Block.bytes (b : Block) : Bytes := List.ofFn fun i => UInt8.ofNat (b i).val

/-- The environment `E` with the challenge bytes of the transcripts in `S` given by the oracle `O`. -/
def withOracle {F P : Type} (E : Env F P) (S : Finset Transcript) (O : S → Block) : Env F P :=
  { E with challenge := fun t => if h : t ∈ S then (O ⟨t, h⟩).bytes else E.challenge t }

end Triptych.Spec
