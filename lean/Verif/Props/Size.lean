import Verif.Props.Serialize
import Verif.Props.Parallel.Serialize
import Mathlib.Data.Nat.Log

/-! # Sizes of encoded proofs: C65 -/
set_option autoImplicit false
set_option linter.unusedSectionVars false

namespace Triptych
open Spec

variable {F P : Type} [Field F] [AddCommGroup P] [Module F P] [DecidableEq F] [DecidableEq P]

/-- C65: a proof made by the prover for a ring of `N = n ^ m` keys is encoded in `8 + 32 (7 + (n + 1) m)` bytes, where `m` is the
logarithm of `N` to the base `n`. -/
theorem C65_size {ε : Type} (E : Env F P) (hE : E.Lawful) (st : Statement P) (t : Transcript) (p : Proof F P)
    (hst : StatementBuilt E st) (hp : Honest E st t p) :
    ∃ b, (Proof.toBytes E p : Outcome ε Bytes) = .ok b ∧
      b.length = 8 + 32 * (7 + (st.params.n + 1) * Nat.log st.params.n st.inputSet.M.length) := by
  have hshape := (hp.facts hst).1
  have he := hshape.encodable hst.params_built
  refine ⟨_, he.toBytes, ?_⟩
  have hn := hst.ok.params.n
  rw [encoding_length E hE p _ he, hshape.f, hst.ok.length, Nat.log_pow hn,
    show st.params.n = st.params.n - 1 + 1 by omega]
  simp only [Nat.add_sub_cancel]
  ring

/-- C65: any proof that `from_bytes` returns came from a string of the corresponding length: the lengths of its vectors are read
off the input, no allocation exceeds it. -/
theorem C65_decoded (E : Env F P) (hE : E.Lawful) (b : Bytes) (p : Proof F P) (h : Proof.fromBytes E b = .ok p) :
    ∃ cols, (∀ row ∈ p.f, row.length = cols) ∧ b.length = 8 + 32 * (7 + p.f.length * (cols + 2)) := by
  obtain ⟨cols, he, hb⟩ := ((C36_exact E hE b).1 p).1 h
  exact ⟨cols, he.row, by rw [hb, encoding_length E hE p cols he]; ring⟩

/-- The hypotheses of `C65_size` and `C65_decoded` are met. -/
example : StatementBuilt (Toy.env 101) Toy.statement ∧ Honest (Toy.env 101) Toy.statement Toy.transcript Toy.proof ∧
    Nat.log Toy.statement.params.n Toy.statement.inputSet.M.length = 2 ∧
    Outcome.isOk (Proof.fromBytes (Toy.env 101) (encoding (Toy.env 101) Toy.proof 1)) = true :=
  ⟨Toy.statement_built, ⟨Unit, nullRng, Toy.witness, (), .Constant, Toy.witness_built, Toy.proof_new⟩, by decide +kernel,
    by decide +kernel⟩

end Triptych

namespace Triptych.Parallel
open Triptych.Parallel.Spec

variable {F P : Type} [Field F] [AddCommGroup P] [Module F P] [DecidableEq F] [DecidableEq P]

/-- C65: a parallel proof made by the prover for rings of `N = n ^ m` keys is encoded in `8 + 32 (8 + (n + 2) m)` bytes. -/
theorem C65_size_parallel {ε : Type} (E : Env F P) (hE : E.Lawful) (st : Statement P) (t : Transcript) (p : Proof F P)
    (hst : StatementBuilt E st) (hp : Honest E st t p) :
    ∃ b, (Proof.toBytes E p : Outcome ε Bytes) = .ok b ∧
      b.length = 8 + 32 * (8 + (st.params.n + 2) * Nat.log st.params.n st.inputSet.M.length) := by
  have hshape := (hp.facts hst).1
  have he := hshape.encodable hst.params_built
  refine ⟨_, he.toBytes, ?_⟩
  have hn := hst.ok.params.n
  rw [encoding_length E hE p _ he, hshape.f, hst.ok.length, Nat.log_pow hn,
    show st.params.n = st.params.n - 1 + 1 by omega]
  simp only [Nat.add_sub_cancel]
  ring

/-- C65: as above for decoded parallel proofs. -/
theorem C65_decoded_parallel (E : Env F P) (hE : E.Lawful) (b : Bytes) (p : Proof F P) (h : Proof.fromBytes E b = .ok p) :
    ∃ cols, (∀ row ∈ p.f, row.length = cols) ∧ b.length = 8 + 32 * (8 + p.f.length * (cols + 3)) := by
  obtain ⟨cols, he, hb⟩ := ((C52_exact E hE b).1 p).1 h
  exact ⟨cols, he.row, by rw [hb, encoding_length E hE p cols he]; ring⟩

/-- The hypotheses of `C65_size_parallel` and `C65_decoded_parallel` are met. -/
example : StatementBuilt (Triptych.Toy.env 101) Toy.statement ∧
    Honest (Triptych.Toy.env 101) Toy.statement Triptych.Toy.transcript Toy.proof ∧
    Nat.log Toy.statement.params.n Toy.statement.inputSet.M.length = 2 ∧
    Outcome.isOk (Proof.fromBytes (Triptych.Toy.env 101) (encoding (Triptych.Toy.env 101) Toy.proof 1)) = true :=
  ⟨Toy.statement_built, ⟨Unit, nullRng, Toy.witness, (), .Constant, Toy.witness_built, Toy.proof_new⟩, by decide +kernel,
    by decide +kernel⟩

end Triptych.Parallel
