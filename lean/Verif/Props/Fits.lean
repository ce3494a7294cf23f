import Verif.Props.Verify
import Verif.Props.Serialize
import Verif.Props.Batch

/-! # A proof fits one size of ring: C125 -/
set_option autoImplicit false
set_option linter.unusedSectionVars false
set_option linter.unusedVariables false

namespace Triptych
open Spec

variable {F P : Type} [Field F] [AddCommGroup P] [Module F P] [DecidableEq F] [DecidableEq P]

/-- A proof of an accepted batch has the dimensions of the first statement's parameters. -/
theorem shape_of_accepted (E : Env F P) (cfg : Config) (first : Statement P) (rest : List (Statement P)) (ps : List (Proof F P))
    (ts : List Transcript) (hst : StatementBuilt E first) (h : (Proof.verifyBatch E cfg (first :: rest) ps ts).1 = .ok ())
    (p : Proof F P) (hp : p ∈ ps) : Shape first.params p := by
  by_contra hs
  obtain ⟨msg, hm⟩ := C16_shape E cfg first rest ps ts hst p hp hs
  rw [hm] at h
  cases h

/-- A proof has the dimensions of one pair `n`, `m` only. -/
theorem shape_unique {a b : Params P} (ha : 2 ≤ a.n ∧ 2 ≤ a.m) (hb : 2 ≤ b.n ∧ 2 ≤ b.m) (p : Proof F P) (h : Shape a p)
    (h' : Shape b p) : a.n = b.n ∧ a.m = b.m := by
  have hm : a.m = b.m := h.f.symm.trans h'.f
  refine ⟨?_, hm⟩
  cases hf : p.f with
  | nil => have := h.f; rw [hf, List.length_nil] at this; omega
  | cons row rows =>
    have h1 := h.row row (by rw [hf]; exact List.mem_cons_self)
    have h2 := h'.row row (by rw [hf]; exact List.mem_cons_self)
    omega

/-- C125: a proof that is accepted in two batches (in particular for two statements) is accepted for parameters with the same `n` and
`m`, so for rings of the same size. -/
theorem C125_one_size (E : Env F P) (cfg cfg' : Config) (st st' : Statement P) (rest rest' : List (Statement P))
    (ps ps' : List (Proof F P)) (ts ts' : List Transcript) (hst : StatementBuilt E st) (hst' : StatementBuilt E st')
    (p : Proof F P) (hp : p ∈ ps) (hp' : p ∈ ps') (h : (Proof.verifyBatch E cfg (st :: rest) ps ts).1 = .ok ())
    (h' : (Proof.verifyBatch E cfg' (st' :: rest') ps' ts').1 = .ok ()) :
    st.params.n = st'.params.n ∧ st.params.m = st'.params.m ∧ st.inputSet.M.length = st'.inputSet.M.length := by
  obtain ⟨h1, h2⟩ := shape_unique ⟨hst.ok.params.n, hst.ok.params.m⟩ ⟨hst'.ok.params.n, hst'.ok.params.m⟩ p
    (shape_of_accepted E cfg st rest ps ts hst h p hp) (shape_of_accepted E cfg' st' rest' ps' ts' hst' h' p hp')
  exact ⟨h1, h2, by rw [hst.ok.length, hst'.ok.length, h1, h2]⟩

/-- C125: a proof made for one pair `n`, `m` is reported as an invalid parameter by every batch with another pair, even if the rings have
the same size, and no transcript changes. -/
theorem C125_other_size (E : Env F P) (cfg : Config) (st first : Statement P) (rest : List (Statement P)) (ps : List (Proof F P))
    (t : Transcript) (ts : List Transcript) (hst : StatementBuilt E st) (hfirst : StatementBuilt E first) (p : Proof F P)
    (hp : Honest E st t p) (hmem : p ∈ ps) (hne : st.params.n ≠ first.params.n ∨ st.params.m ≠ first.params.m) :
    ∃ msg, Proof.verifyBatch E cfg (first :: rest) ps ts = (.err (.InvalidParameter msg), ts) := by
  refine C16_shape E cfg first rest ps ts hfirst p hmem fun hs => ?_
  obtain ⟨h1, h2⟩ := shape_unique ⟨hst.ok.params.n, hst.ok.params.m⟩ ⟨hfirst.ok.params.n, hfirst.ok.params.m⟩ p (hp.facts hst).1 hs
  tauto

/-- C125: the first eight bytes of an accepted encoding are `n - 1` and `m` of the parameters, and its length is determined by them. -/
theorem C125_encoded (E : Env F P) (hE : E.Lawful) (cfg : Config) (st : Statement P) (rest : List (Statement P)) (ps : List (Proof F P))
    (ts : List Transcript) (hst : StatementBuilt E st) (b : Bytes) (p : Proof F P) (hb : Proof.fromBytes E b = .ok p) (hp : p ∈ ps)
    (h : (Proof.verifyBatch E cfg (st :: rest) ps ts).1 = .ok ()) :
    b.take 8 = leBytes 4 (st.params.n - 1) ++ leBytes 4 st.params.m ∧
    b.length = 8 + 32 * (7 + (st.params.n + 1) * st.params.m) := by
  have hs := shape_of_accepted E cfg st rest ps ts hst h p hp
  have he := hs.encodable hst.params_built
  have hn := hst.ok.params.n
  have hto : (Proof.toBytes E p : Outcome Unit Bytes) = .ok b := (C35_canonical E hE b p hb).1
  have hl := C36_length E hE p _ he b hto
  rw [he.toBytes, Outcome.ok.injEq] at hto
  constructor
  · rw [← hto, encoding, hs.f, List.append_assoc, ← List.append_assoc (leBytes 4 _)]
    exact List.take_left' (by rw [List.length_append, Toy.leBytes_length, Toy.leBytes_length])
  · rw [hl, hs.f]
    obtain ⟨k, hk⟩ : ∃ k, st.params.n = k + 2 := ⟨st.params.n - 2, by omega⟩
    rw [hk, show k + 2 - 1 = k + 1 by omega]
    ring

namespace Toy

/-- Parameters, keys and a statement of another size. -/
def wideParams : Params (ZMod 101) := get ⟨0, 0, 0, 0, [], 0, []⟩ (Params.new (env 101) 3 2)
def wideSet : InputSet (ZMod 101) := get ⟨[], []⟩ (InputSet.new (env 101) ([1, 2, 3, 4, 5, 6, 7, 8, 9].map fun r => (r : ZMod 101) • wideParams.G))
def wideStatement : Statement (ZMod 101) := get ⟨wideParams, wideSet, 0, []⟩ (Statement.new (env 101) wideParams wideSet ((3 : ZMod 101)⁻¹ • wideParams.U))

theorem wideParams_new : Params.new (env 101) 3 2 = .ok wideParams := by decide +kernel
theorem wideSet_new : InputSet.new (env 101) ([1, 2, 3, 4, 5, 6, 7, 8, 9].map fun r => (r : ZMod 101) • wideParams.G) = .ok wideSet := by
  decide +kernel
theorem wideStatement_new : Statement.new (env 101) wideParams wideSet ((3 : ZMod 101)⁻¹ • wideParams.U) = .ok wideStatement := by
  decide +kernel
theorem wideStatement_built : StatementBuilt (env 101) wideStatement :=
  ⟨_, _, _, ⟨_, _, _, _, wideParams_new⟩, Or.inl ⟨_, wideSet_new⟩, wideStatement_new⟩

end Toy

/-- The hypotheses of the theorems above are met: a batch and a single verification accept the same proof, which another size of ring does
not fit; its encoding is accepted. -/
example : StatementBuilt (Toy.env 101) Toy.statement ∧ StatementBuilt (Toy.env 101) Toy.wideStatement ∧
    Honest (Toy.env 101) Toy.statement Toy.transcript Toy.proof ∧ Toy.statement.params.n ≠ Toy.wideStatement.params.n ∧
    (Proof.verify (Toy.env 101) Toy.cfg Toy.proof Toy.statement Toy.transcript).1 = .ok () ∧
    (Proof.verifyBatch (Toy.env 101) Toy.cfg [Toy.statement, Toy.statement'] [Toy.proof, Toy.proof'] [Toy.transcript, Toy.transcript']).1 =
      .ok () ∧
    Proof.fromBytes (Toy.env 101) (encoding (Toy.env 101) Toy.proof 1) = .ok Toy.proof ∧
    (encoding (Toy.env 101) Toy.proof 1).take 8 = [1, 0, 0, 0, 2, 0, 0, 0] :=
  ⟨Toy.statement_built, Toy.wideStatement_built, ⟨Unit, nullRng, Toy.witness, (), .Constant, Toy.witness_built, Toy.proof_new⟩,
    by decide +kernel, Toy.verify_ok, Toy.batch_ok, by decide +kernel, by decide +kernel⟩

end Triptych
