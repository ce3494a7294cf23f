import Verif.Props.Parallel.Batch
import Verif.Lemmas.Suffix

/-! # Binding and separation of challenge transcripts: C54 -/
set_option autoImplicit false
set_option linter.unusedSectionVars false

namespace Triptych.Parallel
open Triptych.Parallel.Spec
open Triptych.Spec (grayDigit digit commit fullF ringCoeff NonzeroF maskA selector ringPoly versionBytes points scalars
  weightTranscript weightScalar queryPoint drawn)

section
variable {F P : Type}

/-- C54: the transcript whose challenge the prover and the verifier use determines the caller's transcript, the statement hash
and all commitments of the proof, whatever the lengths of `X`, `X1` and `Y`. -/
theorem C54_binding (E : Env F P) (hE : E.Lawful) (t t' : Transcript) (h h' : Bytes) (A B C D A' B' C' D' : P)
    (X X1 Y X' X1' Y' : List P)
    (heq : challengeTranscript E t h A B C D X X1 Y = challengeTranscript E t' h' A' B' C' D' X' X1' Y') :
    t = t' ∧ h = h' ∧ A = A' ∧ B = B' ∧ C = C' ∧ D = D' ∧ X = X' ∧ X1 = X1' ∧ Y = Y' :=
  challengeTranscript_inj hE t t' h h' A B C D A' B' C' D' X X1 Y X' X1' Y' heq

/-- C54: the transcript from which the weight seed is derived determines in addition all responses. -/
theorem C54_response (E : Env F P) (hE : E.Lawful) (t t' : Transcript) (st st' : Statement P) (p p' : Proof F P)
    (hrow : ∃ k, ∀ row ∈ p.f ++ p'.f, row.length = k ∧ 0 < k)
    (heq : responseTranscript E t st p = responseTranscript E t' st' p') :
    t = t' ∧ st.hash = st'.hash ∧ p = p' := by
  simp only [responseTranscript] at heq
  obtain ⟨h1, h2⟩ := List.append_inj' heq rfl
  simp only [List.cons.injEq, Op.append.injEq, true_and, and_true] at h2
  obtain ⟨h3, h4⟩ := scalars_suffix_inj hE "f" _ _ _ _ (by simp [challengeTranscript_getLast])
    (by simp [challengeTranscript_getLast]) h1
  obtain ⟨c1, c2, c3, c4, c5, c6, c7, c8, c9⟩ := challengeTranscript_inj hE _ _ _ _ _ _ _ _ _ _ _ _ _ _ _ _ _ _ h4
  have hf : p.f = p'.f := by
    obtain ⟨k, hk⟩ := hrow
    have key : ∀ (l l' : List (List F)), (∀ row ∈ l ++ l', row.length = k ∧ 0 < k) → l.flatten = l'.flatten → l = l' := by
      intro l
      induction l with
      | nil =>
        intro l' hl h
        cases l' with
        | nil => rfl
        | cons row l' =>
          have := hl row (by simp)
          have h' := congrArg List.length h
          simp only [List.flatten_cons, List.length_append, List.flatten_nil, List.length_nil] at h'
          omega
      | cons row l ih =>
        intro l' hl h
        cases l' with
        | nil =>
          have := hl row (by simp)
          have h' := congrArg List.length h
          simp only [List.flatten_cons, List.length_append, List.flatten_nil, List.length_nil] at h'
          omega
        | cons row' l' =>
          have a1 := hl row (by simp)
          have a2 := hl row' (by simp)
          rw [List.flatten_cons, List.flatten_cons] at h
          obtain ⟨b1, b2⟩ := List.append_inj h (by omega)
          rw [b1, ih l' (fun r hr => hl r (by
            rcases List.mem_append.1 hr with hr | hr
            · exact List.mem_append_left _ (List.mem_cons_of_mem _ hr)
            · exact List.mem_append_right _ (List.mem_cons_of_mem _ hr))) b2]
    exact key _ _ hk h3
  refine ⟨c1, c2, ?_⟩
  cases p; cases p'
  simp only at *
  simp only [Proof.mk.injEq]
  exact ⟨c3, c4, c5, c6, c7, c8, c9, hf, hE.scalarBytes_inj _ _ h2.1, hE.scalarBytes_inj _ _ h2.2.1,
    hE.scalarBytes_inj _ _ h2.2.2.1,
    hE.scalarBytes_inj _ _ h2.2.2.2⟩

end

variable {F P : Type} [Field F] [AddCommGroup P] [Module F P] [DecidableEq F] [DecidableEq P]

/-- C54: a proof checked against another transcript, or against a statement with another hash, is checked with the hash of
another transcript than the one its prover used; this is so even if the proof itself has been replaced. -/
theorem C54_replay {σ : Type} (E : Env F P) (hE : E.Lawful) (R : Rng σ) (w : Witness F P) (st : Statement P) (s : σ)
    (t : Transcript) (timing : OperationTiming) (hw : WitnessBuilt E w) (hst : StatementBuilt E st) (p : Proof F P)
    (h : (Proof.proveInternal E R w st s t timing).1 = .ok p) (t' : Transcript) (st' : Statement P) (p' : Proof F P)
    (hne : t' ≠ t ∨ st'.hash ≠ st.hash ∨ p'.A ≠ p.A ∨ p'.B ≠ p.B ∨ p'.C ≠ p.C ∨ p'.D ≠ p.D ∨ p'.X ≠ p.X ∨ p'.X1 ≠ p.X1 ∨ p'.Y ≠ p.Y) :
    (Proof.proveInternal E R w st s t timing).2.1 ≠ challengeTranscript E t' st'.hash p'.A p'.B p'.C p'.D p'.X p'.X1 p'.Y ∧
      challenge E t' st' p' =
        E.scalarOfWide (E.challenge (challengeTranscript E t' st'.hash p'.A p'.B p'.C p'.D p'.X p'.X1 p'.Y)) := by
  refine ⟨?_, rfl⟩
  rw [C54_prover E R w st s t timing hw hst p h]
  intro heq
  obtain ⟨h1, h2, h3, h4, h5, h6, h7, h8, h9⟩ := C54_binding E hE t t' st.hash st'.hash p.A p.B p.C p.D _ _ _ _ p.X p.X1 p.Y _ _ _ heq
  rcases hne with hne | hne | hne | hne | hne | hne | hne | hne | hne
  · exact hne h1.symm
  · exact hne h2.symm
  · exact hne h3.symm
  · exact hne h4.symm
  · exact hne h5.symm
  · exact hne h6.symm
  · exact hne h7.symm
  · exact hne h8.symm
  · exact hne h9.symm

/-- C54: two verifications which use the same challenge transcript are for the same caller transcript, commitments,
parameters, rings, unpadded keys, offset and tag, unless one of the explicit pairs of distinct hash transcripts collides. -/
theorem C54_statement (E : Env F P) (hE : E.Lawful) (t t' : Transcript) (st st' : Statement P) (p p' : Proof F P)
    (hst : StatementBuilt E st) (hst' : StatementBuilt E st') (M M1 M' M1' : List P) (hM : BuiltFrom E st.inputSet M M1)
    (hM' : BuiltFrom E st'.inputSet M' M1')
    (heq : challengeTranscript E t st.hash p.A p.B p.C p.D p.X p.X1 p.Y
      = challengeTranscript E t' st'.hash p'.A p'.B p'.C p'.D p'.X p'.X1 p'.Y) :
    (t = t' ∧ st.params = st'.params ∧ st.inputSet.M = st'.inputSet.M ∧ st.inputSet.M1 = st'.inputSet.M1 ∧ M = M' ∧ M1 = M1' ∧
        st.offset = st'.offset ∧ st.J = st'.J) ∨
      ∃ a b, a ≠ b ∧ E.challenge a = E.challenge b ∧
        ((a = statementTranscript E st.params.hash st.inputSet.hash st.offset st.J ∧
            b = statementTranscript E st'.params.hash st'.inputSet.hash st'.offset st'.J) ∨
          (a = paramsTranscript E st.params.n st.params.m st.params.G st.params.G1 st.params.U st.params.CommitmentG
              st.params.CommitmentH ∧
            b = paramsTranscript E st'.params.n st'.params.m st'.params.G st'.params.G1 st'.params.U st'.params.CommitmentG
              st'.params.CommitmentH) ∨
          (a = inputSetTranscript E st.inputSet.M st.inputSet.M1 M.length ∧ b = inputSetTranscript E st'.inputSet.M st'.inputSet.M1 M'.length)) := by
  obtain ⟨h1, h2, -⟩ := C54_binding E hE _ _ _ _ _ _ _ _ _ _ _ _ _ _ _ _ _ _ heq
  rcases C46_statement_binding E hE st st' hst hst' M M1 M' M1' hM hM' h2 with h | h | h | h
  · exact Or.inl ⟨h1, h⟩
  · exact Or.inr ⟨_, _, h.1, h.2, Or.inl ⟨rfl, rfl⟩⟩
  · exact Or.inr ⟨_, _, h.1, h.2, Or.inr (Or.inl ⟨rfl, rfl⟩)⟩
  · exact Or.inr ⟨_, _, h.1, h.2, Or.inr (Or.inr ⟨rfl, rfl⟩)⟩

/-- The hypotheses of `C54_replay` and `C54_response` are met by a proof made for one message and verified for another;
`C54_binding` needs a lawful environment only. -/
example : (Toy.env 101).Lawful ∧
    (Proof.proveInternal (Toy.env 101) nullRng Toy.witness Toy.statement () Toy.transcript .Constant).1 = .ok Toy.proof ∧
    Toy.transcript' ≠ Toy.transcript ∧ Toy.statement'.hash ≠ Toy.statement.hash ∧
    (Proof.verify (Toy.env 101) Toy.cfg Toy.proof Toy.statement Toy.transcript').1 = .err .FailedVerification ∧
    (∃ k, ∀ row ∈ Toy.proof.f ++ Toy.proof'.f, row.length = k ∧ 0 < k) :=
  ⟨Toy.env_lawful 101 (by norm_num), Toy.proof_new, by decide +kernel, by decide +kernel, by decide +kernel,
    ⟨1, by decide +kernel⟩⟩

/-- Two statements for the same ring and their input sets, as in `C54_statement`. -/
example : StatementBuilt (Toy.env 101) Toy.statement ∧ StatementBuilt (Toy.env 101) Toy.statement' ∧
    BuiltFrom (Toy.env 101) Toy.statement.inputSet Toy.keys Toy.keys1 ∧
    BuiltFrom (Toy.env 101) Toy.statement'.inputSet Toy.keys Toy.keys1 :=
  ⟨Toy.statement_built, Toy.statement'_built, Or.inl (by decide +kernel), Or.inl (by decide +kernel)⟩

/-! ## Domain separation -/

/-- C54: and the three kinds of hash transcripts within one protocol start differently, so no input set, for example, is
hashed like a statement. -/
theorem C54_kinds (E : Env F P) (n m : ℕ) (G G1 U : P) (CG : List P) (H : P) (M M1 : List P) (k : ℕ) (a b : Bytes) (offset J : P)
    (s : List ℕ) :
    [paramsTranscript E n m G G1 U CG H, inputSetTranscript E M M1 k, statementTranscript E a b offset J,
      weightTranscript "Parallel Triptych verifier weights" s].Pairwise (fun x y => x.head? ≠ y.head?) := by
  simp only [paramsTranscript, inputSetTranscript, statementTranscript, weightTranscript, List.cons_append,
    List.pairwise_cons, List.mem_cons, List.not_mem_nil, or_false, forall_eq_or_imp, forall_eq, List.head?_cons, ne_eq,
    Option.some.injEq, Op.append.injEq, true_and, List.Pairwise.nil, and_true, false_imp_iff, implies_true]
  decide

end Triptych.Parallel
