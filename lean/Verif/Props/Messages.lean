import Verif.Lemmas.Messages
import Verif.Props.Blame
import Verif.Props.Serialize

/-! C124: which error is reported, and what its message says. -/

set_option autoImplicit false
set_option linter.unusedSectionVars false
set_option linter.unusedVariables false
set_option linter.unusedSimpArgs false

namespace Triptych
open Spec

variable {F P : Type} [Field F] [AddCommGroup P] [Module F P] [DecidableEq F] [DecidableEq P]

/-- C124: the message of a proof error determines the error, except that all failed batches have the same message, which
does not show any index. The messages of the other errors determine them. -/
theorem C124_text (e e' : ProofError) (p p' : ParameterError) (s s' : StatementError) (w w' : WitnessError) :
    (e.text = e'.text ↔ e = e' ∨ (BatchFailure e ∧ BatchFailure e')) ∧
    (BatchFailure e → e.text = "Batch proof verification failed") ∧
    (p.text = p'.text ↔ p = p') ∧ (s.text = s'.text ↔ s = s') ∧ (w.text = w'.text ↔ w = w') := by
  have pre := string_append_inj "An invalid parameter was provided: "
  refine ⟨?_, ?_, ?_, ?_, ?_⟩
  · constructor
    · exact ProofError.text_inj e e'
    · rintro (rfl | ⟨h, h'⟩)
      · rfl
      · cases e <;> cases e' <;> simp only [BatchFailure] at h h' <;> rfl
  · intro h
    cases e <;> simp only [BatchFailure] at h <;> rfl
  · cases p; cases p'
    exact ⟨fun h => congrArg _ ((pre _ _).1 h), fun h => congrArg _ h⟩
  · cases s; cases s'
    exact ⟨fun h => congrArg _ ((pre _ _).1 h), fun h => congrArg _ h⟩
  · cases w; cases w'
    exact ⟨fun h => congrArg _ ((pre _ _).1 h), fun h => congrArg _ h⟩

/-- C124: what the constructors report: the first row of the table that applies, and nothing (success) if none does. -/
theorem C124_constructors (E : Env F P) (n m l : ℕ) (G U J : P) (M : List P) (r : F) (params : Params P) (i : InputSet P)
    (hp : ParamsBuilt E params) :
    Reports ParameterError.text (Params.newWithGenerators E n m G U) (firstRow [
      (n < 2, "An invalid parameter was provided: `n < 2`"),
      (m < 2, "An invalid parameter was provided: `m < 2`"),
      (2 ^ 32 ≤ n ^ m, "An invalid parameter was provided: `n**m` overflowed `u32`")]) ∧
    Reports StatementError.text (InputSet.new E M) (firstRow [
      (2 ^ 32 ≤ M.length, "An invalid parameter was provided: unpadded size overflowed `u32`")]) ∧
    Reports StatementError.text (InputSet.newWithPadding E M params) (firstRow [
      (params.n ^ params.m < M.length, "An invalid parameter was provided: unpadded size exceeded `N`"),
      (M = [], "An invalid parameter was provided: `M` is empty")]) ∧
    Reports StatementError.text (Statement.new E params i J) (firstRow [
      (i.M.length ≠ params.n ^ params.m, "An invalid parameter was provided: input vector length was not `N`"),
      (0 ∈ i.M, "An invalid parameter was provided: input vector contained the identity point")]) ∧
    Reports WitnessError.text (Witness.new params l r) (firstRow [
      (r = 0, "An invalid parameter was provided: `r == 0`"),
      (params.n ^ params.m ≤ l, "An invalid parameter was provided: `l >= N`")]) := by
  refine ⟨?_, ?_, ?_, ?_, ?_⟩
  · obtain ⟨h1, h2, h3, h4⟩ := C01_new_with_generators E n m G U
    by_cases c1 : n < 2
    · exact reports_pos _ _ _ _ _ c1 ⟨_, h1 c1, by decide⟩
    refine reports_neg _ _ _ _ _ c1 ?_
    by_cases c2 : m < 2
    · exact reports_pos _ _ _ _ _ c2 ⟨_, h2 (by omega) c2, by decide⟩
    refine reports_neg _ _ _ _ _ c2 ?_
    by_cases c3 : 2 ^ 32 ≤ n ^ m
    · exact reports_pos _ _ _ _ _ c3 ⟨_, h3 (by omega) (by omega) c3, by decide⟩
    exact reports_neg _ _ _ _ _ c3 (h4 (by omega) (by omega) (by omega))
  · obtain ⟨h1, h2⟩ := C04_new E M
    by_cases c1 : 2 ^ 32 ≤ M.length
    · exact reports_pos _ _ _ _ _ c1 ⟨_, h2 c1, by decide⟩
    obtain ⟨j, hj, -⟩ := h1 (by omega)
    exact reports_neg _ _ _ _ _ c1 ⟨j, hj⟩
  · obtain ⟨h1, h2, h3⟩ := C04_padding E M params hp
    by_cases c1 : params.n ^ params.m < M.length
    · exact reports_pos _ _ _ _ _ c1 ⟨_, h1 c1, by decide⟩
    refine reports_neg _ _ _ _ _ c1 ?_
    by_cases c2 : M = []
    · exact reports_pos _ _ _ _ _ c2 ⟨_, h2 c2, by decide⟩
    obtain ⟨j, hj, -⟩ := h3 _ (by omega) (List.getLast?_eq_some_getLast c2)
    exact reports_neg _ _ _ _ _ c2 ⟨j, hj⟩
  · obtain ⟨h1, h2, h3⟩ := C06_new E params i J hp
    by_cases c1 : i.M.length ≠ params.n ^ params.m
    · exact reports_pos _ _ _ _ _ c1 ⟨_, h1 c1, by decide⟩
    refine reports_neg _ _ _ _ _ c1 ?_
    by_cases c2 : 0 ∈ i.M
    · exact reports_pos _ _ _ _ _ c2 ⟨_, h2 (not_not.1 c1) c2, by decide⟩
    obtain ⟨j, hj, -⟩ := h3 (not_not.1 c1) c2
    exact reports_neg _ _ _ _ _ c2 ⟨j, hj⟩
  · obtain ⟨h1, h2, h3⟩ := C08_new E params l r hp
    by_cases c1 : r = 0
    · exact reports_pos _ _ _ _ _ c1 ⟨_, h1 c1, by decide⟩
    refine reports_neg _ _ _ _ _ c1 ?_
    by_cases c2 : params.n ^ params.m ≤ l
    · exact reports_pos _ _ _ _ _ c2 ⟨_, h2 c1 c2, by decide⟩
    obtain ⟨j, hj, -⟩ := h3 c1 (by omega)
    exact reports_neg _ _ _ _ _ c2 ⟨j, hj⟩

/-- C124: what the prover reports, in both timing modes. The message depends on the secrets only through the conditions of the
table. -/
theorem C124_prove {σ : Type} (E : Env F P) (R : Rng σ) (w : Witness F P) (st : Statement P) (s : σ) (t : Transcript)
    (timing : OperationTiming) (hw : WitnessBuilt E w) (hst : StatementBuilt E st) :
    Reports ProofError.text (Proof.proveInternal E R w st s t timing).1 (firstRow [
      (w.params ≠ st.params, "An invalid parameter was provided: witness and statement parameters did not match"),
      (st.inputSet.M[w.l]? ≠ some (w.r • st.params.G), "An invalid parameter was provided: `M[l] != r * G`"),
      (w.r • st.J ≠ st.params.U, "An invalid parameter was provided: `r * J != U`"),
      (E.scalarOfWide (E.challenge (proverTranscript E t st w.l w.r (proverNonces E st.params.n st.params.m
        (proverKey E t st.hash w.l w.r (R.fill s 32).1)))) = 0, "A transcript challenge was invalid")]) := by
  obtain ⟨r1, r2, r3⟩ := C11_reject E R w st s t timing hw hst
  by_cases c1 : w.params ≠ st.params
  · exact reports_pos _ _ _ _ _ c1 ⟨_, by rw [r1 c1], by decide⟩
  refine reports_neg _ _ _ _ _ c1 ?_
  have c1 := not_not.1 c1
  by_cases c2 : st.inputSet.M[w.l]? ≠ some (w.r • st.params.G)
  · exact reports_pos _ _ _ _ _ c2 ⟨_, by rw [r2 c1 c2], by decide⟩
  refine reports_neg _ _ _ _ _ c2 ?_
  have c2 := not_not.1 c2
  by_cases c3 : w.r • st.J ≠ st.params.U
  · exact reports_pos _ _ _ _ _ c3 ⟨_, by rw [r3 c1 c2 c3], by decide⟩
  refine reports_neg _ _ _ _ _ c3 ?_
  have c3 := not_not.1 c3
  obtain ⟨nn, ξ, rfl, rfl, a1, a2⟩ := C11_accept E R w st s t timing hw hst c1 ⟨c2, c3⟩
  by_cases c4 : E.scalarOfWide (E.challenge (proverTranscript E t st w.l w.r (proverNonces E st.params.n st.params.m
        (proverKey E t st.hash w.l w.r (R.fill s 32).1)))) = 0
  · exact reports_pos _ _ _ _ _ c4 ⟨_, a1 c4, by decide⟩
  exact reports_neg _ _ _ _ _ c4 ⟨_, a2 c4⟩

/-- What is wrong with the dimensions of a proof. -/
def shapeRows (params : Params P) (p : Proof F P) : List (Prop × String) := [
  (p.X.length ≠ params.m, "An invalid parameter was provided: proof `X` vector length was not `m`"),
  (p.Y.length ≠ params.m, "An invalid parameter was provided: proof `Y` vector length was not `m`"),
  (p.f.length ≠ params.m, "An invalid parameter was provided: proof `f` matrix did not have `m` rows"),
  (∃ row ∈ p.f, row.length ≠ params.n - 1, "An invalid parameter was provided: proof `f` matrix did not have `n - 1` columns")]

theorem checkRows_report (params : Params P) (hn : 1 ≤ params.n) (rows : List (List F)) :
    (Proof.checkRows params rows = .ok () ∧ ∀ row ∈ rows, row.length = params.n - 1) ∨
    (Proof.checkRows params rows = .err (.InvalidParameter "proof `f` matrix did not have `n - 1` columns") ∧
      ∃ row ∈ rows, row.length ≠ params.n - 1) := by
  have hc : checkedSub params.n 1 = some (params.n - 1) := by simp [checkedSub, hn]
  induction rows with
  | nil => exact Or.inl ⟨rfl, by simp⟩
  | cons row rows ih =>
    have hstep : Proof.checkRows params (row :: rows) = ((do
        let cols ← Outcome.ofOption (checkedSub params.n 1)
          (ProofError.InvalidParameter "proof `f` matrix column count overflowed")
        if row.length ≠ cols then .err (.InvalidParameter "proof `f` matrix did not have `n - 1` columns")
        else .ok () : Outcome ProofError Unit) >>= fun _ => Proof.checkRows params rows) := rfl
    rw [hstep, hc]
    by_cases h : row.length = params.n - 1
    · simp only [Outcome.ofOption, Outcome.bind_ok, h, ne_eq, not_true_eq_false, if_false]
      rcases ih with ⟨h1, h2⟩ | ⟨h1, x, h2, h3⟩
      · exact Or.inl ⟨h1, by simpa [h] using h2⟩
      · exact Or.inr ⟨h1, x, List.mem_cons_of_mem _ h2, h3⟩
    · refine Or.inr ⟨?_, row, List.mem_cons_self, h⟩
      simp only [Outcome.ofOption, Outcome.bind_ok, h, ne_eq, not_false_eq_true, if_true, Outcome.bind_err]

theorem checkShape_report (params : Params P) (hn : 1 ≤ params.n) (p : Proof F P) :
    (Proof.checkShape params p = .ok () ∧ firstRow (shapeRows params p) = none) ∨
    ∃ e, Proof.checkShape params p = .err e ∧ firstRow (shapeRows params p) = some e.text := by
  simp only [Proof.checkShape, shapeRows, firstRow]
  split
  · exact Or.inr ⟨_, rfl, rfl⟩
  split
  · exact Or.inr ⟨_, rfl, rfl⟩
  split
  · exact Or.inr ⟨_, rfl, rfl⟩
  rcases checkRows_report params hn p.f with ⟨h1, h2⟩ | ⟨h1, h2⟩
  · exact Or.inl ⟨h1, by rw [if_neg]; rintro ⟨row, h3, h4⟩; exact h4 (h2 row h3)⟩
  · exact Or.inr ⟨_, h1, by rw [if_pos h2]; rfl⟩

theorem checkShapes_report (params : Params P) (hn : 1 ≤ params.n) (ps : List (Proof F P)) :
    (ps.forM (Proof.checkShape params) = .ok () ∧ firstRow (ps.flatMap (shapeRows params)) = none) ∨
    ∃ e, ps.forM (Proof.checkShape params) = .err e ∧ firstRow (ps.flatMap (shapeRows params)) = some e.text := by
  induction ps with
  | nil => exact Or.inl ⟨rfl, rfl⟩
  | cons p ps ih =>
    have hstep : (p :: ps).forM (Proof.checkShape params) =
      (Proof.checkShape params p >>= fun _ => ps.forM (Proof.checkShape params)) := rfl
    rw [hstep, List.flatMap_cons, firstRow_append]
    rcases checkShape_report params hn p with ⟨h1, h2⟩ | ⟨e, h1, h2⟩
    · rw [h1, h2]; exact ih
    · rw [h1, h2]; exact Or.inr ⟨e, rfl, rfl⟩

/-- C124: what verification of a batch (of one proof: `verify`) reports. The dimensions are checked proof by proof. `ws` are
the weights the verifier draws. -/
theorem C124_verify (E : Env F P) (cfg : Config) (first : Statement P) (rest : List (Statement P)) (ps : List (Proof F P))
    (ts : List Transcript) (hst : ∀ s ∈ first :: rest, StatementBuilt E s)
    (hsz : cfg.overflowChecks = true → batchSize first.params ps.length ≤ u32Max)
    (hfuel : EnoughFuel E (first :: rest) ps ts cfg.fuel) (ws : List (Proof.Weights F))
    (hws : IsWeights E (first :: rest) ps ts ws) (sts : List (Statement P)) (hsts : sts = first :: rest) :
    Reports ProofError.text (Proof.verifyBatch E cfg sts ps ts).1 (firstRow ([
      (sts.length ≠ ps.length, "An invalid parameter was provided: number of statements and proof does not match"),
      (sts.length ≠ ts.length, "An invalid parameter was provided: number of statements and transcripts does not match"),
      (∃ s ∈ sts, ∃ s' ∈ sts, s.inputSet.hash ≠ s'.inputSet.hash,
        "An invalid parameter was provided: statement input sets do not match"),
      (∃ s ∈ sts, ∃ s' ∈ sts, s.params.hash ≠ s'.params.hash,
        "An invalid parameter was provided: statement parameters do not match")] ++
      (ps.flatMap (shapeRows first.params) ++ [
      (2 ^ 32 ≤ ps.length, "An invalid parameter was provided: batch size overflowed `u32`"),
      ((0 : F) ∈ challenges E sts ps ts, "A transcript challenge was invalid"),
      (¬ BatchNonzeroF first.params ps (challenges E sts ps ts),
        "An invalid parameter was provided: proof `f` matrix contained 0"),
      (batchSum first.params first.inputSet.M sts ps (challenges E sts ps ts) ws ≠ 0, "Single proof verification failed")]))) := by
  subst hsts
  have hf := hst first (by simp)
  obtain ⟨r1, r2, r3, r4⟩ := C27_errors E cfg (first :: rest) ps ts
  simp only [List.cons_append, List.nil_append]
  by_cases c1 : (first :: rest).length ≠ ps.length
  · exact reports_pos _ _ _ _ _ c1 ⟨_, by rw [r1 c1], by decide⟩
  refine reports_neg _ _ _ _ _ c1 ?_
  have c1 := not_not.1 c1
  by_cases c2 : (first :: rest).length ≠ ts.length
  · exact reports_pos _ _ _ _ _ c2 ⟨_, by rw [r2 c1 c2], by decide⟩
  refine reports_neg _ _ _ _ _ c2 ?_
  have c2 := not_not.1 c2
  by_cases c3 : ∃ s ∈ first :: rest, ∃ s' ∈ first :: rest, s.inputSet.hash ≠ s'.inputSet.hash
  · exact reports_pos _ _ _ _ _ c3 ⟨_, by rw [r3 c1 c2 c3], by decide⟩
  refine reports_neg _ _ _ _ _ c3 ?_
  have c3 : ∀ s ∈ first :: rest, ∀ s' ∈ first :: rest, s.inputSet.hash = s'.inputSet.hash := by
    intro s hs s' hs'
    by_contra h
    exact c3 ⟨s, hs, s', hs', h⟩
  by_cases c4 : ∃ s ∈ first :: rest, ∃ s' ∈ first :: rest, s.params.hash ≠ s'.params.hash
  · exact reports_pos _ _ _ _ _ c4 ⟨_, by rw [r4 c1 c2 c3 c4], by decide⟩
  refine reports_neg _ _ _ _ _ c4 ?_
  have c4 : ∀ s ∈ first :: rest, ∀ s' ∈ first :: rest, s.params.hash = s'.params.hash := by
    intro s hs s' hs'
    by_contra h
    exact c4 ⟨s, hs, s', hs', h⟩
  have hn := hf.ok.params.n
  have hi : allEqual ((first :: rest).map fun s : Statement P => s.inputSet.hash) = true :=
    (allEqual_iff (fun s : Statement P => s.inputSet.hash) first rest).2 fun s hs => c3 s hs first (by simp)
  have hq : allEqual ((first :: rest).map fun s : Statement P => s.params.hash) = true :=
    (allEqual_iff (fun s : Statement P => s.params.hash) first rest).2 fun s hs => c4 s hs first (by simp)
  rcases checkShapes_report first.params (by omega) ps with ⟨e1, e2⟩ | ⟨e, e1, e2⟩
  swap
  · refine reports_stop _ _ _ _ _ e2 ⟨e, ?_, rfl⟩
    rw [Proof.verifyBatch, if_neg (not_not.2 c1), if_neg (not_not.2 c2)]
    simp only [List.head?_cons, hi, hq, e1, Outcome.bind_err, Bool.not_true, Bool.false_eq_true, if_false]
  refine reports_skip _ _ _ _ e2 ?_
  have hpre : BatchPre first (first :: rest) ps ts :=
    ⟨c1, c2, fun s hs => c3 s hs first (by simp), fun s hs => c4 s hs first (by simp), by
      rcases Proof.checkShapes_cases first.params (by omega) ps with ⟨-, h⟩ | ⟨⟨e', he'⟩, -⟩
      · exact h
      · rw [e1] at he'; simp at he'⟩
  by_cases c5 : 2 ^ 32 ≤ ps.length
  · refine reports_pos _ _ _ _ _ c5 ⟨.InvalidParameter "batch size overflowed `u32`", ?_, by decide⟩
    rw [Proof.verifyBatch_pre E cfg first rest hf.ok.params ps ts hpre, if_pos (by rw [u32Max]; omega)]
  refine reports_neg _ _ _ _ _ c5 ?_
  have hs : SizeOK cfg first.params ps.length := ⟨by rw [u32Max]; omega, hsz⟩
  by_cases c6 : (0 : F) ∈ challenges E (first :: rest) ps ts
  · exact reports_pos _ _ _ _ _ c6 ⟨_, (C44_challenge E cfg first rest ps ts hf hpre hs).2 c6, by decide⟩
  refine reports_neg _ _ _ _ _ c6 ?_
  by_cases c7 : ¬ BatchNonzeroF first.params ps (challenges E (first :: rest) ps ts)
  · exact reports_pos _ _ _ _ _ c7 ⟨_, (C44_response E cfg first rest ps ts hf hpre hs c6 hfuel).2 c7, by decide⟩
  refine reports_neg _ _ _ _ _ c7 ?_
  have hv := C18_verdict E cfg first rest ps ts hf hpre hs c6 (not_not.1 c7) ws hws hfuel
  by_cases c8 : batchSum first.params first.inputSet.M (first :: rest) ps (challenges E (first :: rest) ps ts) ws ≠ 0
  · exact reports_pos _ _ _ _ _ c8 ⟨.FailedVerification, by rw [hv, if_neg c8], by decide⟩
  exact reports_neg _ _ _ _ _ c8 ⟨(), by rw [hv, if_pos (not_not.1 c8)]⟩

theorem bisect_report (cfg : Config) (sub : ℕ → ℕ → Outcome ProofError Unit) (fuel left right : ℕ) :
    ∀ e, (bisect cfg sub fuel left right).1 = .err e → ∃ i, e = .FailedBatchVerificationWithSingleBlame i := by
  induction fuel generalizing left right with
  | zero => intro e h; simp [bisect] at h
  | succ fuel ih =>
    intro e h
    rw [bisect] at h
    repeat' split at h
    all_goals first
      | exact ih _ _ e h
      | (rename_i heq; exact ih _ _ e ((congrArg Prod.fst heq).trans h))
      | (injection h with h; exact ⟨_, h.symm⟩)
      | simp at h

theorem blameLoop_report {S Q : Type} (v : S → Q → Transcript → Outcome ProofError Unit × List Transcript) (i : ℕ) (sts : List S)
    (ps : List Q) (ts : List Transcript) (e : ProofError) : (blameLoop v i sts ps ts).1 ≠ .err e := by
  induction sts generalizing i ps ts with
  | nil => simp [blameLoop]
  | cons st sts ih =>
    cases ps with
    | nil => simp [blameLoop]
    | cons p ps =>
      cases ts with
      | nil => simp [blameLoop]
      | cons t ts =>
        have := ih (i + 1) ps ts
        rw [blameLoop]
        rcases hv : v st p t with ⟨res, t'⟩
        rcases hb : blameLoop v (i + 1) sts ps ts with ⟨rest, ts'⟩
        rw [hb] at this
        cases res <;> simp
        · exact this
        · cases rest <;> simp at this ⊢
          exact this

/-- C124: whatever is wrong with a batch, the blame functions report one message, without indexes (these are fields of the
error); decoding has one message, too. -/
theorem C124_blame (E : Env F P) (cfg : Config) (sts : List (Statement P)) (ps : List (Proof F P)) (ts : List Transcript)
    (b : Bytes) (e : ProofError) :
    ((Proof.verifyBatchWithSingleBlame E cfg sts ps ts).1 = .err e →
      e.text = "Batch proof verification failed" ∧ ∃ i, e = .FailedBatchVerificationWithSingleBlame i) ∧
    ((Proof.verifyBatchWithFullBlame E cfg sts ps ts).1 = .err e →
      e.text = "Batch proof verification failed" ∧ ∃ is, e = .FailedBatchVerificationWithFullBlame is) ∧
    ((Proof.fromBytes E b : Outcome ProofError (Proof F P)) = .err e → e.text = "Proof deserialization failed") := by
  refine ⟨?_, ?_, ?_⟩
  · intro h
    have : ∃ i, e = .FailedBatchVerificationWithSingleBlame i := by
      rw [Proof.verifyBatchWithSingleBlame] at h
      split at h
      · simp at h
      · simp at h
      · simp at h
      · exact bisect_report _ _ _ _ _ e h
    obtain ⟨i, rfl⟩ := this
    exact ⟨rfl, i, rfl⟩
  · intro h
    have : ∃ i, e = .FailedBatchVerificationWithFullBlame i := by
      rw [Proof.verifyBatchWithFullBlame] at h
      split at h
      · simp at h
      · simp at h
      · simp at h
      · have hb := blameLoop_report (fun st p t => Proof.verify E cfg p st t) 0 sts ps ts
        rcases hl : blameLoop (fun st p t => Proof.verify E cfg p st t) 0 sts ps ts with ⟨r, ts'⟩
        rw [hl] at h hb
        cases r with
        | ok is => exact ⟨is, by simpa using h.symm⟩
        | err e' => exact absurd rfl (hb e')
        | panic => simp at h
        | diverge => simp at h
    obtain ⟨i, rfl⟩ := this
    exact ⟨rfl, i, rfl⟩
  · intro h
    rw [Proof.fromBytes] at h
    cases ho : Proof.fromBytesOption E b with
    | none => rw [ho] at h; injection h with h; subst h; rfl
    | some p => rw [ho] at h; simp [Outcome.ofOption] at h

/-- The hypotheses of `C124_constructors`, `C124_prove` and `C124_verify` are met: a witness and a statement made by the
constructors, and the batch of two honest proofs with its weights. -/
example : ParamsBuilt (Toy.env 101) Toy.params ∧ WitnessBuilt (Toy.env 101) Toy.witness ∧
    (∀ s ∈ [Toy.statement, Toy.statement'], StatementBuilt (Toy.env 101) s) ∧
    (Toy.cfg.overflowChecks = true → batchSize Toy.statement.params [Toy.proof, Toy.proof'].length ≤ u32Max) ∧
    EnoughFuel (Toy.env 101) [Toy.statement, Toy.statement'] [Toy.proof, Toy.proof'] [Toy.transcript, Toy.transcript']
      Toy.cfg.fuel ∧
    ∃ ws, IsWeights (Toy.env 101) [Toy.statement, Toy.statement'] [Toy.proof, Toy.proof']
      [Toy.transcript, Toy.transcript'] ws := by
  refine ⟨⟨_, _, _, _, Toy.params_new⟩, Toy.witness_built, ?_, fun _ => by decide +kernel, Toy.batch_fuel,
    (C18_weights _ _ _ _).1 _ Toy.batch_fuel⟩
  intro s hs
  rcases List.mem_cons.1 hs with rfl | hs
  · exact Toy.statement_built
  · rw [List.mem_singleton.1 hs]; exact Toy.statement'_built

/-- Some messages: an index is in the error, but not in its message. -/
example : (ProofError.FailedBatchVerificationWithSingleBlame (some 3)).text = "Batch proof verification failed" ∧
    (ProofError.FailedBatchVerificationWithSingleBlame (some 3)) ≠ .FailedBatchVerificationWithSingleBlame (some 4) ∧
    (ProofError.InvalidParameter "`r * J != U`").text = "An invalid parameter was provided: `r * J != U`" := by
  decide +kernel

/-- A proof of the wrong shape, verified, and blamed; a byte string that is no proof. -/
example : (Proof.verifyBatch (Toy.env 101) Toy.cfg [Toy.statement, Toy.statement] [Toy.proof, Toy.badShape]
      [Toy.transcript, Toy.transcript]).1 = .err (.InvalidParameter "proof `f` matrix did not have `m` rows") ∧
    (Proof.verifyBatchWithSingleBlame (Toy.env 101) Toy.cfg [Toy.statement, Toy.statement] [Toy.proof, Toy.badShape]
      [Toy.transcript, Toy.transcript]).1 = .err (.FailedBatchVerificationWithSingleBlame (some 1)) ∧
    (Proof.verifyBatchWithFullBlame (Toy.env 101) Toy.cfg [Toy.statement, Toy.statement] [Toy.proof, Toy.badShape]
      [Toy.transcript, Toy.transcript]).1 = .err (.FailedBatchVerificationWithFullBlame [1]) ∧
    Proof.fromBytes (Toy.env 101) [1, 2, 3] = .err .FailedDeserialization := by
  decide +kernel

end Triptych
