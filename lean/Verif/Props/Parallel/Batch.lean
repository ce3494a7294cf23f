import Verif.Props.Parallel.Verify
import Verif.Model.Parallel.Blame

/-! # Completeness, batch preconditions, effects: C14, C15, C17, C26, C27, C28 -/
set_option autoImplicit false
set_option linter.unusedSectionVars false

namespace Triptych.Parallel
open Triptych.Parallel.Spec
open Triptych.Spec (grayDigit digit commit fullF ringCoeff NonzeroF maskA selector ringPoly versionBytes points scalars
  weightTranscript weightScalar queryPoint drawn)

variable {F P : Type} [Field F] [AddCommGroup P] [Module F P] [DecidableEq F] [DecidableEq P]

/-- `p` was returned by the prover (in either timing mode) for statement `st` and transcript `t`, with some witness, some
external generator and some state of it. -/
def Spec.Honest (E : Env F P) (st : Statement P) (t : Transcript) (p : Proof F P) : Prop :=
  ∃ (σ : Type) (R : Rng σ) (w : Witness F P) (s : σ) (timing : OperationTiming), WitnessBuilt E w ∧
    (Proof.proveInternal E R w st s t timing).1 = .ok p

theorem Spec.Honest.facts {E : Env F P} {st : Statement P} {t : Transcript} {p : Proof F P} (h : Honest E st t p)
    (hst : StatementBuilt E st) :
    Shape st.params p ∧ challenge E t st p ≠ 0 ∧ Valid st.params st.inputSet.M st.inputSet.M1 st.offset st.J p (challenge E t st p) := by
  obtain ⟨σ, R, w, s, timing, hw, h⟩ := h
  have hh := C48_nonces E R w st s t timing hw hst p h
  rcases C48_no_panic E R w st s t timing hw hst with ⟨q, hq, hshape, hp, hrel⟩ | hq | ⟨msg, hq⟩
  · rw [h] at hq
    simp only [Outcome.ok.injEq] at hq
    subst hq
    refine ⟨hshape, ?_, ?_⟩
    · obtain ⟨nn, ξ, hnn, hξ, a1, a2⟩ := C48_accept E R w st s t timing hw hst hp hrel
      by_cases h0 : ξ = 0
      · rw [a1 h0] at h; simp at h
      · rw [a2 h0] at h
        simp only [Outcome.ok.injEq] at h
        have hc : challenge E t st p = ξ := by rw [hξ, ← h]; rfl
        rw [hc]; exact h0
    · have hl : w.l < st.params.n ^ st.params.m := by rw [← hp]; exact hw.ok.2
      rw [hh]
      have hv := honest_valid st.params hst.ok.params st.inputSet.M st.inputSet.M1 st.offset st.J w.l w.r w.r1
        (proverNonces E st.params.n st.params.m (proverKey E t st.hash w.l w.r w.r1 (R.fill s 32).1)) hl hrel
        (challenge E t st p)
      rw [← hh] at hv ⊢
      exact hv
  · rw [h] at hq; simp at hq
  · rw [h] at hq; simp at hq

/-- C49: every proof returned by the prover verifies for the same statement and transcript, unless a response entry is zero,
which is reported as such. -/
theorem C49_complete (E : Env F P) (cfg : Config) (st : Statement P) (t : Transcript) (p : Proof F P)
    (hst : StatementBuilt E st) (hp : Honest E st t p) (hsz : SizeOK cfg st.params 1)
    (hfuel : EnoughFuel E [st] [p] [t] cfg.fuel) :
    (NonzeroF st.params.n st.params.m p.f (challenge E t st p) → (Proof.verify E cfg p st t).1 = .ok ()) ∧
    (¬ NonzeroF st.params.n st.params.m p.f (challenge E t st p) →
      (Proof.verify E cfg p st t).1 = .err (.InvalidParameter "proof `f` matrix contained 0")) := by
  obtain ⟨h1, h2, h3⟩ := hp.facts hst
  have hpre : BatchPre st [st] [p] [t] := ⟨rfl, rfl, by simp, by simp, by simpa using h1⟩
  have hch : challenges E [st] [p] [t] = [challenge E t st p] := rfl
  have hz : (0 : F) ∉ challenges E [st] [p] [t] := by rw [hch]; simpa using Ne.symm h2
  have hnz : BatchNonzeroF st.params [p] (challenges E [st] [p] [t]) ↔
      NonzeroF st.params.n st.params.m p.f (challenge E t st p) := by
    rw [hch, BatchNonzeroF]; simp
  constructor
  · intro h
    exact C50_valid E cfg st [] [p] [t] hst hpre hsz hz (hnz.2 h) hfuel (by rw [hch]; simpa using h3)
  · intro h
    exact (C50_response E cfg st [] [p] [t] hst hpre hsz hz hfuel).2 (fun hh => h (hnz.1 hh))

/-- C49: the response entries of a proof are `σ ξ + a` with `σ` the signer's selector and `a` drawn from the prover's
generator, so the exception occurs only if a drawn entry (or a row sum of drawn entries) is `0` or `-ξ`. -/
theorem C49_exception {σ : Type} (E : Env F P) (R : Rng σ) (w : Witness F P) (st : Statement P) (s : σ) (t : Transcript)
    (timing : OperationTiming) (hw : WitnessBuilt E w) (hst : StatementBuilt E st) (p : Proof F P)
    (h : (Proof.proveInternal E R w st s t timing).1 = .ok p) :
    NonzeroF st.params.n st.params.m p.f (challenge E t st p) ↔
      ∀ j < st.params.m, ∀ i < st.params.n,
        maskA st.params.n (proverNonces E st.params.n st.params.m (proverKey E t st.hash w.l w.r w.r1 (R.fill s 32).1)).a j i
          ≠ -(selector st.params.n w.l j i * challenge E t st p) := by
  have hh := C48_nonces E R w st s t timing hw hst p h
  have hn := hst.ok.params.n
  have := honest_nonzeroF st.params hn st.inputSet.M st.inputSet.M1 st.offset st.J w.l w.r w.r1
    (proverNonces E st.params.n st.params.m (proverKey E t st.hash w.l w.r w.r1 (R.fill s 32).1)) (challenge E t st p)
  rw [← hh] at this
  rw [this]
  simp only [ne_eq, eq_neg_iff_add_eq_zero, add_comm]

/-- The hypotheses of `C49_complete` and `C49_exception` are met. -/
example : StatementBuilt (Toy.env 101) Toy.statement ∧ Honest (Toy.env 101) Toy.statement Toy.transcript Toy.proof ∧
    SizeOK Toy.cfg Toy.statement.params 1 ∧
    EnoughFuel (Toy.env 101) [Toy.statement] [Toy.proof] [Toy.transcript] Toy.cfg.fuel := by
  refine ⟨Toy.statement_built, ⟨Unit, nullRng, Toy.witness, (), .Constant, Toy.witness_built, Toy.proof_new⟩, ?_, ?_⟩
  · exact ⟨by decide, fun _ => by decide +kernel⟩
  · exact enoughFuel_mono _ _ _ _ 3 _ (by decide) (by rw [EnoughFuel]; decide +kernel)

/-- C49: a batch of proofs, each returned by the prover for its own statement and transcript, all statements having the same
parameters and input set as the first, is accepted in any order and with any repetitions, unless a response entry is zero,
which is reported as such. -/
theorem C49_batch (E : Env F P) (cfg : Config) (first : Statement P) (rest : List (Statement P))
    (ps : List (Proof F P)) (ts : List Transcript) (hst : ∀ s ∈ first :: rest, StatementBuilt E s)
    (hparams : ∀ s ∈ first :: rest, s.params = first.params)
    (hset : ∀ s ∈ first :: rest, s.inputSet = first.inputSet)
    (h1 : (first :: rest).length = ps.length) (h2 : (first :: rest).length = ts.length)
    (hp : ∀ x ∈ (first :: rest).zip (ps.zip ts), Honest E x.1 x.2.2 x.2.1)
    (hsz : SizeOK cfg first.params ps.length) (hfuel : EnoughFuel E (first :: rest) ps ts cfg.fuel) :
    (BatchNonzeroF first.params ps (challenges E (first :: rest) ps ts) →
      (Proof.verifyBatch E cfg (first :: rest) ps ts).1 = .ok ()) ∧
    (¬ BatchNonzeroF first.params ps (challenges E (first :: rest) ps ts) →
      (Proof.verifyBatch E cfg (first :: rest) ps ts).1 = .err (.InvalidParameter "proof `f` matrix contained 0")) := by
  have hf := hst first (by simp)
  have hall : ∀ x ∈ (first :: rest).zip (ps.zip ts), Shape first.params x.2.1 ∧ challenge E x.2.2 x.1 x.2.1 ≠ 0 ∧
      Valid first.params first.inputSet.M first.inputSet.M1 x.1.offset x.1.J x.2.1 (challenge E x.2.2 x.1 x.2.1) := by
    intro x hx
    have hm : x.1 ∈ first :: rest := (List.of_mem_zip (show (x.1, x.2) ∈ _ from hx)).1
    have := (hp x hx).facts (hst _ hm)
    rwa [hparams _ hm, hset _ hm] at this
  have hpre : BatchPre first (first :: rest) ps ts := by
    refine ⟨h1, h2, fun s hs => by rw [hset s hs], fun s hs => by rw [hparams s hs], fun p hp => ?_⟩
    obtain ⟨i, hi, rfl⟩ := List.mem_iff_getElem.1 hp
    have := (hall (((first :: rest)[i]'(by omega)), (ps[i], (ts[i]'(by omega)))) (by
      rw [List.mem_iff_getElem]
      refine ⟨i, by simp only [List.length_zip]; omega, ?_⟩
      simp only [List.getElem_zip])).1
    exact this
  have hz : (0 : F) ∉ challenges E (first :: rest) ps ts := by
    intro h0
    obtain ⟨x, hx, he⟩ := List.mem_map.1 h0
    exact (hall x hx).2.1 he
  refine ⟨fun hnz => ?_, fun hnz => (C50_response E cfg first rest ps ts hf hpre hsz hz hfuel).2 hnz⟩
  refine C50_valid E cfg first rest ps ts hf hpre hsz hz hnz hfuel ?_
  rintro ⟨st, p, ξ⟩ hx
  rw [List.mem_iff_getElem] at hx
  obtain ⟨i, hi, he⟩ := hx
  simp only [List.length_zip] at hi
  simp only [List.getElem_zip, Prod.mk.injEq, challenges, List.getElem_map] at he
  obtain ⟨rfl, rfl, rfl⟩ := he
  exact (hall ((first :: rest)[i]'(by omega), (ps[i]'(by omega), ts[i]'(by omega))) (by
      rw [List.mem_iff_getElem]
      refine ⟨i, by simp only [List.length_zip]; omega, ?_⟩
      simp only [List.getElem_zip])).2.2

/-- The hypotheses of `C49_batch` are met, with two signers and a repetition. -/
example : Honest (Toy.env 101) Toy.statement Toy.transcript Toy.proof ∧
    Honest (Toy.env 101) Toy.statement' Toy.transcript' Toy.proof' ∧
    Toy.statement'.params = Toy.statement.params ∧ Toy.statement'.inputSet = Toy.statement.inputSet ∧
    SizeOK Toy.cfg Toy.statement.params 3 ∧
    EnoughFuel (Toy.env 101) [Toy.statement, Toy.statement', Toy.statement] [Toy.proof, Toy.proof', Toy.proof]
      [Toy.transcript, Toy.transcript', Toy.transcript] Toy.cfg.fuel ∧
    (Proof.verifyBatch (Toy.env 101) Toy.cfg [Toy.statement, Toy.statement', Toy.statement]
      [Toy.proof, Toy.proof', Toy.proof] [Toy.transcript, Toy.transcript', Toy.transcript]).1 = .ok () := by
  refine ⟨⟨Unit, nullRng, Toy.witness, (), .Constant, Toy.witness_built, Toy.proof_new⟩,
    ⟨Unit, nullRng, Toy.witness', (), .Constant, Toy.witness'_built, Toy.proof'_new⟩, by decide +kernel, by decide +kernel,
    ⟨by decide, fun _ => by decide +kernel⟩, ?_, by decide +kernel⟩
  exact enoughFuel_mono _ _ _ _ 5 _ (by decide) (by rw [EnoughFuel]; decide +kernel)

/-- C56: every accepted parameter set with `N ≥ 2^31` triggers the panic, for every non-empty batch of at most `2^32 - 1`
proofs which passes the preliminary checks, if overflow checks are on. -/
theorem C56_large (E : Env F P) (cfg : Config) (hc : cfg.overflowChecks = true) (first : Statement P)
    (rest : List (Statement P)) (ps : List (Proof F P)) (ts : List Transcript)
    (hst : ∀ s ∈ first :: rest, StatementBuilt E s) (hN : 2 ^ 31 ≤ first.params.n ^ first.params.m)
    (hpre : BatchPre first (first :: rest) ps ts) (hk : ps.length ≤ u32Max) :
    (Proof.verifyBatch E cfg (first :: rest) ps ts).1 = .panic := by
  have := ((C56_debug E cfg first rest ps ts hst).1).2 ⟨hpre, hk, by
    rw [batchSize, u32Max]
    generalize first.params.n ^ first.params.m = N at hN
    generalize ps.length * (4 + 1 + 1 + 3 * first.params.m) = q
    generalize first.params.n * first.params.m = r
    omega⟩
  rw [← hc] at this
  exact this

/-- C56: statements over the parameters of `C56_reachable` exist (if the group has an element besides the identity). -/
theorem C56_statement_exists (E : Env F P) (params : Params P) (hp : ParamsBuilt E params) (K J offset : P) (hK : K ≠ 0) :
    ∃ st, StatementBuilt E st ∧ st.params = params ∧ st.J = J ∧ st.offset = offset ∧
      st.inputSet.M = List.replicate (params.n ^ params.m) K := by
  have hN := hp.ok.N
  obtain ⟨i, hi, hM, hM1⟩ := (C46_input_set_new E (List.replicate (params.n ^ params.m) K)
    (List.replicate (params.n ^ params.m) (K + offset))).2.2 (by simp) (by
    rw [List.length_replicate]; rw [u32Max] at hN; omega)
  obtain ⟨st, h1, h2, h3, h4, h5⟩ := (C46_statement_new E params i offset J hp).2.2 (by rw [hM, List.length_replicate])
    (by rw [hM]; intro h; exact hK (List.eq_of_mem_replicate h).symm)
    (by rw [hM1]; intro h; exact hK (by simpa using List.eq_of_mem_replicate h))
  exact ⟨st, ⟨params, i, offset, J, hp, Or.inl ⟨_, _, hi⟩, h1⟩, h2, h5, h4, by rw [h3, hM]⟩

/-! ## Effects on transcripts -/

/-- C54: after a run of the prover that got past the witness checks, the caller's transcript has been extended by exactly the
operations of the challenge transcript; this holds also if the challenge is zero. For a returned proof: -/
theorem C54_prover {σ : Type} (E : Env F P) (R : Rng σ) (w : Witness F P) (st : Statement P) (s : σ) (t : Transcript)
    (timing : OperationTiming) (hw : WitnessBuilt E w) (hst : StatementBuilt E st) (p : Proof F P)
    (h : (Proof.proveInternal E R w st s t timing).1 = .ok p) :
    (Proof.proveInternal E R w st s t timing).2.1 =
      t ++ [.append "dom-sep" (asciiBytes "Parallel Triptych proof"), .append "version" versionBytes, .append "statement" st.hash,
        .append "A" (E.compress p.A), .append "B" (E.compress p.B), .append "C" (E.compress p.C),
        .append "D" (E.compress p.D)] ++ points E "X" p.X ++ points E "X1" p.X1 ++ points E "Y" p.Y ++ [.challenge "xi" 64] := by
  rcases C48_no_panic E R w st s t timing hw hst with ⟨q, hq, hshape, hp, hrel⟩ | hq | ⟨msg, hq⟩
  · have hv := Proof.proveInternal_valid E R w st hst.ok (by rw [← hp]; exact hw.ok.2) s t timing hp hrel _ rfl _ rfl
    rw [hv] at h ⊢
    simp only at h ⊢
    split at h
    · simp at h
    · simp only [Outcome.ok.injEq] at h
      rw [← h]
      rfl
  · rw [h] at hq; simp at hq
  · rw [h] at hq; simp at hq

/-- C54: a prover run rejected because of its witness changes nothing. -/
theorem C54_prover_rejected {σ : Type} (E : Env F P) (R : Rng σ) (w : Witness F P) (st : Statement P) (s : σ)
    (t : Transcript) (timing : OperationTiming) (hw : WitnessBuilt E w) (hst : StatementBuilt E st) (msg : String)
    (h : (Proof.proveInternal E R w st s t timing).1 = .err (.InvalidParameter msg)) :
    (Proof.proveInternal E R w st s t timing).2 = (t, s) := by
  obtain ⟨r1, r2, r3, r4⟩ := C48_reject E R w st s t timing hw hst
  by_cases hp : w.params = st.params
  · by_cases h1 : st.inputSet.M[w.l]? = some (w.r • st.params.G)
    · by_cases h3 : st.inputSet.M1[w.l]? = some (w.r1 • st.params.G1 + st.offset)
      · by_cases h2 : w.r • st.J = st.params.U
        · obtain ⟨nn, ξ, -, -, a1, a2⟩ := C48_accept E R w st s t timing hw hst hp ⟨h1, h3, h2⟩
          by_cases h0 : ξ = 0
          · rw [a1 h0] at h; simp at h
          · rw [a2 h0] at h; simp at h
        · rw [r4 hp h1 h3 h2]
      · rw [r3 hp h1 h3]
    · rw [r2 hp h1]
  · rw [r1 hp]

/-- C54: after verification of an honest proof the verifier's transcript is the prover's final transcript, further extended by
the responses. In particular the two transcripts differ, although both parties started from equal ones. -/
theorem C54_verifier {σ : Type} (E : Env F P) (cfg : Config) (R : Rng σ) (w : Witness F P) (st : Statement P) (s : σ)
    (t : Transcript) (timing : OperationTiming) (hw : WitnessBuilt E w) (hst : StatementBuilt E st) (p : Proof F P)
    (h : (Proof.proveInternal E R w st s t timing).1 = .ok p) (hsz : SizeOK cfg st.params 1) :
    (Proof.verify E cfg p st t).2 = [(Proof.proveInternal E R w st s t timing).2.1 ++ scalars E "f" p.f.flatten ++
      [.append "z_A" (E.scalarBytes p.zA), .append "z_C" (E.scalarBytes p.zC), .append "z" (E.scalarBytes p.z), .append "z1" (E.scalarBytes p.z1)]] ∧
    (Proof.verify E cfg p st t).2 ≠ [(Proof.proveInternal E R w st s t timing).2.1] := by
  have hp : Honest E st t p := ⟨σ, R, w, s, timing, hw, h⟩
  obtain ⟨h1, h2, h3⟩ := hp.facts hst
  have hpre : BatchPre st [st] [p] [t] := ⟨rfl, rfl, by simp, by simp, by simpa using h1⟩
  have hz : (0 : F) ∉ challenges E [st] [p] [t] := by
    rw [show challenges E [st] [p] [t] = [challenge E t st p] from rfl]; simpa using Ne.symm h2
  have hv := (Proof.verifyBatch_nonzero E cfg st [] hst.ok.params hst.ok.length hst.ok.length1 [p] [t] hpre hsz hz).1
  have hresp : (Proof.verify E cfg p st t).2 = [(Proof.proveInternal E R w st s t timing).2.1 ++
      scalars E "f" p.f.flatten ++ [.append "z_A" (E.scalarBytes p.zA), .append "z_C" (E.scalarBytes p.zC),
        .append "z" (E.scalarBytes p.z), .append "z1" (E.scalarBytes p.z1)]] := by
    rw [Proof.verify, hv, C54_prover E R w st s t timing hw hst p h]
    rfl
  refine ⟨hresp, ?_⟩
  rw [hresp]
  intro hh
  have := congrArg (fun l => (l.map List.length)) hh
  simp at this

/-- C54: verification of any batch changes each transcript only by appending to it, and never changes their number. -/
theorem C54_extends (E : Env F P) (cfg : Config) (first : Statement P) (rest : List (Statement P))
    (ps : List (Proof F P)) (ts : List Transcript) (hst : StatementBuilt E first)
    (hpre : BatchPre first (first :: rest) ps ts) (hsz : SizeOK cfg first.params ps.length)
    (hz : (0 : F) ∉ challenges E (first :: rest) ps ts) :
    (Proof.verifyBatch E cfg (first :: rest) ps ts).2 = responseTranscripts E (first :: rest) ps ts ∧
    (responseTranscripts E (first :: rest) ps ts).length = ts.length := by
  refine ⟨(Proof.verifyBatch_nonzero E cfg first rest hst.ok.params hst.ok.length hst.ok.length1 ps ts hpre hsz hz).1, ?_⟩
  have h1 := hpre.proofs
  have h2 := hpre.transcripts
  simp only [responseTranscripts, List.length_map, List.length_zip]
  omega

/-- The hypotheses of `C54_prover` and `C54_verifier` are met. -/
example : (Proof.proveWithRng (Toy.env 101) nullRng Toy.witness Toy.statement () Toy.transcript).1 = .ok Toy.proof ∧
    SizeOK Toy.cfg Toy.statement.params 1 := ⟨Toy.proof_new, by decide, fun _ => by decide +kernel⟩

/-- The hypotheses of `C54_prover_rejected` are met by a zeroized witness, those of `C54_extends` by two proofs. -/
example : (∃ msg, (Proof.proveInternal (Toy.env 101) nullRng Toy.witness.zeroize Toy.statement () Toy.transcript .Constant).1
      = .err (.InvalidParameter msg)) ∧
    BatchPre Toy.statement [Toy.statement, Toy.statement'] [Toy.proof, Toy.proof'] [Toy.transcript, Toy.transcript'] ∧
    SizeOK Toy.cfg Toy.statement.params 2 ∧
    (0 : ZMod 101) ∉ challenges (Toy.env 101) [Toy.statement, Toy.statement'] [Toy.proof, Toy.proof']
      [Toy.transcript, Toy.transcript'] :=
  ⟨⟨"`M[l] != r * G`", by decide +kernel⟩, (C50_accepted (Toy.env 101) Toy.cfg Toy.statement [Toy.statement']
    [Toy.proof, Toy.proof'] [Toy.transcript, Toy.transcript'] Toy.statement_built (by decide +kernel)).1,
    ⟨by decide, fun _ => by decide +kernel⟩, by decide +kernel⟩

/-- C54: a batch which fails one of the preliminary checks - numbers of arguments, input sets, parameters, or the shape of some
proof - is rejected as invalid, and no transcript is touched. -/
theorem C54_verify_rejected (E : Env F P) (cfg : Config) (first : Statement P) (rest : List (Statement P))
    (ps : List (Proof F P)) (ts : List Transcript) (hst : StatementBuilt E first)
    (h : ¬ (ps.length = rest.length + 1 ∧ ts.length = rest.length + 1 ∧
      (∀ s ∈ rest, s.inputSet.hash = first.inputSet.hash) ∧ (∀ s ∈ rest, s.params.hash = first.params.hash) ∧
      ∀ p ∈ ps, p.X.length = first.params.m ∧ p.X1.length = first.params.m ∧ p.Y.length = first.params.m ∧ p.f.length = first.params.m ∧
        ∀ row ∈ p.f, row.length = first.params.n - 1)) :
    ∃ msg, Proof.verifyBatch E cfg (first :: rest) ps ts = (.err (.InvalidParameter msg), ts) := by
  refine Proof.verifyBatch_not_pre E cfg first rest hst.ok.params ps ts fun hp => h ⟨?_, ?_, ?_, ?_, ?_⟩
  · exact hp.proofs.symm
  · exact hp.transcripts.symm
  · exact fun s hs => hp.inputSets s (by simp [hs])
  · exact fun s hs => hp.params s (by simp [hs])
  · exact fun p hpp => ⟨(hp.shapes p hpp).X, (hp.shapes p hpp).X1, (hp.shapes p hpp).Y, (hp.shapes p hpp).f,
      (hp.shapes p hpp).row⟩

/-- The hypotheses of `C54_verify_rejected` are met by a proof of the wrong shape. -/
example : ∃ msg, Proof.verifyBatch (Toy.env 101) Toy.cfg [Toy.statement] [{ Toy.proof with X := [] }] [Toy.transcript] =
    (.err (.InvalidParameter msg), [Toy.transcript]) :=
  C54_verify_rejected _ _ _ [] _ _ Toy.statement_built (by
    intro h
    have := (h.2.2.2.2 _ (List.mem_singleton.2 rfl)).1
    revert this
    decide +kernel)

theorem Proof.challengeLoop_appends (E : Env F P) (params : Params P) (sts : List (Statement P)) (ps : List (Proof F P))
    (ts : List Transcript) (wt : Transcript) :
    List.Forall₂ (· <+: ·) ts (Proof.challengeLoop E params sts ps ts wt).2 := by
  induction ts generalizing sts ps wt with
  | nil => cases sts <;> cases ps <;> simp [Proof.challengeLoop]
  | cons t ts ih =>
    have hrefl : List.Forall₂ (· <+: ·) ts ts := List.forall₂_same.2 fun x _ => List.prefix_rfl
    cases sts with
    | nil => simp [Proof.challengeLoop]
    | cons st sts =>
      cases ps with
      | nil => simp [Proof.challengeLoop]
      | cons p ps =>
        have hc : t <+: (ProofTranscript.commit E nullRng
            (ProofTranscript.new E nullRng t st () (none : Option (Witness F P))) params p.A p.B p.C p.D p.X p.X1 p.Y).2.transcript := by
          simp only [ProofTranscript.commit, ProofTranscript.new, appendPoints_eq, Transcript.appendMessage,
            Transcript.appendU64, Transcript.challengeBytes, List.append_assoc]
          exact List.prefix_append _ _
        rw [Proof.challengeLoop]
        dsimp only
        split
        · exact .cons hc hrefl
        · exact .cons hc hrefl
        · exact .cons hc hrefl
        · refine .cons (hc.trans ?_) (ih _ _ _)
          simp only [ProofTranscript.response, appendMatrix_eq, Transcript.appendMessage, List.append_assoc]
          exact List.prefix_append _ _

/-- C54: whatever the outcome - also on errors, panics and arguments which do not match - a verification changes the given
transcripts only by appending to them: there are as many as before, in the same order, each beginning with what it was. -/
theorem C54_only_appends (E : Env F P) (cfg : Config) (sts : List (Statement P)) (ps : List (Proof F P))
    (ts : List Transcript) :
    List.Forall₂ (· <+: ·) ts (Proof.verifyBatch E cfg sts ps ts).2 := by
  have hrefl : List.Forall₂ (· <+: ·) ts ts := List.forall₂_same.2 fun x _ => List.prefix_rfl
  rw [Proof.verifyBatch]
  split
  · exact hrefl
  · split
    · exact hrefl
    · split
      · exact hrefl
      · split
        · exact hrefl
        · split
          · exact hrefl
          · dsimp only
            split
            · exact hrefl
            · exact hrefl
            · exact hrefl
            · exact Proof.challengeLoop_appends E _ _ _ _ _

/-- C54: whatever the outcome of a prover run, the caller's transcript is only appended to. -/
theorem C54_prover_only_appends {σ : Type} (E : Env F P) (R : Rng σ) (w : Witness F P) (st : Statement P) (s : σ)
    (t : Transcript) (timing : OperationTiming) : t <+: (Proof.proveInternal E R w st s t timing).2.1 := by
  rw [Proof.proveInternal]
  split
  · exact List.prefix_rfl
  · exact List.prefix_rfl
  · exact List.prefix_rfl
  · dsimp only
    have hnew : t <+: (ProofTranscript.new E R t st s (some w)).transcript := by
      simp only [ProofTranscript.new, Transcript.appendMessage, Transcript.appendU64, List.append_assoc]
      exact List.prefix_append _ _
    split
    · exact hnew
    · exact hnew
    · exact hnew
    · refine hnew.trans ?_
      simp only [ProofTranscript.commit, appendPoints_eq, Transcript.appendMessage, Transcript.challengeBytes,
        List.append_assoc]
      exact List.prefix_append _ _

/-- `C54_only_appends` and `C54_prover_only_appends` have no hypotheses; transcripts need not be empty. -/
example : Toy.transcript ≠ [] := by decide

/-! ## Preconditions -/

/-- C50: which mismatches are reported, in order, always before any transcript is touched. -/
theorem C50_errors (E : Env F P) (cfg : Config) (sts : List (Statement P)) (ps : List (Proof F P))
    (ts : List Transcript) :
    (sts.length ≠ ps.length → Proof.verifyBatch E cfg sts ps ts =
      (.err (.InvalidParameter "number of statements and proofs does not match"), ts)) ∧
    (sts.length = ps.length → sts.length ≠ ts.length → Proof.verifyBatch E cfg sts ps ts =
      (.err (.InvalidParameter "number of statements and transcripts does not match"), ts)) ∧
    (sts.length = ps.length → sts.length = ts.length →
      (∃ s ∈ sts, ∃ s' ∈ sts, s.inputSet.hash ≠ s'.inputSet.hash) → Proof.verifyBatch E cfg sts ps ts =
      (.err (.InvalidParameter "statement input sets do not match"), ts)) ∧
    (sts.length = ps.length → sts.length = ts.length →
      (∀ s ∈ sts, ∀ s' ∈ sts, s.inputSet.hash = s'.inputSet.hash) →
      (∃ s ∈ sts, ∃ s' ∈ sts, s.params.hash ≠ s'.params.hash) → Proof.verifyBatch E cfg sts ps ts =
      (.err (.InvalidParameter "statement parameters do not match"), ts)) := by
  refine ⟨Proof.verifyBatch_len_proofs E cfg sts ps ts, Proof.verifyBatch_len_transcripts E cfg sts ps ts, ?_, ?_⟩
  · rintro h1 h2 ⟨s, hs, s', hs', hne⟩
    cases sts with
    | nil => simp at hs
    | cons first rest =>
      have hnot : allEqual ((first :: rest).map fun s : Statement P => s.inputSet.hash) = false := by
        rw [← Bool.not_eq_true, allEqual_iff (fun s : Statement P => s.inputSet.hash) first rest]
        intro h
        exact hne ((h s hs).trans (h s' hs').symm)
      rw [Proof.verifyBatch, if_neg (not_not.2 h1), if_neg (not_not.2 h2)]
      simp only [List.head?_cons, hnot, Bool.not_false, if_true]
  · rintro h1 h2 hi ⟨s, hs, s', hs', hne⟩
    cases sts with
    | nil => simp at hs
    | cons first rest =>
      have hnot : allEqual ((first :: rest).map fun s : Statement P => s.params.hash) = false := by
        rw [← Bool.not_eq_true, allEqual_iff (fun s : Statement P => s.params.hash) first rest]
        intro h
        exact hne ((h s hs).trans (h s' hs').symm)
      have hyes : allEqual ((first :: rest).map fun s : Statement P => s.inputSet.hash) = true :=
        (allEqual_iff (fun s : Statement P => s.inputSet.hash) first rest).2 fun x hx => hi x hx first (by simp)
      rw [Proof.verifyBatch, if_neg (not_not.2 h1), if_neg (not_not.2 h2)]
      simp only [List.head?_cons, hyes, hnot, Bool.not_false, Bool.not_true, if_true, Bool.false_eq_true, if_false]

theorem Spec.StatementBuilt.params_built {E : Env F P} {s : Statement P} (h : StatementBuilt E s) :
    ParamsBuilt E s.params := by
  obtain ⟨params, i, offset, J, hp, hi, h⟩ := h
  obtain ⟨-, -, -, h3, -⟩ := statementNew_ok E params i offset J s h
  rwa [h3]

theorem Spec.StatementBuilt.inputSet_built {E : Env F P} {s : Statement P} (h : StatementBuilt E s) :
    ∃ M M1, BuiltFrom E s.inputSet M M1 := by
  obtain ⟨params, i, offset, J, hp, hi, h⟩ := h
  obtain ⟨-, -, -, -, h4, -⟩ := statementNew_ok E params i offset J s h
  rw [h4]
  exact (inputSetBuilt_iff E i).1 hi

/-- C50: in an accepted batch any two statements have the same parameters, ring and unpadded keys, unless two explicit
distinct transcripts have the same hash. -/
theorem C50_batch_accepted (E : Env F P) (hE : E.Lawful) (cfg : Config) (sts : List (Statement P)) (ps : List (Proof F P))
    (ts : List Transcript) (hst : ∀ s ∈ sts, StatementBuilt E s)
    (h : (Proof.verifyBatch E cfg sts ps ts).1 = .ok ()) :
    sts.length = ps.length ∧ sts.length = ts.length ∧
    ∀ s ∈ sts, ∀ s' ∈ sts, ∀ M M1 M' M1', BuiltFrom E s.inputSet M M1 → BuiltFrom E s'.inputSet M' M1' →
      (s.params = s'.params ∧ s.inputSet.M = s'.inputSet.M ∧ s.inputSet.M1 = s'.inputSet.M1 ∧ M = M' ∧ M1 = M1') ∨
      (paramsTranscript E s.params.n s.params.m s.params.G s.params.G1 s.params.U s.params.CommitmentG s.params.CommitmentH
          ≠ paramsTranscript E s'.params.n s'.params.m s'.params.G s'.params.G1 s'.params.U s'.params.CommitmentG
            s'.params.CommitmentH ∧
        E.challenge (paramsTranscript E s.params.n s.params.m s.params.G s.params.G1 s.params.U s.params.CommitmentG
            s.params.CommitmentH)
          = E.challenge (paramsTranscript E s'.params.n s'.params.m s'.params.G s'.params.G1 s'.params.U s'.params.CommitmentG
            s'.params.CommitmentH)) ∨
      (inputSetTranscript E s.inputSet.M s.inputSet.M1 M.length ≠ inputSetTranscript E s'.inputSet.M s'.inputSet.M1 M'.length ∧
        E.challenge (inputSetTranscript E s.inputSet.M s.inputSet.M1 M.length)
          = E.challenge (inputSetTranscript E s'.inputSet.M s'.inputSet.M1 M'.length)) := by
  obtain ⟨e1, e2, e3, e4⟩ := C50_errors E cfg sts ps ts
  have h1 : sts.length = ps.length := by by_contra hh; rw [e1 hh] at h; simp at h
  have h2 : sts.length = ts.length := by by_contra hh; rw [e2 h1 hh] at h; simp at h
  have h3 : ∀ s ∈ sts, ∀ s' ∈ sts, s.inputSet.hash = s'.inputSet.hash := by
    by_contra hh
    push Not at hh
    rw [e3 h1 h2 hh] at h; simp at h
  have h4 : ∀ s ∈ sts, ∀ s' ∈ sts, s.params.hash = s'.params.hash := by
    by_contra hh
    push Not at hh
    rw [e4 h1 h2 h3 hh] at h; simp at h
  refine ⟨h1, h2, ?_⟩
  intro s hs s' hs' M M1 M' M1' hM hM'
  rcases C45_binding E hE _ _ (hst s hs).params_built (hst s' hs').params_built (h4 s hs s' hs') with c1 | c1
  · rcases C46_input_set_binding E hE _ _ M M1 M' M1' hM hM' (h3 s hs s' hs') with c2 | c2
    · exact Or.inl ⟨c1, c2.1, c2.2.1, c2.2.2.1, c2.2.2.2⟩
    · exact Or.inr (Or.inr c2)
  · exact Or.inr (Or.inl c1)

/-- The hypotheses of `C50_batch_accepted` are met; `C50_errors` has none. -/
example : (Toy.env 101).Lawful ∧ (Proof.verifyBatch (Toy.env 101) Toy.cfg [Toy.statement, Toy.statement']
    [Toy.proof, Toy.proof'] [Toy.transcript, Toy.transcript']).1 = .ok () :=
  ⟨Toy.env_lawful 101 (by norm_num), Toy.batch_ok⟩

/-! ## Trivial batches -/

/-- C50: empty batches are accepted by all three functions. -/
theorem C50_empty (E : Env F P) (cfg : Config) :
    Proof.verifyBatch E cfg [] ([] : List (Proof F P)) [] = (.ok (), []) ∧
    Proof.verifyBatchWithSingleBlame E cfg [] ([] : List (Proof F P)) [] = (.ok (), [], []) ∧
    Proof.verifyBatchWithFullBlame E cfg [] ([] : List (Proof F P)) [] = (.ok (), []) := by
  have h := Proof.verifyBatch_nil E cfg
  refine ⟨h, ?_, ?_⟩
  · rw [Proof.verifyBatchWithSingleBlame, h]
  · rw [Proof.verifyBatchWithFullBlame, h]

/-- C50: verifying one proof means: its dimensions are right, its challenge and responses are not zero, and the weighted sum of
its own five equations is zero. -/
theorem C50_single (E : Env F P) (cfg : Config) (st : Statement P) (p : Proof F P) (t : Transcript)
    (hst : StatementBuilt E st) (hsz : SizeOK cfg st.params 1) (hfuel : EnoughFuel E [st] [p] [t] cfg.fuel)
    (w : Proof.Weights F) (hw : IsWeights E [st] [p] [t] [w]) :
    (Proof.verify E cfg p st t).1 = .ok () ↔
      Shape st.params p ∧ challenge E t st p ≠ 0 ∧ NonzeroF st.params.n st.params.m p.f (challenge E t st p) ∧
      weighted st.params st.inputSet.M st.inputSet.M1 st.offset st.J p (challenge E t st p) w = 0 := by
  have hch : challenges E [st] [p] [t] = [challenge E t st p] := rfl
  have hb : ∀ w', batchSum st.params st.inputSet.M st.inputSet.M1 [st] [p] [challenge E t st p] [w']
      = weighted st.params st.inputSet.M st.inputSet.M1 st.offset st.J p (challenge E t st p) w' := fun w' => by simp [batchSum]
  constructor
  · intro h
    obtain ⟨a1, -, a3, a4, ws, a5, a6⟩ := C50_accepted E cfg st [] [p] [t] hst h
    rw [hch] at a3 a4 a6
    rw [(C50_weights E [st] [p] [t]).2.1 ws [w] a5 hw, hb] at a6
    exact ⟨a1.shapes p (by simp), fun h0 => a3 (by simp [h0]), a4 (p, challenge E t st p) (by simp), a6⟩
  · rintro ⟨b1, b2, b3, b4⟩
    have hpre : BatchPre st [st] [p] [t] := ⟨rfl, rfl, by simp, by simp, by simpa using b1⟩
    rw [Proof.verify, C50_verdict E cfg st [] [p] [t] hst hpre hsz (by rw [hch]; simpa using Ne.symm b2)
      (by rw [hch, BatchNonzeroF]; simpa using b3) [w] hw hfuel, hch, hb, if_pos b4]

/-- The hypotheses of `C50_single` are met, by a valid and by a changed proof. -/
example : SizeOK Toy.cfg Toy.statement.params 1 ∧
    (∃ w, IsWeights (Toy.env 101) [Toy.statement] [Toy.proof] [Toy.transcript] [w]) ∧
    EnoughFuel (Toy.env 101) [Toy.statement] [Toy.proof] [Toy.transcript] Toy.cfg.fuel ∧
    (∃ w, IsWeights (Toy.env 101) [Toy.statement] [{ Toy.proof with z := 0 }] [Toy.transcript] [w]) ∧
    EnoughFuel (Toy.env 101) [Toy.statement] [{ Toy.proof with z := 0 }] [Toy.transcript] Toy.cfg.fuel := by
  refine ⟨⟨by decide, fun _ => by decide +kernel⟩, ⟨⟨11, 34, 38, 4, 84⟩, by simp, 1, by decide +kernel⟩,
    enoughFuel_mono _ _ _ _ 3 _ (by decide) (by rw [EnoughFuel]; decide +kernel), ⟨⟨45, 47, 32, 70, 20⟩, by simp, 1, by decide +kernel⟩,
    enoughFuel_mono _ _ _ _ 3 _ (by decide) (by rw [EnoughFuel]; decide +kernel)⟩

end Triptych.Parallel
