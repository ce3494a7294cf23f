import Verif.Props.Parallel.Prove
import Verif.Lemmas.Parallel.VerifyExtra

/-! # Properties of the parallel verifier: C50, C56 -/
set_option autoImplicit false
set_option linter.unusedSectionVars false

namespace Triptych.Parallel
open Triptych.Parallel.Spec
open Triptych.Spec (grayDigit digit commit fullF ringCoeff NonzeroF maskA selector ringPoly versionBytes points scalars
  weightTranscript weightScalar queryPoint drawn)

variable {F P : Type} [Field F] [AddCommGroup P] [Module F P] [DecidableEq F] [DecidableEq P]

/-! ## Acceptance -/

/-- C50: a batch is accepted only if it passes all preliminary checks, no challenge and no response entry is zero, and the sum
of all equations, weighted with the weights derived from the batch, is zero. -/
theorem C50_accepted (E : Env F P) (cfg : Config) (first : Statement P) (rest : List (Statement P))
    (ps : List (Proof F P)) (ts : List Transcript) (hst : StatementBuilt E first)
    (h : (Proof.verifyBatch E cfg (first :: rest) ps ts).1 = .ok ()) :
    BatchPre first (first :: rest) ps ts ∧ SizeOK cfg first.params ps.length ∧
      (0 : F) ∉ challenges E (first :: rest) ps ts ∧
      BatchNonzeroF first.params ps (challenges E (first :: rest) ps ts) ∧
      ∃ ws, IsWeights E (first :: rest) ps ts ws ∧
        batchSum first.params first.inputSet.M first.inputSet.M1 (first :: rest) ps (challenges E (first :: rest) ps ts) ws = 0 := by
  by_cases hpre : BatchPre first (first :: rest) ps ts
  · have hsz : SizeOK cfg first.params ps.length := by
      rw [Proof.verifyBatch_pre E cfg first rest hst.ok.params ps ts hpre] at h
      split at h
      · simp at h
      · split at h
        · simp at h
        · rename_i h1 h2
          exact ⟨by omega, fun hc => by by_contra hn; exact h2 ⟨hc, by omega⟩⟩
    by_cases hz : (0 : F) ∈ challenges E (first :: rest) ps ts
    · rw [Proof.verifyBatch_zero_challenge E cfg first rest hst.ok.params ps ts hpre hsz hz] at h
      simp at h
    · obtain ⟨-, n1, n2⟩ := Proof.verifyBatch_nonzero E cfg first rest hst.ok.params hst.ok.length hst.ok.length1 ps ts hpre hsz hz
      by_cases hnz : BatchNonzeroF first.params ps (challenges E (first :: rest) ps ts)
      · rcases (n1 hnz).2 with ⟨ws, hw, hr⟩ | ⟨-, hr⟩
        · refine ⟨hpre, hsz, hz, hnz, ws, hw, ?_⟩
          rw [hr] at h
          by_contra hne
          rw [if_neg hne] at h
          simp at h
        · rw [hr] at h; simp at h
      · rcases n2 hnz with hr | ⟨-, hr⟩ <;> rw [hr] at h <;> simp at h
  · obtain ⟨msg, hr⟩ := Proof.verifyBatch_not_pre E cfg first rest hst.ok.params ps ts hpre
    rw [hr] at h
    simp at h

/-- C50: on a well-formed batch the verdict is exactly whether the weighted sum of all equations is zero. -/
theorem C50_verdict (E : Env F P) (cfg : Config) (first : Statement P) (rest : List (Statement P))
    (ps : List (Proof F P)) (ts : List Transcript) (hst : StatementBuilt E first)
    (hpre : BatchPre first (first :: rest) ps ts) (hsz : SizeOK cfg first.params ps.length)
    (hz : (0 : F) ∉ challenges E (first :: rest) ps ts)
    (hnz : BatchNonzeroF first.params ps (challenges E (first :: rest) ps ts))
    (ws : List (Proof.Weights F)) (hws : IsWeights E (first :: rest) ps ts ws)
    (hfuel : EnoughFuel E (first :: rest) ps ts cfg.fuel) :
    (Proof.verifyBatch E cfg (first :: rest) ps ts).1 =
      if batchSum first.params first.inputSet.M first.inputSet.M1 (first :: rest) ps (challenges E (first :: rest) ps ts) ws = 0
      then .ok () else .err .FailedVerification :=
  ((Proof.verifyBatch_nonzero E cfg first rest hst.ok.params hst.ok.length hst.ok.length1 ps ts hpre hsz hz).2.1 hnz).1 ws hws hfuel

/-- C50: the weights exist (if the generator eventually yields usable ones), are unique, one quintuple per proof, and none of
them is zero. -/
theorem C50_weights (E : Env F P) (sts : List (Statement P)) (ps : List (Proof F P)) (ts : List Transcript) :
    (∀ fuel, EnoughFuel E sts ps ts fuel → ∃ ws, IsWeights E sts ps ts ws) ∧
    (∀ ws ws', IsWeights E sts ps ts ws → IsWeights E sts ps ts ws' → ws = ws') ∧
    ∀ ws, IsWeights E sts ps ts ws →
      ws.length = ps.length ∧ ∀ w ∈ ws, w.w1 ≠ 0 ∧ w.w2 ≠ 0 ∧ w.w3 ≠ 0 ∧ w.w4 ≠ 0 ∧ w.w5 ≠ 0 := by
  refine ⟨fun fuel h => isWeights_exists E sts ps ts fuel h, fun ws ws' h h' => isWeights_unique E sts ps ts ws ws' h h',
    fun ws h => ⟨h.1, ?_⟩⟩
  intro w hw
  obtain ⟨-, q, hq⟩ := h
  rw [hq] at hw
  exact mem_usableQuints _ _ _ _ hw

theorem batchSum_of_valid (params : Params P) (M M1 : List P) (sts : List (Statement P)) (ps : List (Proof F P))
    (ξs : List F) (ws : List (Proof.Weights F)) (h : ∀ x ∈ sts.zip (ps.zip ξs), Valid params M M1 x.1.offset x.1.J x.2.1 x.2.2) :
    batchSum params M M1 sts ps ξs ws = 0 := by
  rw [batchSum]
  apply List.sum_eq_zero
  intro x hx
  obtain ⟨⟨st, p, ξ, w⟩, hy, rfl⟩ := List.mem_map.1 hx
  have : (st, p, ξ) ∈ sts.zip (ps.zip ξs) := by
    rw [List.mem_iff_getElem] at hy ⊢
    obtain ⟨i, hi, he⟩ := hy
    simp only [List.length_zip] at hi
    refine ⟨i, by simp only [List.length_zip]; omega, ?_⟩
    simp only [List.getElem_zip, Prod.mk.injEq] at he ⊢
    exact ⟨he.1, he.2.1, he.2.2.1⟩
  have hv := h _ this
  simp only [weighted, hv.e1, hv.e2, hv.e3, hv.e4, hv.e5, smul_zero, add_zero]

/-- C50: if every equation of every proof holds (and no response entry is zero), the batch is accepted. -/
theorem C50_valid (E : Env F P) (cfg : Config) (first : Statement P) (rest : List (Statement P))
    (ps : List (Proof F P)) (ts : List Transcript) (hst : StatementBuilt E first)
    (hpre : BatchPre first (first :: rest) ps ts) (hsz : SizeOK cfg first.params ps.length)
    (hz : (0 : F) ∉ challenges E (first :: rest) ps ts)
    (hnz : BatchNonzeroF first.params ps (challenges E (first :: rest) ps ts))
    (hfuel : EnoughFuel E (first :: rest) ps ts cfg.fuel)
    (hv : ∀ x ∈ (first :: rest).zip (ps.zip (challenges E (first :: rest) ps ts)),
      Valid first.params first.inputSet.M first.inputSet.M1 x.1.offset x.1.J x.2.1 x.2.2) :
    (Proof.verifyBatch E cfg (first :: rest) ps ts).1 = .ok () := by
  obtain ⟨ws, hws⟩ := (C50_weights E (first :: rest) ps ts).1 _ hfuel
  rw [C50_verdict E cfg first rest ps ts hst hpre hsz hz hnz ws hws hfuel, if_pos]
  exact batchSum_of_valid _ _ _ _ _ _ _ hv

/-! ## Zero challenges and responses -/

/-- C50: a well-formed batch is rejected with `InvalidChallenge` exactly if some challenge is zero. -/
theorem C50_challenge (E : Env F P) (cfg : Config) (first : Statement P) (rest : List (Statement P))
    (ps : List (Proof F P)) (ts : List Transcript) (hst : StatementBuilt E first)
    (hpre : BatchPre first (first :: rest) ps ts) (hsz : SizeOK cfg first.params ps.length) :
    (Proof.verifyBatch E cfg (first :: rest) ps ts).1 = .err .InvalidChallenge ↔
      (0 : F) ∈ challenges E (first :: rest) ps ts := by
  constructor
  · intro h
    by_contra hz
    obtain ⟨-, n1, n2⟩ := Proof.verifyBatch_nonzero E cfg first rest hst.ok.params hst.ok.length hst.ok.length1 ps ts hpre hsz hz
    by_cases hnz : BatchNonzeroF first.params ps (challenges E (first :: rest) ps ts)
    · rcases (n1 hnz).2 with ⟨ws, -, hr⟩ | ⟨-, hr⟩
      · rw [hr] at h
        split at h <;> simp at h
      · rw [hr] at h; simp at h
    · rcases n2 hnz with hr | ⟨-, hr⟩ <;> rw [hr] at h <;> simp at h
  · exact Proof.verifyBatch_zero_challenge E cfg first rest hst.ok.params ps ts hpre hsz

/-- C50: otherwise it is rejected because of a zero response exactly if some entry of some response matrix, including the
reconstructed column, is zero. (No inversion of zero is attempted: that would be a panic, excluded by `C50_no_panic`.) -/
theorem C50_response (E : Env F P) (cfg : Config) (first : Statement P) (rest : List (Statement P))
    (ps : List (Proof F P)) (ts : List Transcript) (hst : StatementBuilt E first)
    (hpre : BatchPre first (first :: rest) ps ts) (hsz : SizeOK cfg first.params ps.length)
    (hz : (0 : F) ∉ challenges E (first :: rest) ps ts) (hfuel : EnoughFuel E (first :: rest) ps ts cfg.fuel) :
    (Proof.verifyBatch E cfg (first :: rest) ps ts).1 = .err (.InvalidParameter "proof `f` matrix contained 0") ↔
      ¬ BatchNonzeroF first.params ps (challenges E (first :: rest) ps ts) := by
  obtain ⟨-, n1, n2⟩ := Proof.verifyBatch_nonzero E cfg first rest hst.ok.params hst.ok.length hst.ok.length1 ps ts hpre hsz hz
  constructor
  · intro h hnz
    rcases (n1 hnz).2 with ⟨ws, -, hr⟩ | ⟨-, hr⟩
    · rw [hr] at h
      split at h <;> simp at h
    · rw [hr] at h; simp at h
  · intro hnz
    rcases n2 hnz with hr | ⟨hf, -⟩
    · exact hr
    · exact absurd hfuel hf

/-- C50: the transcripts after a zero challenge at position `i`, the first one: those before are complete, that one has its
challenge drawn but no responses appended, those after are untouched. -/
theorem C50_transcripts (E : Env F P) (cfg : Config) (first : Statement P) (rest : List (Statement P))
    (ps : List (Proof F P)) (ts : List Transcript) (hst : StatementBuilt E first)
    (hpre : BatchPre first (first :: rest) ps ts) (hsz : SizeOK cfg first.params ps.length)
    (i : ℕ) (hi : (challenges E (first :: rest) ps ts)[i]? = some 0)
    (hmin : ∀ j < i, (challenges E (first :: rest) ps ts)[j]? ≠ some (0 : F)) :
    ∃ st p t, (first :: rest)[i]? = some st ∧ ps[i]? = some p ∧ ts[i]? = some t ∧
      (Proof.verifyBatch E cfg (first :: rest) ps ts).2 =
        (responseTranscripts E (first :: rest) ps ts).take i ++
          [challengeTranscript E t st.hash p.A p.B p.C p.D p.X p.X1 p.Y] ++ ts.drop (i + 1) := by
  rw [Proof.verifyBatch_sized E cfg first rest hst.ok.params ps ts hpre hsz]
  have hm := hst.ok.params.m
  have hts : ts.length = ps.length := by rw [← hpre.transcripts, hpre.proofs]
  exact Proof.challengeLoop_err_transcripts E first.params (by omega) (first :: rest) ps ts hpre.proofs hts _ i hi hmin

/-! ## No panics -/

/-- C50: `verify_batch` never panics, whatever the proofs look like, provided the size estimate fits (see C56), and returns
after finitely many steps if the weight generator yields enough usable weights. -/
theorem C50_no_panic (E : Env F P) (cfg : Config) (sts : List (Statement P)) (ps : List (Proof F P))
    (ts : List Transcript) (hst : ∀ s ∈ sts, StatementBuilt E s)
    (hsz : ∀ first, sts.head? = some first → cfg.overflowChecks = true → batchSize first.params ps.length ≤ u32Max) :
    (Proof.verifyBatch E cfg sts ps ts).1 ≠ .panic ∧
      ((Proof.verifyBatch E cfg sts ps ts).1 = .diverge → ¬ EnoughFuel E sts ps ts cfg.fuel) := by
  cases sts with
  | nil =>
    by_cases h1 : ([] : List (Statement P)).length = ps.length
    · by_cases h2 : ([] : List (Statement P)).length = ts.length
      · have e1 : ps = [] := List.length_eq_zero_iff.1 h1.symm
        have e2 : ts = [] := List.length_eq_zero_iff.1 h2.symm
        subst e1 e2
        rw [Proof.verifyBatch_nil]; simp
      · rw [Proof.verifyBatch_len_transcripts E cfg _ _ _ h1 h2]; simp
    · rw [Proof.verifyBatch_len_proofs E cfg _ _ _ h1]; simp
  | cons first rest =>
    have hf := hst first (by simp)
    by_cases hpre : BatchPre first (first :: rest) ps ts
    · by_cases hk : ps.length ≤ u32Max
      · have hs : SizeOK cfg first.params ps.length := ⟨hk, hsz first rfl⟩
        by_cases hz : (0 : F) ∈ challenges E (first :: rest) ps ts
        · rw [Proof.verifyBatch_zero_challenge E cfg first rest hf.ok.params ps ts hpre hs hz]; simp
        · obtain ⟨-, n1, n2⟩ := Proof.verifyBatch_nonzero E cfg first rest hf.ok.params hf.ok.length hf.ok.length1 ps ts hpre hs hz
          by_cases hnz : BatchNonzeroF first.params ps (challenges E (first :: rest) ps ts)
          · rcases (n1 hnz).2 with ⟨ws, -, hr⟩ | ⟨hfu, hr⟩
            · rw [hr]; split <;> simp
            · rw [hr]; simpa using hfu
          · rcases n2 hnz with hr | ⟨hfu, hr⟩
            · rw [hr]; simp
            · rw [hr]; simpa using hfu
      · rw [Proof.verifyBatch_pre E cfg first rest hf.ok.params ps ts hpre, if_pos (by omega)]; simp
    · obtain ⟨msg, hr⟩ := Proof.verifyBatch_not_pre E cfg first rest hf.ok.params ps ts hpre
      rw [hr]; simp

/-- C50: a proof of wrong dimensions anywhere in the batch is rejected before any transcript is touched. -/
theorem C50_shape (E : Env F P) (cfg : Config) (first : Statement P) (rest : List (Statement P))
    (ps : List (Proof F P)) (ts : List Transcript) (hst : StatementBuilt E first) (p : Proof F P) (hp : p ∈ ps)
    (hs : ¬ Shape first.params p) :
    ∃ msg, Proof.verifyBatch E cfg (first :: rest) ps ts = (.err (.InvalidParameter msg), ts) :=
  Proof.verifyBatch_not_pre E cfg first rest hst.ok.params ps ts fun h => hs (h.shapes p hp)

/-! ## The size estimate -/

/-- C56: without overflow checks the size estimate never matters. -/
theorem C56_release (E : Env F P) (cfg : Config) (sts : List (Statement P)) (ps : List (Proof F P))
    (ts : List Transcript) (hst : ∀ s ∈ sts, StatementBuilt E s) (hc : cfg.overflowChecks = false) :
    (Proof.verifyBatch E cfg sts ps ts).1 ≠ .panic :=
  (C50_no_panic E cfg sts ps ts hst fun _ _ h => by rw [hc] at h; simp at h).1

/-- C56: with overflow checks `verify_batch` panics exactly if the batch passes the preliminary checks and the size estimate
does not fit `u32`; otherwise the result and the transcripts are those of a build without overflow checks. -/
theorem C56_debug (E : Env F P) (cfg : Config) (first : Statement P) (rest : List (Statement P))
    (ps : List (Proof F P)) (ts : List Transcript) (hst : ∀ s ∈ first :: rest, StatementBuilt E s) :
    ((Proof.verifyBatch E { cfg with overflowChecks := true } (first :: rest) ps ts).1 = .panic ↔
      BatchPre first (first :: rest) ps ts ∧ ps.length ≤ u32Max ∧ u32Max < batchSize first.params ps.length) ∧
    ((Proof.verifyBatch E { cfg with overflowChecks := true } (first :: rest) ps ts).1 ≠ .panic →
      Proof.verifyBatch E { cfg with overflowChecks := true } (first :: rest) ps ts
        = Proof.verifyBatch E { cfg with overflowChecks := false } (first :: rest) ps ts) := by
  have hf := hst first (by simp)
  by_cases hpre : BatchPre first (first :: rest) ps ts
  · by_cases hk : u32Max < ps.length
    · have h1 : ∀ c : Config, Proof.verifyBatch E c (first :: rest) ps ts =
        (.err (.InvalidParameter "batch size overflowed `u32`"), ts) := fun c => by
        rw [Proof.verifyBatch_pre E _ first rest hf.ok.params ps ts hpre, if_pos hk]
      rw [h1, h1]
      refine ⟨⟨fun h => by simp at h, fun h => by omega⟩, fun _ => rfl⟩
    · by_cases hb : u32Max < batchSize first.params ps.length
      · have h1 : Proof.verifyBatch E { cfg with overflowChecks := true } (first :: rest) ps ts = (.panic, ts) := by
          rw [Proof.verifyBatch_pre E _ first rest hf.ok.params ps ts hpre, if_neg hk, if_pos ⟨rfl, hb⟩]
        rw [h1]
        exact ⟨⟨fun _ => ⟨hpre, by omega, hb⟩, fun _ => rfl⟩, fun h => absurd rfl h⟩
      · refine ⟨⟨fun h => ?_, fun h => by omega⟩, fun _ => ?_⟩
        · exact absurd h (C50_no_panic E { cfg with overflowChecks := true } (first :: rest) ps ts hst
            (fun f he _ => by simp only [List.head?_cons, Option.some.injEq] at he; subst he; omega)).1
        · rw [Proof.verifyBatch_sized E _ first rest hf.ok.params ps ts hpre ⟨by omega, fun _ => by omega⟩,
            Proof.verifyBatch_sized E _ first rest hf.ok.params ps ts hpre ⟨by omega, fun _ => by omega⟩]
          simp only [Proof.finalCheck_overflow E cfg]
  · have h1 := Proof.verifyBatch_not_pre_cfg E { cfg with overflowChecks := true } { cfg with overflowChecks := false }
      first rest hf.ok.params ps ts hpre
    obtain ⟨msg, hr⟩ := Proof.verifyBatch_not_pre E { cfg with overflowChecks := true } first rest hf.ok.params ps ts hpre
    refine ⟨⟨fun h => by rw [hr] at h; simp at h, fun h => absurd h.1 hpre⟩, fun _ => h1⟩

/-- C56: the panic is reachable: the parameters `n = 65535`, `m = 2` are accepted whatever the generators, and for every
statement over them verification of any well-shaped proof panics in builds with overflow checks. -/
theorem C56_reachable (E : Env F P) (cfg : Config) (hc : cfg.overflowChecks = true) (G G1 U : P) :
    ∃ params, Params.newWithGenerators E 65535 2 G G1 U = .ok params ∧
      ∀ st p t, StatementBuilt E st → st.params = params → Shape params p →
        (Proof.verify E cfg p st t).1 = (.panic : Outcome ProofError Unit) := by
  have hok := (C45_new_with_generators E 65535 2 G G1 U).2.2.2 (by norm_num) (by norm_num) (by norm_num)
  obtain ⟨params, hp⟩ := hok
  refine ⟨params, hp, ?_⟩
  intro st p t hst he hs
  subst he
  obtain ⟨-, -, -, h4, h5, -⟩ := newWithGenerators_ok E _ _ _ _ _ _ hp
  have hpre : BatchPre st [st] [p] [t] := ⟨rfl, rfl, by simp, by simp, by simpa using hs⟩
  have := ((C56_debug E cfg st [] [p] [t] (by simpa using hst)).1).2 ⟨hpre, by simp [u32Max], by
    simp only [batchSize, h4, h5, u32Max, List.length_cons, List.length_nil]; norm_num⟩
  rw [← hc] at this
  exact this

/-! ## Examples -/

theorem enoughFuel_mono (E : Env F P) (sts : List (Statement P)) (ps : List (Proof F P)) (ts : List Transcript)
    (q q' : ℕ) (hq : q ≤ q') (h : EnoughFuel E sts ps ts q) : EnoughFuel E sts ps ts q' :=
  le_trans h (usableQuints_prefix E _ q q' hq).length_le

namespace Toy
open Triptych.Toy (env cfg transcript transcript')
/-- The second proof with another `A`: its challenge is zero. -/
def zeroChallenge : Proof (ZMod 101) (ZMod 101) := { proof' with A := 23 }
/-- The second proof with a zero response entry. -/
def zeroResponse : Proof (ZMod 101) (ZMod 101) := { proof' with f := [[0], [1]] }
/-- The second proof with a row missing. -/
def badShape : Proof (ZMod 101) (ZMod 101) := { proof' with f := [[1]] }

theorem batch_facts : BatchPre statement [statement, statement'] [proof, proof'] [transcript, transcript'] ∧
    SizeOK cfg statement.params [proof, proof'].length ∧
    (0 : ZMod 101) ∉ challenges (env 101) [statement, statement'] [proof, proof'] [transcript, transcript'] ∧
    BatchNonzeroF statement.params [proof, proof']
      (challenges (env 101) [statement, statement'] [proof, proof'] [transcript, transcript']) ∧
    ∃ ws, IsWeights (env 101) [statement, statement'] [proof, proof'] [transcript, transcript'] ws ∧
      batchSum statement.params statement.inputSet.M statement.inputSet.M1 [statement, statement'] [proof, proof']
        (challenges (env 101) [statement, statement'] [proof, proof'] [transcript, transcript']) ws = 0 :=
  C50_accepted _ _ _ _ _ _ statement_built batch_ok

theorem batch_fuel : EnoughFuel (env 101) [statement, statement'] [proof, proof'] [transcript, transcript'] cfg.fuel := by
  exact enoughFuel_mono _ _ _ _ 4 _ (by decide) (by rw [EnoughFuel]; decide +kernel)
end Toy

/-- C50_accepted, C50_verdict, C50_valid, C50_challenge, C50_response: a batch of two proofs meets the hypotheses. -/
example : StatementBuilt (Toy.env 101) Toy.statement ∧
    (Proof.verifyBatch (Toy.env 101) Toy.cfg [Toy.statement, Toy.statement'] [Toy.proof, Toy.proof']
      [Toy.transcript, Toy.transcript']).1 = .ok () ∧
    EnoughFuel (Toy.env 101) [Toy.statement, Toy.statement'] [Toy.proof, Toy.proof'] [Toy.transcript, Toy.transcript']
      Toy.cfg.fuel ∧
    (∀ x ∈ [Toy.statement, Toy.statement'].zip ([Toy.proof, Toy.proof'].zip (challenges (Toy.env 101)
        [Toy.statement, Toy.statement'] [Toy.proof, Toy.proof'] [Toy.transcript, Toy.transcript'])),
      Valid Toy.statement.params Toy.statement.inputSet.M Toy.statement.inputSet.M1 x.1.offset x.1.J x.2.1 x.2.2) := by
  refine ⟨Toy.statement_built, Toy.batch_ok, Toy.batch_fuel, ?_⟩
  have : ∀ x ∈ [Toy.statement, Toy.statement'].zip ([Toy.proof, Toy.proof'].zip (challenges (Toy.env 101)
        [Toy.statement, Toy.statement'] [Toy.proof, Toy.proof'] [Toy.transcript, Toy.transcript'])),
      E1 Toy.statement.params x.2.1 x.2.2 = 0 ∧ E2 Toy.statement.params x.2.1 x.2.2 = 0 ∧
        E3 Toy.statement.params Toy.statement.inputSet.M x.2.1 x.2.2 = 0 ∧ E4 Toy.statement.params x.1.J x.2.1 x.2.2 = 0 ∧
        E5 Toy.statement.params Toy.statement.inputSet.M1 x.1.offset x.2.1 x.2.2 = 0 := by
    decide +kernel
  exact fun x hx => ⟨(this x hx).1, (this x hx).2.1, (this x hx).2.2.1, (this x hx).2.2.2.1, (this x hx).2.2.2.2⟩

/-- C50_challenge, C50_transcripts: in this batch the second challenge, and no earlier one, is zero. -/
example : BatchPre Toy.statement [Toy.statement, Toy.statement'] [Toy.proof, Toy.zeroChallenge]
      [Toy.transcript, Toy.transcript'] ∧
    SizeOK Toy.cfg Toy.statement.params [Toy.proof, Toy.zeroChallenge].length ∧
    (challenges (Toy.env 101) [Toy.statement, Toy.statement'] [Toy.proof, Toy.zeroChallenge]
      [Toy.transcript, Toy.transcript'])[1]? = some 0 ∧
    (∀ j < 1, (challenges (Toy.env 101) [Toy.statement, Toy.statement'] [Toy.proof, Toy.zeroChallenge]
      [Toy.transcript, Toy.transcript'])[j]? ≠ some 0) := by
  refine ⟨⟨by simp only [List.length_cons, List.length_nil], by simp only [List.length_cons, List.length_nil],
    by decide +kernel, by decide +kernel, ?_⟩, ⟨by decide, fun _ => by decide +kernel⟩, by decide +kernel, by decide +kernel⟩
  intro p hp
  rcases List.mem_cons.1 hp with hp | hp
  · rw [hp]; exact Toy.batch_facts.1.shapes _ (List.mem_cons_self ..)
  · rw [List.mem_singleton.1 hp]
    exact ⟨by decide +kernel, by decide +kernel, by decide +kernel, by decide +kernel, by decide +kernel⟩

/-- C50_response: in this batch no challenge is zero, and the second proof has a zero response entry. -/
example : BatchPre Toy.statement [Toy.statement, Toy.statement'] [Toy.proof, Toy.zeroResponse]
      [Toy.transcript, Toy.transcript'] ∧
    (0 : ZMod 101) ∉ challenges (Toy.env 101) [Toy.statement, Toy.statement'] [Toy.proof, Toy.zeroResponse]
      [Toy.transcript, Toy.transcript'] ∧
    ¬ BatchNonzeroF Toy.statement.params [Toy.proof, Toy.zeroResponse] (challenges (Toy.env 101)
      [Toy.statement, Toy.statement'] [Toy.proof, Toy.zeroResponse] [Toy.transcript, Toy.transcript']) ∧
    (Proof.verifyBatch (Toy.env 101) Toy.cfg [Toy.statement, Toy.statement'] [Toy.proof, Toy.zeroResponse]
      [Toy.transcript, Toy.transcript']).1 = .err (.InvalidParameter "proof `f` matrix contained 0") := by
  refine ⟨⟨by simp only [List.length_cons, List.length_nil], by simp only [List.length_cons, List.length_nil],
    by decide +kernel, by decide +kernel, ?_⟩, by decide +kernel, ?_, by decide +kernel⟩
  · intro p hp
    rcases List.mem_cons.1 hp with hp | hp
    · rw [hp]; exact Toy.batch_facts.1.shapes _ (List.mem_cons_self ..)
    · rw [List.mem_singleton.1 hp]
      exact ⟨by decide +kernel, by decide +kernel, by decide +kernel, by decide +kernel, by decide +kernel⟩
  · simp only [BatchNonzeroF, NonzeroF]
    decide +kernel

/-- The hypotheses of `C50_no_panic`, `C50_shape` and `C56_release` are met by a built statement, a proof of the wrong shape,
and a build without overflow checks; `C56_debug` needs a built statement only. -/
example : (∀ s ∈ [Toy.statement], StatementBuilt (Toy.env 101) s) ∧ ¬ Shape Toy.statement.params Toy.badShape ∧
    batchSize Toy.statement.params 2 ≤ u32Max ∧ ({ Toy.cfg with overflowChecks := false } : Config).overflowChecks = false := by
  refine ⟨by simpa using Toy.statement_built, fun h => ?_, by decide +kernel, rfl⟩
  have := h.f
  revert this
  decide +kernel

end Triptych.Parallel
