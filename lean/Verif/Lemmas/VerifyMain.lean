import Verif.Lemmas.VerifyBatch

/-! # `verify_batch` in closed form -/
set_option autoImplicit false
set_option linter.unusedSectionVars false
set_option linter.unusedVariables false
set_option linter.unusedSimpArgs false

namespace Triptych
open Finset Spec

variable {F P : Type} [Field F] [AddCommGroup P] [Module F P] [DecidableEq F] [DecidableEq P]

namespace Proof

/-! ## Shape and size checks -/

omit [AddCommGroup P] [Field F] [Module F P] [DecidableEq F] [DecidableEq P] in
theorem checkRows_ok_iff (params : Params P) (hn : 1 ≤ params.n) (rows : List (List F)) :
    checkRows params rows = .ok () ↔ ∀ row ∈ rows, row.length = params.n - 1 := by
  have h : checkedSub params.n 1 = some (params.n - 1) := by simp [checkedSub, hn]
  rw [checkRows, forM_ok_iff]
  simp only [h, Outcome.ofOption, Outcome.bind_ok]
  constructor
  · intro hh row hrow
    have := hh row hrow
    by_contra hne
    rw [if_pos hne] at this
    simp at this
  · intro hh row hrow
    rw [if_neg (not_not.2 (hh row hrow))]

omit [AddCommGroup P] [Field F] [Module F P] [DecidableEq F] [DecidableEq P] in
theorem checkRows_cases (params : Params P) (hn : 1 ≤ params.n) (rows : List (List F)) :
    checkRows params rows = .ok () ∨
      checkRows params rows = .err (.InvalidParameter "proof `f` matrix did not have `n - 1` columns") := by
  have h : checkedSub params.n 1 = some (params.n - 1) := by simp [checkedSub, hn]
  rw [checkRows]
  simp only [h, Outcome.ofOption, Outcome.bind_ok]
  induction rows with
  | nil => left; rfl
  | cons a l ih =>
    rw [forM_cons]
    split
    · right; rfl
    · rw [Outcome.bind_ok]; exact ih

omit [DecidableEq F] [DecidableEq P] [Field F] [AddCommGroup P] [Module F P] in
theorem checkShape_ok_iff (params : Params P) (hn : 1 ≤ params.n) (p : Proof F P) :
    checkShape params p = .ok () ↔ Shape params p := by
  rw [checkShape]
  split
  · rename_i h; exact ⟨fun hh => by simp at hh, fun hh => absurd hh.X h⟩
  · split
    · rename_i h; exact ⟨fun hh => by simp at hh, fun hh => absurd hh.Y h⟩
    · split
      · rename_i h; exact ⟨fun hh => by simp at hh, fun hh => absurd hh.f h⟩
      · rename_i h1 h2 h3
        rw [checkRows_ok_iff params hn]
        exact ⟨fun hh => ⟨not_not.1 h1, not_not.1 h2, not_not.1 h3, hh⟩, fun hh => hh.row⟩

omit [DecidableEq F] [DecidableEq P] [Field F] [AddCommGroup P] [Module F P] in
theorem checkShape_cases (params : Params P) (hn : 1 ≤ params.n) (p : Proof F P) :
    checkShape params p = .ok () ∨ ∃ e, checkShape params p = .err (.InvalidParameter e) := by
  rw [checkShape]
  split
  · right; exact ⟨_, rfl⟩
  · split
    · right; exact ⟨_, rfl⟩
    · split
      · right; exact ⟨_, rfl⟩
      · rcases checkRows_cases params hn p.f with h | h
        · left; exact h
        · right; exact ⟨_, h⟩

omit [DecidableEq F] [DecidableEq P] [Field F] [AddCommGroup P] [Module F P] in
theorem checkShapes_cases (params : Params P) (hn : 1 ≤ params.n) (ps : List (Proof F P)) :
    (ps.forM (checkShape params) = .ok () ∧ ∀ p ∈ ps, Shape params p) ∨
      ((∃ e, ps.forM (checkShape params) = .err (.InvalidParameter e)) ∧ ∃ p ∈ ps, ¬ Shape params p) := by
  by_cases h : ∀ p ∈ ps, Shape params p
  · left
    exact ⟨forM_ok _ _ fun p hp => (checkShape_ok_iff params hn p).2 (h p hp), h⟩
  · right
    have hne : ps.forM (checkShape params) ≠ .ok () := by
      rw [Ne, forM_ok_iff]
      intro hh
      exact h fun p hp => (checkShape_ok_iff params hn p).1 (hh p hp)
    refine ⟨?_, by simpa only [not_forall, exists_prop] using h⟩
    clear h
    induction ps with
    | nil => exact absurd rfl hne
    | cons a l ih =>
      rw [forM_cons] at hne ⊢
      rcases checkShape_cases params hn a with h1 | ⟨e, h1⟩
      · rw [h1, Outcome.bind_ok] at hne ⊢; exact ih hne
      · rw [h1]; exact ⟨e, rfl⟩

omit [AddCommGroup P] [DecidableEq P] in
theorem finalSize_eq (cfg : Config) (params : Params P) (hp : ParamsOK params) (k : ℕ) :
    finalSize cfg params k =
      if k ≤ u32Max then
        if batchSize params k ≤ u32Max then .ok (batchSize params k)
        else if cfg.overflowChecks then .panic else .ok (batchSize params k % 2 ^ 32)
      else .err (.InvalidParameter "batch size overflowed `u32`") := by
  rw [finalSize, hp.getN]
  rfl

/-! ## The challenge loop -/

omit [AddCommGroup P] [Module F P] [DecidableEq P] in
theorem commit_verifier (E : Env F P) (t : Transcript) (st : Statement P) (params : Params P) (p : Proof F P) :
    ((ProofTranscript.new E nullRng t st () (none : Option (Witness F P))).commit E nullRng params p.A p.B p.C p.D p.X
        p.Y).1 = xiPowersLoop (challenge E t st p) (params.m + 1) 1 ∧
    ((ProofTranscript.new E nullRng t st () (none : Option (Witness F P))).commit E nullRng params p.A p.B p.C p.D p.X
        p.Y).2.transcript = challengeTranscript E t st.hash p.A p.B p.C p.D p.X p.Y ∧
    ((ProofTranscript.new E nullRng t st () (none : Option (Witness F P))).commit E nullRng params p.A p.B p.C p.D p.X
        p.Y).2.witness = none := by
  have h := commit_transcript E nullRng t st () (none : Option (Witness F P)) params
    (ProofTranscript.new E nullRng t st () (none : Option (Witness F P))).trng p.A p.B p.C p.D p.X p.Y
  exact ⟨h.2, h.1, rfl⟩

/-- The appended weight seeds. -/
def seedOps (l : List ℕ) : Transcript := l.map fun x => .append "proof" (leBytes 8 x)

omit [AddCommGroup P] [Module F P] [DecidableEq P] in
theorem challengeLoop_ok (E : Env F P) (params : Params P) (hm : 1 ≤ params.m) (sts : List (Statement P))
    (ps : List (Proof F P)) (ts : List Transcript) (h1 : sts.length = ps.length) (h2 : ts.length = ps.length)
    (wt : Transcript) (hall : ∀ ξ ∈ challenges E sts ps ts, ξ ≠ 0) :
    challengeLoop E params sts ps ts wt =
      (.ok ((challenges E sts ps ts).map (fun ξ => (List.range (params.m + 1)).map fun j => ξ ^ j),
        wt ++ seedOps (seeds E sts ps ts)), responseTranscripts E sts ps ts) := by
  induction ps generalizing sts ts wt with
  | nil =>
    have e1 : sts = [] := List.length_eq_zero_iff.1 (by simpa using h1)
    have e2 : ts = [] := List.length_eq_zero_iff.1 (by simpa using h2)
    subst e1 e2
    simp [challengeLoop, challenges, seeds, responseTranscripts, seedOps]
  | cons p ps ih =>
    obtain ⟨st, sts, rfl⟩ : ∃ a b, sts = a :: b := by
      cases sts with
      | nil => simp at h1
      | cons a b => exact ⟨a, b, rfl⟩
    obtain ⟨t, ts, rfl⟩ : ∃ a b, ts = a :: b := by
      cases ts with
      | nil => simp at h2
      | cons a b => exact ⟨a, b, rfl⟩
    obtain ⟨c1, c2, c3⟩ := commit_verifier E t st params p
    have hξ : challenge E t st p ≠ 0 := hall _ (by simp [challenges])
    rw [xiPowersLoop_eq _ _ hm, if_neg hξ] at c1
    rw [challengeLoop]
    simp only [c1, response_eq E _ c3, c2]
    have hi := ih sts ts (by simpa using h1) (by simpa using h2)
      (wt.appendU64 "proof" (weightSeed E t st p))
      (fun ξ hξ => hall ξ (by simp only [challenges, List.zip_cons_cons, List.map_cons, List.mem_cons]; right; exact hξ))
    have hseed : ((TRng.nextU64 E ⟨responseTranscript E t st p, [], List.replicate 32 0, []⟩).1 : ℕ)
        = weightSeed E t st p := rfl
    have hresp : challengeTranscript E t st.hash p.A p.B p.C p.D p.X p.Y ++ scalars E "f" p.f.flatten ++
        [Op.append "z_A" (E.scalarBytes p.zA), Op.append "z_C" (E.scalarBytes p.zC), Op.append "z" (E.scalarBytes p.z)]
        = responseTranscript E t st p := rfl
    rw [hresp, hseed, hi]
    simp [challenges, seeds, responseTranscripts, seedOps, Transcript.appendU64, Transcript.appendMessage]

omit [AddCommGroup P] [Module F P] [DecidableEq P] in
theorem challengeLoop_err (E : Env F P) (params : Params P) (hm : 1 ≤ params.m) (sts : List (Statement P))
    (ps : List (Proof F P)) (ts : List Transcript) (h1 : sts.length = ps.length) (h2 : ts.length = ps.length)
    (wt : Transcript) (hall : ¬ ∀ ξ ∈ challenges E sts ps ts, ξ ≠ 0) :
    (challengeLoop E params sts ps ts wt).1 = .err .InvalidChallenge := by
  induction ps generalizing sts ts wt with
  | nil =>
    have e1 : sts = [] := List.length_eq_zero_iff.1 (by simpa using h1)
    have e2 : ts = [] := List.length_eq_zero_iff.1 (by simpa using h2)
    subst e1 e2
    simp [challenges] at hall
  | cons p ps ih =>
    obtain ⟨st, sts, rfl⟩ : ∃ a b, sts = a :: b := by
      cases sts with
      | nil => simp at h1
      | cons a b => exact ⟨a, b, rfl⟩
    obtain ⟨t, ts, rfl⟩ : ∃ a b, ts = a :: b := by
      cases ts with
      | nil => simp at h2
      | cons a b => exact ⟨a, b, rfl⟩
    obtain ⟨c1, c2, c3⟩ := commit_verifier E t st params p
    rw [xiPowersLoop_eq _ _ hm] at c1
    rw [challengeLoop]
    by_cases hξ : challenge E t st p = 0
    · rw [if_pos hξ] at c1
      simp only [c1]
    · rw [if_neg hξ] at c1
      simp only [c1]
      have hi := ih sts ts (by simpa using h1) (by simpa using h2)
        (wt.appendU64 "proof" (TRng.nextU64 E
          (((ProofTranscript.new E nullRng t st () (none : Option (Witness F P))).commit E nullRng params p.A p.B p.C
            p.D p.X p.Y).2.response E nullRng p.f p.zA p.zC p.z).1).1)
        (fun hh => hall (by
          intro ξ hm
          simp only [challenges, List.zip_cons_cons, List.map_cons, List.mem_cons] at hm
          rcases hm with rfl | hm
          · exact hξ
          · exact hh ξ hm))
      rw [hi]
      rfl

/-! ## The complete check -/

omit [AddCommGroup P] [DecidableEq P] [Field F] [Module F P] [DecidableEq F] in
theorem finalPoints_eq (sts : List (Statement P)) (ps : List (Proof F P)) (params : Params P) (M : List P) :
    finalPoints sts ps params M = ((ps.zip sts).flatMap fun x => pointsOf x.1 x.2.J)
      ++ [params.G] ++ params.CommitmentG ++ [params.CommitmentH] ++ M ++ [params.U] := rfl

omit [DecidableEq F] [DecidableEq P] in
theorem finalScalars_msm {ε : Type} (acc : Acc F) (params : Params P) (M : List P) (pts : List P)
    (h : acc.OK params M pts) :
    (msm acc.finalScalars (pts ++ [params.G] ++ params.CommitmentG ++ [params.CommitmentH] ++ M ++ [params.U]) :
      Outcome ε P) = .ok (acc.value params M pts) := by
  rw [msm_ok]
  · rw [Acc.finalScalars, msmSum_append _ _ _ _ (by simp [h.scalars, h.CG, h.M]),
      msmSum_append _ _ _ _ (by simp [h.scalars, h.CG]), msmSum_append _ _ _ _ (by simp [h.scalars, h.CG]),
      msmSum_append _ _ _ _ (by simp [h.scalars]), msmSum_append _ _ _ _ h.scalars]
    simp only [msmSum_singleton, Acc.value]
  · simp [Acc.finalScalars, h.scalars, h.CG, h.M]

theorem weightTranscript_eq (l : List ℕ) :
    weightTranscriptStart ++ seedOps l = weightTranscript "Triptych verifier weights" l := by
  rw [weightTranscriptStart, version_append]
  rfl

theorem finalCheck_eq (E : Env F P) (cfg : Config) (params : Params P) (hp : ParamsOK params) (M : List P)
    (hM : M.length = params.n ^ params.m) (sts : List (Statement P)) (ps : List (Proof F P)) (ξs : List F)
    (h1 : sts.length = ps.length) (h2 : ξs.length = ps.length) (hs : ∀ p ∈ ps, Shape params p) (wt : Transcript) :
    ((∀ x ∈ ps.zip ξs, NonzeroF params.n params.m x.1.f x.2) →
      (∀ ws, drawMany E cfg.fuel ps.length (weightRng wt 0) = some ws →
        finalCheck E cfg sts ps params M (ξs.map fun ξ => (List.range (params.m + 1)).map fun j => ξ ^ j) wt
          = if batchSum params M sts ps ξs ws = 0 then .ok () else .err .FailedVerification) ∧
      (drawMany E cfg.fuel ps.length (weightRng wt 0) = none →
        finalCheck E cfg sts ps params M (ξs.map fun ξ => (List.range (params.m + 1)).map fun j => ξ ^ j) wt
          = .diverge)) ∧
    (¬ (∀ x ∈ ps.zip ξs, NonzeroF params.n params.m x.1.f x.2) →
      finalCheck E cfg sts ps params M (ξs.map fun ξ => (List.range (params.m + 1)).map fun j => ξ ^ j) wt
        = .err (.InvalidParameter "proof `f` matrix contained 0") ∨
      (finalCheck E cfg sts ps params M (ξs.map fun ξ => (List.range (params.m + 1)).map fun j => ξ ^ j) wt
        = .diverge ∧ drawMany E cfg.fuel ps.length (weightRng wt 0) = none)) := by
  have hacc : (Acc.init params M : Acc F).OK params M [] := by
    constructor <;> simp [Acc.init]
  have hrng : (TRng.finalize nullRng wt [] ()).1 = weightRng wt 0 := rfl
  obtain ⟨g1, g2⟩ := processLoop_eq E cfg params hp M hM sts ps ξs h1 h2 hs (Acc.init params M) [] hacc
    (weightRng wt 0)
  rw [finalCheck]
  simp only [hrng]
  refine ⟨fun hnz => ⟨?_, ?_⟩, ?_⟩
  · intro ws hws
    obtain ⟨acc', k1, k2, k3⟩ := (g1 hnz).1 ws hws
    rw [k1, Outcome.bind_ok, finalPoints_eq]
    rw [List.nil_append] at k2 k3
    rw [finalScalars_msm _ _ _ _ k2, k3, Outcome.bind_ok]
    have hz : (Acc.init params M : Acc F).value params M [] = 0 := by
      simp [Acc.value, Acc.init, msmSum_replicate_zero]
    rw [hz, zero_add]
  · intro hnone
    rw [(g1 hnz).2 hnone]; rfl
  · intro hnz
    rcases g2 hnz with h | ⟨h, h'⟩
    · left; rw [h]; rfl
    · right; rw [h]; exact ⟨rfl, h'⟩

end Proof
end Triptych
