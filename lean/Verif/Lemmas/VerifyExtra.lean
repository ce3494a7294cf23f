import Verif.Lemmas.VerifyResult

/-! # Further facts about `verify_batch`: transcripts after a zero challenge, dependence on the configuration -/
set_option autoImplicit false
set_option linter.unusedSectionVars false
set_option linter.unusedVariables false
set_option linter.unusedSimpArgs false

namespace Triptych
open Finset Spec

variable {F P : Type} [Field F] [AddCommGroup P] [Module F P] [DecidableEq F] [DecidableEq P]

namespace Proof

theorem challengeLoop_err_transcripts (E : Env F P) (params : Params P) (hm : 1 ≤ params.m) (sts : List (Statement P))
    (ps : List (Proof F P)) (ts : List Transcript) (h1 : sts.length = ps.length) (h2 : ts.length = ps.length)
    (wt : Transcript) (i : ℕ) (hi : (challenges E sts ps ts)[i]? = some 0)
    (hmin : ∀ j < i, (challenges E sts ps ts)[j]? ≠ some (0 : F)) :
    ∃ st p t, sts[i]? = some st ∧ ps[i]? = some p ∧ ts[i]? = some t ∧
      (challengeLoop E params sts ps ts wt).2 = (responseTranscripts E sts ps ts).take i ++
          [challengeTranscript E t st.hash p.A p.B p.C p.D p.X p.Y] ++ ts.drop (i + 1) := by
  induction ps generalizing sts ts wt i with
  | nil =>
    have e1 : sts = [] := List.length_eq_zero_iff.1 (by simpa using h1)
    subst e1
    simp [challenges] at hi
  | cons p ps ih =>
    obtain ⟨st, sts, rfl⟩ : ∃ a b, sts = a :: b := by
      cases sts with
      | nil => simp at h1
      | cons a b => exact ⟨a, b, rfl⟩
    obtain ⟨t, ts, rfl⟩ : ∃ a b, ts = a :: b := by
      cases ts with
      | nil => simp at h2
      | cons a b => exact ⟨a, b, rfl⟩
    obtain ⟨c1, c2, c3⟩ := commit_verifier E t st params p
    have hch : challenges E (st :: sts) (p :: ps) (t :: ts) = challenge E t st p :: challenges E sts ps ts := rfl
    have hrt : responseTranscripts E (st :: sts) (p :: ps) (t :: ts)
        = responseTranscript E t st p :: responseTranscripts E sts ps ts := rfl
    rw [hch] at hi hmin
    rw [hrt]
    cases i with
    | zero =>
      simp only [List.getElem?_cons_zero, Option.some.injEq] at hi
      refine ⟨st, p, t, rfl, rfl, rfl, ?_⟩
      rw [challengeLoop]
      simp only []
      rw [xiPowersLoop_eq _ _ (by omega), if_pos hi] at c1
      simp only [c1, c2]
      simp
    | succ i =>
      have h0 : challenge E t st p ≠ 0 := by
        have := hmin 0 (by omega)
        simpa using this
      obtain ⟨st', p', t', a1, a2, a3, a4⟩ := ih sts ts (by simpa using h1) (by simpa using h2)
        (wt.appendU64 "proof" (weightSeed E t st p)) i (by simpa using hi)
        (fun j hj => by have := hmin (j + 1) (by omega); simpa using this)
      refine ⟨st', p', t', by simpa using a1, by simpa using a2, by simpa using a3, ?_⟩
      rw [challengeLoop]
      simp only []
      rw [xiPowersLoop_eq _ _ (by omega), if_neg h0] at c1
      simp only [c1]
      rw [response_eq E _ c3, c2]
      have hs : weightSeed E t st p = (TRng.nextU64 E ⟨responseTranscript E t st p, [], List.replicate 32 0, []⟩).1 := rfl
      rw [hs] at a4
      simp only [responseTranscript] at a4 ⊢
      rw [a4]
      simp

theorem drawWeights_config (E : Env F P) (cfg : Config) (params : Params P) (b : Bool) (acc : Acc F) (trng : TRng)
    (p : Proof F P) (xi : List F) :
    processProof E { cfg with overflowChecks := b } params acc trng p xi = processProof E cfg params acc trng p xi := rfl

theorem processLoop_overflow (E : Env F P) (cfg : Config) (params : Params P) (b : Bool)
    (l : List (Proof F P × List F)) (acc : Acc F) (trng : TRng) :
    processLoop E { cfg with overflowChecks := b } params l acc trng = processLoop E cfg params l acc trng := by
  induction l generalizing acc trng with
  | nil => rfl
  | cons a l ih =>
    obtain ⟨p, xi⟩ := a
    rw [processLoop, processLoop, drawWeights_config]
    simp only [ih]

/-- The final check does not depend on overflow checks. -/
theorem finalCheck_overflow (E : Env F P) (cfg : Config) (b : Bool) (sts : List (Statement P)) (ps : List (Proof F P))
    (params : Params P) (M : List P) (xis : List (List F)) (wt : Transcript) :
    finalCheck E { cfg with overflowChecks := b } sts ps params M xis wt = finalCheck E cfg sts ps params M xis wt := by
  rw [finalCheck, finalCheck]
  simp only [processLoop_overflow]

/-- A batch failing the preliminary checks is rejected in the same way in all builds. -/
theorem verifyBatch_not_pre_cfg (E : Env F P) (cfg cfg' : Config) (first : Statement P) (rest : List (Statement P))
    (hp : ParamsOK first.params) (ps : List (Proof F P)) (ts : List Transcript)
    (h : ¬ BatchPre first (first :: rest) ps ts) :
    verifyBatch E cfg (first :: rest) ps ts = verifyBatch E cfg' (first :: rest) ps ts := by
  rw [verifyBatch, verifyBatch]
  split
  · rfl
  · rename_i h1
    split
    · rfl
    · rename_i h2
      simp only [List.head?_cons]
      split
      · rfl
      · rename_i h3
        split
        · rfl
        · rename_i h4
          have hi : ∀ s ∈ first :: rest, s.inputSet.hash = first.inputSet.hash :=
            (allEqual_iff (fun s : Statement P => s.inputSet.hash) first rest).1 (by simpa using h3)
          have hq : ∀ s ∈ first :: rest, s.params.hash = first.params.hash :=
            (allEqual_iff (fun s : Statement P => s.params.hash) first rest).1 (by simpa using h4)
          have hn := hp.n
          rcases checkShapes_cases first.params (by omega) ps with ⟨_, hs⟩ | ⟨⟨e, he⟩, _⟩
          · exact absurd ⟨not_not.1 h1, not_not.1 h2, hi, hq, hs⟩ h
          · rw [he]
            rfl

end Proof
end Triptych
