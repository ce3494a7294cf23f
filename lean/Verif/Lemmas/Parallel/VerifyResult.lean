import Verif.Lemmas.VerifyResult
import Verif.Lemmas.Parallel.Built

/-! # The result of `verify_batch`, case by case -/
set_option autoImplicit false
set_option linter.unusedSectionVars false
set_option linter.unusedVariables false
set_option linter.unusedSimpArgs false

namespace Triptych.Parallel
open Finset
open Triptych.Parallel.Spec
open Triptych.Spec (grayDigit digit commit fullF ringCoeff NonzeroF maskA selector ringPoly versionBytes points scalars
  weightTranscript weightScalar queryPoint drawn)

variable {F P : Type} [Field F] [AddCommGroup P] [Module F P] [DecidableEq F] [DecidableEq P]

theorem usableQuints_prefix (E : Env F P) (wt : Transcript) (q q' : ℕ) (h : q ≤ q') :
    usableQuints E wt q <+: usableQuints E wt q' := by
  obtain ⟨d, rfl⟩ := Nat.exists_eq_add_of_le h
  rw [usableQuints, usableQuints, List.range_add, List.map_append, List.filter_append]
  exact List.prefix_append _ _

theorem isWeights_unique (E : Env F P) (sts : List (Statement P)) (ps : List (Proof F P)) (ts : List Transcript)
    (ws ws' : List (Proof.Weights F)) (h : IsWeights E sts ps ts ws) (h' : IsWeights E sts ps ts ws') : ws = ws' := by
  obtain ⟨h1, q, h2⟩ := h
  obtain ⟨h1', q', h2'⟩ := h'
  rcases Nat.le_total q q' with hq | hq
  · have := usableQuints_prefix E (weightTranscript "Parallel Triptych verifier weights" (seeds E sts ps ts)) q q' hq
    rw [← h2, ← h2'] at this
    exact this.eq_of_length (by rw [h1, h1'])
  · have := usableQuints_prefix E (weightTranscript "Parallel Triptych verifier weights" (seeds E sts ps ts)) q' q hq
    rw [← h2, ← h2'] at this
    exact (this.eq_of_length (by rw [h1, h1'])).symm

theorem isWeights_exists (E : Env F P) (sts : List (Statement P)) (ps : List (Proof F P)) (ts : List Transcript)
    (fuel : ℕ) (h : EnoughFuel E sts ps ts fuel) : ∃ ws, IsWeights E sts ps ts ws := by
  have key : ∀ (wt : Transcript) (k q : ℕ), k ≤ (usableQuints E wt q).length →
      ∃ q', (usableQuints E wt q').length = k := by
    intro wt k q
    induction q with
    | zero => intro h; exact ⟨0, by simp [usableQuints] at h ⊢; omega⟩
    | succ q ih =>
      intro h
      by_cases hk : k ≤ (usableQuints E wt q).length
      · exact ih hk
      · refine ⟨q + 1, ?_⟩
        have : (usableQuints E wt (q + 1)).length ≤ (usableQuints E wt q).length + 1 := by
          rw [usableQuints, usableQuints, List.range_succ, List.map_append, List.filter_append, List.length_append]
          have := List.length_filter_le usable ([q].map (weightQuint E wt))
          simp only [List.map_cons, List.map_nil, List.length_cons, List.length_nil] at this ⊢
          omega
        omega
  obtain ⟨q, hq⟩ := key _ _ _ h
  exact ⟨_, hq, q, rfl⟩

theorem mem_usableQuints (E : Env F P) (wt : Transcript) (q : ℕ) (w : Proof.Weights F) (h : w ∈ usableQuints E wt q) :
    w.w1 ≠ 0 ∧ w.w2 ≠ 0 ∧ w.w3 ≠ 0 ∧ w.w4 ≠ 0 ∧ w.w5 ≠ 0 := by
  have := (List.mem_filter.1 h).2
  exact of_decide_eq_true this

namespace Proof

theorem drawMany_isWeights (E : Env F P) (sts : List (Statement P)) (ps : List (Proof F P)) (ts : List Transcript)
    (fuel : ℕ) (ws : List (Weights F))
    (h : drawMany E fuel ps.length
      (weightRng (weightTranscript "Parallel Triptych verifier weights" (seeds E sts ps ts)) 0) = some ws) :
    IsWeights E sts ps ts ws := by
  obtain ⟨h1, len, h2⟩ := drawMany_some E _ fuel ps.length 0 ws h
  exact ⟨h1, len, by rw [h2, usableQuints, List.range_eq_range']⟩

theorem drawMany_none_fuel (E : Env F P) (sts : List (Statement P)) (ps : List (Proof F P)) (ts : List Transcript)
    (fuel : ℕ) (h : drawMany E fuel ps.length
      (weightRng (weightTranscript "Parallel Triptych verifier weights" (seeds E sts ps ts)) 0) = none) :
    ¬ EnoughFuel E sts ps ts fuel := by
  have := drawMany_none E _ fuel ps.length 0 h fuel (le_refl _)
  rw [← List.range_eq_range'] at this
  rw [EnoughFuel, usableQuints]
  omega

variable (E : Env F P) (cfg : Config)

theorem verifyBatch_len_proofs (sts : List (Statement P)) (ps : List (Proof F P)) (ts : List Transcript)
    (h : sts.length ≠ ps.length) : verifyBatch E cfg sts ps ts =
      (.err (.InvalidParameter "number of statements and proofs does not match"), ts) := by
  rw [verifyBatch, if_pos h]

theorem verifyBatch_len_transcripts (sts : List (Statement P)) (ps : List (Proof F P)) (ts : List Transcript)
    (h1 : sts.length = ps.length) (h : sts.length ≠ ts.length) : verifyBatch E cfg sts ps ts =
      (.err (.InvalidParameter "number of statements and transcripts does not match"), ts) := by
  rw [verifyBatch, if_neg (not_not.2 h1), if_pos h]

theorem verifyBatch_nil : verifyBatch E cfg [] ([] : List (Proof F P)) [] = (.ok (), []) := by
  simp [verifyBatch]

/-- The batch fails one of the preliminary checks: an error, nothing appended to the transcripts. -/
theorem verifyBatch_not_pre (first : Statement P) (rest : List (Statement P)) (hp : ParamsOK first.params)
    (ps : List (Proof F P)) (ts : List Transcript) (h : ¬ BatchPre first (first :: rest) ps ts) :
    ∃ msg, verifyBatch E cfg (first :: rest) ps ts = (.err (.InvalidParameter msg), ts) := by
  rw [verifyBatch]
  split
  · exact ⟨_, rfl⟩
  · rename_i h1
    split
    · exact ⟨_, rfl⟩
    · rename_i h2
      simp only [List.head?_cons]
      split
      · exact ⟨_, rfl⟩
      · rename_i h3
        split
        · exact ⟨_, rfl⟩
        · rename_i h4
          have hi : ∀ s ∈ first :: rest, s.inputSet.hash = first.inputSet.hash :=
            (allEqual_iff (fun s : Statement P => s.inputSet.hash) first rest).1 (by simpa using h3)
          have hq : ∀ s ∈ first :: rest, s.params.hash = first.params.hash :=
            (allEqual_iff (fun s : Statement P => s.params.hash) first rest).1 (by simpa using h4)
          have hn := hp.n
          rcases checkShapes_cases first.params (by omega) ps with ⟨_, hs⟩ | ⟨⟨e, he⟩, _⟩
          · exact absurd ⟨not_not.1 h1, not_not.1 h2, hi, hq, hs⟩ h
          · rw [he]
            exact ⟨_, rfl⟩

/-- With all preliminary checks passed, the size of the final check decides about a panic or an error. -/
theorem verifyBatch_pre (first : Statement P) (rest : List (Statement P)) (hp : ParamsOK first.params)
    (ps : List (Proof F P)) (ts : List Transcript) (h : BatchPre first (first :: rest) ps ts) :
    verifyBatch E cfg (first :: rest) ps ts =
      if u32Max < ps.length then (.err (.InvalidParameter "batch size overflowed `u32`"), ts)
      else if cfg.overflowChecks = true ∧ u32Max < batchSize first.params ps.length then (.panic, ts)
      else
        ((challengeLoop E first.params (first :: rest) ps ts weightTranscriptStart).1 >>=
          fun x => finalCheck E cfg (first :: rest) ps first.params first.inputSet.M first.inputSet.M1 x.1 x.2,
          (challengeLoop E first.params (first :: rest) ps ts weightTranscriptStart).2) := by
  have hn := hp.n
  have hi : allEqual ((first :: rest).map fun s : Statement P => s.inputSet.hash) = true :=
    (allEqual_iff (fun s : Statement P => s.inputSet.hash) first rest).2 h.inputSets
  have hq : allEqual ((first :: rest).map fun s : Statement P => s.params.hash) = true :=
    (allEqual_iff (fun s : Statement P => s.params.hash) first rest).2 h.params
  have hs : ps.forM (checkShape first.params) = .ok () :=
    forM_ok _ _ fun p hp => (checkShape_ok_iff first.params (by omega) p).2 (h.shapes p hp)
  rw [verifyBatch, if_neg (not_not.2 h.proofs), if_neg (not_not.2 h.transcripts)]
  simp only [List.head?_cons, hi, hq, hs, Bool.not_true, Bool.false_eq_true, if_false, Outcome.bind_ok]
  rw [finalSize_eq cfg _ hp]
  by_cases h1 : u32Max < ps.length
  · rw [if_neg (by omega), if_pos h1]; rfl
  · rw [if_pos (by omega), if_neg h1]
    by_cases h2 : u32Max < batchSize first.params ps.length
    · rw [if_neg (by omega)]
      cases hc : cfg.overflowChecks with
      | true => simp [h2]
      | false => simp
    · rw [if_pos (by omega), if_neg (by omega)]
      rfl

theorem verifyBatch_sized (first : Statement P) (rest : List (Statement P)) (hp : ParamsOK first.params)
    (ps : List (Proof F P)) (ts : List Transcript) (h : BatchPre first (first :: rest) ps ts)
    (hsz : SizeOK cfg first.params ps.length) :
    verifyBatch E cfg (first :: rest) ps ts =
        ((challengeLoop E first.params (first :: rest) ps ts weightTranscriptStart).1 >>=
          fun x => finalCheck E cfg (first :: rest) ps first.params first.inputSet.M first.inputSet.M1 x.1 x.2,
          (challengeLoop E first.params (first :: rest) ps ts weightTranscriptStart).2) := by
  rw [verifyBatch_pre E cfg first rest hp ps ts h, if_neg (by have := hsz.1; omega), if_neg]
  rintro ⟨h1, h2⟩
  have := hsz.2 h1
  omega

theorem verifyBatch_zero_challenge (first : Statement P) (rest : List (Statement P)) (hp : ParamsOK first.params)
    (ps : List (Proof F P)) (ts : List Transcript) (h : BatchPre first (first :: rest) ps ts)
    (hsz : SizeOK cfg first.params ps.length) (hz : (0 : F) ∈ challenges E (first :: rest) ps ts) :
    (verifyBatch E cfg (first :: rest) ps ts).1 = .err .InvalidChallenge := by
  have hm := hp.m
  rw [verifyBatch_sized E cfg first rest hp ps ts h hsz]
  have := challengeLoop_err E first.params (by omega) (first :: rest) ps ts h.proofs (by rw [← h.transcripts, h.proofs])
    weightTranscriptStart (fun hh => hh 0 hz rfl)
  simp only [this, Outcome.bind_err]

theorem challenges_length (sts : List (Statement P)) (ps : List (Proof F P)) (ts : List Transcript)
    (h1 : sts.length = ps.length) (h2 : sts.length = ts.length) : (challenges E sts ps ts).length = ps.length := by
  simp [challenges, h1, ← h2]

/-- Every challenge is non-zero. -/
theorem verifyBatch_nonzero (first : Statement P) (rest : List (Statement P)) (hp : ParamsOK first.params)
    (hM : first.inputSet.M.length = first.params.n ^ first.params.m)
    (hM1 : first.inputSet.M1.length = first.params.n ^ first.params.m)
    (ps : List (Proof F P)) (ts : List Transcript) (h : BatchPre first (first :: rest) ps ts)
    (hsz : SizeOK cfg first.params ps.length) (hz : (0 : F) ∉ challenges E (first :: rest) ps ts) :
    (verifyBatch E cfg (first :: rest) ps ts).2 = responseTranscripts E (first :: rest) ps ts ∧
    ((∀ x ∈ ps.zip (challenges E (first :: rest) ps ts), NonzeroF first.params.n first.params.m x.1.f x.2) →
      (∀ ws, IsWeights E (first :: rest) ps ts ws → EnoughFuel E (first :: rest) ps ts cfg.fuel →
        (verifyBatch E cfg (first :: rest) ps ts).1 =
          if batchSum first.params first.inputSet.M first.inputSet.M1 (first :: rest) ps (challenges E (first :: rest) ps ts) ws = 0
          then .ok () else .err .FailedVerification) ∧
      ((∃ ws, IsWeights E (first :: rest) ps ts ws ∧ (verifyBatch E cfg (first :: rest) ps ts).1 =
          if batchSum first.params first.inputSet.M first.inputSet.M1 (first :: rest) ps (challenges E (first :: rest) ps ts) ws = 0
          then .ok () else .err .FailedVerification) ∨
        (¬ EnoughFuel E (first :: rest) ps ts cfg.fuel ∧ (verifyBatch E cfg (first :: rest) ps ts).1 = .diverge))) ∧
    (¬ (∀ x ∈ ps.zip (challenges E (first :: rest) ps ts), NonzeroF first.params.n first.params.m x.1.f x.2) →
      (verifyBatch E cfg (first :: rest) ps ts).1 = .err (.InvalidParameter "proof `f` matrix contained 0") ∨
      (¬ EnoughFuel E (first :: rest) ps ts cfg.fuel ∧ (verifyBatch E cfg (first :: rest) ps ts).1 = .diverge)) := by
  have hm := hp.m
  have hl := challenges_length E (first :: rest) ps ts h.proofs h.transcripts
  have hts : ts.length = ps.length := by rw [← h.transcripts, h.proofs]
  rw [verifyBatch_sized E cfg first rest hp ps ts h hsz]
  rw [challengeLoop_ok E first.params (by omega) (first :: rest) ps ts h.proofs hts weightTranscriptStart
    (fun ξ hξ h0 => hz (h0 ▸ hξ)), weightTranscript_eq]
  simp only [Outcome.bind_ok, true_and]
  obtain ⟨f1, f2⟩ := finalCheck_eq E cfg first.params hp first.inputSet.M hM first.inputSet.M1 hM1 (first :: rest) ps
    (challenges E (first :: rest) ps ts) h.proofs hl h.shapes
    (weightTranscript "Parallel Triptych verifier weights" (seeds E (first :: rest) ps ts))
  constructor
  · intro hnz
    obtain ⟨f3, f4⟩ := f1 hnz
    cases hd : drawMany E cfg.fuel ps.length
      (weightRng (weightTranscript "Parallel Triptych verifier weights" (seeds E (first :: rest) ps ts)) 0) with
    | none =>
      have hnf := drawMany_none_fuel E (first :: rest) ps ts cfg.fuel hd
      exact ⟨fun ws _ hf => absurd hf hnf, Or.inr ⟨hnf, f4 hd⟩⟩
    | some ws0 =>
      have hw0 := drawMany_isWeights E (first :: rest) ps ts cfg.fuel ws0 hd
      refine ⟨fun ws hw _ => ?_, Or.inl ⟨ws0, hw0, f3 ws0 hd⟩⟩
      rw [isWeights_unique E (first :: rest) ps ts ws ws0 hw hw0]
      exact f3 ws0 hd
  · intro hnz
    rcases f2 hnz with h1 | ⟨h1, h2⟩
    · exact Or.inl h1
    · exact Or.inr ⟨drawMany_none_fuel E (first :: rest) ps ts cfg.fuel h2, h1⟩

end Proof
end Triptych.Parallel
