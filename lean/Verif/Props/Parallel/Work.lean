import Verif.Props.Work
import Verif.Model.Parallel.VerifyTraced
import Verif.Lemmas.Leak
import Verif.Props.Parallel.Verify

/-! # The parallel verifier's multiscalar multiplication: C69 -/
set_option autoImplicit false
set_option linter.unusedSectionVars false
set_option linter.unusedVariables false

namespace Triptych.Parallel
open Triptych.Parallel.Spec
open Triptych.Spec (NonzeroF)
open Traced

variable {F P : Type} [Field F] [AddCommGroup P] [Module F P] [DecidableEq F] [DecidableEq P]

/-- C69: the recorded run returns what `verify_batch` returns. -/
theorem C69_erase_parallel (E : Env F P) (cfg : Config) (sts : List (Statement P)) (ps : List (Proof F P)) (ts : List Transcript) :
    ((Proof.verifyBatchT E cfg sts ps ts).1.out, (Proof.verifyBatchT E cfg sts ps ts).2) = Proof.verifyBatch E cfg sts ps ts := by
  rw [Proof.verifyBatchT, Proof.verifyBatch]
  by_cases hl1 : sts.length ≠ ps.length
  · rw [if_pos hl1, if_pos hl1]; rfl
  by_cases hl2 : sts.length ≠ ts.length
  · rw [if_neg hl1, if_neg hl1, if_pos hl2, if_pos hl2]; rfl
  rw [if_neg hl1, if_neg hl1, if_neg hl2, if_neg hl2]
  rcases sts with _ | ⟨first, rest⟩
  · rfl
  simp only [List.head?_cons]
  by_cases hi1 : (!allEqual ((first :: rest).map fun s => s.inputSet.hash)) = true
  · rw [if_pos hi1, if_pos hi1]; rfl
  by_cases hi2 : (!allEqual ((first :: rest).map fun s => s.params.hash)) = true
  · rw [if_neg hi1, if_neg hi1, if_pos hi2, if_pos hi2]; rfl
  rw [if_neg hi1, if_neg hi1, if_neg hi2, if_neg hi2]
  rcases h1 : ps.forM (Proof.checkShape first.params) with _ | e | _ | _
  · rcases h2 : Proof.finalSize cfg first.params ps.length with c | e | _ | _
    · simp only [Outcome.bind_ok, bind_out, leak_out, lift_out]
      congr 1
      congr 1
      funext x
      simp only [Proof.finalCheckT, Proof.finalCheck, bind_out, lift_out, msmT_out]
    all_goals rfl
  all_goals rfl

theorem Proof.finalPoints_length (params : Params P) (hp : ParamsOK params) (M M1 : List P)
    (hM : M.length = params.n ^ params.m) (hM1 : M1.length = params.n ^ params.m) (sts : List (Statement P)) (ps : List (Proof F P))
    (hl : sts.length = ps.length) (hsh : ∀ p ∈ ps, Shape params p) :
    (Proof.finalPoints sts ps params M M1).length =
      2 * params.n ^ params.m + params.n * params.m + 4 + ps.length * (6 + 3 * params.m) := by
  have key : ∀ (ps : List (Proof F P)) (sts : List (Statement P)), sts.length = ps.length → (∀ p ∈ ps, Shape params p) →
      ((ps.zip sts).flatMap fun (p, s) => [p.A, p.B, p.C, p.D, s.J] ++ p.X ++ p.X1 ++ p.Y ++ [s.offset]).length = ps.length * (6 + 3 * params.m) := by
    intro ps
    induction ps with
    | nil => intro sts _ _; simp
    | cons p ps ih =>
      intro sts hl hsh
      rcases sts with _ | ⟨s, sts⟩
      · simp at hl
      · have := ih sts (by simpa using hl) (fun q hq => hsh q (by simp [hq]))
        have hs := hsh p (by simp)
        simp only [List.zip_cons_cons, List.flatMap_cons, List.length_append, this, hs.X, hs.X1, hs.Y, List.length_cons,
          List.length_nil]
        ring
  simp only [Proof.finalPoints, List.length_append, key ps sts hl hsh, hM, hM1, hp.CG, List.length_cons, List.length_nil]
  ring

theorem Proof.finalSize_mod (cfg : Config) (params : Params P) (hp : ParamsOK params) (k c : ℕ)
    (h : Proof.finalSize cfg params k = .ok c) :
    c = (2 * params.n ^ params.m + params.n * params.m + 4 + k * (6 + 3 * params.m)) % 2 ^ 32 := by
  rw [Proof.finalSize_eq cfg _ hp] at h
  have e : batchSize params k = 2 * params.n ^ params.m + params.n * params.m + 4 + k * (6 + 3 * params.m) := by
    rw [batchSize]; ring
  rw [e] at h
  split at h
  · split at h
    · rename_i h1 h2
      simp only [Outcome.ok.injEq] at h
      rw [u32Max] at h2
      rw [Nat.mod_eq_of_lt (by omega), h]
    · split at h
      · simp at h
      · simpa using h.symm
  · simp at h

theorem Proof.challengeLoop_fail (E : Env F P) (params : Params P) (hp : ParamsOK params) (sts : List (Statement P))
    (ps : List (Proof F P)) (ts : List Transcript) (h1 : sts.length = ps.length) (h2 : sts.length = ts.length)
    (h : (Proof.challengeLoop E params sts ps ts Proof.weightTranscriptStart).1 = .err .FailedVerification) : False := by
  have hm := hp.m
  by_cases hz : ∀ ξ ∈ challenges E sts ps ts, ξ ≠ 0
  · rw [Proof.challengeLoop_ok E params (by omega) sts ps ts h1 (by omega) _ hz] at h
    simp at h
  · rw [Proof.challengeLoop_err E params (by omega) sts ps ts h1 (by omega) _ hz] at h
    simp at h

theorem Proof.processLoop_fail (E : Env F P) (cfg : Config) (params : Params P) (hp : ParamsOK params) (M M1 : List P)
    (hM : M.length = params.n ^ params.m) (hM1 : M1.length = params.n ^ params.m) (sts : List (Statement P)) (ps : List (Proof F P)) (ts : List Transcript)
    (h1 : sts.length = ps.length) (h2 : sts.length = ts.length) (hsh : ∀ p ∈ ps, Shape params p)
    (x : List (List F) × Transcript)
    (h : (Proof.challengeLoop E params sts ps ts Proof.weightTranscriptStart).1 = .ok x)
    (h' : Proof.processLoop E cfg params (ps.zip x.1) (Proof.Acc.init params M M1) (TRng.finalize nullRng x.2 [] ()).1
      = .err .FailedVerification) : False := by
  have hm := hp.m
  have hacc : (Proof.Acc.init params M M1 : Proof.Acc F).OK params M M1 [] := by
    constructor <;> simp [Proof.Acc.init]
  by_cases hz : ∀ ξ ∈ challenges E sts ps ts, ξ ≠ 0
  · rw [Proof.challengeLoop_ok E params (by omega) sts ps ts h1 (by omega) _ hz] at h
    simp only [Outcome.ok.injEq] at h
    subst h
    obtain ⟨g1, g2⟩ := Proof.processLoop_eq E cfg params hp M hM M1 hM1 sts ps (challenges E sts ps ts) h1
      (Proof.challenges_length E sts ps ts h1 h2) hsh (Proof.Acc.init params M M1) [] hacc
      (TRng.finalize nullRng (Proof.weightTranscriptStart ++ Triptych.Proof.seedOps (seeds E sts ps ts)) [] ()).1
    by_cases hnz : ∀ x ∈ ps.zip (challenges E sts ps ts), NonzeroF params.n params.m x.1.f x.2
    · rcases hd : Proof.drawMany E cfg.fuel ps.length
          (TRng.finalize nullRng (Proof.weightTranscriptStart ++ Triptych.Proof.seedOps (seeds E sts ps ts)) [] ()).1 with _ | ws
      · rw [(g1 hnz).2 hd] at h'
        simp at h'
      · obtain ⟨acc', k, -⟩ := (g1 hnz).1 ws hd
        rw [k] at h'
        simp at h'
    · rcases g2 hnz with k | ⟨k, -⟩ <;> rw [k] at h' <;> simp at h'
  · rw [Proof.challengeLoop_err E params (by omega) sts ps ts h1 (by omega) _ hz] at h
    simp at h

/-- C69: a batch that passes all other checks costs exactly one multiscalar multiplication, with a fixed number of terms for the
parameters and the ring plus `6 + 3m` terms for each proof; there is one scalar for each point, and memory is reserved for that
many scalars if the number fits `u32` and never for more. -/
theorem C69_one_parallel (E : Env F P) (cfg : Config) (first : Statement P) (rest : List (Statement P)) (ps : List (Proof F P))
    (ts : List Transcript) (hst : StatementBuilt E first)
    (h : (Proof.verifyBatch E cfg (first :: rest) ps ts).1 = .ok () ∨
      (Proof.verifyBatch E cfg (first :: rest) ps ts).1 = .err .FailedVerification) :
    ∃ capacity scalars size, size = 2 * first.params.n ^ first.params.m + first.params.n * first.params.m + 4
        + ps.length * (6 + 3 * first.params.m) ∧
      (Proof.verifyBatchT E cfg (first :: rest) ps ts).1.trace =
        [.call "Vec::with_capacity" [capacity], .vartime "vartime_multiscalar_mul" scalars [size]] ∧
      scalars.length = size ∧ capacity = size % 2 ^ 32 := by
  have hb := hst.ok
  have hn : 1 ≤ first.params.n := by have := hb.params.n; omega
  rw [← C69_erase_parallel] at h
  rw [Proof.verifyBatchT] at h ⊢
  split at h
  · rcases h with h | h <;> simp at h
  split at h
  · rcases h with h | h <;> simp at h
  rename_i hl1 hl2
  rw [if_neg hl1, if_neg hl2]
  rw [not_not] at hl1 hl2
  simp only [List.head?_cons] at h ⊢
  split at h
  · rcases h with h | h <;> simp at h
  split at h
  · rcases h with h | h <;> simp at h
  rename_i hi1 hi2
  rw [if_neg hi1, if_neg hi2]
  rcases Proof.checkShapes_cases first.params hn ps with ⟨h1, hsh⟩ | ⟨⟨e, h1⟩, -⟩
  swap
  · rw [h1] at h
    rcases h with h | h <;> simp at h
  rw [h1] at h ⊢
  simp only [Outcome.bind_ok] at h ⊢
  rcases h2 : Proof.finalSize cfg first.params ps.length with c | e | _ | _
  · rw [h2] at h
    simp only [Outcome.bind_ok, bind_out, leak_out, lift_out] at h
    rcases h3 : (Proof.challengeLoop E first.params (first :: rest) ps ts Proof.weightTranscriptStart).1 with x | e | _ | _
    · rw [h3] at h
      simp only [Outcome.bind_ok, Proof.finalCheckT, bind_out, lift_out, msmT_out] at h
      rcases h4 : Proof.processLoop E cfg first.params (ps.zip x.1) (Proof.Acc.init first.params first.inputSet.M first.inputSet.M1)
          (TRng.finalize nullRng x.2 [] ()).1 with acc | e | _ | _
      · rw [h4] at h
        simp only [Outcome.bind_ok] at h
        have hpts := Proof.finalPoints_length first.params hb.params first.inputSet.M first.inputSet.M1 hb.length hb.length1 (first :: rest) ps hl1 hsh
        have hlen : acc.finalScalars.length = (Proof.finalPoints (first :: rest) ps first.params first.inputSet.M first.inputSet.M1).length := by
          by_contra hne
          rw [msm, if_neg hne] at h
          rcases h with h | h <;> simp at h
        refine ⟨c, acc.finalScalars, _, rfl, ?_, hlen.trans hpts, ?_⟩
        · simp only [Outcome.bind_ok, bind_trace, leak_trace, leak_out, lift_out, lift_trace, h4, Proof.finalCheckT, msmT,
            step_trace, hpts, List.nil_append]
          simp only [step_out]
          rw [msm, if_pos hlen]
          simp
        · rw [Proof.finalSize_mod cfg first.params hb.params _ c h2]
      all_goals
        exfalso
        rw [h4] at h
        rcases h with h | h <;> simp at h
      subst h
      exact Proof.processLoop_fail E cfg first.params hb.params first.inputSet.M first.inputSet.M1 hb.length hb.length1 (first :: rest) ps ts hl1 hl2 hsh x
        h3 h4
    all_goals
      exfalso
      rw [h3] at h
      rcases h with h | h <;> simp at h
    subst h
    exact Proof.challengeLoop_fail E first.params hb.params (first :: rest) ps ts hl1 hl2 h3
  all_goals
    exfalso
    rw [h2] at h
    rcases h with h | h <;> simp at h
  subst h
  rw [Proof.finalSize_eq cfg _ hb.params] at h2
  split at h2
  · split at h2
    · simp at h2
    · split at h2 <;> simp at h2
  · simp at h2

theorem Proof.processLoop_msm (E : Env F P) (cfg : Config) (params : Params P) (hp : ParamsOK params) (M M1 : List P)
    (hM : M.length = params.n ^ params.m) (hM1 : M1.length = params.n ^ params.m) (sts : List (Statement P)) (ps : List (Proof F P)) (ts : List Transcript)
    (h1 : sts.length = ps.length) (h2 : sts.length = ts.length) (hsh : ∀ p ∈ ps, Shape params p)
    (x : List (List F) × Transcript)
    (h : (Proof.challengeLoop E params sts ps ts Proof.weightTranscriptStart).1 = .ok x) (acc : Proof.Acc F)
    (h' : Proof.processLoop E cfg params (ps.zip x.1) (Proof.Acc.init params M M1) (TRng.finalize nullRng x.2 [] ()).1
      = .ok acc) :
    ∃ total, (msm acc.finalScalars (Proof.finalPoints sts ps params M M1) : Outcome ProofError P) = .ok total := by
  have hm := hp.m
  have hacc : (Proof.Acc.init params M M1 : Proof.Acc F).OK params M M1 [] := by
    constructor <;> simp [Proof.Acc.init]
  by_cases hz : ∀ ξ ∈ challenges E sts ps ts, ξ ≠ 0
  · rw [Proof.challengeLoop_ok E params (by omega) sts ps ts h1 (by omega) _ hz] at h
    simp only [Outcome.ok.injEq] at h
    subst h
    obtain ⟨g1, g2⟩ := Proof.processLoop_eq E cfg params hp M hM M1 hM1 sts ps (challenges E sts ps ts) h1
      (Proof.challenges_length E sts ps ts h1 h2) hsh (Proof.Acc.init params M M1) [] hacc
      (TRng.finalize nullRng (Proof.weightTranscriptStart ++ Triptych.Proof.seedOps (seeds E sts ps ts)) [] ()).1
    by_cases hnz : ∀ x ∈ ps.zip (challenges E sts ps ts), NonzeroF params.n params.m x.1.f x.2
    · rcases hd : Proof.drawMany E cfg.fuel ps.length
          (TRng.finalize nullRng (Proof.weightTranscriptStart ++ Triptych.Proof.seedOps (seeds E sts ps ts)) [] ()).1 with _ | ws
      · rw [(g1 hnz).2 hd] at h'
        simp at h'
      · obtain ⟨acc', k, k2, -⟩ := (g1 hnz).1 ws hd
        rw [k] at h'
        simp only [Outcome.ok.injEq] at h'
        subst h'
        rw [List.nil_append] at k2
        rw [Proof.finalPoints_eq]
        exact ⟨_, Proof.finalScalars_msm _ _ _ _ _ k2⟩
    · rcases g2 hnz with k | ⟨k, -⟩ <;> rw [k] at h' <;> simp at h'
  · rw [Proof.challengeLoop_err E params (by omega) sts ps ts h1 (by omega) _ hz] at h
    simp at h

/-- C69: no other result costs a multiscalar multiplication: a batch rejected for its shape, its size, a zero challenge or a zero
response is rejected before it; at most memory is reserved. -/
theorem C69_none_parallel (E : Env F P) (cfg : Config) (first : Statement P) (rest : List (Statement P)) (ps : List (Proof F P))
    (ts : List Transcript) (hst : StatementBuilt E first)
    (h : (Proof.verifyBatch E cfg (first :: rest) ps ts).1 ≠ .ok ())
    (h' : (Proof.verifyBatch E cfg (first :: rest) ps ts).1 ≠ .err .FailedVerification) :
    (Proof.verifyBatchT E cfg (first :: rest) ps ts).1.trace = [] ∨
      ∃ capacity size, size = 2 * first.params.n ^ first.params.m + first.params.n * first.params.m + 4
        + ps.length * (6 + 3 * first.params.m) ∧ capacity = size % 2 ^ 32 ∧
      (Proof.verifyBatchT E cfg (first :: rest) ps ts).1.trace = [.call "Vec::with_capacity" [capacity]] := by
  have hb := hst.ok
  have hn : 1 ≤ first.params.n := by have := hb.params.n; omega
  rw [← C69_erase_parallel] at h h'
  rw [Proof.verifyBatchT] at h h' ⊢
  by_cases hl1 : (first :: rest).length ≠ ps.length
  · rw [if_pos hl1]; left; rfl
  by_cases hl2 : (first :: rest).length ≠ ts.length
  · rw [if_neg hl1, if_pos hl2]; left; rfl
  rw [if_neg hl1, if_neg hl2] at h h' ⊢
  rw [not_not] at hl1 hl2
  simp only [List.head?_cons] at h h' ⊢
  by_cases hi1 : (!allEqual ((first :: rest).map fun s => s.inputSet.hash)) = true
  · rw [if_pos hi1]; left; rfl
  by_cases hi2 : (!allEqual ((first :: rest).map fun s => s.params.hash)) = true
  · rw [if_neg hi1, if_pos hi2]; left; rfl
  rw [if_neg hi1, if_neg hi2] at h h' ⊢
  rcases Proof.checkShapes_cases first.params hn ps with ⟨h1, hsh⟩ | ⟨⟨e, h1⟩, -⟩
  swap
  · rw [h1]; left; rfl
  rw [h1] at h h' ⊢
  rcases h2 : Proof.finalSize cfg first.params ps.length with c | e | _ | _
  · right
    rw [h2] at h h'
    simp only [Outcome.bind_ok, bind_out, leak_out, lift_out] at h h' ⊢
    refine ⟨c, _, rfl, Proof.finalSize_mod cfg first.params hb.params _ c h2, ?_⟩
    rcases h3 : (Proof.challengeLoop E first.params (first :: rest) ps ts Proof.weightTranscriptStart).1 with x | e | _ | _
    · rw [h3] at h h'
      simp only [Outcome.bind_ok, Proof.finalCheckT, bind_out, lift_out, msmT_out] at h h'
      rcases h4 : Proof.processLoop E cfg first.params (ps.zip x.1) (Proof.Acc.init first.params first.inputSet.M first.inputSet.M1)
          (TRng.finalize nullRng x.2 [] ()).1 with acc | e | _ | _
      · exfalso
        obtain ⟨total, h5⟩ := Proof.processLoop_msm E cfg first.params hb.params first.inputSet.M first.inputSet.M1 hb.length hb.length1 (first :: rest) ps ts
          hl1 hl2 hsh x h3 acc h4
        rw [h4] at h h'
        simp only [Outcome.bind_ok, h5] at h h'
        split at h
        · exact h rfl
        · rename_i hne
          rw [if_neg hne] at h'
          exact h' rfl
      all_goals simp [bind_trace, Proof.finalCheckT, h4]
    all_goals simp [bind_trace]
  all_goals left; rfl

theorem Proof.msmTerms_one_parallel (E : Env F P) (cfg : Config) (first : Statement P) (rest : List (Statement P))
    (ps : List (Proof F P)) (ts : List Transcript) (hst : StatementBuilt E first)
    (h : (Proof.verifyBatch E cfg (first :: rest) ps ts).1 = .ok () ∨
      (Proof.verifyBatch E cfg (first :: rest) ps ts).1 = .err .FailedVerification) :
    msmTerms (Proof.verifyBatchT E cfg (first :: rest) ps ts).1.trace =
      2 * first.params.n ^ first.params.m + first.params.n * first.params.m + 4 + ps.length * (6 + 3 * first.params.m) := by
  obtain ⟨c, s, n, e, k, -⟩ := C69_one_parallel E cfg first rest ps ts hst h
  rw [k, ← e]
  simp [msmTerms]

theorem Proof.msmTerms_singles_parallel (E : Env F P) (cfg : Config) (first : Statement P)
    (items : List (Statement P × Proof F P × Transcript))
    (hst : ∀ x ∈ items, StatementBuilt E x.1) (hp : ∀ x ∈ items, x.1.params = first.params)
    (h1 : ∀ x ∈ items, (Proof.verifyBatch E cfg [x.1] [x.2.1] [x.2.2]).1 = .ok () ∨
      (Proof.verifyBatch E cfg [x.1] [x.2.1] [x.2.2]).1 = .err .FailedVerification) :
    (items.map fun x => msmTerms (Proof.verifyBatchT E cfg [x.1] [x.2.1] [x.2.2]).1.trace).sum =
      items.length * (2 * first.params.n ^ first.params.m + first.params.n * first.params.m + 4 + (6 + 3 * first.params.m)) := by
  induction items with
  | nil => simp
  | cons x items ih =>
    rw [List.map_cons, List.sum_cons, ih (fun y hy => hst y (by simp [hy])) (fun y hy => hp y (by simp [hy]))
      (fun y hy => h1 y (by simp [hy])), Proof.msmTerms_one_parallel E cfg x.1 [] [x.2.1] [x.2.2] (hst x (by simp)) (h1 x (by simp)),
      hp x (by simp)]
    simp only [List.length_cons, List.length_nil]
    ring

/-- C69: what batching saves. Take statements, proofs and transcripts with the same parameters for which the batch and each of the
proofs alone reach the final check. Verified one by one, the `k` proofs cost `k - 1` times `2 n^m + n m + 4` more terms of multiscalar
multiplications than in one batch. -/
theorem C69_saving_parallel (E : Env F P) (cfg : Config) (first : Statement P × Proof F P × Transcript)
    (rest : List (Statement P × Proof F P × Transcript))
    (hst : ∀ x ∈ first :: rest, StatementBuilt E x.1) (hp : ∀ x ∈ first :: rest, x.1.params = first.1.params)
    (h1 : ∀ x ∈ first :: rest, (Proof.verifyBatch E cfg [x.1] [x.2.1] [x.2.2]).1 = .ok () ∨
      (Proof.verifyBatch E cfg [x.1] [x.2.1] [x.2.2]).1 = .err .FailedVerification)
    (h : (Proof.verifyBatch E cfg ((first :: rest).map (·.1)) ((first :: rest).map (·.2.1)) ((first :: rest).map (·.2.2))).1
        = .ok () ∨
      (Proof.verifyBatch E cfg ((first :: rest).map (·.1)) ((first :: rest).map (·.2.1)) ((first :: rest).map (·.2.2))).1
        = .err .FailedVerification) :
    ((first :: rest).map fun x => msmTerms (Proof.verifyBatchT E cfg [x.1] [x.2.1] [x.2.2]).1.trace).sum =
      msmTerms (Proof.verifyBatchT E cfg ((first :: rest).map (·.1)) ((first :: rest).map (·.2.1))
        ((first :: rest).map (·.2.2))).1.trace +
      rest.length * (2 * first.1.params.n ^ first.1.params.m + first.1.params.n * first.1.params.m + 4) := by
  rw [Proof.msmTerms_singles_parallel E cfg first.1 _ hst hp h1]
  rw [List.map_cons] at h ⊢
  rw [Proof.msmTerms_one_parallel E cfg first.1 (rest.map (·.1)) _ _ (hst first (by simp)) h]
  simp only [List.length_map, List.length_cons]
  ring

open Triptych.Toy (env cfg transcript transcript')

/-! ## Examples -/

/-- The hypotheses of `C69_one_parallel` and `C69_none_parallel` are met by an accepted batch, by a batch rejected for its
last sum, and by one rejected before. -/
example : StatementBuilt (env 101) Toy.statement ∧
    (Proof.verifyBatch (env 101) cfg [Toy.statement, Toy.statement'] [Toy.proof, Toy.proof'] [transcript, transcript']).1 = .ok () ∧
    (Proof.verifyBatchT (env 101) cfg [Toy.statement, Toy.statement'] [Toy.proof, Toy.proof']
      [transcript, transcript']).1.trace.length = 2 :=
  ⟨Toy.statement_built, by decide +kernel, by decide +kernel⟩

example : StatementBuilt (env 101) Toy.statement ∧
    (Proof.verifyBatch (env 101) cfg [Toy.statement] [{ Toy.proof with z := Toy.proof.z + 1 }] [transcript]).1
      = .err .FailedVerification :=
  ⟨Toy.statement_built, by decide +kernel⟩

example : StatementBuilt (env 101) Toy.statement ∧
    (Proof.verifyBatch (env 101) cfg [Toy.statement] [{ Toy.proof with f := [] }] [transcript]).1 ≠ .ok () ∧
    (Proof.verifyBatch (env 101) cfg [Toy.statement] [{ Toy.proof with f := [] }] [transcript]).1 ≠ .err .FailedVerification :=
  ⟨Toy.statement_built, by decide +kernel, by decide +kernel⟩

/-- The hypotheses of `C69_saving_parallel` are met. -/
example :
    (∀ x ∈ [(Toy.statement, Toy.proof, transcript), (Toy.statement', Toy.proof', transcript')], StatementBuilt (env 101) x.1) ∧
    (∀ x ∈ [(Toy.statement, Toy.proof, transcript), (Toy.statement', Toy.proof', transcript')], x.1.params = Toy.statement.params) ∧
    (∀ x ∈ [(Toy.statement, Toy.proof, transcript), (Toy.statement', Toy.proof', transcript')],
      (Proof.verifyBatch (env 101) cfg [x.1] [x.2.1] [x.2.2]).1 = .ok ()) ∧
    (Proof.verifyBatch (env 101) cfg [Toy.statement, Toy.statement'] [Toy.proof, Toy.proof'] [transcript, transcript']).1 = .ok () := by
  refine ⟨?_, ?_, ?_, by decide +kernel⟩
  · rw [List.forall_mem_cons, List.forall_mem_singleton]
    dsimp only
    have h1 := Toy.statement_built
    have h2 := Toy.statement'_built
    generalize Toy.statement = s1 at h1 ⊢
    generalize Toy.statement' = s2 at h2 ⊢
    exact ⟨h1, h2⟩
  · decide +kernel
  · decide +kernel

end Triptych.Parallel
