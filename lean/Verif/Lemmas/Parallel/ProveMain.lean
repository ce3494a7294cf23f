import Verif.Lemmas.ProveMain
import Verif.Lemmas.Parallel.Complete
import Verif.Lemmas.Parallel.Binding

/-! # The parallel `prove_internal` in closed form -/
set_option autoImplicit false
set_option linter.unusedSectionVars false
set_option linter.unusedVariables false
set_option linter.unusedSimpArgs false

namespace Triptych.Parallel
open Finset
open Triptych.Parallel.Spec
open Triptych.Spec (grayDigit digit commit fullF ringCoeff NonzeroF maskA selector ringPoly versionBytes points scalars
  weightTranscript weightScalar queryPoint drawn)

variable {F P : Type} [Field F] [AddCommGroup P] [Module F P] [DecidableEq F] [DecidableEq P]

theorem Spec.WitnessBuilt.ok {E : Env F P} {w : Witness F P} (h : WitnessBuilt E w) :
    ParamsBuilt E w.params ∧ w.l < w.params.n ^ w.params.m := by
  induction h with
  | new params l r r1 w hp h =>
    rw [Witness.new] at h
    split at h
    · simp at h
    · split at h
      · simp at h
      · split at h
        · simp at h
        · rename_i h1 h2 h3
          simp only [Outcome.ok.injEq] at h
          subst h
          rw [hp.ok.getN] at h3
          exact ⟨hp, by simp only []; omega⟩
  | random σ R s s' params w hp h =>
    have hn := hp.ok.n
    have hpos : 0 < params.n ^ params.m := Nat.pow_pos (by omega)
    rw [Witness.random] at h
    simp only [hp.ok.getN] at h
    rw [if_neg (by omega)] at h
    simp only [Outcome.ok.injEq, Prod.mk.injEq] at h
    obtain ⟨rfl, -⟩ := h
    exact ⟨hp, lt_of_le_of_lt (Nat.mod_le _ _) (Nat.mod_lt _ hpos)⟩
  | zeroize w h ih =>
    have hn := ih.1.ok.n
    exact ⟨ih.1, Nat.pow_pos (show 0 < w.params.n by omega)⟩

theorem drawNonces_eq (E : Env F P) (n m : ℕ) (key : TRng) (hkey : key.reqs = []) :
    (Proof.drawNonces E n m key).1 = proverNonces E n m key := by
  have hk : key = queryPoint key 0 := by cases key; simp_all [queryPoint]
  rw [Proof.drawNonces]
  conv_lhs => rw [hk]
  simp only [queryPoint_scalar, drawMatrix_eq, drawScalars_eq]
  rw [proverNonces]
  congr 1
  · congr 1; omega
  · congr 1; omega
  · apply List.map_congr_left
    intro j _
    congr 1
    omega
  · apply List.map_congr_left
    intro j _
    congr 1
    omega

/-- The prover's challenge transcript. -/
noncomputable def Spec.proverTranscript (E : Env F P) (t : Transcript) (st : Statement P) (l : ℕ) (r r1 : F)
    (nn : Nonces F) : Transcript :=
  challengeTranscript E t st.hash
    (honestProof st.params st.inputSet.M st.inputSet.M1 st.offset st.J l r r1 nn 0).A (honestProof st.params st.inputSet.M st.inputSet.M1 st.offset st.J l r r1 nn 0).B
    (honestProof st.params st.inputSet.M st.inputSet.M1 st.offset st.J l r r1 nn 0).C (honestProof st.params st.inputSet.M st.inputSet.M1 st.offset st.J l r r1 nn 0).D
    (honestProof st.params st.inputSet.M st.inputSet.M1 st.offset st.J l r r1 nn 0).X
    (honestProof st.params st.inputSet.M st.inputSet.M1 st.offset st.J l r r1 nn 0).X1 (honestProof st.params st.inputSet.M st.inputSet.M1 st.offset st.J l r r1 nn 0).Y

namespace Proof

theorem proveInternal_invalid {σ : Type} (E : Env F P) (R : Rng σ) (w : Witness F P) (st : Statement P) (s : σ)
    (t : Transcript) (timing : OperationTiming) (e : ProofError) (h : checkWitness w st timing = .err e) :
    proveInternal E R w st s t timing = (.err e, t, s) := by
  rw [proveInternal, h]

theorem proveInternal_valid {σ : Type} (E : Env F P) (R : Rng σ) (w : Witness F P) (st : Statement P)
    (hst : StatementOK st) (hl : w.l < st.params.n ^ st.params.m) (s : σ) (t : Transcript) (timing : OperationTiming)
    (hp : w.params = st.params) (hrel : Rel st.params.G st.params.G1 st.params.U st.inputSet.M st.inputSet.M1 st.offset st.J w.l w.r w.r1)
    (nn : Nonces F)
    (hnn : nn = proverNonces E st.params.n st.params.m (proverKey E t st.hash w.l w.r w.r1 (R.fill s 32).1)) (ξ : F)
    (hξ : ξ = E.scalarOfWide (E.challenge (proverTranscript E t st w.l w.r w.r1 nn))) :
    proveInternal E R w st s t timing =
      (if ξ = 0 then .err .InvalidChallenge else .ok (honestProof st.params st.inputSet.M st.inputSet.M1 st.offset st.J w.l w.r w.r1 nn ξ),
        proverTranscript E t st w.l w.r w.r1 nn, (R.fill (R.fill s 32).2 32).2) := by
  have hm := hst.params.m
  have hcheck : checkWitness w st timing = .ok () :=
    (checkWitness_ok_iff w st (fun _ => ⟨by rw [hst.length]; exact hl, by rw [hst.length1]; exact hl⟩) timing).2 ⟨hp, hrel⟩
  have hrng : (ProofTranscript.new E R t st s (some w)).trng = proverKey E t st.hash w.l w.r w.r1 (R.fill s 32).1 := by
    simp only [ProofTranscript.new, ProofTranscript.buildTranscriptRng, TRng.finalize, version_append,
      Transcript.appendMessage, proverKey, TRANSCRIPT_PARALLEL_PROOF]
    simp
  have hdraw : (drawNonces E st.params.n st.params.m (ProofTranscript.new E R t st s (some w)).trng).1 = nn := by
    rw [hrng, drawNonces_eq _ _ _ _ rfl, hnn]
  have hshape : NonceShape st.params.n st.params.m nn := by rw [← hdraw]; exact drawNonces_shape E _ _ _
  obtain ⟨c, hc, hA, hB, hC, hD, hX, hX1, hY, ha, hs⟩ := commitPhase_eq st hst w.l hl timing nn hshape w.r w.r1 0
  have hcommit := commit_transcript E R t st s (some w) st.params
    (drawNonces E st.params.n st.params.m (ProofTranscript.new E R t st s (some w)).trng).2 c.A c.B c.C c.D c.X c.X1 c.Y
  have htr : challengeTranscript E t st.hash c.A c.B c.C c.D c.X c.X1 c.Y = proverTranscript E t st w.l w.r w.r1 nn := by
    rw [hA, hB, hC, hD, hX, hX1, hY]; rfl
  rw [htr, ← hξ, xiPowersLoop_eq _ _ (by omega)] at hcommit
  have hext : (({ ProofTranscript.new E R t st s (some w) with trng := (drawNonces E st.params.n st.params.m
      (ProofTranscript.new E R t st s (some w)).trng).2 }).commit E R st.params c.A c.B c.C c.D c.X c.X1 c.Y).2.ext
      = (R.fill (R.fill s 32).2 32).2 := rfl
  rw [proveInternal, hcheck]
  simp only [hdraw, hc]
  rw [hcommit.1, hcommit.2, hext]
  simp only [Prod.mk.injEq, and_true]
  by_cases h0 : ξ = 0
  · rw [if_pos h0, if_pos h0]; rfl
  · rw [if_neg h0, if_neg h0, Outcome.bind_ok, respondPhase_eq st hst w.l w.r w.r1 nn hshape ξ 0 c hA hB hC hD hX hX1 hY ha hs]

end Proof
end Triptych.Parallel
