import Verif.Model.Parallel.Memory
import Verif.Lemmas.Memory
import Verif.Lemmas.Parallel.ProveMain

/-! # Lemmas about what the parallel prover leaves in memory -/
set_option autoImplicit false
set_option linter.unusedSectionVars false
set_option linter.unusedVariables false

namespace Triptych.Parallel
open Kept
open Triptych.Parallel.Spec
open Triptych.Spec (maskA selector ringPoly grayCode)

/-- What the scalars of the prover other than the key and `rho` leave behind. -/
noncomputable def phaseCells {F P : Type} [Field F] [AddCommGroup P] (n m l : ℕ) (a : List (List F)) (rA rB rC rD : F)
    (offset : P) : List (Cell F P) :=
  [.scalar "r_A" rA, .matrix "a" (mat m n (maskA n a)), .scalar "r_B" rB, .words "l_decomposed" (grayCode n m l),
    .matrix "sigma" (mat m n (selector n l)), .scalar "r_C" rC,
    .matrix "a_sigma" (mat m n fun j i => maskA n a j i * (1 - 2 * selector n l j i)), .scalar "r_D" rD,
    .matrix "a_square" (mat m n fun j i => -(maskA n a j i * maskA n a j i)), .erased "rho" m,
    .erased "rho1" m] ++
    (polynomialsM n m (mat m n (maskA n a)) (mat m n (selector n l))).cells ++
    (List.range m).flatMap fun j => [.points "minus_offset" [-offset],
      .scalar "p_sum" (∑ k ∈ Finset.range (n ^ m), (ringPoly n m (maskA n a) (selector n l) k).coeff j)]

namespace Proof
variable {F P σ : Type} [Field F] [AddCommGroup P] [Module F P] [DecidableEq F] [DecidableEq P]

theorem checkWitnessM_out (w : Witness F P) (st : Statement P) (timing : OperationTiming) :
    (checkWitnessM w st timing).out = checkWitness w st timing := by
  rw [checkWitnessM, checkWitness]
  split
  · rfl
  · simp only [bind_out, keep_out, run_out, Outcome.bind_ok]
    congr 1
    funext x
    split
    · rfl
    · split
      · rfl
      · split <;> rfl

theorem computeX1M_out (params : Params P) (M1 : List P) (offset : P) (p : List (List F)) (rho1 : List F) (timing : OperationTiming) :
    (computeX1M params M1 offset p timing rho1.zipIdx).out = computeX1 params M1 offset p rho1 timing := by
  rw [computeX1]
  generalize rho1.zipIdx = L
  induction L with
  | nil => rfl
  | cons x L ih =>
    obtain ⟨x, j⟩ := x
    rw [List.mapM_cons, ← ih]
    cases timing <;> simp only [computeX1M, bind_out, keep_out, run_out, Outcome.bind_ok, bind_assoc] <;> rfl

theorem computeX1M_cells (params : Params P) (M1 : List P) (offset : P) (N m : ℕ) (hM : M1.length = N)
    (c : ℕ → Polynomial F) (timing : OperationTiming) (L : List (F × ℕ)) (hL : ∀ x ∈ L, x.2 < m) :
    (computeX1M params M1 offset ((List.range N).map fun k => coeffList m (c k)) timing L).cells =
      (L.map (·.2)).flatMap (fun j =>
        [.points "minus_offset" [-offset], .scalar "p_sum" (∑ k ∈ Finset.range N, (c k).coeff j)]) ∧
    ∃ ys, (computeX1M params M1 offset ((List.range N).map fun k => coeffList m (c k)) timing L).out = .ok ys := by
  induction L with
  | nil => exact ⟨rfl, _, rfl⟩
  | cons x L ih =>
    obtain ⟨x, j⟩ := x
    have hj : j < m := hL (x, j) (by simp)
    obtain ⟨ih, ys, hys⟩ := ih fun z hz => hL z (List.mem_cons_of_mem _ hz)
    have hmsm := msm_ok (ε := ProofError) ((List.range N).map (fun k => (c k).coeff j) ++ [x] ++
      [((List.range N).map (fun k => (c k).coeff j)).sum]) (M1 ++ [params.G1] ++ [-offset]) (by simp [hM])
    constructor
    · rw [computeX1M, keep_bind, run_bind _ _ _ (rows_eq N m j hj c), keep_bind]
      cases timing <;> rw [run_bind _ _ _ hmsm, bind_cells _ _ _ hys, ih, sum_map_range] <;> simp
    · cases timing <;>
        simp only [computeX1M, bind_out, keep_out, run_out, Outcome.bind_ok, rows_eq N m j hj c, hmsm, hys] <;> exact ⟨_, rfl⟩

theorem commitPhaseM_out (E : Env F P) (l : ℕ) (st : Statement P) (timing : OperationTiming) (r : TRng) :
    (commitPhaseM E l st timing r).out = commitPhase l st timing (drawNonces E st.params.n st.params.m r).1 >>= fun c =>
      .ok (c, drawNonces E st.params.n st.params.m r) := by
  simp only [commitPhaseM, commitPhase, drawNonces, bind_out, keep_out, run_out, polynomialsM_out, computeX1M_out,
    Outcome.bind_ok, bind_assoc]

/-- The result of the computation with memory. -/
theorem proveInternalM_out (E : Env F P) (R : Rng σ) (w : Witness F P) (st : Statement P) (s : σ)
    (t : Transcript) (timing : OperationTiming) :
    (proveInternalM E R w st s t timing).2 = proveInternal E R w st s t timing := by
  rw [proveInternalM, proveInternal, checkWitnessM_out]
  cases checkWitness w st timing with
  | ok u =>
    simp only [commitPhaseM_out]
    cases commitPhase w.l st timing
      (drawNonces E st.params.n st.params.m (ProofTranscript.new E R t st s (some w)).trng).1 with
    | ok c =>
      simp only [Outcome.bind_ok]
      split <;> simp_all
    | err e => rfl
    | panic => rfl
    | diverge => rfl
  | err e => rfl
  | panic => rfl
  | diverge => rfl

theorem commitPhaseM_cells (E : Env F P) (st : Statement P) (hst : StatementOK st) (l : ℕ) (hl : l < st.params.n ^ st.params.m)
    (timing : OperationTiming) (r : TRng) (nn : Nonces F) (hnn : (drawNonces E st.params.n st.params.m r).1 = nn) :
    (commitPhaseM E l st timing r).cells = phaseCells st.params.n st.params.m l nn.a nn.rA nn.rB nn.rC nn.rD st.offset := by
  have hp := hst.params
  have hn := hp.n
  have hm := hp.m
  have hs : NonceShape st.params.n st.params.m nn := by rw [← hnn]; exact drawNonces_shape E _ _ _
  rw [drawNonces] at hnn
  rw [commitPhaseM, phaseCells]
  generalize TRng.scalar E r = x at *
  obtain ⟨rA, r⟩ := x
  simp only [keep_bind] at hnn ⊢
  generalize drawMatrix E st.params.n st.params.m r = x at *
  obtain ⟨a, r⟩ := x
  simp only at hnn ⊢
  generalize TRng.scalar E r = x at *
  obtain ⟨rB, r⟩ := x
  simp only at hnn ⊢
  generalize TRng.scalar E r = x at *
  obtain ⟨rC, r⟩ := x
  simp only at hnn ⊢
  generalize TRng.scalar E r = x at *
  obtain ⟨rD, r⟩ := x
  simp only at hnn ⊢
  generalize drawScalars E st.params.m r = x at *
  obtain ⟨rho, r⟩ := x
  simp only at hnn ⊢
  generalize drawScalars E st.params.m r = x at *
  obtain ⟨rho1, r⟩ := x
  simp only at hnn ⊢
  subst hnn
  rw [run_bind _ _ _ (fixRow_mat st.params.n st.params.m (by omega) _ hs.a hs.row), keep_bind,
    run_bind _ _ _ (by rw [commitMatrix_mat _ hp]; rfl), keep_bind,
    run_bind _ _ _ (decomposeIndex_eq _ _ _ hn hm hp.N hl _), keep_bind, run_bind _ _ _ (sigmaMatrix_eq _ _ _ _), keep_bind,
    run_bind _ _ _ (by rw [commitMatrix_mat _ hp]; rfl), keep_bind, run_bind _ _ _ (aSigmaMatrix_eq _ _ _ _), keep_bind,
    run_bind _ _ _ (by rw [commitMatrix_mat _ hp]; rfl), keep_bind, run_bind _ _ _ (aSquareMatrix_eq _ _ _), keep_bind,
    run_bind _ _ _ (by rw [commitMatrix_mat _ hp]; rfl), keep_bind, keep_bind,
    bind_cells _ _ _ (by rw [polynomialsM_out]; exact polynomials_eq _ _ hn (by omega) hp.N _ _),
    run_bind _ _ _ (computeX_eq _ _ _ _ hst.length _ _ hs.rho _),
    bind_cells _ _ _ (by
      rw [computeX1M_out]; exact computeX1_eq _ _ st.offset _ _ hst.length1 _ _ hs.rho1 timing),
    (computeX1M_cells _ _ _ _ _ hst.length1 _ _ _ (by
      rintro ⟨z, i⟩ hz
      have := List.mem_zipIdx hz
      have := hs.rho1
      simp only at *
      omega)).1]
  have hidx : (rho1.zipIdx.map (·.2)) = List.range st.params.m := by
    rw [List.zipIdx_map_snd, ← hs.rho1, List.range_eq_range']
  rw [hidx]
  rw [hs.rho, hs.rho1]
  simp only [run_cells, List.append_nil, List.append_assoc]
  rfl

theorem checkWitnessM_cells (w : Witness F P) (st : Statement P) (hst : StatementOK st) (hl : w.l < st.params.n ^ st.params.m)
    (timing : OperationTiming) (hp : w.params = st.params)
    (hrel : Rel st.params.G st.params.G1 st.params.U st.inputSet.M st.inputSet.M1 st.offset st.J w.l w.r w.r1) :
    (checkWitnessM w st timing).cells =
      [.words "l" [w.l], .points "M_l" [w.r • st.params.G], .points "M1_l" [w.r1 • st.params.G1 + st.offset]] := by
  have h1 : selectKeys st.inputSet.M st.inputSet.M1 w.l timing = .ok (w.r • st.params.G, w.r1 • st.params.G1 + st.offset) := by
    rw [selectKeys_eq _ _ _ (by rw [hst.length]; exact hl) (by rw [hst.length1]; exact hl), List.getD_eq_getElem?_getD, hrel.1,
      List.getD_eq_getElem?_getD, hrel.2.1]
    rfl
  rw [checkWitnessM, if_neg (not_not.2 hp), keep_bind, run_bind _ _ _ h1, keep_bind, keep_bind, if_neg (not_not.2 rfl),
    if_neg (by simp), if_neg (not_not.2 hrel.2.2)]
  rfl

end Proof
end Triptych.Parallel
