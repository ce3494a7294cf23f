import Verif.Model.Memory
import Verif.Lemmas.ProveMain

/-! # Lemmas about what the prover leaves in memory -/
set_option autoImplicit false
set_option linter.unusedSectionVars false

namespace Triptych
open Kept Spec

namespace Kept
variable {F P ε α β : Type}

@[simp] theorem pure_out (a : α) : (pure a : Kept F P ε α).out = .ok a := rfl
@[simp] theorem keep_out (x : Cell F P) : (keep x : Kept F P ε Unit).out = .ok () := rfl
@[simp] theorem keep_cells (x : Cell F P) : (keep x : Kept F P ε Unit).cells = [x] := rfl
@[simp] theorem run_out (o : Outcome ε α) : (run o : Kept F P ε α).out = o := rfl
@[simp] theorem run_cells (o : Outcome ε α) : (run o : Kept F P ε α).cells = [] := rfl

@[simp] theorem bind_out (x : Kept F P ε α) (f : α → Kept F P ε β) : (x >>= f).out = x.out >>= fun a => (f a).out := by
  show (Kept.bind x f).out = _
  rw [Kept.bind]
  cases x.out <;> rfl

theorem bind_cells (x : Kept F P ε α) (f : α → Kept F P ε β) (a : α) (h : x.out = .ok a) :
    (x >>= f).cells = x.cells ++ (f a).cells := by
  show (Kept.bind x f).cells = _
  rw [Kept.bind, h]

theorem keep_bind (x : Cell F P) (f : Unit → Kept F P ε β) : (keep x >>= f).cells = x :: (f ()).cells := rfl

theorem run_bind (o : Outcome ε α) (f : α → Kept F P ε β) (a : α) (h : o = .ok a) : (run o >>= f).cells = (f a).cells := by
  subst h
  rfl

theorem foldlM_out (f : β → α → Kept F P ε β) (l : List α) (b : β) :
    (l.foldlM f b).out = l.foldlM (fun b a => (f b a).out) b := by
  induction l generalizing b with
  | nil => rfl
  | cons a l ih => simp only [List.foldlM_cons, bind_out, ih]

end Kept

section Shared
variable {F P : Type} [Field F]

theorem convolveStepM_out (a sigma : List (List F)) (k : List ℕ) (c : List F) (j : ℕ) :
    (convolveStepM a sigma k c j : Kept F P _ _).out = convolveStep a sigma k c j := by
  simp only [convolveStepM, convolveStep, bind_out, keep_out, run_out, Outcome.bind_ok]

theorem coefficientsM_out (m : ℕ) (a sigma : List (List F)) (k : List ℕ) :
    (coefficientsM m a sigma k : Kept F P _ _).out = coefficients m a sigma k := by
  simp only [coefficientsM, coefficients, bind_out, run_out, foldlM_out, convolveStepM_out]

theorem coefficientsLoopM_out (m : ℕ) (a sigma : List (List F)) (g : List (ℕ × ℕ × ℕ)) (k : List ℕ) :
    (coefficientsLoopM m a sigma g k : Kept F P _ _).out = coefficientsLoop m a sigma g k := by
  induction g generalizing k with
  | nil => rfl
  | cons x g ih =>
    obtain ⟨i, o, n⟩ := x
    simp only [coefficientsLoopM, coefficientsLoop, bind_out, run_out, keep_out, Outcome.bind_ok, coefficientsM_out, ih]

theorem polynomialsM_out (n m : ℕ) (a sigma : List (List F)) :
    (polynomialsM n m a sigma : Kept F P _ _).out = polynomials n m a sigma := by
  simp only [polynomialsM, polynomials, bind_out, run_out, keep_out, Outcome.bind_ok, coefficientsLoopM_out]
  cases (Outcome.ofOption (GrayIterator.new n m) (ProofError.InvalidParameter "coefficient decomposition failed")) with
  | ok g =>
    simp only [Outcome.bind_ok]
    cases coefficientsLoop m a sigma g.toList (List.replicate m 0) <;> rfl
  | err e => rfl
  | panic => rfl
  | diverge => rfl

end Shared

/-- What the scalars of the prover other than the key and `rho` leave behind. -/
noncomputable def phaseCells {F : Type} (P : Type) [Field F] (n m l : ℕ) (a : List (List F)) (rA rB rC rD : F) : List (Cell F P) :=
  [.scalar "r_A" rA, .matrix "a" (mat m n (maskA n a)), .scalar "r_B" rB, .words "l_decomposed" (grayCode n m l),
    .matrix "sigma" (mat m n (selector n l)), .scalar "r_C" rC,
    .matrix "a_sigma" (mat m n fun j i => maskA n a j i * (1 - 2 * selector n l j i)), .scalar "r_D" rD,
    .matrix "a_square" (mat m n fun j i => -(maskA n a j i * maskA n a j i)), .erased "rho" m] ++
    (polynomialsM n m (mat m n (maskA n a)) (mat m n (selector n l))).cells

namespace Proof
variable {F P σ : Type} [Field F] [AddCommGroup P] [Module F P] [DecidableEq F] [DecidableEq P]

theorem checkWitnessM_out (w : Witness F P) (st : Statement P) (timing : OperationTiming) :
    (checkWitnessM w st timing).out = checkWitness w st timing := by
  rw [checkWitnessM, checkWitness]
  split
  · rfl
  · simp only [bind_out, keep_out, run_out, Outcome.bind_ok]
    congr 1
    funext x
    split
    · rfl
    · split <;> rfl

theorem commitPhaseM_out (E : Env F P) (l : ℕ) (st : Statement P) (timing : OperationTiming) (r : TRng) :
    (commitPhaseM E l st timing r).out = commitPhase l st timing (drawNonces E st.params.n st.params.m r).1 >>= fun c =>
      .ok (c, drawNonces E st.params.n st.params.m r) := by
  simp only [commitPhaseM, commitPhase, drawNonces, bind_out, keep_out, run_out, polynomialsM_out, Outcome.bind_ok, bind_assoc]

/-- The result of the computation with memory. -/
theorem proveInternalM_out (E : Env F P) (R : Rng σ) (w : Witness F P) (st : Statement P) (s : σ)
    (t : Transcript) (timing : OperationTiming) :
    (proveInternalM E R w st s t timing).2 = proveInternal E R w st s t timing := by
  rw [proveInternalM, proveInternal, checkWitnessM_out]
  cases checkWitness w st timing with
  | ok u =>
    simp only [commitPhaseM_out]
    cases commitPhase w.l st timing
      (drawNonces E st.params.n st.params.m (ProofTranscript.new E R t st s (some w)).trng).1 with
    | ok c =>
      simp only [Outcome.bind_ok]
      split <;> simp_all
    | err e => rfl
    | panic => rfl
    | diverge => rfl
  | err e => rfl
  | panic => rfl
  | diverge => rfl

theorem commitPhaseM_cells (E : Env F P) (st : Statement P) (hst : StatementOK st) (l : ℕ) (hl : l < st.params.n ^ st.params.m)
    (timing : OperationTiming) (r : TRng) (nn : Nonces F) (hnn : (drawNonces E st.params.n st.params.m r).1 = nn) :
    (commitPhaseM E l st timing r).cells = phaseCells P st.params.n st.params.m l nn.a nn.rA nn.rB nn.rC nn.rD := by
  have hp := hst.params
  have hn := hp.n
  have hm := hp.m
  have hs : NonceShape st.params.n st.params.m nn := by rw [← hnn]; exact drawNonces_shape E _ _ _
  rw [drawNonces] at hnn
  rw [commitPhaseM, phaseCells]
  generalize TRng.scalar E r = x at *
  obtain ⟨rA, r⟩ := x
  simp only [keep_bind] at hnn ⊢
  generalize drawMatrix E st.params.n st.params.m r = x at *
  obtain ⟨a, r⟩ := x
  simp only at hnn ⊢
  generalize TRng.scalar E r = x at *
  obtain ⟨rB, r⟩ := x
  simp only at hnn ⊢
  generalize TRng.scalar E r = x at *
  obtain ⟨rC, r⟩ := x
  simp only at hnn ⊢
  generalize TRng.scalar E r = x at *
  obtain ⟨rD, r⟩ := x
  simp only at hnn ⊢
  generalize drawScalars E st.params.m r = x at *
  obtain ⟨rho, r⟩ := x
  simp only at hnn ⊢
  subst hnn
  rw [run_bind _ _ _ (fixRow_mat st.params.n st.params.m (by omega) _ hs.a hs.row), keep_bind,
    run_bind _ _ _ (by rw [commitMatrix_mat _ hp]; rfl), keep_bind,
    run_bind _ _ _ (decomposeIndex_eq _ _ _ hn hm hp.N hl _), keep_bind, run_bind _ _ _ (sigmaMatrix_eq _ _ _ _), keep_bind,
    run_bind _ _ _ (by rw [commitMatrix_mat _ hp]; rfl), keep_bind, run_bind _ _ _ (aSigmaMatrix_eq _ _ _ _), keep_bind,
    run_bind _ _ _ (by rw [commitMatrix_mat _ hp]; rfl), keep_bind, run_bind _ _ _ (aSquareMatrix_eq _ _ _), keep_bind,
    run_bind _ _ _ (by rw [commitMatrix_mat _ hp]; rfl), keep_bind,
    bind_cells _ _ _ (by rw [polynomialsM_out]; exact polynomials_eq _ _ hn (by omega) hp.N _ _),
    run_bind _ _ _ (computeX_eq _ _ _ _ hst.length _ _ hs.rho _)]
  rw [hs.rho]
  simp only [run_cells, List.append_nil]
  rfl

theorem checkWitnessM_cells (w : Witness F P) (st : Statement P) (hst : StatementOK st) (hl : w.l < st.params.n ^ st.params.m)
    (timing : OperationTiming) (hp : w.params = st.params)
    (hrel : Spec.Rel st.params.G st.params.U st.inputSet.M st.J w.l w.r) :
    (checkWitnessM w st timing).cells = [.words "l" [w.l], .points "M_l" [w.r • st.params.G]] := by
  have h1 : selectKey st.inputSet.M w.l timing = .ok (w.r • st.params.G) := by
    rw [selectKey_eq _ _ (by rw [hst.length]; exact hl), List.getD_eq_getElem?_getD, hrel.1]
    rfl
  rw [checkWitnessM, if_neg (not_not.2 hp), keep_bind, run_bind _ _ _ h1, keep_bind, if_neg (not_not.2 rfl),
    if_neg (not_not.2 hrel.2)]
  rfl

end Proof
end Triptych
