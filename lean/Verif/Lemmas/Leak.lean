import Verif.Model.ProveTraced
import Mathlib.Tactic.Common
import Mathlib.Data.List.Forall2

/-! # Reasoning about observable execution -/
set_option autoImplicit false
set_option linter.unusedSectionVars false

namespace Triptych
open Traced

namespace Traced
variable {F ε α β γ δ : Type}

theorem ext' {x y : Traced F ε α} (h : x.trace = y.trace) (h' : x.out = y.out) : x = y := by
  cases x; cases y; simp only at h h'; subst h; subst h'; rfl

@[simp] theorem pure_out (a : α) : (pure a : Traced F ε α).out = .ok a := rfl
@[simp] theorem pure_trace (a : α) : (pure a : Traced F ε α).trace = [] := rfl
@[simp] theorem leak_trace (x : Leak F) : (leak x : Traced F ε Unit).trace = [x] := rfl
@[simp] theorem leak_out (x : Leak F) : (leak x : Traced F ε Unit).out = .ok () := rfl
@[simp] theorem step_out (x : Leak F) (o : Outcome ε α) : (step x o).out = o := rfl
@[simp] theorem lift_trace (o : Outcome ε α) : (lift o : Traced F ε α).trace = [] := rfl
@[simp] theorem step_trace (x : Leak F) (o : Outcome ε α) : (step x o).trace = [x] := rfl
@[simp] theorem lift_out (o : Outcome ε α) : (lift o : Traced F ε α).out = o := rfl

@[simp] theorem bind_out (x : Traced F ε α) (f : α → Traced F ε β) : (x >>= f).out = x.out >>= fun a => (f a).out := by
  show (Traced.bind x f).out = _
  rw [Traced.bind]
  cases x.out <;> rfl

theorem bind_trace (x : Traced F ε α) (f : α → Traced F ε β) :
    (x >>= f).trace = x.trace ++ (match x.out with | .ok a => (f a).trace | _ => []) := by
  show (Traced.bind x f).trace = _
  rw [Traced.bind]
  cases x.out <;> simp

instance : LawfulMonad (Traced F ε) := LawfulMonad.mk'
  (id_map := by
    intro α x
    show Traced.bind x (fun a => ⟨[], .ok a⟩) = x
    rw [Traced.bind]
    obtain ⟨t, o⟩ := x
    cases o <;> simp)
  (pure_bind := by
    intro α β a f
    rfl)
  (bind_assoc := by
    intro α β γ x f g
    show Traced.bind (Traced.bind x f) g = Traced.bind x fun a => Traced.bind (f a) g
    obtain ⟨t, o⟩ := x
    cases o with
    | ok a =>
      simp only [Traced.bind]
      cases h : (f a).out <;> simp
    | err e => rfl
    | panic => rfl
    | diverge => rfl)

theorem mapM_out (f : α → Traced F ε β) (l : List α) : (l.mapM f).out = l.mapM fun a => (f a).out := by
  induction l with
  | nil => rfl
  | cons a l ih => simp only [List.mapM_cons, bind_out, pure_out, ih]; rfl

theorem foldlM_out (f : β → α → Traced F ε β) (l : List α) (b : β) :
    (l.foldlM f b).out = l.foldlM (fun b a => (f b a).out) b := by
  induction l generalizing b with
  | nil => rfl
  | cons a l ih => simp only [List.foldlM_cons, bind_out, ih]

/-! ## Two runs with the same observations -/

/-- Both outcomes are values related by `R`, or the same failure. -/
def OutRel (R : α → β → Prop) : Outcome ε α → Outcome ε β → Prop
  | .ok a, .ok b => R a b
  | .err e, .err e' => e = e'
  | .panic, .panic => True
  | .diverge, .diverge => True
  | _, _ => False

/-- The observations are the same and the outcomes are related. -/
def Same (R : α → β → Prop) (x : Traced F ε α) (y : Traced F ε β) : Prop := x.trace = y.trace ∧ OutRel R x.out y.out

theorem Same.trace {R : α → β → Prop} {x : Traced F ε α} {y : Traced F ε β} (h : Same R x y) : x.trace = y.trace := h.1

theorem Same.pure {R : α → β → Prop} {a : α} {b : β} (h : R a b) :
    Same R (Pure.pure a : Traced F ε α) (Pure.pure b) := ⟨rfl, h⟩

theorem Same.bind {R : α → β → Prop} {S : γ → δ → Prop} {x : Traced F ε α} {y : Traced F ε β} {f : α → Traced F ε γ}
    {g : β → Traced F ε δ} (h : Same R x y) (hf : ∀ a b, R a b → Same S (f a) (g b)) : Same S (x >>= f) (y >>= g) := by
  obtain ⟨h1, h2⟩ := h
  rw [Same, bind_trace, bind_trace, bind_out, bind_out, h1]
  cases hx : x.out with
  | ok a =>
    cases hy : y.out with
    | ok b =>
      rw [hx, hy] at h2
      exact ⟨congrArg _ (hf a b h2).1, (hf a b h2).2⟩
    | err e => rw [hx, hy] at h2; exact h2.elim
    | panic => rw [hx, hy] at h2; exact h2.elim
    | diverge => rw [hx, hy] at h2; exact h2.elim
  | err e =>
    cases hy : y.out with
    | err e' => rw [hx, hy] at h2; exact ⟨rfl, h2⟩
    | ok b => rw [hx, hy] at h2; exact h2.elim
    | panic => rw [hx, hy] at h2; exact h2.elim
    | diverge => rw [hx, hy] at h2; exact h2.elim
  | panic =>
    cases hy : y.out with
    | err e' => rw [hx, hy] at h2; exact h2.elim
    | ok b => rw [hx, hy] at h2; exact h2.elim
    | panic => exact ⟨rfl, trivial⟩
    | diverge => rw [hx, hy] at h2; exact h2.elim
  | diverge =>
    cases hy : y.out with
    | err e' => rw [hx, hy] at h2; exact h2.elim
    | ok b => rw [hx, hy] at h2; exact h2.elim
    | panic => rw [hx, hy] at h2; exact h2.elim
    | diverge => exact ⟨rfl, trivial⟩

theorem Same.leak (x : Leak F) : Same (fun _ _ => True) (leak x : Traced F ε Unit) (Traced.leak x) := ⟨rfl, trivial⟩

theorem Same.then {S : γ → δ → Prop} (x x' : Leak F) (hx : x = x') {f : Traced F ε γ} {g : Traced F ε δ} (h : Same S f g) :
    Same S (Traced.leak x >>= fun _ => f) (Traced.leak x' >>= fun _ => g) := by
  subst hx
  exact (Same.leak x).bind fun _ _ _ => h

theorem Same.step {R : α → β → Prop} {x x' : Leak F} (hx : x = x') {o : Outcome ε α} {o' : Outcome ε β} (h : OutRel R o o') :
    Same R (Traced.step x o) (Traced.step x' o') := ⟨by simp [Traced.step, hx], h⟩

theorem Same.mono {R S : α → β → Prop} {x : Traced F ε α} {y : Traced F ε β} (h : Same R x y) (hRS : ∀ a b, R a b → S a b) :
    Same S x y := by
  refine ⟨h.1, ?_⟩
  have := h.2
  revert this
  cases x.out <;> cases y.out <;> simp only [OutRel, imp_self]
  exact hRS _ _

theorem Same.mapM {R : α → β → Prop} {S : γ → δ → Prop} {f : α → Traced F ε γ} {g : β → Traced F ε δ} {l : List α} {l' : List β}
    (hl : List.Forall₂ R l l') (h : ∀ a b, R a b → Same S (f a) (g b)) :
    Same (List.Forall₂ S) (l.mapM f) (l'.mapM g) := by
  induction hl with
  | nil => exact Same.pure .nil
  | cons hab _ ih =>
    rw [List.mapM_cons, List.mapM_cons]
    exact (h _ _ hab).bind fun c d hcd => ih.bind fun cs ds hcs => Same.pure (.cons hcd hcs)

theorem Same.foldlM {R : β → γ → Prop} {f : β → α → Traced F ε β} {g : γ → α → Traced F ε γ} (l : List α) {b : β} {c : γ}
    (hbc : R b c) (h : ∀ a ∈ l, ∀ b c, R b c → Same R (f b a) (g c a)) : Same R (l.foldlM f b) (l.foldlM g c) := by
  induction l generalizing b c with
  | nil => exact Same.pure hbc
  | cons a l ih =>
    rw [List.foldlM_cons, List.foldlM_cons]
    exact (h a (List.mem_cons_self ..) b c hbc).bind fun b' c' hb' => ih hb' fun a' ha' => h a' (List.mem_cons_of_mem _ ha')

end Traced

/-! ## Erasure: the outcomes are those of the model -/
section Shared
variable {F P ε : Type}

@[simp] theorem idxT_out {α : Type} (l : List α) (i : ℕ) : (idxT l i : Traced F ε α).out = idx l i := rfl
@[simp] theorem idx2T_out {α : Type} (l : List (List α)) (j i : ℕ) : (idx2T l j i : Traced F ε α).out = idx2 l j i := by
  simp [idx2T, idx2]
@[simp] theorem setIdxT_out {α : Type} (l : List α) (i : ℕ) (a : α) : (setIdxT l i a : Traced F ε _).out = setIdx l i a := rfl

@[simp] theorem msmT_out [SMul F P] [Zero P] [Add P] (scalars : List F) (points : List P) (timing : OperationTiming) :
    (msmT scalars points timing : Traced F ε P).out = msm scalars points := by
  cases timing <;> rfl

@[simp] theorem deltaT_out [Zero F] [One F] (x y : ℕ) (timing : OperationTiming) :
    (deltaT x y timing : Traced F ε F).out = .ok (delta x y timing) := by
  cases timing
  · simp [deltaT, delta]
  · by_cases h : x = y <;> simp [deltaT, delta, h]

theorem selectLoopT_out (l : ℕ) (M : List P) (i : ℕ) (acc : P) :
    (selectLoopT l M i acc : Traced F ε P).out =
      .ok ((M.zipIdx i).foldl (fun acc (item, index) => bif index == l then item else acc) acc) := by
  induction M generalizing i acc with
  | nil => rfl
  | cons a M ih =>
    simp only [selectLoopT, bind_out, leak_out, Outcome.bind_ok, ih, List.zipIdx_cons, List.foldl_cons]

@[simp] theorem selectKeyT_out [Zero P] (M : List P) (l : ℕ) (timing : OperationTiming) :
    (selectKeyT M l timing : Traced F _ P).out = selectKey M l timing := by
  cases timing
  · exact selectLoopT_out l M 0 0
  · rfl

@[simp] theorem scalarT_out (E : Env F P) (r : TRng) : (scalarT E r : Traced F ε _).out = .ok (r.scalar E) := rfl

@[simp] theorem drawScalarsT_out (E : Env F P) (k : ℕ) (r : TRng) :
    (drawScalarsT E k r : Traced F ε _).out = .ok (drawScalars E k r) := by
  induction k generalizing r with
  | zero => rfl
  | succ k ih => simp only [drawScalarsT, bind_out, scalarT_out, Outcome.bind_ok, ih, pure_out, drawScalars]

@[simp] theorem drawMatrixT_out (E : Env F P) (cols k : ℕ) (r : TRng) :
    (drawMatrixT E cols k r : Traced F ε _).out = .ok (drawMatrix E cols k r) := by
  induction k generalizing r with
  | zero => rfl
  | succ k ih => simp only [drawMatrixT, bind_out, drawScalarsT_out, Outcome.bind_ok, ih, pure_out, drawMatrix]

@[simp] theorem fixRowT_out [AddCommGroup F] (row : List F) : (fixRowT row).out = fixRow row := by
  simp [fixRowT]

theorem baseLoopT_out (N k v : ℕ) : (baseLoopT N k v : Traced F ε _).out = .ok (GrayIterator.baseLoop N k v) := by
  induction k generalizing v with
  | zero => rfl
  | succ k ih => simp only [baseLoopT, bind_out, leak_out, Outcome.bind_ok, ih, pure_out, GrayIterator.baseLoop]

theorem grayLoopT_out (N : ℕ) (bs : List ℕ) : (grayLoopT N bs : Traced F ε _).out = .ok (GrayIterator.grayLoop N bs) := by
  induction bs with
  | nil => rfl
  | cons b bs ih => simp only [grayLoopT, bind_out, leak_out, Outcome.bind_ok, ih, pure_out, GrayIterator.grayLoop]

theorem mapM_ofOption (e : ε) (l : List ℕ) :
    (l.mapM fun d => if d ≤ u32Max then (.ok d : Outcome ε ℕ) else .err e) =
      Outcome.ofOption (l.mapM fun d => if d ≤ u32Max then some d else none) e := by
  induction l with
  | nil => rfl
  | cons a l ih =>
    rw [List.mapM_cons, List.mapM_cons, ih]
    by_cases h : a ≤ u32Max
    · rw [if_pos h, if_pos h]
      simp only [Outcome.bind_ok, Option.bind_eq_bind, Option.bind_some]
      cases l.mapM fun d => if d ≤ u32Max then some d else none <;> rfl
    · rw [if_neg h, if_neg h]; rfl

theorem decomposeT_out (N M v : ℕ) (e : ε) :
    (decomposeT N M v e : Traced F ε _).out = Outcome.ofOption (GrayIterator.decompose N M v) e := by
  rw [decomposeT, GrayIterator.decompose]
  simp only [bind_out, leak_out, Outcome.bind_ok]
  split
  · rfl
  · simp only [bind_out, baseLoopT_out, grayLoopT_out, Outcome.bind_ok, mapM_out, leak_out, apply_ite Traced.out, lift_out]
    exact mapM_ofOption e _

theorem ofOption_bind {α β : Type} (o : Option α) (f : α → Option β) (e : ε) :
    Outcome.ofOption (o >>= f) e = (Outcome.ofOption o e >>= fun a => Outcome.ofOption (f a) e) := by
  cases o <;> rfl

theorem baseLoopVartimeT_out (N : ℕ) (e : ε) (k v : ℕ) : (baseLoopVartimeT N e k v : Traced F ε _).out =
    Outcome.ofOption (GrayIterator.baseLoopVartime N k v) e := by
  induction k generalizing v with
  | zero => rfl
  | succ k ih =>
    simp only [baseLoopVartimeT, bind_out, step_out, ih, pure_out, GrayIterator.baseLoopVartime, ofOption_bind]
    rfl

theorem grayLoopVartimeT_out (N : ℕ) (e : ε) (bs : List ℕ) : (grayLoopVartimeT N e bs : Traced F ε _).out =
    Outcome.ofOption (GrayIterator.grayLoopVartime N bs) e := by
  induction bs with
  | nil => rfl
  | cons b bs ih =>
    simp only [grayLoopVartimeT, bind_out, leak_out, step_out, Outcome.bind_ok, ih, pure_out, GrayIterator.grayLoopVartime,
      ofOption_bind]
    rfl

theorem decomposeVartimeT_out (N M v : ℕ) (e : ε) :
    (decomposeVartimeT N M v e : Traced F ε _).out = Outcome.ofOption (GrayIterator.decomposeVartime N M v) e := by
  rw [decomposeVartimeT, GrayIterator.decomposeVartime]
  simp only [bind_out, leak_out, Outcome.bind_ok]
  split
  · rfl
  · simp only [bind_out, baseLoopVartimeT_out, grayLoopVartimeT_out, pure_out, ofOption_bind]
    rfl

@[simp] theorem decomposeIndexT_out (n m l : ℕ) (timing : OperationTiming) :
    (decomposeIndexT n m l timing : Traced F _ _).out = decomposeIndex n m l timing := by
  cases timing
  · exact decomposeT_out _ _ _ _
  · exact decomposeVartimeT_out _ _ _ _

@[simp] theorem sigmaMatrixT_out [Zero F] [One F] (n m : ℕ) (ds : List ℕ) (timing : OperationTiming) :
    (sigmaMatrixT n m ds timing : Traced F _ _).out = sigmaMatrix n m ds timing := by
  simp only [sigmaMatrixT, sigmaMatrix, mapM_out, bind_out, idxT_out, deltaT_out]

variable [Field F]

@[simp] theorem aSigmaMatrixT_out (n m : ℕ) (a sigma : List (List F)) :
    (aSigmaMatrixT n m a sigma).out = aSigmaMatrix n m a sigma := by
  simp only [aSigmaMatrixT, aSigmaMatrix, mapM_out, bind_out, idx2T_out, pure_out]

@[simp] theorem aSquareMatrixT_out (n m : ℕ) (a : List (List F)) : (aSquareMatrixT n m a).out = aSquareMatrix n m a := by
  simp only [aSquareMatrixT, aSquareMatrix, mapM_out, bind_out, idx2T_out, pure_out]

@[simp] theorem convolveStepT_out (a sigma : List (List F)) (k : List ℕ) (c : List F) (j : ℕ) :
    (convolveStepT a sigma k c j).out = convolveStep a sigma k c j := by
  simp only [convolveStepT, convolveStep, bind_out, idxT_out, idx2T_out, leak_out, step_out, pure_out, Outcome.bind_ok]

@[simp] theorem coefficientsT_out (m : ℕ) (a sigma : List (List F)) (k : List ℕ) :
    (coefficientsT m a sigma k).out = coefficients m a sigma k := by
  simp only [coefficientsT, coefficients, bind_out, idxT_out, idx2T_out, setIdxT_out, foldlM_out, convolveStepT_out]

theorem coefficientsLoopT_out (m : ℕ) (a sigma : List (List F)) (items : List (ℕ × ℕ × ℕ)) (k : List ℕ) :
    (coefficientsLoopT m a sigma items k).out = coefficientsLoop m a sigma items k := by
  induction items generalizing k with
  | nil => rfl
  | cons x items ih =>
    obtain ⟨i, o, n⟩ := x
    simp only [coefficientsLoopT, coefficientsLoop, bind_out, leak_out, setIdxT_out, coefficientsT_out, ih, pure_out,
      Outcome.bind_ok]

@[simp] theorem polynomialsT_out (n m : ℕ) (a sigma : List (List F)) :
    (polynomialsT n m a sigma).out = polynomials n m a sigma := by
  simp only [polynomialsT, polynomials, bind_out, leak_out, lift_out, Outcome.bind_ok, coefficientsLoopT_out]

@[simp] theorem responseMatrixT_out (n m : ℕ) (a sigma : List (List F)) (xi : List F) :
    (responseMatrixT n m a sigma xi).out = responseMatrix n m a sigma xi := by
  simp only [responseMatrixT, responseMatrix, mapM_out, bind_out, idx2T_out, idxT_out, pure_out]

@[simp] theorem responseZT_out (m : ℕ) (r : F) (rho xi : List F) : (responseZT m r rho xi).out = responseZ m r rho xi := by
  simp only [responseZT, responseZ, bind_out, idxT_out, leak_out, pure_out, Outcome.bind_ok]

@[simp] theorem xiPowersLoopT_out [DecidableEq F] (ξ : F) (k : ℕ) (p : F) :
    (xiPowersLoopT ξ k p).out = xiPowersLoop ξ k p := by
  induction k generalizing p with
  | zero => rfl
  | succ k ih =>
    simp only [xiPowersLoopT, xiPowersLoop, bind_out, leak_out, Outcome.bind_ok]
    split
    · rfl
    · simp only [bind_out, ih, pure_out]

variable [AddCommGroup P] [Module F P] [DecidableEq F] [DecidableEq P]

@[simp] theorem Params.commitMatrixT_out (p : Params P) (matrix : List (List F)) (mask : F) (timing : OperationTiming) :
    (p.commitMatrixT matrix mask timing).out = p.commitMatrix matrix mask timing := by
  simp only [Params.commitMatrixT, Params.commitMatrix, bind_out, leak_out, Outcome.bind_ok]
  split
  · rfl
  · simp only [bind_out, leak_out, Outcome.bind_ok]
    split
    · rfl
    · simp only [bind_out, leak_out, Outcome.bind_ok, msmT_out]
      cases timing <;> rfl

end Shared

namespace Proof
variable {F P σ : Type} [Field F] [AddCommGroup P] [Module F P] [DecidableEq F] [DecidableEq P]

@[simp] theorem checkWitnessT_out (w : Witness F P) (st : Statement P) (timing : OperationTiming) :
    (checkWitnessT w st timing).out = checkWitness w st timing := by
  simp only [checkWitnessT, checkWitness, bind_out, leak_out, Outcome.bind_ok]
  split
  · rfl
  · simp only [bind_out, selectKeyT_out, leak_out, Outcome.bind_ok]
    congr 1
    funext Ml
    split
    · rfl
    · simp only [bind_out, leak_out, Outcome.bind_ok]
      split <;> rfl

@[simp] theorem computeXT_out (params : Params P) (M : List P) (p : List (List F)) (rho : List F) (timing : OperationTiming) :
    (computeXT params M p rho timing).out = computeX params M p rho timing := by
  simp only [computeXT, computeX, mapM_out, bind_out, idxT_out, msmT_out]
  cases timing <;> rfl

@[simp] theorem commitErr_out {α : Type} (x : Traced F ParameterError α) (msg : String) :
    (commitErr x msg).out = x.out.mapErr fun _ => .InvalidParameter msg := rfl

theorem commitPhaseT_out (E : Env F P) (l : ℕ) (st : Statement P) (timing : OperationTiming) (r : TRng) :
    (commitPhaseT E l st timing r).out = commitPhase l st timing (drawNonces E st.params.n st.params.m r).1 >>= fun c =>
      .ok (c, drawNonces E st.params.n st.params.m r) := by
  simp only [commitPhaseT, commitPhase, drawNonces, bind_out, scalarT_out, drawMatrixT_out, drawScalarsT_out, mapM_out,
    fixRowT_out, commitErr_out, Params.commitMatrixT_out, decomposeIndexT_out, sigmaMatrixT_out, aSigmaMatrixT_out,
    aSquareMatrixT_out, polynomialsT_out, computeXT_out, leak_out, pure_out, Outcome.bind_ok, bind_assoc]

@[simp] theorem respondPhaseT_out (r : F) (params : Params P) (nn : Nonces F) (c : Committed F P) (xi : List F) :
    (respondPhaseT r params nn c xi).out = respondPhase r params nn c xi := by
  simp only [respondPhaseT, respondPhase, bind_out, responseMatrixT_out, idxT_out, responseZT_out, pure_out]

end Proof
end Triptych
