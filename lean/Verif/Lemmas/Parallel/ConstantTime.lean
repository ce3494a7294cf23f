import Verif.Lemmas.ConstantTime
import Verif.Model.Parallel.ProveTraced

/-! # The parallel constant-time prover's observations do not depend on secrets -/
set_option autoImplicit false
set_option linter.unusedSectionVars false
set_option linter.unusedVariables false

namespace Triptych.Parallel
open Traced

/-- Parameters of the same size. -/
structure SameSize {P : Type} (p p' : Params P) : Prop where
  n : p.n = p'.n
  m : p.m = p'.m
  G : p.CommitmentG.length = p'.CommitmentG.length

section Shared
variable {F P ε : Type}

theorem selectLoopT_out (l : ℕ) (M : List (P × P)) (i : ℕ) (acc : P × P) :
    (selectLoopT l M i acc : Traced F ε _).out =
      .ok ((M.zipIdx i).foldl (fun acc (item, index) => bif index == l then item else acc) acc) := by
  induction M generalizing i acc with
  | nil => rfl
  | cons a M ih =>
    obtain ⟨a, a1⟩ := a
    simp only [selectLoopT, bind_out, leak_out, Outcome.bind_ok, ih, List.zipIdx_cons, List.foldl_cons]

@[simp] theorem selectKeysT_out [Zero P] (M M1 : List P) (l : ℕ) (timing : OperationTiming) :
    (selectKeysT M M1 l timing : Traced F _ _).out = selectKeys M M1 l timing := by
  cases timing
  · simp only [selectKeysT, selectKeys, bind_out, leak_out, Outcome.bind_ok, selectLoopT_out]
  · simp only [selectKeysT, selectKeys, bind_out, idxT_out, pure_out]

theorem selectLoopT_same (l l' : ℕ) {M M' : List (P × P)} (hM : SameVec M M') (i : ℕ) (acc acc' : P × P) :
    Same (fun _ _ => True) (selectLoopT l M i acc : Traced F ε _) (selectLoopT l' M' i acc') := by
  induction hM generalizing i acc acc' with
  | nil => exact Same.pure trivial
  | cons _ _ ih =>
    exact .then _ _ rfl (.then _ _ rfl (.then _ _ rfl (.then _ _ rfl (.then _ _ rfl (ih _ _ _)))))

variable [Field F] [AddCommGroup P] [Module F P] [DecidableEq F] [DecidableEq P]

@[simp] theorem Params.commitMatrixT_out (p : Params P) (matrix : List (List F)) (mask : F) (timing : OperationTiming) :
    (p.commitMatrixT matrix mask timing).out = p.commitMatrix matrix mask timing := by
  simp only [Params.commitMatrixT, Params.commitMatrix, bind_out, leak_out, Outcome.bind_ok]
  split
  · rfl
  · simp only [bind_out, leak_out, Outcome.bind_ok]
    split
    · rfl
    · simp only [bind_out, leak_out, Outcome.bind_ok, msmT_out]
      cases timing <;> rfl

theorem Params.commitMatrixT_same {p p' : Params P} (hp : SameSize p p') {a a' : List (List F)} (h : SameMat a a') (x x' : F) :
    Same (fun _ _ => True) (p.commitMatrixT a x .Constant) (p'.commitMatrixT a' x' .Constant) := by
  obtain ⟨hn, hm, hG⟩ := hp
  rw [Params.commitMatrixT, Params.commitMatrixT, h.length_eq, any_length_eq h, map_length_eq h, hn, hm]
  refine .then _ _ rfl ?_
  split
  · exact ⟨rfl, rfl⟩
  · refine .then _ _ rfl (.then _ _ rfl ?_)
    split
    · exact ⟨rfl, rfl⟩
    · exact .then _ _ rfl (msmT_same (by simp [flatten_length_eq h]) (by simp [hG]))

end Shared

namespace Proof
variable {F P σ : Type} [Field F] [AddCommGroup P] [Module F P] [DecidableEq F] [DecidableEq P]

@[simp] theorem checkWitnessT_out (w : Witness F P) (st : Statement P) (timing : OperationTiming) :
    (checkWitnessT w st timing).out = checkWitness w st timing := by
  simp only [checkWitnessT, checkWitness, bind_out, leak_out, Outcome.bind_ok]
  split
  · rfl
  · simp only [bind_out, selectKeysT_out, leak_out, Outcome.bind_ok]
    congr 1
    funext Ml
    split
    · rfl
    · simp only [bind_out, leak_out, Outcome.bind_ok]
      split
      · rfl
      · simp only [bind_out, leak_out, Outcome.bind_ok]
        split <;> rfl

@[simp] theorem computeXT_out (params : Params P) (M : List P) (p : List (List F)) (rho : List F) (timing : OperationTiming) :
    (computeXT params M p rho timing).out = computeX params M p rho timing := by
  simp only [computeXT, computeX, mapM_out, bind_out, idxT_out, msmT_out]
  cases timing <;> rfl

@[simp] theorem computeX1T_out (params : Params P) (M : List P) (o : P) (p : List (List F)) (rho : List F)
    (timing : OperationTiming) : (computeX1T params M o p rho timing).out = computeX1 params M o p rho timing := by
  simp only [computeX1T, computeX1, mapM_out, bind_out, leak_out, Outcome.bind_ok, idxT_out, msmT_out]
  cases timing <;> rfl

theorem commitPhaseT_out (E : Env F P) (l : ℕ) (st : Statement P) (timing : OperationTiming) (r : TRng) :
    (commitPhaseT E l st timing r).out = commitPhase l st timing (drawNonces E st.params.n st.params.m r).1 >>= fun c =>
      .ok (c, drawNonces E st.params.n st.params.m r) := by
  simp only [commitPhaseT, commitPhase, drawNonces, bind_out, scalarT_out, drawMatrixT_out, drawScalarsT_out, mapM_out,
    fixRowT_out, Triptych.Proof.commitErr_out, Params.commitMatrixT_out, decomposeIndexT_out, sigmaMatrixT_out,
    aSigmaMatrixT_out, aSquareMatrixT_out, polynomialsT_out, computeXT_out, computeX1T_out, leak_out, pure_out,
    Outcome.bind_ok, bind_assoc]

@[simp] theorem respondPhaseT_out (r r1 : F) (params : Params P) (nn : Nonces F) (c : Committed F P) (xi : List F) :
    (respondPhaseT r r1 params nn c xi).out = respondPhase r r1 params nn c xi := by
  simp only [respondPhaseT, respondPhase, bind_out, responseMatrixT_out, idxT_out, responseZT_out, pure_out]

/-- The result of the computation with observations. -/
theorem proveInternalT_out (E : Env F P) (R : Rng σ) (w : Witness F P) (st : Statement P) (s : σ)
    (t : Transcript) (timing : OperationTiming) :
    (proveInternalT E R w st s t timing).2 = proveInternal E R w st s t timing := by
  rw [proveInternalT, proveInternal, checkWitnessT_out]
  cases checkWitness w st timing with
  | ok u =>
    simp only [commitPhaseT_out]
    cases commitPhase w.l st timing
      (drawNonces E st.params.n st.params.m (ProofTranscript.new E R t st s (some w)).trng).1 with
    | ok c => simp [ProofTranscript.commitT, ProofTranscript.commit]
    | err e => rfl
    | panic => rfl
    | diverge => rfl
  | err e => rfl
  | panic => rfl
  | diverge => rfl

theorem computeXT_same (params params' : Params P) {M M' : List P} (hM : SameVec M M') {p p' : List (List F)} {rho rho' : List F}
    (hp : SameMat p p') (hr : SameVec rho rho') :
    Same SameVec (computeXT params M p rho .Constant) (computeXT params' M' p' rho' .Constant) := by
  refine Same.mapM (zipIdx_forall₂ hr 0) fun x y hxy => ?_
  obtain ⟨x, j⟩ := x
  obtain ⟨y, j'⟩ := y
  simp only at hxy
  subst hxy
  exact (Same.mapM hp fun _ _ h => idxT_same h j).bind fun s s' hs => msmT_same (by simp [hs.length_eq])
    (by simp [hM.length_eq])

theorem computeX1T_same (params params' : Params P) (o o' : P) {M M' : List P} (hM : SameVec M M') {p p' : List (List F)}
    {rho rho' : List F} (hp : SameMat p p') (hr : SameVec rho rho') :
    Same SameVec (computeX1T params M o p rho .Constant) (computeX1T params' M' o' p' rho' .Constant) := by
  refine Same.mapM (zipIdx_forall₂ hr 0) fun x y hxy => ?_
  obtain ⟨x, j⟩ := x
  obtain ⟨y, j'⟩ := y
  simp only at hxy
  subst hxy
  exact .then _ _ rfl ((Same.mapM hp fun _ _ h => idxT_same h j).bind fun s s' hs =>
    .then _ _ (by rw [hs.length_eq]) (msmT_same (by simp [hs.length_eq]) (by simp [hM.length_eq])))

theorem commitPhaseT_same (E E' : Env F P) (l l' : ℕ) (st st' : Statement P) (hp : SameSize st.params st'.params)
    (hM : SameVec st.inputSet.M st'.inputSet.M) (hM1 : SameVec st.inputSet.M1 st'.inputSet.M1) (hN : st.params.n ≤ u32Max)
    (r r' : TRng) :
    Same (fun x y => SameVec x.1.X y.1.X ∧ SameVec x.1.X1 y.1.X1 ∧ SameVec x.1.Y y.1.Y ∧ SameMat x.1.a y.1.a ∧
      SameMat x.1.sigma y.1.sigma ∧ SameVec x.2.1.rho y.2.1.rho ∧ SameVec x.2.1.rho1 y.2.1.rho1)
      (commitPhaseT E l st .Constant r) (commitPhaseT E' l' st' .Constant r') := by
  rw [commitPhaseT, commitPhaseT, ← hp.n, ← hp.m]
  refine (scalarT_same E E' _ _).bind fun _ _ _ => ?_
  refine (drawMatrixT_same E E' _ _ _ _).bind fun _ _ ha0 => ?_
  refine (Same.mapM ha0 fun _ _ h => fixRowT_same h).bind fun a a' ha => ?_
  refine (commitErr_same (Params.commitMatrixT_same hp ha _ _) _).bind fun _ _ _ => ?_
  refine (scalarT_same E E' _ _).bind fun _ _ _ => ?_
  refine (decomposeT_same _ _ _ _ hN _).bind fun _ _ hd => ?_
  refine (sigmaMatrixT_same _ _ hd).bind fun s s' hs => ?_
  refine (commitErr_same (Params.commitMatrixT_same hp hs _ _) _).bind fun _ _ _ => ?_
  refine (scalarT_same E E' _ _).bind fun _ _ _ => ?_
  refine (aSigmaMatrixT_same _ _ ha hs).bind fun _ _ has => ?_
  refine (commitErr_same (Params.commitMatrixT_same hp has _ _) _).bind fun _ _ _ => ?_
  refine (scalarT_same E E' _ _).bind fun _ _ _ => ?_
  refine (aSquareMatrixT_same _ _ ha).bind fun _ _ haq => ?_
  refine (commitErr_same (Params.commitMatrixT_same hp haq _ _) _).bind fun _ _ _ => ?_
  refine (drawScalarsT_same E E' _ _ _).bind fun _ _ hr => ?_
  refine (drawScalarsT_same E E' _ _ _).bind fun _ _ hr1 => ?_
  refine (polynomialsT_same _ _ ha hs).bind fun _ _ hpoly => ?_
  refine (computeXT_same _ _ hM hpoly hr).bind fun _ _ hX => ?_
  refine (computeX1T_same _ _ _ _ hM1 hpoly hr1).bind fun _ _ hX1 => ?_
  refine .then _ _ (by rw [hr.length_eq]) (Same.pure ⟨hX, hX1, sameVec_of_length ?_, ha, hs, hr, hr1⟩)
  simp [hr.length_eq]

theorem respondPhaseT_same (r r' r1 r1' : F) {params params' : Params P} (hp : SameSize params params') {nn nn' : Nonces F}
    {c c' : Committed F P} {xi xi' : List F} (ha : SameMat c.a c'.a) (hs : SameMat c.sigma c'.sigma)
    (hr : SameVec nn.rho nn'.rho) (hr1 : SameVec nn.rho1 nn'.rho1) (hx : SameVec xi xi') :
    Same (fun _ _ => True) (respondPhaseT r r1 params nn c xi) (respondPhaseT r' r1' params' nn' c' xi') := by
  rw [respondPhaseT, respondPhaseT, ← hp.n, ← hp.m]
  exact (responseMatrixT_same _ _ ha hs hx).bind fun _ _ _ => (idxT_same hx 1).bind fun _ _ _ =>
    (responseZT_same _ r r' hr hx).bind fun _ _ _ => (responseZT_same _ r1 r1' hr1 hx).bind fun _ _ _ => Same.pure trivial

theorem respondPhase_noErr (r r1 : F) (params : Params P) (nn : Nonces F) (c : Committed F P) (xi : List F) :
    NoErr (respondPhase r r1 params nn c xi) :=
  (responseMatrix_noErr _ _ _ _ _).bind fun _ => (NoErr.idx _ _).bind fun _ => (responseZ_noErr _ _ _ _).bind fun _ =>
    (responseZ_noErr _ _ _ _).bind fun _ => NoErr.ok _

/-- The observations of the validity checks are determined by their result. -/
theorem checkWitnessT_same (w w' : Witness F P) (st st' : Statement P) (hlen : SameVec st.inputSet.M st'.inputSet.M)
    (hlen1 : SameVec st.inputSet.M1 st'.inputSet.M1)
    (h : checkWitness w st .Constant = checkWitness w' st' .Constant) :
    Same (fun _ _ => True) (checkWitnessT w st .Constant) (checkWitnessT w' st' .Constant) := by
  have hz : SameVec (st.inputSet.M.zip st.inputSet.M1) (st'.inputSet.M.zip st'.inputSet.M1) :=
    sameVec_of_length (by simp [hlen.length_eq, hlen1.length_eq])
  have hsel := selectLoopT_same (F := F) (ε := ProofError) w.l w'.l hz 0 (0, 0) (0, 0)
  have hs1 : (selectKeysT st.inputSet.M st.inputSet.M1 w.l .Constant : Traced F ProofError _).trace =
      (selectKeysT st'.inputSet.M st'.inputSet.M1 w'.l .Constant : Traced F ProofError _).trace :=
    (Same.then (.call "zip" [st.inputSet.M.length, st.inputSet.M1.length]) _
      (by rw [hlen.length_eq, hlen1.length_eq]) hsel).1
  refine ⟨?_, by rw [checkWitnessT_out, checkWitnessT_out, h]; cases checkWitness w' st' .Constant <;> trivial⟩
  have e1 := selectKeysT_out (F := F) st.inputSet.M st.inputSet.M1 w.l .Constant
  have e2 := selectKeysT_out (F := F) st'.inputSet.M st'.inputSet.M1 w'.l .Constant
  rw [checkWitness, checkWitness] at h
  rw [checkWitnessT, checkWitnessT]
  generalize (selectKeysT st.inputSet.M st.inputSet.M1 w.l .Constant : Traced F ProofError _) = k at *
  generalize (selectKeysT st'.inputSet.M st'.inputSet.M1 w'.l .Constant : Traced F ProofError _) = k' at *
  obtain ⟨kt, ko⟩ := k
  obtain ⟨kt', ko'⟩ := k'
  rw [selectKeys] at e1 e2 h
  simp only at e1 e2 hs1
  rw [selectKeys] at h
  generalize List.foldl _ _ _ = x at e1 h
  generalize List.foldl _ _ _ = x' at e2 h
  subst e1 e2 hs1
  simp only [bind_trace, leak_out, leak_trace, Outcome.bind_ok] at h ⊢
  by_cases a1 : w.params = st.params <;> by_cases b1 : w'.params = st'.params <;>
    by_cases a2 : x.1 = w.r • st.params.G <;> by_cases b2 : x'.1 = w'.r • st'.params.G <;>
    by_cases a3 : x.2 - st.offset = w.r1 • st.params.G1 <;> by_cases b3 : x'.2 - st'.offset = w'.r1 • st'.params.G1 <;>
    by_cases a4 : w.r • st.J = st.params.U <;> by_cases b4 : w'.r • st'.J = st'.params.U <;>
    simp_all [bind_trace]

theorem buildT_eq {E : Env F P} (hE : E.Lawful) (w w' : Witness F P) :
    ProofTranscript.buildTranscriptRngT E (some w) = ProofTranscript.buildTranscriptRngT E (some w') := by
  have hl : ∀ k x, (leBytes k x).length = k := by
    intro k
    induction k with
    | zero => intro x; rfl
    | succ k ih => intro x; simp [leBytes, ih]
  simp [ProofTranscript.buildTranscriptRngT, hl, hE.scalarBytes_length]

end Proof
end Triptych.Parallel
