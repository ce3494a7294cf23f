import Verif.Lemmas.Leak
import Mathlib.Tactic.Linarith

/-! # The constant-time prover's observations do not depend on secrets -/
set_option autoImplicit false
set_option linter.unusedSectionVars false
set_option linter.unusedVariables false

namespace Triptych
open Traced

/-- Vectors of the same length. -/
abbrev SameVec {α β : Type} : List α → List β → Prop := List.Forall₂ fun _ _ => True

/-- Matrices of the same shape. -/
abbrev SameMat {α β : Type} : List (List α) → List (List β) → Prop := List.Forall₂ SameVec

/-- Parameters of the same size. -/
structure SameSize {P : Type} (p p' : Params P) : Prop where
  n : p.n = p'.n
  m : p.m = p'.m
  G : p.CommitmentG.length = p'.CommitmentG.length

section Shared
variable {F P ε : Type}

theorem sameVec_of_length {α β : Type} {l : List α} {l' : List β} (h : l.length = l'.length) : SameVec l l' := by
  induction l generalizing l' with
  | nil => cases l' with
    | nil => exact .nil
    | cons b l' => simp at h
  | cons a l ih => cases l' with
    | nil => simp at h
    | cons b l' => exact .cons trivial (ih (by simpa using h))

theorem outRel_refl {α : Type} (o : Outcome ε α) : OutRel (· = ·) o o := by
  cases o <;> simp [OutRel]

theorem Same.rfl' {α : Type} (x : Traced F ε α) : Same (· = ·) x x := ⟨rfl, outRel_refl _⟩

theorem idx_rel {α β : Type} {R : α → β → Prop} {l : List α} {l' : List β} (h : List.Forall₂ R l l') (i : ℕ) :
    OutRel R (idx l i : Outcome ε α) (idx l' i) := by
  induction h generalizing i with
  | nil => simp [idx, OutRel]
  | cons hab _ ih =>
    cases i with
    | zero => simpa [idx, OutRel] using hab
    | succ i => simpa [idx] using ih i

theorem idxT_same {α β : Type} {R : α → β → Prop} {l : List α} {l' : List β} (h : List.Forall₂ R l l') (i : ℕ) :
    Same R (idxT l i : Traced F ε α) (idxT l' i) := Same.step rfl (idx_rel h i)

theorem idx2T_same {α β : Type} {R : α → β → Prop} {l : List (List α)} {l' : List (List β)}
    (h : List.Forall₂ (List.Forall₂ R) l l') (j i : ℕ) : Same R (idx2T l j i : Traced F ε α) (idx2T l' j i) :=
  (idxT_same h j).bind fun _ _ h' => idxT_same h' i

theorem setIdxT_same {α β : Type} {l : List α} {l' : List β} (h : SameVec l l') (i : ℕ) (a : α) (b : β) :
    Same SameVec (setIdxT l i a : Traced F ε _) (setIdxT l' i b) := by
  refine Same.step rfl ?_
  rw [setIdx, setIdx, h.length_eq]
  split
  · exact sameVec_of_length (by simp [h.length_eq])
  · trivial

theorem msmT_same [SMul F P] [Zero P] [Add P] {s s' : List F} {ps ps' : List P} (hs : s.length = s'.length)
    (hp : ps.length = ps'.length) :
    Same (fun _ _ => True) (msmT s ps .Constant : Traced F ε P) (msmT s' ps' .Constant) := by
  refine Same.step (by rw [hs, hp]) ?_
  rw [msm, msm, hs, hp]
  split <;> trivial

theorem deltaT_same [Zero F] [One F] (x x' y : ℕ) :
    Same (fun _ _ => True) (deltaT x y .Constant : Traced F ε F) (deltaT x' y .Constant) :=
  .then _ _ rfl (.then _ _ rfl ⟨rfl, trivial⟩)

theorem selectLoopT_same (l l' : ℕ) {M M' : List P} (hM : SameVec M M') (i : ℕ) (acc acc' : P) :
    Same (fun _ _ => True) (selectLoopT l M i acc : Traced F ε P) (selectLoopT l' M' i acc') := by
  induction hM generalizing i acc acc' with
  | nil => exact Same.pure trivial
  | cons _ _ ih => exact .then _ _ rfl (.then _ _ rfl (.then _ _ rfl (ih _ _ _)))

theorem scalarT_same (E E' : Env F P) (r r' : TRng) :
    Same (fun _ _ => True) (scalarT E r : Traced F ε _) (scalarT E' r') := Same.step rfl trivial

theorem drawScalarsT_same (E E' : Env F P) (k : ℕ) (r r' : TRng) :
    Same (fun x y => SameVec x.1 y.1) (drawScalarsT E k r : Traced F ε _) (drawScalarsT E' k r') := by
  induction k generalizing r r' with
  | zero => exact Same.pure .nil
  | succ k ih =>
    exact (scalarT_same E E' r r').bind fun _ _ _ => (ih _ _).bind fun _ _ h => Same.pure (.cons trivial h)

theorem drawMatrixT_same (E E' : Env F P) (n k : ℕ) (r r' : TRng) :
    Same (fun x y => SameMat x.1 y.1) (drawMatrixT E n k r : Traced F ε _) (drawMatrixT E' n k r') := by
  induction k generalizing r r' with
  | zero => exact Same.pure .nil
  | succ k ih =>
    exact (drawScalarsT_same E E' n r r').bind fun _ _ h => (ih _ _).bind fun _ _ h' => Same.pure (.cons h h')

theorem fixRowT_same [AddCommGroup F] {row row' : List F} (h : SameVec row row') :
    Same SameVec (fixRowT row) (fixRowT row') := by
  refine .then _ _ (by rw [h.length_eq]) (Same.step rfl ?_)
  cases h with
  | nil => trivial
  | cons _ h => exact .cons trivial h

theorem baseLoopT_same (N k v v' : ℕ) :
    Same SameVec (baseLoopT N k v : Traced F ε _) (baseLoopT N k v') := by
  induction k generalizing v v' with
  | zero => exact Same.pure .nil
  | succ k ih => exact .then _ _ rfl ((ih _ _).bind fun _ _ h => Same.pure (.cons trivial h))

theorem grayLoopT_same (N : ℕ) (hN : 0 < N) {bs bs' : List ℕ} (h : SameVec bs bs') :
    Same (fun x y => List.Forall₂ (fun d d' => d < N ∧ d' < N) x.1 y.1) (grayLoopT N bs : Traced F ε _) (grayLoopT N bs') := by
  induction h with
  | nil => exact Same.pure .nil
  | cons _ h ih =>
    refine ih.bind fun x y hxy => .then _ _ (by rw [h.length_eq]) (.then _ _ rfl (Same.pure ?_))
    exact .cons ⟨Nat.mod_lt _ hN, Nat.mod_lt _ hN⟩ hxy

theorem decomposeT_same (N M v v' : ℕ) (hN : N ≤ u32Max) (e : ε) :
    Same SameVec (decomposeT N M v e : Traced F ε _) (decomposeT N M v' e) := by
  refine .then _ _ rfl ?_
  split
  · exact ⟨rfl, rfl⟩
  · rename_i h
    refine (baseLoopT_same N M v v').bind fun b b' hb => (grayLoopT_same N (by omega) hb).bind fun x y hxy => ?_
    refine Same.mono (Same.mapM hxy (S := fun _ _ => True) fun d d' hd => ?_) fun a b h => h
    have h1 : d ≤ u32Max := by omega
    have h2 : d' ≤ u32Max := by omega
    refine .then _ _ (by simp [h1, h2]) ?_
    rw [if_pos h1, if_pos h2]
    exact Same.pure trivial

theorem forall₂_refl {α : Type} {R : α → α → Prop} (h : ∀ a, R a a) (l : List α) : List.Forall₂ R l l := by
  induction l with
  | nil => exact .nil
  | cons a l ih => exact .cons (h a) ih

theorem mapM_same {α γ δ : Type} {S : γ → δ → Prop} {f : α → Traced F ε γ} {g : α → Traced F ε δ} (l : List α)
    (h : ∀ a, Same S (f a) (g a)) : Same (List.Forall₂ S) (l.mapM f) (l.mapM g) :=
  Same.mapM (forall₂_refl (R := (· = ·)) (fun _ => rfl) l) fun a b hab => hab ▸ h a

theorem sigmaMatrixT_same [Zero F] [One F] (n m : ℕ) {d d' : List ℕ} (h : SameVec d d') :
    Same SameMat (sigmaMatrixT n m d .Constant : Traced F _ _) (sigmaMatrixT n m d' .Constant) :=
  mapM_same _ fun j => mapM_same _ fun i => (idxT_same h j).bind fun _ _ _ => deltaT_same _ _ _

variable [Field F]

theorem aSigmaMatrixT_same (n m : ℕ) {a a' s s' : List (List F)} (ha : SameMat a a') (hs : SameMat s s') :
    Same SameMat (aSigmaMatrixT n m a s) (aSigmaMatrixT n m a' s') :=
  mapM_same _ fun j => mapM_same _ fun i => (idx2T_same ha j i).bind fun _ _ _ => (idx2T_same hs j i).bind fun _ _ _ =>
    Same.pure trivial

theorem aSquareMatrixT_same (n m : ℕ) {a a' : List (List F)} (ha : SameMat a a') :
    Same SameMat (aSquareMatrixT n m a) (aSquareMatrixT n m a') :=
  mapM_same _ fun j => mapM_same _ fun i => (idx2T_same ha j i).bind fun _ _ _ => (idx2T_same ha j i).bind fun _ _ _ =>
    Same.pure trivial

theorem rotateRight1_rel {c c' : List F} (h : SameVec c c') : OutRel SameVec (rotateRight1 c) (rotateRight1 c') := by
  have hl := h.length_eq
  rw [rotateRight1, rotateRight1]
  cases hc : c.getLast? with
  | none =>
    rw [List.getLast?_eq_none_iff] at hc
    subst hc
    have : c' = [] := by simpa using hl.symm
    subst this
    trivial
  | some x =>
    cases hc' : c'.getLast? with
    | none =>
      rw [List.getLast?_eq_none_iff] at hc'
      subst hc'
      have : c = [] := by simpa using hl
      subst this
      simp at hc
    | some y => exact .cons trivial (sameVec_of_length (by simp [hl]))

theorem convolveStepT_same {a a' s s' : List (List F)} (ha : SameMat a a') (hs : SameMat s s') (k : List ℕ) {c c' : List F}
    (hc : SameVec c c') (j : ℕ) : Same SameVec (convolveStepT a s k c j) (convolveStepT a' s' k c' j) := by
  refine (Same.rfl' (idxT k j)).bind fun kj kj' hk => ?_
  subst hk
  refine (idx2T_same ha j kj).bind fun _ _ _ => .then _ _ (by rw [hc.length_eq]) ?_
  refine (Same.step (by rw [hc.length_eq]) (rotateRight1_rel hc)).bind fun x y hxy => ?_
  refine (idx2T_same hs j kj).bind fun _ _ _ => .then _ _ (by rw [hxy.length_eq]) ?_
  refine .then _ _ (by simp [hc.length_eq, hxy.length_eq]) (Same.pure (sameVec_of_length ?_))
  simp [hc.length_eq, hxy.length_eq]

theorem coefficientsT_same (m : ℕ) {a a' s s' : List (List F)} (ha : SameMat a a') (hs : SameMat s s') (k : List ℕ) :
    Same SameVec (coefficientsT m a s k) (coefficientsT m a' s' k) := by
  refine (Same.rfl' (idxT k 0)).bind fun k0 k0' hk => ?_
  subst hk
  refine (idx2T_same ha 0 k0).bind fun _ _ _ => ?_
  refine (setIdxT_same (sameVec_of_length rfl) 0 _ _).bind fun c c' hc => ?_
  refine (idx2T_same hs 0 k0).bind fun _ _ _ => ?_
  refine (setIdxT_same hc 1 _ _).bind fun c c' hc => ?_
  exact Same.foldlM _ hc fun j _ c c' hc => convolveStepT_same ha hs k hc j

theorem coefficientsLoopT_same (m : ℕ) {a a' s s' : List (List F)} (ha : SameMat a a') (hs : SameMat s s')
    (items : List (ℕ × ℕ × ℕ)) (k : List ℕ) :
    Same SameMat (coefficientsLoopT m a s items k) (coefficientsLoopT m a' s' items k) := by
  induction items generalizing k with
  | nil => exact Same.pure .nil
  | cons x items ih =>
    obtain ⟨i, o, n⟩ := x
    refine .then _ _ rfl ((Same.rfl' (setIdxT k i n)).bind fun k k' hk => ?_)
    subst hk
    exact (coefficientsT_same m ha hs k).bind fun _ _ hc => (ih k).bind fun _ _ hcs => Same.pure (.cons hc hcs)

theorem polynomialsT_same (n m : ℕ) {a a' s s' : List (List F)} (ha : SameMat a a') (hs : SameMat s s') :
    Same SameMat (polynomialsT n m a s) (polynomialsT n m a' s') := by
  refine .then _ _ rfl ((Same.rfl' (lift _)).bind fun g g' hg => ?_)
  subst hg
  exact coefficientsLoopT_same m ha hs _ _

theorem responseMatrixT_same (n m : ℕ) {a a' s s' : List (List F)} {xi xi' : List F} (ha : SameMat a a') (hs : SameMat s s')
    (hx : SameVec xi xi') : Same SameMat (responseMatrixT n m a s xi) (responseMatrixT n m a' s' xi') :=
  mapM_same _ fun j => mapM_same _ fun i => (idx2T_same hs j i).bind fun _ _ _ => (idxT_same hx 1).bind fun _ _ _ =>
    (idx2T_same ha j i).bind fun _ _ _ => Same.pure trivial

theorem responseZT_same (m : ℕ) (r r' : F) {rho rho' xi xi' : List F} (hr : SameVec rho rho') (hx : SameVec xi xi') :
    Same (fun _ _ => True) (responseZT m r rho xi) (responseZT m r' rho' xi') :=
  (idxT_same hx m).bind fun _ _ _ => .then _ _ (by rw [hr.length_eq, hx.length_eq]) (Same.pure trivial)

variable [AddCommGroup P] [Module F P] [DecidableEq F] [DecidableEq P]

theorem xiPowersLoopT_same (ξ ξ' : F) (hξ : ξ = 0 ↔ ξ' = 0) (k : ℕ) (p p' : F) (hp : p = 0 ↔ p' = 0) :
    Same SameVec (xiPowersLoopT ξ k p) (xiPowersLoopT ξ' k p') := by
  induction k generalizing p p' with
  | zero => exact Same.pure .nil
  | succ k ih =>
    refine .then _ _ (by simp only [hp]) ?_
    by_cases h : p = 0
    · rw [if_pos h, if_pos (hp.1 h)]; exact ⟨rfl, rfl⟩
    · rw [if_neg h, if_neg fun h' => h (hp.2 h')]
      exact (ih _ _ (by simp [mul_eq_zero, hp, hξ])).bind fun _ _ h => Same.pure (.cons trivial h)

theorem flatten_length_eq {a a' : List (List F)} (h : SameMat a a') : a.flatten.length = a'.flatten.length := by
  induction h with
  | nil => rfl
  | cons h _ ih => rw [List.flatten_cons, List.flatten_cons, List.length_append, List.length_append, h.length_eq, ih]

theorem map_length_eq {a a' : List (List F)} (h : SameMat a a') : a.map List.length = a'.map List.length := by
  induction h with
  | nil => rfl
  | cons h _ ih => rw [List.map_cons, List.map_cons, h.length_eq, ih]

theorem any_length_eq {a a' : List (List F)} (h : SameMat a a') (n : ℕ) :
    (a.any fun row => row.length ≠ n) = a'.any fun row => row.length ≠ n := by
  induction h with
  | nil => rfl
  | cons h _ ih => rw [List.any_cons, List.any_cons, h.length_eq, ih]

theorem Params.commitMatrixT_same {p p' : Params P} (hp : SameSize p p') {a a' : List (List F)} (h : SameMat a a') (x x' : F) :
    Same (fun _ _ => True) (p.commitMatrixT a x .Constant) (p'.commitMatrixT a' x' .Constant) := by
  obtain ⟨hn, hm, hG⟩ := hp
  rw [Params.commitMatrixT, Params.commitMatrixT, h.length_eq, any_length_eq h, map_length_eq h, hn, hm]
  refine .then _ _ rfl ?_
  split
  · exact ⟨rfl, rfl⟩
  · refine .then _ _ rfl (.then _ _ rfl ?_)
    split
    · exact ⟨rfl, rfl⟩
    · exact .then _ _ rfl (msmT_same (by simp [flatten_length_eq h]) (by simp [hG]))

theorem zipIdx_forall₂ {rho rho' : List F} (h : SameVec rho rho') (i : ℕ) :
    List.Forall₂ (fun x y => x.2 = y.2) (rho.zipIdx i) (rho'.zipIdx i) := by
  induction h generalizing i with
  | nil => exact .nil
  | cons _ _ ih => rw [List.zipIdx_cons, List.zipIdx_cons]; exact .cons rfl (ih _)

theorem commitErr_same {α β : Type} {R : α → β → Prop} {x : Traced F ParameterError α} {y : Traced F ParameterError β}
    (h : Same R x y) (msg : String) : Same R (Proof.commitErr x msg) (Proof.commitErr y msg) := by
  refine ⟨h.1, ?_⟩
  have := h.2
  rw [Proof.commitErr_out, Proof.commitErr_out]
  revert this
  cases x.out <;> cases y.out <;> simp [OutRel, Outcome.mapErr]

/-! ## Computations without errors -/

/-- The outcome is not an error (but possibly a panic). -/
def NoErr {α : Type} (o : Outcome ε α) : Prop := ∀ e, o ≠ .err e

omit [Field F] [AddCommGroup P] [Module F P] [DecidableEq F] [DecidableEq P] in
theorem NoErr.bind {α β : Type} {o : Outcome ε α} {f : α → Outcome ε β} (h : NoErr o) (hf : ∀ a, NoErr (f a)) :
    NoErr (o >>= f) := by
  intro e
  cases o with
  | ok a => exact hf a e
  | err e' => exact absurd rfl (h e')
  | panic => simp
  | diverge => simp

theorem NoErr.ok {α : Type} (a : α) : NoErr (.ok a : Outcome ε α) := fun _ => by simp

theorem NoErr.idx {α : Type} (l : List α) (i : ℕ) : NoErr (idx l i : Outcome ε α) := by
  intro e
  rw [Triptych.idx]
  split <;> simp

theorem NoErr.idx2 {α : Type} (l : List (List α)) (j i : ℕ) : NoErr (idx2 l j i : Outcome ε α) :=
  (NoErr.idx l j).bind fun _ => NoErr.idx _ i

theorem NoErr.mapM {α β : Type} {f : α → Outcome ε β} (hf : ∀ a, NoErr (f a)) (l : List α) : NoErr (l.mapM f) := by
  induction l with
  | nil => exact NoErr.ok _
  | cons a l ih =>
    rw [List.mapM_cons]
    exact (hf a).bind fun _ => ih.bind fun _ => NoErr.ok _

theorem responseMatrix_noErr (n m : ℕ) (a s : List (List F)) (xi : List F) : NoErr (responseMatrix n m a s xi) :=
  NoErr.mapM (fun j => NoErr.mapM (fun i => (NoErr.idx2 _ _ _).bind fun _ => (NoErr.idx _ _).bind fun _ =>
    (NoErr.idx2 _ _ _).bind fun _ => NoErr.ok _) _) _

theorem responseZ_noErr (m : ℕ) (r : F) (rho xi : List F) : NoErr (responseZ m r rho xi) :=
  (NoErr.idx _ _).bind fun _ => NoErr.ok _

theorem xiPowersLoop_zero_err (k : ℕ) (p : F) : xiPowersLoop (0 : F) (k + 2) p = .err .InvalidChallenge := by
  rw [xiPowersLoop]
  split
  · rfl
  · rw [xiPowersLoop, if_pos (mul_zero p)]; rfl

theorem xiPowersLoop_noErr (ξ : F) (hξ : ξ ≠ 0) (k : ℕ) (p : F) (hp : p ≠ 0) : NoErr (xiPowersLoop ξ k p) := by
  induction k generalizing p with
  | zero => exact NoErr.ok _
  | succ k ih =>
    rw [xiPowersLoop, if_neg hp]
    exact (ih _ (mul_ne_zero hp hξ)).bind fun _ => NoErr.ok _

end Shared

/-! ## The prover -/
namespace Proof
variable {F P σ : Type} [Field F] [AddCommGroup P] [Module F P] [DecidableEq F] [DecidableEq P]

theorem computeXT_same (params params' : Params P) {M M' : List P} (hM : SameVec M M') {p p' : List (List F)} {rho rho' : List F}
    (hp : SameMat p p') (hr : SameVec rho rho') :
    Same SameVec (computeXT params M p rho .Constant) (computeXT params' M' p' rho' .Constant) := by
  refine Same.mapM (zipIdx_forall₂ hr 0) fun x y hxy => ?_
  obtain ⟨x, j⟩ := x
  obtain ⟨y, j'⟩ := y
  simp only at hxy
  subst hxy
  exact (Same.mapM hp fun _ _ h => idxT_same h j).bind fun s s' hs => msmT_same (by simp [hs.length_eq])
    (by simp [hM.length_eq])

theorem commitPhaseT_same (E E' : Env F P) (l l' : ℕ) (st st' : Statement P) (hp : SameSize st.params st'.params)
    (hM : SameVec st.inputSet.M st'.inputSet.M) (hN : st.params.n ≤ u32Max) (r r' : TRng) :
    Same (fun x y => SameVec x.1.X y.1.X ∧ SameVec x.1.Y y.1.Y ∧ SameMat x.1.a y.1.a ∧ SameMat x.1.sigma y.1.sigma ∧
      SameVec x.2.1.rho y.2.1.rho) (commitPhaseT E l st .Constant r) (commitPhaseT E' l' st' .Constant r') := by
  rw [commitPhaseT, commitPhaseT, ← hp.n, ← hp.m]
  refine (scalarT_same E E' _ _).bind fun _ _ _ => ?_
  refine (drawMatrixT_same E E' _ _ _ _).bind fun _ _ ha0 => ?_
  refine (Same.mapM ha0 fun _ _ h => fixRowT_same h).bind fun a a' ha => ?_
  refine (commitErr_same (Params.commitMatrixT_same hp ha _ _) _).bind fun _ _ _ => ?_
  refine (scalarT_same E E' _ _).bind fun _ _ _ => ?_
  refine (decomposeT_same _ _ _ _ hN _).bind fun _ _ hd => ?_
  refine (sigmaMatrixT_same _ _ hd).bind fun s s' hs => ?_
  refine (commitErr_same (Params.commitMatrixT_same hp hs _ _) _).bind fun _ _ _ => ?_
  refine (scalarT_same E E' _ _).bind fun _ _ _ => ?_
  refine (aSigmaMatrixT_same _ _ ha hs).bind fun _ _ has => ?_
  refine (commitErr_same (Params.commitMatrixT_same hp has _ _) _).bind fun _ _ _ => ?_
  refine (scalarT_same E E' _ _).bind fun _ _ _ => ?_
  refine (aSquareMatrixT_same _ _ ha).bind fun _ _ haq => ?_
  refine (commitErr_same (Params.commitMatrixT_same hp haq _ _) _).bind fun _ _ _ => ?_
  refine (drawScalarsT_same E E' _ _ _).bind fun _ _ hr => ?_
  refine (polynomialsT_same _ _ ha hs).bind fun _ _ hpoly => ?_
  refine (computeXT_same _ _ hM hpoly hr).bind fun _ _ hX => ?_
  refine .then _ _ (by rw [hr.length_eq]) (Same.pure ⟨hX, sameVec_of_length ?_, ha, hs, hr⟩)
  simp [hr.length_eq]

theorem respondPhaseT_same (r r' : F) {params params' : Params P} (hp : SameSize params params') {nn nn' : Nonces F} {c c' : Committed F P} {xi xi' : List F}
    (ha : SameMat c.a c'.a) (hs : SameMat c.sigma c'.sigma) (hr : SameVec nn.rho nn'.rho) (hx : SameVec xi xi') :
    Same (fun _ _ => True) (respondPhaseT r params nn c xi) (respondPhaseT r' params' nn' c' xi') := by
  rw [respondPhaseT, respondPhaseT, ← hp.n, ← hp.m]
  exact (responseMatrixT_same _ _ ha hs hx).bind fun _ _ _ => (idxT_same hx 1).bind fun _ _ _ =>
    (responseZT_same _ r r' hr hx).bind fun _ _ _ => Same.pure trivial

theorem respondPhase_noErr (r : F) (params : Params P) (nn : Nonces F) (c : Committed F P) (xi : List F) :
    NoErr (respondPhase r params nn c xi) :=
  (responseMatrix_noErr _ _ _ _ _).bind fun _ => (NoErr.idx _ _).bind fun _ => (responseZ_noErr _ _ _ _).bind fun _ =>
    NoErr.ok _

theorem checkWitnessT_same (w w' : Witness F P) (st st' : Statement P) (hlen : SameVec st.inputSet.M st'.inputSet.M)
    (hp : w.params = st.params ↔ w'.params = st'.params)
    (hM : w.params = st.params → (selectKey st.inputSet.M w.l .Constant = .ok (w.r • st.params.G) ↔
      selectKey st'.inputSet.M w'.l .Constant = .ok (w'.r • st'.params.G)))
    (hJ : w.params = st.params → selectKey st.inputSet.M w.l .Constant = .ok (w.r • st.params.G) →
      (w.r • st.J = st.params.U ↔ w'.r • st'.J = st'.params.U)) :
    Same (fun _ _ => True) (checkWitnessT w st .Constant) (checkWitnessT w' st' .Constant) := by
  refine .then _ _ (by simp [hp]) ?_
  by_cases h : w.params = st.params
  · rw [if_neg (not_not.2 h), if_neg (not_not.2 (hp.1 h))]
    have hsel := selectLoopT_same (F := F) (ε := ProofError) w.l w'.l hlen 0 0 0
    have e1 := selectKeyT_out (F := F) st.inputSet.M w.l .Constant
    have e2 := selectKeyT_out (F := F) st'.inputSet.M w'.l .Constant
    have hM := hM h
    have hJ := hJ h
    rw [← e1, ← e2] at hM
    rw [← e1] at hJ
    have hrel : Same (fun x y => (x = w.r • st.params.G ↔ y = w'.r • st'.params.G) ∧
        (x = w.r • st.params.G → (w.r • st.J = st.params.U ↔ w'.r • st'.J = st'.params.U)))
        (selectKeyT st.inputSet.M w.l .Constant : Traced F ProofError P) (selectKeyT st'.inputSet.M w'.l .Constant) := by
      have hs2 : OutRel (fun _ _ => True) (selectKeyT st.inputSet.M w.l .Constant : Traced F ProofError P).out
        (selectKeyT st'.inputSet.M w'.l .Constant : Traced F ProofError P).out := hsel.2
      refine ⟨hsel.1, ?_⟩
      revert hM hJ hs2
      cases (selectKeyT st.inputSet.M w.l .Constant : Traced F ProofError P).out <;>
        cases (selectKeyT st'.inputSet.M w'.l .Constant : Traced F ProofError P).out <;> simp [OutRel]
      intro h1 h2
      exact ⟨h1, h2⟩
    refine hrel.bind fun x y hxy => .then _ _ rfl (.then _ _ (by simp [hxy.1]) ?_)
    by_cases hx : x = w.r • st.params.G
    · rw [if_neg (not_not.2 hx), if_neg (not_not.2 (hxy.1.1 hx))]
      have hj := hxy.2 hx
      refine .then _ _ rfl (.then _ _ (by simp [hj]) ?_)
      by_cases hu : w.r • st.J = st.params.U
      · rw [if_neg (not_not.2 hu), if_neg (not_not.2 (hj.1 hu))]; exact Same.pure trivial
      · rw [if_pos hu, if_pos fun h' => hu (hj.2 h')]; exact ⟨rfl, rfl⟩
    · rw [if_pos hx, if_pos fun h' => hx (hxy.1.2 h')]; exact ⟨rfl, rfl⟩
  · rw [if_pos h, if_pos fun h' => h (hp.2 h')]; exact ⟨rfl, rfl⟩

theorem buildT_eq {E : Env F P} (hE : E.Lawful) (w w' : Witness F P) :
    ProofTranscript.buildTranscriptRngT E (some w) = ProofTranscript.buildTranscriptRngT E (some w') := by
  have hl : ∀ k x, (leBytes k x).length = k := by
    intro k
    induction k with
    | zero => intro x; rfl
    | succ k ih => intro x; simp [leBytes, ih]
  simp [ProofTranscript.buildTranscriptRngT, hl, hE.scalarBytes_length]

theorem map_append_eq {E : Env F P} (hE : E.Lawful) (label : String) {X X' : List P} (h : SameVec X X') :
    (X.map fun x => (appendT label (E.compress x) : Leak F)) = X'.map fun x => appendT label (E.compress x) := by
  induction h with
  | nil => rfl
  | cons _ _ ih => rw [List.map_cons, List.map_cons, ih, appendT, appendT, hE.compress_length, hE.compress_length]

end Proof
end Triptych
