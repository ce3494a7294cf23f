import Verif.Spec.Work
import Verif.Lemmas.Leak
import Mathlib.Tactic.Ring

/-! # The heavy operations of the prover -/
set_option autoImplicit false
set_option linter.unusedSectionVars false
set_option linter.unusedVariables false
set_option linter.unusedSimpArgs false

namespace Triptych
open Traced Spec

section General
variable {F P ε α β γ : Type}

theorem work_append (a b : List (Leak F)) : work (a ++ b) = work a ++ work b := List.filterMap_append

/-- When `x` succeeds it has performed the heavy operations `L`, and its result satisfies `Q`. -/
def Emits (x : Traced F ε α) (L : List Work) (Q : α → Prop) : Prop := ∀ a, x.out = .ok a → work x.trace = L ∧ Q a

theorem Emits.mono {x : Traced F ε α} {L : List Work} {Q Q' : α → Prop} (h : Emits x L Q) (hQ : ∀ a, Q a → Q' a) :
    Emits x L Q' := fun a ha => ⟨(h a ha).1, hQ a (h a ha).2⟩

theorem Emits.bind {x : Traced F ε α} {f : α → Traced F ε β} {L L' : List Work} {Q : α → Prop} {Q' : β → Prop}
    (h : Emits x L Q) (hf : ∀ a, Q a → Emits (f a) L' Q') : Emits (x >>= f) (L ++ L') Q' := by
  intro b hb
  rw [bind_out] at hb
  cases hx : x.out with
  | ok a =>
    rw [hx, Outcome.bind_ok] at hb
    obtain ⟨h1, h2⟩ := h a hx
    obtain ⟨h3, h4⟩ := hf a h2 b hb
    refine ⟨?_, h4⟩
    rw [bind_trace, hx, work_append, h1, h3]
  | err e => rw [hx] at hb; simp at hb
  | panic => rw [hx] at hb; simp at hb
  | diverge => rw [hx] at hb; simp at hb

theorem Emits.bind_nil {x : Traced F ε α} {f : α → Traced F ε β} {L' : List Work} {Q : α → Prop} {Q' : β → Prop}
    (h : Emits x [] Q) (hf : ∀ a, Q a → Emits (f a) L' Q') : Emits (x >>= f) L' Q' := by
  simpa using Emits.bind h hf

theorem Emits.pure {a : α} {Q : α → Prop} (h : Q a) : Emits (pure a : Traced F ε α) [] Q := by
  intro b hb
  rw [pure_out, Outcome.ok.injEq] at hb
  exact ⟨rfl, hb ▸ h⟩

theorem Emits.lift {o : Outcome ε α} {Q : α → Prop} (h : ∀ a, o = .ok a → Q a) : Emits (lift o : Traced F ε α) [] Q :=
  fun a ha => ⟨rfl, h a ha⟩

theorem Emits.step {x : Leak F} {o : Outcome ε α} {L : List Work} {Q : α → Prop} (hx : (heavy x).toList = L)
    (h : ∀ a, o = .ok a → Q a) : Emits (step x o) L Q := by
  refine fun a ha => ⟨?_, h a ha⟩
  rw [step_trace, work, List.filterMap_cons]
  cases hh : heavy x <;> rw [hh] at hx <;> simpa using hx

theorem Emits.then {x : Leak F} {L : List Work} {f : Unit → Traced F ε β} {Q : β → Prop} (hx : heavy x = none)
    (hf : Emits (f ()) L Q) : Emits (leak x >>= f) L Q :=
  Emits.bind_nil (Q := fun _ => True) (Emits.step (by rw [hx]; rfl) (fun _ _ => trivial)) fun _ _ => hf

theorem Emits.cons {x : Leak F} {y : Work} {L : List Work} {f : Unit → Traced F ε β} {Q : β → Prop} (hx : heavy x = some y)
    (hf : Emits (f ()) L Q) : Emits (leak x >>= f) (y :: L) Q :=
  Emits.bind (L := [y]) (Q := fun _ => True) (Emits.step (by rw [hx]; rfl) (fun _ _ => trivial)) fun _ _ => hf

theorem Emits.mapM {f : α → Traced F ε β} {L : List Work} {Q : β → Prop} (l : List α) (h : ∀ a ∈ l, Emits (f a) L Q) :
    Emits (l.mapM f) (List.replicate l.length L).flatten fun bs => bs.length = l.length ∧ ∀ b ∈ bs, Q b := by
  induction l with
  | nil => exact Emits.pure ⟨rfl, by simp⟩
  | cons a l ih =>
    rw [List.mapM_cons, List.length_cons, List.replicate_succ, List.flatten_cons]
    refine Emits.bind (h a (by simp)) fun b hb => ?_
    rw [← List.append_nil (List.replicate l.length L).flatten]
    refine Emits.bind (ih fun x hx => h x (by simp [hx])) fun bs hbs => Emits.pure ⟨by simp [hbs.1], ?_⟩
    simpa using ⟨hb, hbs.2⟩

theorem Emits.mapM_nil {f : α → Traced F ε β} {Q : β → Prop} (l : List α) (h : ∀ a ∈ l, Emits (f a) [] Q) :
    Emits (l.mapM f) [] fun bs => bs.length = l.length ∧ ∀ b ∈ bs, Q b := by
  simpa using Emits.mapM l h

theorem Emits.foldlM {f : β → α → Traced F ε β} {L : List Work} {Q : β → Prop} (l : List α) (b : β) (hb : Q b)
    (h : ∀ b a, Q b → Emits (f b a) L Q) : Emits (l.foldlM f b) (List.replicate l.length L).flatten Q := by
  induction l generalizing b with
  | nil => exact Emits.pure hb
  | cons a l ih =>
    rw [List.foldlM_cons, List.length_cons, List.replicate_succ, List.flatten_cons]
    exact Emits.bind (h b a hb) fun b' hb' => ih b' hb'

theorem idxT_emits (l : List α) (i : ℕ) : Emits (idxT l i : Traced F ε α) [] fun _ => True :=
  Emits.step rfl fun _ _ => trivial

theorem idx2T_emits (l : List (List α)) (j i : ℕ) : Emits (idx2T l j i : Traced F ε α) [] fun _ => True :=
  (idxT_emits l j).bind_nil fun row _ => idxT_emits row i

theorem setIdx_length (l : List α) (i : ℕ) (a : α) (l' : List α) (h : (setIdx l i a : Outcome ε (List α)) = .ok l') :
    l'.length = l.length := by
  rw [setIdx] at h
  split at h
  · rw [Outcome.ok.injEq] at h; rw [← h]; simp
  · simp at h

theorem setIdxT_emits (l : List α) (i : ℕ) (a : α) :
    Emits (setIdxT l i a : Traced F ε (List α)) [] fun l' => l'.length = l.length :=
  Emits.step rfl fun _ h => setIdx_length l i a _ h

theorem msmT_emits [SMul F P] [Zero P] [Add P] (scalars : List F) (points : List P) (timing : OperationTiming) (k : ℕ)
    (h : points.length = k) :
    Emits (msmT scalars points timing : Traced F ε P) [.multiscalar k k] fun _ => True := by
  intro a ha
  have hl : scalars.length = points.length := by
    rw [msmT_out, msm] at ha
    by_contra hne
    rw [if_neg hne] at ha
    simp at ha
  refine ⟨?_, trivial⟩
  cases timing
  · simp [msmT, work, heavy, hl, h]
  · simp [msmT, work, heavy, hl, h]

theorem deltaT_emits [Zero F] [One F] (x y : ℕ) (timing : OperationTiming) :
    Emits (deltaT x y timing : Traced F ε F) [] fun _ => True := by
  cases timing
  · exact Emits.then (by simp [heavy]) (Emits.then (by simp [heavy]) (Emits.lift fun _ _ => trivial))
  · refine Emits.then rfl ?_
    split <;> exact Emits.lift fun _ _ => trivial

theorem selectLoopT_emits (l : ℕ) (M : List P) (i : ℕ) (acc : P) :
    Emits (selectLoopT l M i acc : Traced F ε P) [] fun _ => True := by
  induction M generalizing i acc with
  | nil => exact Emits.pure trivial
  | cons a M ih =>
    exact Emits.then rfl (Emits.then (by simp [heavy]) (Emits.then (by simp [heavy]) (ih _ _)))

theorem selectKeyT_emits [Zero P] (M : List P) (l : ℕ) (timing : OperationTiming) :
    Emits (selectKeyT M l timing : Traced F ProofError P) [] fun _ => True := by
  cases timing
  · exact selectLoopT_emits l M 0 0
  · exact idxT_emits M l

theorem scalarT_emits (E : Env F P) (r : TRng) : Emits (scalarT E r : Traced F ε (F × TRng)) [.random] fun _ => True :=
  Emits.step (by simp [heavy]) fun _ _ => trivial

theorem drawScalarsT_emits (E : Env F P) (k : ℕ) (r : TRng) :
    Emits (drawScalarsT E k r : Traced F ε (List F × TRng)) (List.replicate k .random) fun x => x.1.length = k := by
  induction k generalizing r with
  | zero => exact Emits.pure rfl
  | succ k ih =>
    rw [drawScalarsT, List.replicate_succ]
    refine Emits.bind (L := [.random]) (scalarT_emits E r) fun x _ => ?_
    rw [← List.append_nil (List.replicate k Work.random)]
    exact Emits.bind (ih x.2) fun y hy => Emits.pure (by simp [hy])

theorem drawMatrixT_emits (E : Env F P) (cols k : ℕ) (r : TRng) :
    Emits (drawMatrixT E cols k r : Traced F ε (List (List F) × TRng)) (List.replicate (k * cols) .random) fun _ => True := by
  induction k generalizing r with
  | zero => rw [Nat.zero_mul]; exact Emits.pure trivial
  | succ k ih =>
    rw [drawMatrixT, Nat.succ_mul, Nat.add_comm, List.replicate_add]
    refine Emits.bind (drawScalarsT_emits E cols r) fun x _ => ?_
    rw [← List.append_nil (List.replicate (k * cols) Work.random)]
    exact Emits.bind (ih x.2) fun y hy => Emits.pure trivial

theorem fixRowT_emits [AddCommGroup F] (row : List F) : Emits (fixRowT row) [] fun _ => True :=
  Emits.then (by simp [heavy]) (Emits.step rfl fun _ _ => trivial)

theorem baseLoopT_emits (N k v : ℕ) : Emits (baseLoopT N k v : Traced F ε (List ℕ)) [] fun _ => True := by
  induction k generalizing v with
  | zero => exact Emits.pure trivial
  | succ k ih => exact Emits.then (by simp [heavy]) ((ih _).bind_nil fun _ _ => Emits.pure trivial)

theorem grayLoopT_emits (N : ℕ) (bs : List ℕ) : Emits (grayLoopT N bs : Traced F ε (List ℕ × ℕ)) [] fun _ => True := by
  induction bs with
  | nil => exact Emits.pure trivial
  | cons b bs ih =>
    exact ih.bind_nil fun _ _ => Emits.then rfl (Emits.then (by simp [heavy]) (Emits.pure trivial))

theorem decomposeT_emits (N M v : ℕ) (e : ε) : Emits (decomposeT N M v e : Traced F ε (List ℕ)) [] fun _ => True := by
  refine Emits.then rfl ?_
  split
  · exact Emits.lift fun _ _ => trivial
  · refine (baseLoopT_emits N M v).bind_nil fun base _ => (grayLoopT_emits N base).bind_nil fun x _ => ?_
    refine (Emits.mapM_nil (Q := fun _ => True) x.1 fun d _ => Emits.then rfl ?_).mono fun _ _ => trivial
    split <;> exact Emits.lift fun _ _ => trivial

theorem baseLoopVartimeT_emits (N : ℕ) (e : ε) (k v : ℕ) :
    Emits (baseLoopVartimeT N e k v : Traced F ε (List ℕ)) [] fun _ => True := by
  induction k generalizing v with
  | zero => exact Emits.pure trivial
  | succ k ih =>
    refine Emits.bind_nil (Q := fun _ => True) (Emits.step (by simp [heavy]) fun _ _ => trivial) fun _ _ => ?_
    refine Emits.bind_nil (Q := fun _ => True) (Emits.step (by simp [heavy]) fun _ _ => trivial) fun _ _ => ?_
    exact (ih _).bind_nil fun _ _ => Emits.pure trivial

theorem grayLoopVartimeT_emits (N : ℕ) (e : ε) (bs : List ℕ) :
    Emits (grayLoopVartimeT N e bs : Traced F ε (List ℕ × ℕ)) [] fun _ => True := by
  induction bs with
  | nil => exact Emits.pure trivial
  | cons b bs ih =>
    refine ih.bind_nil fun _ _ => Emits.then rfl ?_
    refine Emits.bind_nil (Q := fun _ => True) (Emits.step (by simp [heavy]) fun _ _ => trivial) fun _ _ => ?_
    refine Emits.bind_nil (Q := fun _ => True) (Emits.step (by simp [heavy]) fun _ _ => trivial) fun _ _ => ?_
    refine Emits.bind_nil (Q := fun _ => True) (Emits.step (by simp [heavy]) fun _ _ => trivial) fun _ _ => ?_
    refine Emits.bind_nil (Q := fun _ => True) (Emits.step (by simp [heavy]) fun _ _ => trivial) fun _ _ => ?_
    exact Emits.pure trivial

theorem decomposeVartimeT_emits (N M v : ℕ) (e : ε) :
    Emits (decomposeVartimeT N M v e : Traced F ε (List ℕ)) [] fun _ => True := by
  refine Emits.then rfl ?_
  split
  · exact Emits.lift fun _ _ => trivial
  · exact (baseLoopVartimeT_emits N e M v).bind_nil fun base _ => (grayLoopVartimeT_emits N e base).bind_nil fun x _ =>
      Emits.pure trivial

theorem decomposeIndexT_emits (n m l : ℕ) (timing : OperationTiming) :
    Emits (decomposeIndexT n m l timing : Traced F ProofError (List ℕ)) [] fun _ => True := by
  cases timing
  · exact decomposeT_emits _ _ _ _
  · exact decomposeVartimeT_emits _ _ _ _

end General

section Matrices
variable {F P ε : Type} [Field F]

theorem sigmaMatrixT_emits (n m : ℕ) (ds : List ℕ) (timing : OperationTiming) :
    Emits (sigmaMatrixT n m ds timing : Traced F ProofError (List (List F))) [] fun _ => True :=
  (Emits.mapM_nil (Q := fun _ => True) _ fun j _ => (Emits.mapM_nil (Q := fun _ => True) _ fun i _ =>
    (idxT_emits ds j).bind_nil fun d _ => deltaT_emits d i timing).mono fun _ _ => trivial).mono fun _ _ => trivial

theorem aSigmaMatrixT_emits (n m : ℕ) (a sigma : List (List F)) :
    Emits (aSigmaMatrixT n m a sigma) [] fun _ => True :=
  (Emits.mapM_nil (Q := fun _ => True) _ fun j _ => (Emits.mapM_nil (Q := fun _ => True) _ fun i _ =>
    (idx2T_emits a j i).bind_nil fun x _ => (idx2T_emits sigma j i).bind_nil fun s _ => Emits.pure trivial).mono
      fun _ _ => trivial).mono fun _ _ => trivial

theorem aSquareMatrixT_emits (n m : ℕ) (a : List (List F)) :
    Emits (aSquareMatrixT n m a) [] fun _ => True :=
  (Emits.mapM_nil (Q := fun _ => True) _ fun j _ => (Emits.mapM_nil (Q := fun _ => True) _ fun i _ =>
    (idx2T_emits a j i).bind_nil fun x _ => (idx2T_emits a j i).bind_nil fun s _ => Emits.pure trivial).mono
      fun _ _ => trivial).mono fun _ _ => trivial

theorem rotateRight1_length (c c' : List F) (h : rotateRight1 c = .ok c') : c'.length = c.length := by
  rw [rotateRight1] at h
  cases hc : c.getLast? with
  | none => rw [hc] at h; simp at h
  | some x =>
    rw [hc] at h
    simp only [Outcome.ok.injEq] at h
    have : c ≠ [] := by rintro rfl; simp at hc
    have := List.length_pos_of_ne_nil this
    rw [← h, List.length_cons, List.length_dropLast]
    omega

theorem convolveStepT_emits (a sigma : List (List F)) (k : List ℕ) (len : ℕ) (c : List F) (j : ℕ) (hc : c.length = len) :
    Emits (convolveStepT a sigma k c j) [.convolution len] fun c' => c'.length = len := by
  refine (idxT_emits k j).bind_nil fun kj _ => (idx2T_emits a j kj).bind_nil fun aj _ => Emits.then (by simp [heavy]) ?_
  refine Emits.bind (L := [.convolution len]) (L' := []) (Q := fun c' => c'.length = len)
    (Emits.step (by simp [heavy, hc]) fun c' h => by rw [rotateRight1_length c c' h, hc]) fun shifted hs => ?_
  refine (idx2T_emits sigma j kj).bind_nil fun sj _ => Emits.then (by simp [heavy]) (Emits.then (by simp [heavy]) ?_)
  exact Emits.pure (by simp [hc, hs])

theorem replicate_flatten_singleton {α : Type} (k : ℕ) (x : α) : (List.replicate k [x]).flatten = List.replicate k x := by
  induction k with
  | zero => rfl
  | succ k ih => rw [List.replicate_succ, List.flatten_cons, ih, List.replicate_succ]; rfl

theorem replicate_flatten_replicate {α : Type} (k j : ℕ) (x : α) :
    (List.replicate k (List.replicate j x)).flatten = List.replicate (k * j) x := by
  induction k with
  | zero => simp
  | succ k ih => rw [List.replicate_succ, List.flatten_cons, ih, ← List.replicate_add, Nat.succ_mul, Nat.add_comm]

theorem coefficientsT_emits (m : ℕ) (a sigma : List (List F)) (k : List ℕ) :
    Emits (coefficientsT m a sigma k) (List.replicate (m - 1) (.convolution (m + 1))) fun _ => True := by
  refine (idxT_emits k 0).bind_nil fun k0 _ => (idx2T_emits a 0 k0).bind_nil fun a0 _ => ?_
  refine (setIdxT_emits _ 0 a0).bind_nil fun c hc => (idx2T_emits sigma 0 k0).bind_nil fun s0 _ => ?_
  refine (setIdxT_emits c 1 s0).bind_nil fun c' hc' => ?_
  have := Emits.foldlM (f := convolveStepT a sigma k) (L := [.convolution (m + 1)]) (Q := fun c => c.length = m + 1)
    ((List.range (m - 1)).map (· + 1)) c' (by rw [hc', hc]; simp) fun b j hb => convolveStepT_emits a sigma k _ b j hb
  rw [replicate_flatten_singleton, List.length_map, List.length_range] at this
  exact this.mono fun _ _ => trivial

theorem coefficientsLoopT_emits (m : ℕ) (a sigma : List (List F)) (items : List (ℕ × ℕ × ℕ)) (k : List ℕ) :
    Emits (coefficientsLoopT m a sigma items k) (List.replicate (items.length * (m - 1)) (.convolution (m + 1)))
      fun cs => cs.length = items.length := by
  induction items generalizing k with
  | nil => rw [List.length_nil, Nat.zero_mul]; exact Emits.pure rfl
  | cons x items ih =>
    obtain ⟨i, o, nw⟩ := x
    rw [coefficientsLoopT, List.length_cons, Nat.succ_mul, Nat.add_comm, List.replicate_add]
    refine Emits.then (by simp [heavy]) ((setIdxT_emits k i nw).bind_nil fun k' _ => ?_)
    refine (coefficientsT_emits m a sigma k').bind fun c _ => ?_
    rw [← List.append_nil (List.replicate (items.length * (m - 1)) _)]
    exact (ih k').bind fun cs hcs => Emits.pure (by simp [hcs])

theorem polynomialsT_emits (n m N : ℕ) (a sigma : List (List F)) (hN : ∀ g, GrayIterator.new n m = some g → g.toList.length = N) :
    Emits (polynomialsT n m a sigma) (List.replicate (N * (m - 1)) (.convolution (m + 1))) fun p => p.length = N := by
  refine Emits.then (by simp [heavy]) ?_
  refine Emits.bind_nil (Q := fun g => g.toList.length = N) (Emits.lift fun g hg => hN g ?_) fun g hg => ?_
  · cases h : GrayIterator.new n m with
    | none => rw [h] at hg; simp [Outcome.ofOption] at hg
    | some g' => rw [h] at hg; simp only [Outcome.ofOption, Outcome.ok.injEq] at hg; rw [hg]
  · have := coefficientsLoopT_emits m a sigma g.toList (List.replicate m 0)
    rwa [hg] at this

end Matrices

section Commit
variable {F P : Type} [Field F] [AddCommGroup P] [Module F P] [DecidableEq F] [DecidableEq P]

theorem flatten_length_of_rows (a : List (List F)) (n : ℕ) (h : ∀ row ∈ a, row.length = n) :
    a.flatten.length = a.length * n := by
  induction a with
  | nil => simp
  | cons x a ih =>
    rw [List.flatten_cons, List.length_append, ih fun r hr => h r (by simp [hr]), h x (by simp), List.length_cons]
    ring

theorem Params.commitMatrixT_emits (p : Params P) (hp : p.CommitmentG.length = p.m * p.n) (a : List (List F)) (x : F)
    (timing : OperationTiming) :
    Emits (p.commitMatrixT a x timing) [.multiscalar (p.n * p.m + 1) (p.n * p.m + 1)] fun _ => True := by
  refine Emits.then rfl ?_
  split
  · exact fun _ h => by simp at h
  refine Emits.then (by simp [heavy]) (Emits.then rfl ?_)
  split
  · exact fun _ h => by simp at h
  refine Emits.then (by simp [heavy]) (msmT_emits _ _ timing _ ?_)
  rw [List.length_append, hp, Nat.mul_comm]; rfl

theorem Proof.commitErr_emits {α : Type} {x : Traced F ParameterError α} {L : List Work} {Q : α → Prop} (h : Emits x L Q)
    (message : String) : Emits (Proof.commitErr x message) L Q := by
  intro a ha
  refine h a ?_
  rw [Proof.commitErr] at ha
  cases hx : x.out <;> rw [hx] at ha <;> simp [Outcome.mapErr] at ha
  rw [ha]

end Commit

end Triptych
