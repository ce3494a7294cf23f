import Verif.Lemmas.Work
import Verif.Props.ConstantTime
import Verif.Props.Gray
import Verif.Props.Prove
import Verif.Lemmas.Built
import Verif.Toy

/-! # C102: the work of the prover -/
set_option autoImplicit false
set_option linter.unusedSectionVars false
set_option linter.unusedVariables false
set_option linter.unusedSimpArgs false

namespace Triptych
open Traced Spec

variable {F P : Type} [Field F] [AddCommGroup P] [Module F P] [DecidableEq F] [DecidableEq P]

theorem responseMatrixT_emits (n m : ℕ) (a sigma : List (List F)) (xs : List F) :
    Emits (responseMatrixT n m a sigma xs) [] fun _ => True :=
  (Emits.mapM_nil (Q := fun _ => True) _ fun j _ => (Emits.mapM_nil (Q := fun _ => True) _ fun i _ =>
    (idx2T_emits sigma j i).bind_nil fun x _ => (idxT_emits xs 1).bind_nil fun s _ => (idx2T_emits a j i).bind_nil fun y _ =>
      Emits.pure trivial).mono fun _ _ => trivial).mono fun _ _ => trivial

theorem responseZT_emits (m : ℕ) (r : F) (rho xs : List F) : Emits (responseZT m r rho xs) [] fun _ => True :=
  (idxT_emits xs m).bind_nil fun x _ => Emits.then (by simp [heavy]) (Emits.pure trivial)

theorem xiPowersLoopT_emits (ξ : F) (k : ℕ) (p : F) : Emits (xiPowersLoopT ξ k p) [] fun _ => True := by
  induction k generalizing p with
  | zero => exact Emits.pure trivial
  | succ k ih =>
    refine Emits.then rfl ?_
    split
    · exact Emits.lift fun _ _ => trivial
    · exact (ih _).bind_nil fun _ _ => Emits.pure trivial

namespace Proof

theorem checkWitnessT_emits (w : Witness F P) (st : Statement P) (timing : OperationTiming) :
    Emits (checkWitnessT w st timing) [.multiplications 1, .multiplications 1] fun _ => True := by
  refine Emits.then rfl ?_
  split
  · exact fun _ h => by simp at h
  refine (selectKeyT_emits _ _ _).bind_nil fun Ml _ => Emits.cons (by simp [heavy]) (Emits.then rfl ?_)
  split
  · exact fun _ h => by simp at h
  refine Emits.cons (by simp [heavy]) (Emits.then rfl ?_)
  split
  · exact fun _ h => by simp at h
  · exact Emits.pure trivial

theorem computeXT_emits (params : Params P) (M : List P) (p : List (List F)) (rho : List F) (timing : OperationTiming) (N m : ℕ)
    (hM : M.length = N) (hr : rho.length = m) :
    Emits (computeXT params M p rho timing) (List.replicate m (.multiscalar (N + 1) (N + 1))) fun _ => True := by
  have := Emits.mapM (F := F) (ε := ProofError) (Q := fun _ => True) (L := [Work.multiscalar (N + 1) (N + 1)])
    (f := fun x : F × ℕ => do
      let points := M ++ [params.G]
      let scalars ← p.mapM fun row => idxT row x.2
      msmT (scalars ++ [x.1]) points timing) rho.zipIdx fun x _ => by
      refine (Emits.mapM_nil (Q := fun _ => True) _ fun row _ => idxT_emits row x.2).bind_nil fun scalars _ => ?_
      exact msmT_emits _ _ timing _ (by simp [hM])
  rw [replicate_flatten_singleton, List.length_zipIdx, hr] at this
  exact this.mono fun _ _ => trivial

theorem commitPhaseT_emits (E : Env F P) (l : ℕ) (st : Statement P) (hst : StatementOK st) (timing : OperationTiming)
    (r : TRng) :
    Emits (commitPhaseT E l st timing r) ((proverWork st.params.n st.params.m).drop 2) fun _ => True := by
  obtain ⟨g, hg, hlen, -, -⟩ := C39_iterator st.params.n st.params.m hst.params.n (by have := hst.params.m; omega) hst.params.N
  have hN : ∀ g, GrayIterator.new st.params.n st.params.m = some g → g.toList.length = st.params.n ^ st.params.m := by
    intro g' h; rw [hg, Option.some.injEq] at h; rw [← h, hlen]
  have hlength := hst.length
  generalize hn : st.params.n = n at *
  generalize hm : st.params.m = m at *
  have hcm (a : List (List F)) (x : F) (s : String) :
      Emits (commitErr (st.params.commitMatrixT a x timing) s) [.multiscalar (n * m + 1) (n * m + 1)] fun _ => True := by
    have := Params.commitMatrixT_emits st.params hst.params.CG a x timing
    rw [hn, hm] at this
    exact commitErr_emits this s
  have e : (proverWork n m).drop 2 = [.random] ++ (List.replicate (m * n) .random ++ ([.multiscalar (n * m + 1) (n * m + 1)] ++
      ([.random] ++ ([.multiscalar (n * m + 1) (n * m + 1)] ++ ([.random] ++ ([.multiscalar (n * m + 1) (n * m + 1)] ++
      ([.random] ++ ([.multiscalar (n * m + 1) (n * m + 1)] ++ (List.replicate m .random ++
      (List.replicate (n ^ m * (m - 1)) (.convolution (m + 1)) ++ (List.replicate m (.multiscalar (n ^ m + 1) (n ^ m + 1)) ++
      [.multiplications m]))))))))))) := by
    rw [proverWork, List.replicate_add, Nat.mul_comm m n]
    simp
  rw [e, commitPhaseT, hn, hm]
  refine (scalarT_emits E r).bind fun x _ => ?_
  refine (drawMatrixT_emits E n m x.2).bind fun y _ => ?_
  refine (Emits.mapM_nil (Q := fun _ => True) _ fun row _ => fixRowT_emits row).bind_nil fun a _ => ?_
  refine (hcm _ _ _).bind fun A _ => (scalarT_emits E _).bind fun z _ => ?_
  refine (decomposeIndexT_emits n m l timing).bind_nil fun ds _ => (sigmaMatrixT_emits n m ds timing).bind_nil fun sigma _ => ?_
  refine (hcm _ _ _).bind fun B _ => (scalarT_emits E _).bind fun z2 _ => ?_
  refine (aSigmaMatrixT_emits n m a sigma).bind_nil fun aS _ => (hcm _ _ _).bind fun C _ => (scalarT_emits E _).bind fun z3 _ => ?_
  refine (aSquareMatrixT_emits n m a).bind_nil fun aQ _ => (hcm _ _ _).bind fun D _ => ?_
  refine (drawScalarsT_emits E m _).bind fun rho hrho => (polynomialsT_emits n m _ a sigma hN).bind fun p hp => ?_
  refine (computeXT_emits st.params _ p rho.1 timing _ m hlength hrho).bind fun X _ => ?_
  exact Emits.cons (by simp [heavy, hrho]) (Emits.pure trivial)

theorem respondPhaseT_emits (r : F) (params : Params P) (nn : Nonces F) (c : Committed F P) (xs : List F) :
    Emits (respondPhaseT r params nn c xs) [] fun _ => True :=
  (responseMatrixT_emits _ _ _ _ _).bind_nil fun f _ => (idxT_emits _ _).bind_nil fun ξ _ =>
    (responseZT_emits _ _ _ _).bind_nil fun z _ => Emits.pure trivial

end Proof

theorem work_eq_nil {l : List (Leak F)} (h : ∀ x ∈ l, heavy x = none) : work l = [] :=
  List.filterMap_eq_nil_iff.mpr h

namespace ProofTranscript
variable {σ : Type}

theorem buildTranscriptRngT_quiet (E : Env F P) (w : Option (Witness F P)) :
    ∀ x ∈ buildTranscriptRngT E w, heavy x = none := by
  cases w <;> simp [buildTranscriptRngT, heavy]

theorem newT_quiet (E : Env F P) (w : Option (Witness F P)) : work (newT E w) = [] := by
  refine work_eq_nil fun x hx => ?_
  simp only [newT, List.mem_append] at hx
  rcases hx with hx | hx
  · simp only [List.mem_cons, List.not_mem_nil, or_false] at hx
    rcases hx with rfl | rfl | rfl <;> simp [heavy, appendT]
  · exact buildTranscriptRngT_quiet E w x hx

theorem commitT_emits (E : Env F P) (R : Rng σ) (pt : ProofTranscript F P σ) (params : Params P) (A B C D : P) (X Y : List P) :
    Emits (commitT E R pt params A B C D X Y).1 [] fun _ => True := by
  intro xs h
  refine ⟨?_, trivial⟩
  have h2 := (xiPowersLoopT_emits (E.scalarOfWide _) (params.m + 1) 1 xs h).1
  simp only [commitT]
  rw [work_append]
  refine congrArg₂ (· ++ ·) (?_ : _ = []) h2
  refine work_eq_nil fun x hx => ?_
  simp only [List.mem_append, List.mem_cons, List.not_mem_nil, or_false, List.mem_map] at hx
  rcases hx with ((((rfl | rfl | rfl | rfl) | ⟨p, -, rfl⟩) | ⟨p, -, rfl⟩) | hx) | rfl
  case inl.inr => exact buildTranscriptRngT_quiet E _ x hx
  all_goals simp [heavy, appendT]

end ProofTranscript

theorem Proof.proveInternalT_work {σ : Type} (E : Env F P) (R : Rng σ) (w : Witness F P) (st : Statement P) (hst : StatementOK st)
    (s : σ) (t : Transcript) (timing : OperationTiming) (p : Proof F P) (h : (Proof.proveInternalT E R w st s t timing).2.1 = .ok p) :
    work (Proof.proveInternalT E R w st s t timing).1 = proverWork st.params.n st.params.m := by
  rw [Proof.proveInternalT] at h ⊢
  cases hc : (Proof.checkWitnessT w st timing).out with
  | err e => simp only [hc] at h; simp at h
  | panic => simp only [hc] at h; simp at h
  | diverge => simp only [hc] at h; simp at h
  | ok u =>
    simp only [hc] at h ⊢
    have h1 := (Proof.checkWitnessT_emits w st timing u hc).1
    cases hf : (Proof.commitPhaseT E w.l st timing (ProofTranscript.new E R t st s (some w)).trng).out with
    | err e => simp only [hf] at h; simp at h
    | panic => simp only [hf] at h; simp at h
    | diverge => simp only [hf] at h; simp at h
    | ok x =>
      obtain ⟨c, nn, trng⟩ := x
      simp only [hf] at h ⊢
      have h2 := (Proof.commitPhaseT_emits E w.l st hst timing _ _ hf).1
      have h3 := (Emits.bind_nil (ProofTranscript.commitT_emits E R _ st.params c.A c.B c.C c.D c.X c.Y)
        fun xs _ => Proof.respondPhaseT_emits w.r st.params nn c xs) p h
      rw [work_append, work_append, work_append, h1, h2, ProofTranscript.newT_quiet, h3.1, List.append_nil, List.append_nil]
      rfl

/-- C102: whichever prover makes a proof, and whatever the witness, its position, the ring, the generators and the transcript, the
heavy operations it performs are exactly those of the specification, in that order: the number of each is a function of `n` and `m`
only. -/
theorem C102_prove {σ : Type} (E : Env F P) (R : Rng σ) (w : Witness F P) (st : Statement P) (hst : StatementBuilt E st) (s : σ)
    (t : Transcript) (p : Proof F P) :
    ((Proof.proveWithRng E R w st s t).1 = .ok p →
      work (Proof.proveWithRngT E R w st s t).1 = proverWork st.params.n st.params.m) ∧
    ((Proof.proveWithRngVartime E R w st s t).1 = .ok p →
      work (Proof.proveWithRngVartimeT E R w st s t).1 = proverWork st.params.n st.params.m) := by
  obtain ⟨e1, e2⟩ := C62_erase E R w st s t
  constructor
  · intro h; rw [← e1] at h; exact Proof.proveInternalT_work E R w st hst.ok s t _ p h
  · intro h; rw [← e2] at h; exact Proof.proveInternalT_work E R w st hst.ok s t _ p h

theorem work_bind_ok {ε α β : Type} {x : Traced F ε α} {f : α → Traced F ε β} {L : List Work} {Q : α → Prop} (h : Emits x L Q) (a : α)
    (ha : x.out = .ok a) : work (x >>= f).trace = L ++ work (f a).trace := by
  rw [bind_trace, ha, work_append, (h a ha).1]

theorem work_leak {ε β : Type} (x : Leak F) (f : Unit → Traced F ε β) :
    work (leak x >>= f).trace = (heavy x).toList ++ work (f ()).trace := by
  rw [bind_trace]
  show work ([x] ++ (f ()).trace) = _
  rw [work_append]
  congr 1

theorem Proof.proveInternalT_rejected {σ : Type} (E : Env F P) (R : Rng σ) (w : Witness F P) (st : Statement P) (s : σ)
    (t : Transcript) (timing : OperationTiming) (e : ProofError) (h : (Proof.checkWitnessT w st timing).out = .err e) :
    (Proof.proveInternalT E R w st s t timing).1 = (Proof.checkWitnessT w st timing).trace := by
  simp only [Proof.proveInternalT, h]

/-- C102, a rejected witness: nothing is drawn, no multiscalar multiplication is computed; the number of scalar multiplications
is 0, 1 or 2 according to the condition that fails first. -/
theorem C102_rejected {σ : Type} (E : Env F P) (R : Rng σ) (w : Witness F P) (st : Statement P) (s : σ) (t : Transcript)
    (timing : OperationTiming) (hw : WitnessBuilt E w) (hst : StatementBuilt E st) :
    (w.params ≠ st.params → work (Proof.proveInternalT E R w st s t timing).1 = []) ∧
    (w.params = st.params → st.inputSet.M[w.l]? ≠ some (w.r • st.params.G) →
      work (Proof.proveInternalT E R w st s t timing).1 = [.multiplications 1]) ∧
    (w.params = st.params → st.inputSet.M[w.l]? = some (w.r • st.params.G) → w.r • st.J ≠ st.params.U →
      work (Proof.proveInternalT E R w st s t timing).1 = [.multiplications 1, .multiplications 1]) := by
  have hl : w.params = st.params → w.l < st.inputSet.M.length := fun h => by
    rw [hst.ok.length, ← h]; exact hw.ok.2
  have hk (h : w.params = st.params) : (selectKeyT st.inputSet.M w.l timing : Traced F ProofError P).out = .ok (st.inputSet.M.getD w.l 0) := by
    rw [selectKeyT_out, selectKey_eq _ _ (hl h)]
  have hne (h1 : st.inputSet.M[w.l]? ≠ some (w.r • st.params.G)) (h : w.params = st.params) :
      st.inputSet.M.getD w.l 0 ≠ w.r • st.params.G := by
    intro h2
    apply h1
    rw [← h2]
    simp [hl h]
  have heq (h1 : st.inputSet.M[w.l]? = some (w.r • st.params.G)) : st.inputSet.M.getD w.l 0 = w.r • st.params.G := by
    rw [List.getD_eq_getElem?_getD, h1]; rfl
  refine ⟨fun h => ?_, fun h h1 => ?_, fun h h1 h2 => ?_⟩
  · rw [Proof.proveInternalT_rejected E R w st s t timing (.InvalidParameter "witness and statement parameters did not match")
      (by rw [Proof.checkWitnessT_out, Proof.checkWitness, if_pos h]), Proof.checkWitnessT, work_leak, if_pos h]
    rfl
  · rw [Proof.proveInternalT_rejected E R w st s t timing (.InvalidParameter "`M[l] != r * G`")
      (by rw [Proof.checkWitnessT_out, Proof.checkWitness, if_neg (not_not.2 h), selectKey_eq _ _ (hl h), Outcome.bind_ok,
        if_pos (hne h1 h)]), Proof.checkWitnessT, work_leak, if_neg (not_not.2 h), work_bind_ok (selectKeyT_emits _ _ _) _ (hk h),
        work_leak, work_leak, if_pos (hne h1 h)]
    simp [heavy, work]
  · rw [Proof.proveInternalT_rejected E R w st s t timing (.InvalidParameter "`r * J != U`")
      (by rw [Proof.checkWitnessT_out, Proof.checkWitness, if_neg (not_not.2 h), selectKey_eq _ _ (hl h), Outcome.bind_ok,
        if_neg (not_not.2 (heq h1)), if_pos h2]), Proof.checkWitnessT, work_leak, if_neg (not_not.2 h),
        work_bind_ok (selectKeyT_emits _ _ _) _ (hk h), work_leak, work_leak, if_neg (not_not.2 (heq h1)), work_leak, work_leak,
        if_pos h2]
    simp [heavy, work]

/-- The hypotheses of `C102_prove` and `C102_rejected` are met. -/
example : WitnessBuilt (Toy.env 101) Toy.witness ∧ StatementBuilt (Toy.env 101) Toy.statement ∧
    (Proof.proveWithRng (Toy.env 101) nullRng Toy.witness Toy.statement () Toy.transcript).1 = .ok Toy.proof ∧
    WitnessBuilt (Toy.env 101) Toy.witness.zeroize ∧ Toy.witness.zeroize.params = Toy.statement.params ∧
    Toy.statement.inputSet.M[Toy.witness.zeroize.l]? ≠ some (Toy.witness.zeroize.r • Toy.statement.params.G) :=
  ⟨Toy.witness_built, Toy.statement_built, Toy.proof_new, .zeroize _ Toy.witness_built, by decide +kernel, by decide +kernel⟩

/-- C102 in terms of sizes: the number of group elements entering the multiscalar multiplications of a proof, the number of
random scalars and of scalar multiplications, and the coefficients of the convolutions, for a ring of `N = n ^ m` keys. -/
theorem C102_totals (n m : ℕ) :
    ((proverWork n m).map fun | .multiscalar _ k => k | _ => 0).sum = 4 * (n * m + 1) + m * (n ^ m + 1) ∧
    (proverWork n m).count .random = n * m + m + 4 ∧
    ((proverWork n m).map fun | .multiplications k => k | _ => 0).sum = m + 2 ∧
    ((proverWork n m).map fun | .convolution k => k | _ => 0).sum = n ^ m * (m - 1) * (m + 1) := by
  have hr (k : ℕ) (x : Work) (hx : x ≠ .random) : (List.replicate k x).count Work.random = 0 :=
    List.count_eq_zero.mpr (by rw [List.mem_replicate]; exact fun h => hx h.2.symm)
  refine ⟨?_, ?_, ?_, ?_⟩
  · simp [proverWork]; ring
  · simp [proverWork, List.count_replicate, hr]; ring
  · simp [proverWork]; ring
  · simp [proverWork]

/-- `C102_totals` for the smallest ring. -/
example : proverWork 2 2 = [.multiplications 1, .multiplications 1, .random, .random, .random, .random, .random, .multiscalar 5 5,
    .random, .multiscalar 5 5, .random, .multiscalar 5 5, .random, .multiscalar 5 5, .random, .random,
    .convolution 3, .convolution 3, .convolution 3, .convolution 3, .multiscalar 5 5, .multiscalar 5 5, .multiplications 2] := by
  decide

end Triptych
