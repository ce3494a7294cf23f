import Verif.Props.ProverWork
import Verif.Props.Parallel.ConstantTime
import Verif.Props.Parallel.Prove
import Verif.Lemmas.Parallel.Built
import Verif.ToyParallel

/-! # C102 for the parallel prover -/
set_option autoImplicit false
set_option linter.unusedSectionVars false
set_option linter.unusedVariables false
set_option linter.unusedSimpArgs false

namespace Triptych.Parallel
open Triptych.Parallel.Spec Traced
open Triptych.Spec (Work heavy work proverWorkParallel)

variable {F P : Type} [Field F] [AddCommGroup P] [Module F P] [DecidableEq F] [DecidableEq P]

theorem selectLoopT_emits {ε : Type} (l : ℕ) (M : List (P × P)) (i : ℕ) (acc : P × P) :
    Emits (selectLoopT l M i acc : Traced F ε (P × P)) [] fun _ => True := by
  induction M generalizing i acc with
  | nil => exact Emits.pure trivial
  | cons a M ih =>
    exact Emits.then rfl (Emits.then (by simp [heavy]) (Emits.then (by simp [heavy]) (Emits.then (by simp [heavy])
      (Emits.then (by simp [heavy]) (ih _ _)))))

theorem selectKeysT_emits (M M1 : List P) (l : ℕ) (timing : OperationTiming) :
    Emits (selectKeysT M M1 l timing : Traced F ProofError (P × P)) [] fun _ => True := by
  cases timing
  · exact Emits.then (by simp [heavy]) (selectLoopT_emits l _ 0 _)
  · exact (idxT_emits M l).bind_nil fun _ _ => (idxT_emits M1 l).bind_nil fun _ _ => Emits.pure trivial

theorem Params.commitMatrixT_emits (p : Params P) (hp : p.CommitmentG.length = p.m * p.n) (a : List (List F)) (x : F)
    (timing : OperationTiming) :
    Emits (p.commitMatrixT a x timing) [.multiscalar (p.n * p.m + 1) (p.n * p.m + 1)] fun _ => True := by
  refine Emits.then rfl ?_
  split
  · exact fun _ h => by simp at h
  refine Emits.then (by simp [heavy]) (Emits.then rfl ?_)
  split
  · exact fun _ h => by simp at h
  refine Emits.then (by simp [heavy]) (msmT_emits _ _ timing _ ?_)
  rw [List.length_append, hp, Nat.mul_comm]; rfl

namespace Proof

theorem checkWitnessT_emits (w : Witness F P) (st : Statement P) (timing : OperationTiming) :
    Emits (checkWitnessT w st timing) [.multiplications 1, .multiplications 1, .multiplications 1] fun _ => True := by
  refine Emits.then rfl ?_
  split
  · exact fun _ h => by simp at h
  refine (selectKeysT_emits _ _ _ _).bind_nil fun Ml _ => Emits.cons (by simp [heavy]) (Emits.then rfl ?_)
  split
  · exact fun _ h => by simp at h
  refine Emits.then (by simp [heavy]) (Emits.cons (by simp [heavy]) (Emits.then rfl ?_))
  split
  · exact fun _ h => by simp at h
  refine Emits.cons (by simp [heavy]) (Emits.then rfl ?_)
  split
  · exact fun _ h => by simp at h
  · exact Emits.pure trivial

theorem computeXT_emits (params : Params P) (M : List P) (p : List (List F)) (rho : List F) (timing : OperationTiming) (N m : ℕ)
    (hM : M.length = N) (hr : rho.length = m) :
    Emits (computeXT params M p rho timing) (List.replicate m (.multiscalar (N + 1) (N + 1))) fun _ => True := by
  have := Emits.mapM (F := F) (ε := ProofError) (Q := fun _ => True) (L := [Work.multiscalar (N + 1) (N + 1)])
    (f := fun x : F × ℕ => do
      let points := M ++ [params.G]
      let scalars ← p.mapM fun row => idxT row x.2
      msmT (scalars ++ [x.1]) points timing) rho.zipIdx fun x _ => by
      refine (Emits.mapM_nil (Q := fun _ => True) _ fun row _ => idxT_emits row x.2).bind_nil fun scalars _ => ?_
      exact msmT_emits _ _ timing _ (by simp [hM])
  rw [replicate_flatten_singleton, List.length_zipIdx, hr] at this
  exact this.mono fun _ _ => trivial

theorem computeX1T_emits (params : Params P) (M : List P) (offset : P) (p : List (List F)) (rho : List F) (timing : OperationTiming) (N m : ℕ)
    (hM : M.length = N) (hr : rho.length = m) :
    Emits (computeX1T params M offset p rho timing) (List.replicate m (.multiscalar (N + 2) (N + 2))) fun _ => True := by
  have := Emits.mapM (F := F) (ε := ProofError) (Q := fun _ => True) (L := [Work.multiscalar (N + 2) (N + 2)])
    (f := fun x : F × ℕ => do
      leak (.call "neg" [])
      let points := M ++ [params.G1] ++ [-offset]
      let scalars ← p.mapM fun row => idxT row x.2
      leak (.call "sum" [scalars.length])
      msmT (scalars ++ [x.1] ++ [scalars.sum]) points timing) rho.zipIdx fun x _ => by
      refine Emits.then (by simp [heavy]) ?_
      refine (Emits.mapM_nil (Q := fun _ => True) _ fun row _ => idxT_emits row x.2).bind_nil fun scalars _ => ?_
      exact Emits.then (by simp [heavy]) <| msmT_emits _ _ timing _ (by simp [hM])
  rw [replicate_flatten_singleton, List.length_zipIdx, hr] at this
  exact this.mono fun _ _ => trivial

theorem commitPhaseT_emits (E : Env F P) (l : ℕ) (st : Statement P) (hst : StatementOK st) (timing : OperationTiming)
    (r : TRng) :
    Emits (commitPhaseT E l st timing r) ((proverWorkParallel st.params.n st.params.m).drop 3) fun _ => True := by
  obtain ⟨g, hg, hlen, -, -⟩ := C39_iterator st.params.n st.params.m hst.params.n (by have := hst.params.m; omega) hst.params.N
  have hN : ∀ g, GrayIterator.new st.params.n st.params.m = some g → g.toList.length = st.params.n ^ st.params.m := by
    intro g' h; rw [hg, Option.some.injEq] at h; rw [← h, hlen]
  have hlength := hst.length
  have hlength1 := hst.length1
  generalize hn : st.params.n = n at *
  generalize hm : st.params.m = m at *
  have hcm (a : List (List F)) (x : F) (s : String) :
      Emits (Triptych.Proof.commitErr (st.params.commitMatrixT a x timing) s) [.multiscalar (n * m + 1) (n * m + 1)] fun _ => True := by
    have := Params.commitMatrixT_emits st.params hst.params.CG a x timing
    rw [hn, hm] at this
    exact Triptych.Proof.commitErr_emits this s
  have e : (proverWorkParallel n m).drop 3 = [.random] ++ (List.replicate (m * n) .random ++ ([.multiscalar (n * m + 1) (n * m + 1)] ++
      ([.random] ++ ([.multiscalar (n * m + 1) (n * m + 1)] ++ ([.random] ++ ([.multiscalar (n * m + 1) (n * m + 1)] ++
      ([.random] ++ ([.multiscalar (n * m + 1) (n * m + 1)] ++ (List.replicate m .random ++ (List.replicate m .random ++
      (List.replicate (n ^ m * (m - 1)) (.convolution (m + 1)) ++ (List.replicate m (.multiscalar (n ^ m + 1) (n ^ m + 1)) ++
      (List.replicate m (.multiscalar (n ^ m + 2) (n ^ m + 2)) ++ [.multiplications m]))))))))))))) := by
    rw [proverWorkParallel, List.replicate_add, Nat.mul_comm m n, Nat.two_mul, List.replicate_add (m := m) (n := m)]
    simp only [List.append_assoc]
    rfl
  rw [e, commitPhaseT, hn, hm]
  refine (scalarT_emits E r).bind fun x _ => ?_
  refine (drawMatrixT_emits E n m x.2).bind fun y _ => ?_
  refine (Emits.mapM_nil (Q := fun _ => True) _ fun row _ => fixRowT_emits row).bind_nil fun a _ => ?_
  refine (hcm _ _ _).bind fun A _ => (scalarT_emits E _).bind fun z _ => ?_
  refine (decomposeIndexT_emits n m l timing).bind_nil fun ds _ => (sigmaMatrixT_emits n m ds timing).bind_nil fun sigma _ => ?_
  refine (hcm _ _ _).bind fun B _ => (scalarT_emits E _).bind fun z2 _ => ?_
  refine (aSigmaMatrixT_emits n m a sigma).bind_nil fun aS _ => (hcm _ _ _).bind fun C _ => (scalarT_emits E _).bind fun z3 _ => ?_
  refine (aSquareMatrixT_emits n m a).bind_nil fun aQ _ => (hcm _ _ _).bind fun D _ => ?_
  refine (drawScalarsT_emits E m _).bind fun rho hrho => (drawScalarsT_emits E m _).bind fun rho1 hrho1 => (polynomialsT_emits n m _ a sigma hN).bind fun p hp => ?_
  refine (computeXT_emits st.params _ p rho.1 timing _ m hlength hrho).bind fun X _ => ?_
  refine (computeX1T_emits st.params _ st.offset p rho1.1 timing _ m hlength1 hrho1).bind fun X1 _ => ?_
  exact Emits.cons (by simp [heavy, hrho]) (Emits.pure trivial)

theorem respondPhaseT_emits (r r1 : F) (params : Params P) (nn : Nonces F) (c : Committed F P) (xs : List F) :
    Emits (respondPhaseT r r1 params nn c xs) [] fun _ => True :=
  (responseMatrixT_emits _ _ _ _ _).bind_nil fun f _ => (idxT_emits _ _).bind_nil fun ξ _ =>
    (responseZT_emits _ _ _ _).bind_nil fun z _ => (responseZT_emits _ _ _ _).bind_nil fun z1 _ => Emits.pure trivial

end Proof

namespace ProofTranscript
variable {σ : Type}

theorem buildTranscriptRngT_quiet (E : Env F P) (w : Option (Witness F P)) :
    ∀ x ∈ buildTranscriptRngT E w, heavy x = none := by
  cases w <;> simp [buildTranscriptRngT, heavy]

theorem newT_quiet (E : Env F P) (w : Option (Witness F P)) : work (newT E w) = [] := by
  refine work_eq_nil fun x hx => ?_
  simp only [newT, List.mem_append] at hx
  rcases hx with hx | hx
  · simp only [List.mem_cons, List.not_mem_nil, or_false] at hx
    rcases hx with rfl | rfl | rfl <;> simp [heavy, appendT]
  · exact buildTranscriptRngT_quiet E w x hx

theorem commitT_emits (E : Env F P) (R : Rng σ) (pt : ProofTranscript F P σ) (params : Params P) (A B C D : P) (X X1 Y : List P) :
    Emits (commitT E R pt params A B C D X X1 Y).1 [] fun _ => True := by
  intro xs h
  refine ⟨?_, trivial⟩
  have h2 := (xiPowersLoopT_emits (E.scalarOfWide _) (params.m + 1) 1 xs h).1
  simp only [commitT]
  rw [work_append]
  refine congrArg₂ (· ++ ·) (?_ : _ = []) h2
  refine work_eq_nil fun x hx => ?_
  simp only [List.mem_append, List.mem_cons, List.not_mem_nil, or_false, List.mem_map] at hx
  rcases hx with (((((rfl | rfl | rfl | rfl) | ⟨p, -, rfl⟩) | ⟨p, -, rfl⟩) | ⟨p, -, rfl⟩) | hx) | rfl
  case inl.inr => exact buildTranscriptRngT_quiet E _ x hx
  all_goals simp [heavy, appendT]

end ProofTranscript

theorem Proof.proveInternalT_work {σ : Type} (E : Env F P) (R : Rng σ) (w : Witness F P) (st : Statement P) (hst : StatementOK st)
    (s : σ) (t : Transcript) (timing : OperationTiming) (p : Proof F P) (h : (Proof.proveInternalT E R w st s t timing).2.1 = .ok p) :
    work (Proof.proveInternalT E R w st s t timing).1 = proverWorkParallel st.params.n st.params.m := by
  rw [Proof.proveInternalT] at h ⊢
  cases hc : (Proof.checkWitnessT w st timing).out with
  | err e => simp only [hc] at h; simp at h
  | panic => simp only [hc] at h; simp at h
  | diverge => simp only [hc] at h; simp at h
  | ok u =>
    simp only [hc] at h ⊢
    have h1 := (Proof.checkWitnessT_emits w st timing u hc).1
    cases hf : (Proof.commitPhaseT E w.l st timing (ProofTranscript.new E R t st s (some w)).trng).out with
    | err e => simp only [hf] at h; simp at h
    | panic => simp only [hf] at h; simp at h
    | diverge => simp only [hf] at h; simp at h
    | ok x =>
      obtain ⟨c, nn, trng⟩ := x
      simp only [hf] at h ⊢
      have h2 := (Proof.commitPhaseT_emits E w.l st hst timing _ _ hf).1
      have h3 := (Emits.bind_nil (ProofTranscript.commitT_emits E R _ st.params c.A c.B c.C c.D c.X c.X1 c.Y)
        fun xs _ => Proof.respondPhaseT_emits w.r w.r1 st.params nn c xs) p h
      rw [work_append, work_append, work_append, h1, h2, ProofTranscript.newT_quiet, h3.1, List.append_nil, List.append_nil]
      rfl

/-- C102: whichever prover makes a proof, and whatever the witness, its position, the ring, the generators and the transcript, the
heavy operations it performs are exactly those of the specification, in that order: the number of each is a function of `n` and `m`
only. -/
theorem C102_prove_parallel {σ : Type} (E : Env F P) (R : Rng σ) (w : Witness F P) (st : Statement P) (hst : StatementBuilt E st) (s : σ)
    (t : Transcript) (p : Proof F P) :
    ((Proof.proveWithRng E R w st s t).1 = .ok p →
      work (Proof.proveWithRngT E R w st s t).1 = proverWorkParallel st.params.n st.params.m) ∧
    ((Proof.proveWithRngVartime E R w st s t).1 = .ok p →
      work (Proof.proveWithRngVartimeT E R w st s t).1 = proverWorkParallel st.params.n st.params.m) := by
  obtain ⟨e1, e2⟩ := C63_erase E R w st s t
  constructor
  · intro h; rw [← e1] at h; exact Proof.proveInternalT_work E R w st hst.ok s t _ p h
  · intro h; rw [← e2] at h; exact Proof.proveInternalT_work E R w st hst.ok s t _ p h

theorem Proof.proveInternalT_rejected {σ : Type} (E : Env F P) (R : Rng σ) (w : Witness F P) (st : Statement P) (s : σ)
    (t : Transcript) (timing : OperationTiming) (e : ProofError) (h : (Proof.checkWitnessT w st timing).out = .err e) :
    (Proof.proveInternalT E R w st s t timing).1 = (Proof.checkWitnessT w st timing).trace := by
  simp only [Proof.proveInternalT, h]

/-- C102, a rejected witness: nothing is drawn, no multiscalar multiplication is computed; the number of scalar multiplications
is 0, 1, 2 or 3 according to the condition that fails first. -/
theorem C102_rejected_parallel {σ : Type} (E : Env F P) (R : Rng σ) (w : Witness F P) (st : Statement P) (s : σ) (t : Transcript)
    (timing : OperationTiming) (hw : WitnessBuilt E w) (hst : StatementBuilt E st) :
    (w.params ≠ st.params → work (Proof.proveInternalT E R w st s t timing).1 = []) ∧
    (w.params = st.params → st.inputSet.M[w.l]? ≠ some (w.r • st.params.G) →
      work (Proof.proveInternalT E R w st s t timing).1 = [.multiplications 1]) ∧
    (w.params = st.params → st.inputSet.M[w.l]? = some (w.r • st.params.G) →
      st.inputSet.M1[w.l]? ≠ some (w.r1 • st.params.G1 + st.offset) →
      work (Proof.proveInternalT E R w st s t timing).1 = [.multiplications 1, .multiplications 1]) ∧
    (w.params = st.params → st.inputSet.M[w.l]? = some (w.r • st.params.G) →
      st.inputSet.M1[w.l]? = some (w.r1 • st.params.G1 + st.offset) → w.r • st.J ≠ st.params.U →
      work (Proof.proveInternalT E R w st s t timing).1 = [.multiplications 1, .multiplications 1, .multiplications 1]) := by
  have hl : w.params = st.params → w.l < st.inputSet.M.length := fun h => by
    rw [hst.ok.length, ← h]; exact hw.ok.2
  have hl1 : w.params = st.params → w.l < st.inputSet.M1.length := fun h => by
    rw [hst.ok.length1, ← h]; exact hw.ok.2
  have hk (h : w.params = st.params) : (selectKeysT st.inputSet.M st.inputSet.M1 w.l timing : Traced F ProofError (P × P)).out
      = .ok (st.inputSet.M.getD w.l 0, st.inputSet.M1.getD w.l 0) := by
    rw [selectKeysT_out, selectKeys_eq _ _ _ (hl h) (hl1 h)]
  have hne (h1 : st.inputSet.M[w.l]? ≠ some (w.r • st.params.G)) (h : w.params = st.params) :
      st.inputSet.M.getD w.l 0 ≠ w.r • st.params.G := by
    intro h2
    apply h1
    rw [← h2]
    simp [hl h]
  have hne1 (h1 : st.inputSet.M1[w.l]? ≠ some (w.r1 • st.params.G1 + st.offset)) (h : w.params = st.params) :
      st.inputSet.M1.getD w.l 0 - st.offset ≠ w.r1 • st.params.G1 := by
    intro h2
    apply h1
    rw [← sub_eq_iff_eq_add.1 h2]
    simp [hl1 h]
  have heq (h1 : st.inputSet.M[w.l]? = some (w.r • st.params.G)) : st.inputSet.M.getD w.l 0 = w.r • st.params.G := by
    rw [List.getD_eq_getElem?_getD, h1]; rfl
  have heq1 (h1 : st.inputSet.M1[w.l]? = some (w.r1 • st.params.G1 + st.offset)) :
      st.inputSet.M1.getD w.l 0 - st.offset = w.r1 • st.params.G1 := by
    rw [List.getD_eq_getElem?_getD, h1]; simp
  refine ⟨fun h => ?_, fun h h1 => ?_, fun h h1 h2 => ?_, fun h h1 h2 h3 => ?_⟩
  · rw [Proof.proveInternalT_rejected E R w st s t timing (.InvalidParameter "witness and statement parameters did not match")
      (by rw [Proof.checkWitnessT_out, Proof.checkWitness, if_pos h]), Proof.checkWitnessT, work_leak, if_pos h]
    rfl
  · rw [Proof.proveInternalT_rejected E R w st s t timing (.InvalidParameter "`M[l] != r * G`")
      (by
        rw [Proof.checkWitnessT_out, Proof.checkWitness, if_neg (not_not.2 h), selectKeys_eq _ _ _ (hl h) (hl1 h), Outcome.bind_ok]
        dsimp only
        rw [if_pos (hne h1 h)]), Proof.checkWitnessT, work_leak, if_neg (not_not.2 h),
        work_bind_ok (selectKeysT_emits _ _ _ _) _ (hk h)]
    dsimp only
    rw [work_leak, work_leak, if_pos (hne h1 h)]
    simp [heavy, work]
  · rw [Proof.proveInternalT_rejected E R w st s t timing (.InvalidParameter "`M1[l] - offset != r1 * G1`")
      (by
        rw [Proof.checkWitnessT_out, Proof.checkWitness, if_neg (not_not.2 h), selectKeys_eq _ _ _ (hl h) (hl1 h), Outcome.bind_ok]
        dsimp only
        rw [if_neg (not_not.2 (heq h1)), if_pos (hne1 h2 h)]), Proof.checkWitnessT, work_leak, if_neg (not_not.2 h),
        work_bind_ok (selectKeysT_emits _ _ _ _) _ (hk h)]
    dsimp only
    rw [work_leak, work_leak, if_neg (not_not.2 (heq h1)), work_leak, work_leak, work_leak, if_pos (hne1 h2 h)]
    simp [heavy, work]
  · rw [Proof.proveInternalT_rejected E R w st s t timing (.InvalidParameter "`r * J != U`")
      (by
        rw [Proof.checkWitnessT_out, Proof.checkWitness, if_neg (not_not.2 h), selectKeys_eq _ _ _ (hl h) (hl1 h), Outcome.bind_ok]
        dsimp only
        rw [if_neg (not_not.2 (heq h1)), if_neg (not_not.2 (heq1 h2)), if_pos h3]), Proof.checkWitnessT, work_leak,
        if_neg (not_not.2 h), work_bind_ok (selectKeysT_emits _ _ _ _) _ (hk h)]
    dsimp only
    rw [work_leak, work_leak, if_neg (not_not.2 (heq h1)), work_leak, work_leak, work_leak, if_neg (not_not.2 (heq1 h2)), work_leak,
      work_leak, if_pos h3]
    simp [heavy, work]

/-- The hypotheses of `C102_prove_parallel` and `C102_rejected_parallel` are met. -/
example : WitnessBuilt (Triptych.Toy.env 101) Toy.witness ∧ StatementBuilt (Triptych.Toy.env 101) Toy.statement ∧
    (Proof.proveWithRng (Triptych.Toy.env 101) nullRng Toy.witness Toy.statement () Triptych.Toy.transcript).1 = .ok Toy.proof ∧
    WitnessBuilt (Triptych.Toy.env 101) Toy.witness.zeroize ∧ Toy.witness.zeroize.params = Toy.statement.params ∧
    Toy.statement.inputSet.M[Toy.witness.zeroize.l]? ≠ some (Toy.witness.zeroize.r • Toy.statement.params.G) :=
  ⟨Toy.witness_built, Toy.statement_built, Toy.proof_new, .zeroize _ Toy.witness_built, by decide +kernel, by decide +kernel⟩

/-- C102 in terms of sizes: the number of group elements entering the multiscalar multiplications of a proof, the number of
random scalars and of scalar multiplications, and the coefficients of the convolutions, for a ring of `N = n ^ m` keys. -/
theorem C102_totals_parallel (n m : ℕ) :
    ((proverWorkParallel n m).map fun | .multiscalar _ k => k | _ => 0).sum = 4 * (n * m + 1) + m * (n ^ m + 1) + m * (n ^ m + 2) ∧
    (proverWorkParallel n m).count Work.random = n * m + 2 * m + 4 ∧
    ((proverWorkParallel n m).map fun | .multiplications k => k | _ => 0).sum = m + 3 ∧
    ((proverWorkParallel n m).map fun | .convolution k => k | _ => 0).sum = n ^ m * (m - 1) * (m + 1) := by
  have hr (k : ℕ) (x : Work) (hx : x ≠ .random) : (List.replicate k x).count Work.random = 0 :=
    List.count_eq_zero.mpr (by rw [List.mem_replicate]; exact fun h => hx h.2.symm)
  refine ⟨?_, ?_, ?_, ?_⟩
  · simp [proverWorkParallel]; ring
  · simp [proverWorkParallel, List.count_replicate, hr]; ring
  · simp [proverWorkParallel]; ring
  · simp [proverWorkParallel]

end Triptych.Parallel
