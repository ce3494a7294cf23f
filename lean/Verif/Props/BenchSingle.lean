import Verif.Props.Bench

/-! # The benchmarks with one signer, for any number of iterations: C116 -/
set_option autoImplicit false
set_option linter.unusedSectionVars false
set_option linter.unusedVariables false

namespace Triptych
open Spec
open Parallel.RingCT (unwrap)

variable {F P σ : Type} [Field F] [AddCommGroup P] [Module F P] [DecidableEq F] [DecidableEq P]

theorem length_one {α : Type} (l : List α) (h : l.length = 1) : ∃ x, l = [x] := List.length_eq_one_iff.1 h

/-- What the data of one signer look like. -/
theorem data_one (E : Env F P) (cfg : Config) (R : Rng σ) (params : Params P) (s s' : σ) (ws : List (Witness F P))
    (sts : List (Statement P)) (ts : List Transcript) (hp : ParamsBuilt E params)
    (h : Bench.generateData E cfg R params 1 s = .ok (ws, sts, ts, s')) :
    ∃ w st t, ws = [w] ∧ sts = [st] ∧ ts = [t] ∧ WitnessBuilt E w ∧ StatementBuilt E st ∧ w.params = st.params ∧ st.params = params ∧
      Spec.Rel st.params.G st.params.U st.inputSet.M st.J w.l w.r := by
  obtain ⟨d1, d2⟩ := C113_data E cfg R params 1 s hp
  have hbN : 1 ≤ params.n ^ params.m := Nat.pow_pos (by have := hp.ok.n; omega)
  obtain ⟨d3, d4⟩ := d2 _ _ _ _ _ rfl rfl rfl rfl rfl hbN
  obtain ⟨ws', sts', set, e1, e2, e3, -, e5⟩ := d4 fun h0 => by rw [d3 h0] at h; cases h
  rw [e1] at h
  simp only [Outcome.ok.injEq, Prod.mk.injEq] at h
  obtain ⟨rfl, rfl, hts, -⟩ := h
  obtain ⟨w, rfl⟩ := length_one _ e2
  obtain ⟨st, rfl⟩ := length_one _ e3
  obtain ⟨f1, f2, f3, f4, f5, f6, -, -, f9⟩ := e5 0 w st rfl rfl
  exact ⟨w, st, _, rfl, rfl, hts.symm, f1, f2, by rw [f3, f4], f4, by rw [f4, f5, f6]; exact f9⟩

theorem proveLoop_eq (E : Env F P) (R : Rng σ) (timing : OperationTiming) (w : Witness F P) (st : Statement P) (t : Transcript)
    (hpr : ∀ s, (∃ p, (Proof.proveInternal E R w st s t timing).1 = .ok p) ∨
      (Proof.proveInternal E R w st s t timing).1 = .err .InvalidChallenge) (k : ℕ) (s : σ) :
    ((∀ i < k, ∃ p, (Proof.proveInternal E R w st ((fun s => (Proof.proveInternal E R w st s t timing).2.2)^[i] s) t timing).1 = .ok p) →
      ∃ s', Bench.proveLoop E R timing w st t k s = .ok s') ∧
    ((∃ i < k, (Proof.proveInternal E R w st ((fun s => (Proof.proveInternal E R w st s t timing).2.2)^[i] s) t timing).1 =
      .err .InvalidChallenge) → Bench.proveLoop E R timing w st t k s = .panic) := by
  induction k generalizing s with
  | zero => exact ⟨fun _ => ⟨s, rfl⟩, fun ⟨i, hi, _⟩ => by omega⟩
  | succ k ih =>
    obtain ⟨ih1, ih2⟩ := ih (Proof.proveInternal E R w st s t timing).2.2
    rcases hpr s with ⟨p, hp⟩ | he
    · have e : Bench.proveLoop E R timing w st t (k + 1) s =
          Bench.proveLoop E R timing w st t k (Proof.proveInternal E R w st s t timing).2.2 := by
        simp only [Bench.proveLoop, hp, unwrap, Outcome.bind_ok]
      rw [e]
      refine ⟨fun h => ih1 fun i hi => h (i + 1) (by omega), fun ⟨i, hi, h⟩ => ih2 ?_⟩
      cases i with
      | zero => rw [Function.iterate_zero, id, hp] at h; cases h
      | succ i => exact ⟨i, by omega, h⟩
    · refine ⟨fun h => ?_, fun _ => ?_⟩
      · obtain ⟨p, hp⟩ := h 0 (by omega)
        rw [Function.iterate_zero, id, he] at hp
        cases hp
      · simp only [Bench.proveLoop, he]
        rfl

/-- C116: the prover benchmarks (either timing, any number of iterations). If the data can be made, they are those of one signer;
each prover call makes a proof or reports a zero challenge; the benchmark succeeds if all `k` calls make a proof and panics otherwise.
If the data cannot be made the benchmark panics. -/
theorem C116_prove (E : Env F P) (cfg : Config) (R : Rng σ) (timing : OperationTiming) (n m k : ℕ) (s : σ) (params : Params P)
    (hp : Params.new E n m = .ok params) :
    (∀ ws sts ts s', Bench.generateData E cfg R params 1 s = .ok (ws, sts, ts, s') → ∃ w st t, ws = [w] ∧ sts = [st] ∧ ts = [t] ∧
      (∀ s'', (∃ p, (Proof.proveInternal E R w st s'' t timing).1 = .ok p) ∨
        (Proof.proveInternal E R w st s'' t timing).1 = .err .InvalidChallenge) ∧
      ((∀ i < k, ∃ p, (Proof.proveInternal E R w st
          ((fun x => (Proof.proveInternal E R w st x t timing).2.2)^[i] s') t timing).1 = .ok p) →
        Bench.benchProve E cfg R timing n m k s = .ok ()) ∧
      ((∃ i < k, (Proof.proveInternal E R w st
          ((fun x => (Proof.proveInternal E R w st x t timing).2.2)^[i] s') t timing).1 = .err .InvalidChallenge) →
        Bench.benchProve E cfg R timing n m k s = .panic)) ∧
    (Bench.generateData E cfg R params 1 s = .panic → Bench.benchProve E cfg R timing n m k s = .panic) := by
  constructor
  · intro ws sts ts s' h
    obtain ⟨w, st, t, rfl, rfl, rfl, hw, hst, hpar, -, hrel⟩ := data_one E cfg R params s s' ws sts ts ⟨_, _, _, _, hp⟩ h
    have hpr : ∀ s'', (∃ p, (Proof.proveInternal E R w st s'' t timing).1 = .ok p) ∨
        (Proof.proveInternal E R w st s'' t timing).1 = .err .InvalidChallenge := by
      intro s''
      obtain ⟨nn, ξ, -, -, b1, b2⟩ := C11_accept E R w st s'' t timing hw hst hpar hrel
      by_cases hξ : ξ = 0
      · exact Or.inr (b1 hξ)
      · exact Or.inl ⟨_, b2 hξ⟩
    have e : Bench.benchProve E cfg R timing n m k s = (Bench.proveLoop E R timing w st t k s' >>= fun _ => .ok ()) := by
      rw [Bench.benchProve, hp]
      simp only [unwrap, Outcome.bind_ok, h]
    obtain ⟨l1, l2⟩ := proveLoop_eq E R timing w st t hpr k s'
    refine ⟨w, st, t, rfl, rfl, rfl, hpr, fun h => ?_, fun h => ?_⟩
    · obtain ⟨s'', hs⟩ := l1 h
      rw [e, hs]
      rfl
    · rw [e, l2 h]
      rfl
  · intro h
    rw [Bench.benchProve, hp]
    simp only [unwrap, Outcome.bind_ok, h]
    rfl

theorem verifyLoop_ok (E : Env F P) (cfg : Config) (p : Proof F P) (st : Statement P) (t : Transcript)
    (h : (Proof.verify E cfg p st t).1 = .ok ()) (k : ℕ) : Bench.verifyLoop E cfg p st t k = .ok () := by
  induction k with
  | zero => rfl
  | succ k ih => simp only [Bench.verifyLoop, h, unwrap, Outcome.bind_ok, ih]

/-- C116: the verifier benchmark. If the data can be made: either the prover call reports a zero challenge and the benchmark panics;
or it makes a proof, and all `k` verifications succeed unless a response entry is zero, in which case the first one fails and the
benchmark panics. -/
theorem C116_verify (E : Env F P) (cfg : Config) (R : Rng σ) (n m k : ℕ) (s s' : σ) (params : Params P) (ws : List (Witness F P))
    (sts : List (Statement P)) (ts : List Transcript) (hp : Params.new E n m = .ok params)
    (h : Bench.generateData E cfg R params 1 s = .ok (ws, sts, ts, s')) : ∃ w st t, ws = [w] ∧ sts = [st] ∧ ts = [t] ∧
    (((Proof.proveWithRng E R w st s' t).1 = .err .InvalidChallenge ∧ Bench.benchVerify E cfg R n m k s = .panic) ∨
    ∃ p, (Proof.proveWithRng E R w st s' t).1 = .ok p ∧
      (SizeOK cfg params 1 → EnoughFuel E [st] [p] [t] cfg.fuel →
        (NonzeroF params.n params.m p.f (challenge E t st p) → Bench.benchVerify E cfg R n m k s = .ok ()) ∧
        (¬ NonzeroF params.n params.m p.f (challenge E t st p) → 1 ≤ k → Bench.benchVerify E cfg R n m k s = .panic))) := by
  obtain ⟨w, st, t, rfl, rfl, rfl, hw, hst, hpar, hpar', hrel⟩ := data_one E cfg R params s s' ws sts ts ⟨_, _, _, _, hp⟩ h
  refine ⟨w, st, t, rfl, rfl, rfl, ?_⟩
  have e : Bench.benchVerify E cfg R n m k s = (unwrap (Proof.proveWithRng E R w st s' t).1 >>= fun p =>
      Bench.verifyLoop E cfg p st t k) := by
    rw [Bench.benchVerify, hp]
    simp only [unwrap, Outcome.bind_ok, h]
  obtain ⟨nn, ξ, -, -, b1, b2⟩ := C11_accept E R w st s' t .Constant hw hst hpar hrel
  rw [e]
  by_cases hξ : ξ = 0
  · have b : (Proof.proveWithRng E R w st s' t).1 = .err .InvalidChallenge := b1 hξ
    exact Or.inl ⟨b, by rw [b]; rfl⟩
  · have b : (Proof.proveWithRng E R w st s' t).1 = .ok (honestProof st.params st.inputSet.M st.J w.l w.r nn ξ) := b2 hξ
    refine Or.inr ⟨_, b, fun hsz hf => ?_⟩
    obtain ⟨v1, v2⟩ := C14_complete E cfg st t _ hst ⟨σ, R, w, s', .Constant, hw, b⟩ (by rw [hpar']; exact hsz) hf
    rw [hpar'] at v1 v2
    rw [← hpar', b]
    rw [← hpar'] at v1 v2
    constructor
    · intro hz
      exact verifyLoop_ok E cfg _ st t (v1 hz) k
    · intro hz hk
      obtain ⟨k, rfl⟩ : ∃ j, k = j + 1 := ⟨k - 1, by omega⟩
      simp only [unwrap, Outcome.bind_ok, Bench.verifyLoop, v2 hz]
      rfl

/-- Ten proofs, and one proof verified ten times; a generator that only returns zero makes the benchmarks panic. -/
example : Bench.benchProve (Toy.env 101) Toy.cfg Toy.counting .Constant 2 3 10 0 = .ok () ∧
    Bench.benchProve (Toy.env 101) Toy.cfg Toy.counting .Variable 2 3 10 0 = .ok () ∧
    Bench.benchVerify (Toy.env 101) Toy.cfg Toy.counting 2 3 10 0 = .ok () ∧
    Bench.benchVerify (Toy.env 101) Toy.cfg nullRng 2 3 10 () = .panic :=
  ⟨by decide +kernel, by decide +kernel, by decide +kernel, by decide +kernel⟩

end Triptych
