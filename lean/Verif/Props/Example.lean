import Verif.Props.Batch
import Verif.Props.Parallel.Batch
import Verif.Props.Serialize
import Verif.Props.Parallel.Serialize
import Verif.Model.Example
import Verif.Spec.Example

/-! # The documented examples and the fuzz targets: C66, C67 -/
set_option autoImplicit false
set_option linter.unusedSectionVars false
set_option linter.unusedVariables false

namespace Triptych
open Spec

theorem ring_range' {F P σ : Type} (E : Env F P) (R : Rng σ) (l : ℕ) (own : P) (s0 : σ) (k : ℕ) : ∀ a,
    Example.ring E R l own (List.range' a k) (after R s0 (if a ≤ l then a else a - 1)) =
      ((List.range' a k).map fun i =>
        if i = l then own else E.pointOfUniform (R.fill (after R s0 (if i < l then i else i - 1)) 64).1,
      after R s0 (if a + k ≤ l then a + k else a + k - 1)) := by
  induction k with
  | zero => intro a; simp [Example.ring]
  | succ k ih =>
    intro a
    rw [List.range'_succ, Example.ring]
    have step : ∀ i, (R.fill (after R s0 i) 64).2 = after R s0 (i + 1) := by
      intro i; rw [after, after, Function.iterate_succ_apply']
    rcases Nat.lt_trichotomy a l with h | h | h
    · rw [if_neg (by omega), if_pos (by omega)]
      have := ih (a + 1)
      rw [if_pos (by omega)] at this
      simp only [Example.randomPoint, step, this, List.map_cons, if_neg (show ¬ a = l by omega), if_pos h]
      rw [show a + 1 + k = a + (k + 1) by omega]
    · subst h
      have := ih (a + 1)
      rw [if_neg (by omega), Nat.add_sub_cancel] at this
      simp only [if_true, le_refl, this, List.map_cons]
      rw [show a + 1 + k = a + (k + 1) by omega]
    · rw [if_neg (by omega), if_neg (by omega)]
      have := ih (a + 1)
      rw [if_neg (by omega), show a + 1 - 1 = a - 1 + 1 by omega] at this
      simp only [Example.randomPoint, step, this, List.map_cons, if_neg (show ¬ a = l by omega),
        if_neg (show ¬ a < l by omega)]
      rw [show a + 1 + k = a + (k + 1) by omega]

theorem ring_range {F P σ : Type} (E : Env F P) (R : Rng σ) (l : ℕ) (own : P) (s : σ) (N : ℕ) (h : l < N) :
    Example.ring E R l own (List.range N) s = (exampleRing E R s N l own, after R s (N - 1)) := by
  have := ring_range' E R l own s N 0
  rw [if_pos (Nat.zero_le _), ← List.range_eq_range', Nat.zero_add, if_neg (by omega)] at this
  exact this

theorem exampleRing_own {F P σ : Type} (E : Env F P) (R : Rng σ) (s : σ) (N l : ℕ) (own : P) (h : l < N) :
    (exampleRing E R s N l own)[l]? = some own := by
  simp [exampleRing, h]

variable {F P : Type} [Field F] [AddCommGroup P] [Module F P] [DecidableEq F] [DecidableEq P]

open Parallel.RingCT (unwrap) in
/-- C66: the setup of the documented example, for all accepted sizes and every behaviour of the generator: it panics exactly if
the ring drawn contains the identity; otherwise the witness and the statement belong together. -/
theorem C66_setup {σ : Type} (E : Env F P) (R : Rng σ) (n m : ℕ) (s : σ) (hn : 2 ≤ n) (hm : 2 ≤ m) (hN : n ^ m < 2 ^ 32) :
    ∃ l r M s', l = (R.nextU64 s).1.toNat % n ^ m ∧ r = E.scalarOfWide (R.fill (R.nextU64 s).2 64).1 ∧
      M = exampleRing E R (R.fill (R.nextU64 s).2 64).2 (n ^ m) l (r • E.basepoint) ∧
      (0 ∈ M → Example.setup E R n m s = .panic) ∧
      (0 ∉ M → r ≠ 0 ∧ ∃ w st, Example.setup E R n m s = .ok (w, st, s') ∧ WitnessBuilt E w ∧ StatementBuilt E st ∧
        w.params = st.params ∧ st.params.n = n ∧ st.params.m = m ∧ st.inputSet.M = M ∧ w.l = l ∧ w.r = r ∧
        Rel st.params.G st.params.U M st.J l r) := by
  obtain ⟨params, hp⟩ := (C01_new E n m).2.2.2 hn hm hN
  have hb : ParamsBuilt E params := ⟨_, _, _, _, hp⟩
  obtain ⟨p1, p2, p3, p4, p5, -, -, -⟩ := C02_sizes E n m _ _ params hp
  obtain ⟨w, s1, hw, w1, w2, w3, w4, w5⟩ := C09_random (ε := Unit) E R params s hb
  have hwb : WitnessBuilt E w := .random σ R s s1 params w hb hw
  rw [p1, p2] at w2 w3
  have hown : w.computeVerificationKey = w.r • E.basepoint := by rw [Witness.computeVerificationKey, w1, p3]
  have hring := ring_range E R w.l w.computeVerificationKey s1 (n ^ m) w2
  have hl : (exampleRing E R s1 (n ^ m) w.l w.computeVerificationKey).length = n ^ m := by simp [exampleRing]
  obtain ⟨i, hi, i1⟩ := (C04_new E (exampleRing E R s1 (n ^ m) w.l w.computeVerificationKey)).1 (by rw [hl]; exact hN)
  have hset : Example.setup E R n m s =
      (unwrap (Statement.new E params i w.computeLinkingTag) >>= fun st => .ok (w, st, after R s1 (n ^ m - 1))) := by
    rw [Example.setup, hp]
    simp only [unwrap, Outcome.bind_ok, hw, p5, hring, hi]
  refine ⟨w.l, w.r, exampleRing E R s1 (n ^ m) w.l (w.r • E.basepoint), after R s1 (n ^ m - 1), w3, w4, by rw [w5], ?_, ?_⟩
  · intro h0
    rw [hset, (C06_new E params i w.computeLinkingTag hb).2.1 (by rw [i1, hl, p1, p2]) (by rw [i1, hown]; exact h0)]
    rfl
  · intro h0
    obtain ⟨st, hst, t1, t2, t3⟩ := (C06_new E params i w.computeLinkingTag hb).2.2 (by rw [i1, hl, p1, p2])
      (by rw [i1, hown]; exact h0)
    have hr : w.r ≠ 0 := by
      intro hr
      apply h0
      have := exampleRing_own E R s1 (n ^ m) w.l (w.r • E.basepoint) w2
      rw [hr, zero_smul] at this
      rw [hr, zero_smul]
      exact List.mem_of_getElem? this
    refine ⟨hr, w, st, ?_, hwb, ⟨params, i, _, hb, Or.inl ⟨_, hi⟩, hst⟩, by rw [w1, t1], by rw [t1, p1], by rw [t1, p2],
      by rw [t2, i1, hown], rfl, rfl, ?_, ?_⟩
    · rw [hset, hst]; rfl
    · rw [exampleRing_own _ _ _ _ _ _ w2, t1, p3]
    · rw [t3, t1, ← w1]
      exact (C10_relation w hr).2

/-- C66: the documented example. Whenever the ring drawn does not contain the identity, the prover returns a proof, or reports a
zero challenge, on which the example panics. If it returns a proof, the assertion at the end holds unless a response entry is
zero. -/
theorem C66_example {σ : Type} (E : Env F P) (cfg : Config) (R : Rng σ) (n m : ℕ) (s s' : σ) (w : Witness F P) (st : Statement P)
    (hn : 2 ≤ n) (hm : 2 ≤ m) (hN : n ^ m < 2 ^ 32) (h : Example.setup E R n m s = .ok (w, st, s')) :
    ((Proof.proveWithRng E R w st s' [.append "dom-sep" (asciiBytes "Test transcript")]).1 = .err .InvalidChallenge ∧
      Example.main E cfg R n m s = .panic) ∨
    ∃ p, (Proof.proveWithRng E R w st s' [.append "dom-sep" (asciiBytes "Test transcript")]).1 = .ok p ∧
      (SizeOK cfg st.params 1 → EnoughFuel E [st] [p] [[.append "dom-sep" (asciiBytes "Test transcript")]] cfg.fuel →
        (NonzeroF n m p.f (challenge E [.append "dom-sep" (asciiBytes "Test transcript")] st p) →
          Example.main E cfg R n m s = .ok ()) ∧
        (¬ NonzeroF n m p.f (challenge E [.append "dom-sep" (asciiBytes "Test transcript")] st p) →
          Example.main E cfg R n m s = .panic)) := by
  obtain ⟨l, r, M, s2, -, -, -, h1, h2⟩ := C66_setup E R n m s hn hm hN
  have h0 : (0 : P) ∉ M := by
    intro h0
    rw [h1 h0] at h
    cases h
  obtain ⟨hr, w', st', hs, hw, hst, a1, a2, a3, a4, a5, a6, hrel⟩ := h2 h0
  rw [hs] at h
  simp only [Outcome.ok.injEq, Prod.mk.injEq] at h
  obtain ⟨rfl, rfl, rfl⟩ := h
  have hmain : Example.main E cfg R n m s = Example.run E cfg R w' st' s2 [.append "dom-sep" (asciiBytes "Test transcript")] := by
    rw [Example.main, hs, Outcome.bind_ok]
    rfl
  obtain ⟨nn, ξ, -, -, b1, b2⟩ := C11_accept E R w' st' s2 [.append "dom-sep" (asciiBytes "Test transcript")] .Constant hw hst a1
    (by rw [a4, a5, a6]; exact hrel)
  rw [hmain, Example.run, Proof.proveWithRng]
  by_cases hξ : ξ = 0
  · refine Or.inl ⟨b1 hξ, ?_⟩
    rw [b1 hξ]; rfl
  · have hp := b2 hξ
    refine Or.inr ⟨_, hp, fun hsz hf => ?_⟩
    have hh := C14_complete E cfg st' [.append "dom-sep" (asciiBytes "Test transcript")] _ hst ⟨σ, R, w', s2, .Constant, hw, hp⟩ hsz hf
    rw [a2, a3] at hh
    rw [hp]
    exact ⟨fun hz => by rw [Parallel.RingCT.unwrap, Outcome.bind_ok, hh.1 hz]; rfl,
      fun hz => by rw [Parallel.RingCT.unwrap, Outcome.bind_ok, hh.2 hz]; rfl⟩

/-- C67: the fuzz target's assertion holds for every input: decoding never panics, and a decoded proof encodes to the input. -/
theorem C67_fuzz (E : Env F P) (hE : E.Lawful) (data : Bytes) : Example.fuzz E data = .ok () := by
  rw [Example.fuzz]
  by_cases h : ∃ p, Proof.fromBytes E data = .ok p
  · obtain ⟨p, h⟩ := h
    simp only [h, (C35_canonical E hE data p h).1, Outcome.bind_ok, if_true]
  · rw [(C36_exact E hE data).2 fun p hp => h ⟨p, hp⟩]

namespace Toy

/-- A generator that counts. -/
def counting : Rng ℕ where
  fill s n := (leBytes n (7 * s + 3), s + 1)
  nextU64 s := (6, s)

end Toy

/-- The documented example runs to its end; with a generator that only returns zero it panics, as the key is zero. -/
example : Example.main (Toy.env 101) Toy.cfg Toy.counting 2 3 0 = .ok () ∧
    Example.main (Toy.env 101) Toy.cfg nullRng 2 3 () = .panic ∧
    (∃ w st s, Example.setup (Toy.env 101) Toy.counting 2 3 0 = .ok (w, st, s)) :=
  ⟨by decide +kernel, by decide +kernel, by
    have h : (Example.setup (Toy.env 101) Toy.counting 2 3 0).isOk = true := by decide +kernel
    generalize Example.setup (Toy.env 101) Toy.counting 2 3 0 = x at h
    cases x with
    | ok x => exact ⟨_, _, _, rfl⟩
    | _ => simp [Outcome.isOk] at h⟩

end Triptych

namespace Triptych.Parallel
open Triptych.Parallel.Spec
open Triptych.Spec (NonzeroF after exampleRing)

variable {F P : Type} [Field F] [AddCommGroup P] [Module F P] [DecidableEq F] [DecidableEq P]

open RingCT (unwrap) in
/-- C66 for the example of the parallel module: the setup panics exactly if one of the drawn keys is the identity or one of the
drawn auxiliary keys is the offset. -/
theorem C66_setup_parallel {σ : Type} (E : Env F P) (R : Rng σ) (n m : ℕ) (s : σ) (hn : 2 ≤ n) (hm : 2 ≤ m)
    (hN : n ^ m < 2 ^ 32) :
    ∃ params l r r1 offset M M1 s1 s', Params.new E n m = .ok params ∧ l = (R.nextU64 s).1.toNat % n ^ m ∧
      r = E.scalarOfWide (R.fill (R.nextU64 s).2 64).1 ∧
      r1 = E.scalarOfWide (R.fill (after R (R.nextU64 s).2 1) 64).1 ∧
      offset = E.scalarOfWide (R.fill (after R (R.nextU64 s).2 2) 64).1 • params.G1 ∧
      s1 = after R (R.nextU64 s).2 3 ∧ M = exampleRing E R s1 (n ^ m) l (r • params.G) ∧
      M1 = exampleRing E R (after R s1 (n ^ m - 1)) (n ^ m) l (r1 • params.G1 + offset) ∧
      (0 ∈ M ∨ offset ∈ M1 → Example.setup E R n m s = .panic) ∧
      (0 ∉ M → offset ∉ M1 → r ≠ 0 ∧ r1 ≠ 0 ∧ ∃ w st, Example.setup E R n m s = .ok (w, st, s') ∧ WitnessBuilt E w ∧
        StatementBuilt E st ∧ w.params = st.params ∧ st.params = params ∧ st.inputSet.M = M ∧ st.inputSet.M1 = M1 ∧
        st.offset = offset ∧ w.l = l ∧ w.r = r ∧ w.r1 = r1 ∧ Rel params.G params.G1 params.U M M1 offset st.J l r r1) := by
  obtain ⟨params, hp⟩ := (C45_new E n m).2.2.2 hn hm hN
  have hb : ParamsBuilt E params := ⟨_, _, _, _, _, hp⟩
  obtain ⟨p1, p2, p3, p31, p4, p5, -, -, -⟩ := C45_sizes E n m _ _ _ params hp
  obtain ⟨w, s1, hw, w1, w2, w3, w4, w41, w5⟩ := C47_random (ε := Unit) E R params s hb
  have hwb : WitnessBuilt E w := .random σ R s s1 params w hb hw
  rw [p1, p2] at w2 w3
  set offset := E.scalarOfWide (R.fill s1 64).1 • params.G1 with hoff
  have hown : w.computeVerificationKey = w.r • params.G := by rw [Witness.computeVerificationKey, w1]
  have hown1 : w.computeAuxiliaryVerificationKey = w.r1 • params.G1 := by rw [Witness.computeAuxiliaryVerificationKey, w1]
  have hs3 : (R.fill s1 64).2 = after R (R.nextU64 s).2 3 := by rw [w5]; rfl
  set s3 := after R (R.nextU64 s).2 3
  have hring := ring_range E R w.l (w.r • params.G) s3 (n ^ m) w2
  have hring1 := ring_range E R w.l (w.r1 • params.G1 + offset) (after R s3 (n ^ m - 1)) (n ^ m) w2
  set M := exampleRing E R s3 (n ^ m) w.l (w.r • params.G) with hM
  set M1 := exampleRing E R (after R s3 (n ^ m - 1)) (n ^ m) w.l (w.r1 • params.G1 + offset) with hM1
  have hl : M.length = n ^ m := by simp [hM, exampleRing]
  have hl1 : M1.length = n ^ m := by simp [hM1, exampleRing]
  obtain ⟨i, hi, i1, i2⟩ := (C46_input_set_new E M M1).2.2 (by rw [hl, hl1]) (by rw [hl]; exact hN)
  have hset : Example.setup E R n m s = (unwrap (Statement.new E params i offset w.computeLinkingTag) >>= fun st =>
      .ok (w, st, after R (after R s3 (n ^ m - 1)) (n ^ m - 1))) := by
    rw [Example.setup, hp]
    simp only [unwrap, Outcome.bind_ok, hw, p5, ← hoff, hs3, hown, hown1, hring, hring1, hi]
  refine ⟨params, w.l, w.r, w.r1, offset, M, M1, s3, after R (after R s3 (n ^ m - 1)) (n ^ m - 1), hp, w3, w4, w41,
    by rw [hoff, w5]; rfl, rfl, rfl, rfl, ?_, ?_⟩
  · intro h0
    rw [hset, (C46_statement_new E params i offset w.computeLinkingTag hb).2.1 (by rw [i1, hl, p1, p2]) (by rw [i1, i2]; exact h0)]
    rfl
  · intro h0 h1
    obtain ⟨st, hst, t1, t2, t3, t4⟩ := (C46_statement_new E params i offset w.computeLinkingTag hb).2.2 (by rw [i1, hl, p1, p2])
      (by rw [i1]; exact h0) (by rw [i2]; exact h1)
    have e0 : M[w.l]? = some (w.r • params.G) := exampleRing_own E R s3 (n ^ m) w.l _ w2
    have e1 : M1[w.l]? = some (w.r1 • params.G1 + offset) := exampleRing_own E R _ (n ^ m) w.l _ w2
    have hr : w.r ≠ 0 := by
      intro hr
      rw [hr, zero_smul] at e0
      exact h0 (List.mem_of_getElem? e0)
    have hr1 : w.r1 ≠ 0 := by
      intro hr
      rw [hr, zero_smul, zero_add] at e1
      exact h1 (List.mem_of_getElem? e1)
    refine ⟨hr, hr1, w, st, ?_, hwb, ⟨params, i, _, _, hb, Or.inl ⟨_, _, hi⟩, hst⟩, by rw [w1, t1], t1, by rw [t2, i1],
      by rw [t2, i2], t3, rfl, rfl, rfl, e0, e1, ?_⟩
    · rw [hset, hst]; rfl
    · rw [t4, Witness.computeLinkingTag, smul_smul, mul_inv_cancel₀ hr, one_smul, w1]

/-- C66 for the example of the parallel module: as `C66_example`. -/
theorem C66_example_parallel {σ : Type} (E : Env F P) (cfg : Config) (R : Rng σ) (n m : ℕ) (s s' : σ) (w : Witness F P)
    (st : Statement P) (hn : 2 ≤ n) (hm : 2 ≤ m) (hN : n ^ m < 2 ^ 32) (h : Example.setup E R n m s = .ok (w, st, s')) :
    ((Proof.proveWithRng E R w st s' [.append "dom-sep" (asciiBytes "Test transcript")]).1 = .err .InvalidChallenge ∧
      Example.main E cfg R n m s = .panic) ∨
    ∃ p, (Proof.proveWithRng E R w st s' [.append "dom-sep" (asciiBytes "Test transcript")]).1 = .ok p ∧
      (SizeOK cfg st.params 1 → EnoughFuel E [st] [p] [[.append "dom-sep" (asciiBytes "Test transcript")]] cfg.fuel →
        (NonzeroF n m p.f (challenge E [.append "dom-sep" (asciiBytes "Test transcript")] st p) →
          Example.main E cfg R n m s = .ok ()) ∧
        (¬ NonzeroF n m p.f (challenge E [.append "dom-sep" (asciiBytes "Test transcript")] st p) →
          Example.main E cfg R n m s = .panic)) := by
  obtain ⟨params, l, r, r1, offset, M, M1, s1, s2, hp, -, -, -, -, -, -, -, h1, h2⟩ := C66_setup_parallel E R n m s hn hm hN
  have h0 : ¬ (0 ∈ M ∨ offset ∈ M1) := by
    intro h0
    rw [h1 h0] at h
    cases h
  obtain ⟨hr, hr1, w', st', hs, hw, hst, a1, a2, a3, a31, a32, a4, a5, a6, hrel⟩ := h2 (fun h => h0 (.inl h)) fun h => h0 (.inr h)
  obtain ⟨p1, p2, -⟩ := C45_sizes E n m _ _ _ params hp
  rw [hs] at h
  simp only [Outcome.ok.injEq, Prod.mk.injEq] at h
  obtain ⟨rfl, rfl, rfl⟩ := h
  have hmain : Example.main E cfg R n m s =
      (RingCT.unwrap (Proof.proveWithRng E R w' st' s2 [.append "dom-sep" (asciiBytes "Test transcript")]).1 >>= fun p =>
        RingCT.unwrap (Proof.verify E cfg p st' [.append "dom-sep" (asciiBytes "Test transcript")]).1) := by
    rw [Example.main, hs, Outcome.bind_ok]
    rfl
  obtain ⟨nn, ξ, -, -, b1, b2⟩ := C48_accept E R w' st' s2 [.append "dom-sep" (asciiBytes "Test transcript")] .Constant hw hst a1
    (by rw [a2, a3, a31, a32, a4, a5, a6]; exact hrel)
  rw [hmain, Proof.proveWithRng]
  by_cases hξ : ξ = 0
  · refine Or.inl ⟨b1 hξ, ?_⟩
    rw [b1 hξ]; rfl
  · have hp' := b2 hξ
    refine Or.inr ⟨_, hp', fun hsz hf => ?_⟩
    have hh := C49_complete E cfg st' [.append "dom-sep" (asciiBytes "Test transcript")] _ hst ⟨σ, R, w', s2, .Constant, hw, hp'⟩
      hsz hf
    rw [show st'.params.n = n by rw [a2, p1], show st'.params.m = m by rw [a2, p2]] at hh
    rw [hp']
    exact ⟨fun hz => by rw [RingCT.unwrap, Outcome.bind_ok, hh.1 hz]; rfl,
      fun hz => by rw [RingCT.unwrap, Outcome.bind_ok, hh.2 hz]; rfl⟩

/-- C67 for parallel proofs. -/
theorem C67_fuzz_parallel (E : Env F P) (hE : E.Lawful) (data : Bytes) : Example.fuzz E data = .ok () := by
  rw [Example.fuzz]
  by_cases h : ∃ p, Proof.fromBytes E data = .ok p
  · obtain ⟨p, h⟩ := h
    simp only [h, (C52_canonical E hE data p h).1, Outcome.bind_ok, if_true]
  · rw [(C52_exact E hE data).2 fun p hp => h ⟨p, hp⟩]

/-- The parallel example runs to its end; with a generator that only returns zero it panics. -/
example : Example.main (Triptych.Toy.env 101) Triptych.Toy.cfg Triptych.Toy.counting 2 3 1 = .ok () ∧
    Example.main (Triptych.Toy.env 101) Triptych.Toy.cfg nullRng 2 3 () = .panic :=
  ⟨by decide +kernel, by decide +kernel⟩

end Triptych.Parallel
