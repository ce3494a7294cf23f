import Verif.Props.Parallel.Witness
import Verif.Lemmas.Parallel.ProveMain

/-! # Properties of the parallel prover: C48 -/
set_option autoImplicit false
set_option linter.unusedSectionVars false

namespace Triptych.Parallel
open Triptych.Parallel.Spec
open Triptych.Spec (grayDigit digit commit fullF ringCoeff NonzeroF maskA selector ringPoly versionBytes points scalars
  weightTranscript weightScalar queryPoint drawn)

variable {F P : Type} [Field F] [AddCommGroup P] [Module F P] [DecidableEq F] [DecidableEq P]

/-- C48, rejections: which error is returned for an invalid witness, in both timing modes, with the caller's transcript and
generator untouched. -/
theorem C48_reject {σ : Type} (E : Env F P) (R : Rng σ) (w : Witness F P) (st : Statement P) (s : σ) (t : Transcript)
    (timing : OperationTiming) (hw : WitnessBuilt E w) (hst : StatementBuilt E st) :
    (w.params ≠ st.params → Proof.proveInternal E R w st s t timing =
      (.err (.InvalidParameter "witness and statement parameters did not match"), t, s)) ∧
    (w.params = st.params → st.inputSet.M[w.l]? ≠ some (w.r • st.params.G) →
      Proof.proveInternal E R w st s t timing = (.err (.InvalidParameter "`M[l] != r * G`"), t, s)) ∧
    (w.params = st.params → st.inputSet.M[w.l]? = some (w.r • st.params.G) →
      st.inputSet.M1[w.l]? ≠ some (w.r1 • st.params.G1 + st.offset) →
      Proof.proveInternal E R w st s t timing = (.err (.InvalidParameter "`M1[l] - offset != r1 * G1`"), t, s)) ∧
    (w.params = st.params → st.inputSet.M[w.l]? = some (w.r • st.params.G) →
      st.inputSet.M1[w.l]? = some (w.r1 • st.params.G1 + st.offset) → w.r • st.J ≠ st.params.U →
      Proof.proveInternal E R w st s t timing = (.err (.InvalidParameter "`r * J != U`"), t, s)) := by
  have hl : w.params = st.params → w.l < st.inputSet.M.length := fun h => by
    rw [hst.ok.length, ← h]; exact hw.ok.2
  have hl1 : w.params = st.params → w.l < st.inputSet.M1.length := fun h => by
    rw [hst.ok.length1, ← h]; exact hw.ok.2
  have hg : ∀ Q, st.inputSet.M[w.l]? = some Q → st.inputSet.M.getD w.l 0 = Q := fun Q h => by
    rw [List.getD_eq_getElem?_getD, h]; rfl
  have hg1 : ∀ Q, st.inputSet.M1[w.l]? = some Q → st.inputSet.M1.getD w.l 0 = Q := fun Q h => by
    rw [List.getD_eq_getElem?_getD, h]; rfl
  refine ⟨?_, ?_, ?_, ?_⟩
  · intro h
    apply Proof.proveInternal_invalid
    rw [Proof.checkWitness, if_pos h]
  · intro h h1
    apply Proof.proveInternal_invalid
    rw [Proof.checkWitness, if_neg (not_not.2 h), selectKeys_eq _ _ _ (hl h) (hl1 h), Outcome.bind_ok]
    dsimp only
    rw [if_pos]
    intro h2
    apply h1
    rw [← h2]
    simp [hl h]
  · intro h h1 h2
    apply Proof.proveInternal_invalid
    rw [Proof.checkWitness, if_neg (not_not.2 h), selectKeys_eq _ _ _ (hl h) (hl1 h), Outcome.bind_ok]
    dsimp only
    rw [if_neg (not_not.2 (hg _ h1)), if_pos]
    intro h3
    apply h2
    rw [← sub_eq_iff_eq_add.1 h3]
    simp [hl1 h]
  · intro h h1 h2 h3
    apply Proof.proveInternal_invalid
    rw [Proof.checkWitness, if_neg (not_not.2 h), selectKeys_eq _ _ _ (hl h) (hl1 h), Outcome.bind_ok]
    dsimp only
    rw [if_neg (not_not.2 (hg _ h1)), if_neg, if_pos h3]
    rw [not_not, hg1 _ h2, add_sub_cancel_right]

/-- C48, acceptance: for a valid witness the prover returns the honest proof for the challenge derived from its own
commitments, or `InvalidChallenge` exactly if that challenge is zero. In particular it does not panic. -/
theorem C48_accept {σ : Type} (E : Env F P) (R : Rng σ) (w : Witness F P) (st : Statement P) (s : σ) (t : Transcript)
    (timing : OperationTiming) (hw : WitnessBuilt E w) (hst : StatementBuilt E st) (hp : w.params = st.params)
    (hrel : Rel st.params.G st.params.G1 st.params.U st.inputSet.M st.inputSet.M1 st.offset st.J w.l w.r w.r1) :
    ∃ nn ξ, nn = proverNonces E st.params.n st.params.m (proverKey E t st.hash w.l w.r w.r1 (R.fill s 32).1) ∧
      ξ = E.scalarOfWide (E.challenge (proverTranscript E t st w.l w.r w.r1 nn)) ∧
      (ξ = 0 → (Proof.proveInternal E R w st s t timing).1 = .err .InvalidChallenge) ∧
      (ξ ≠ 0 → (Proof.proveInternal E R w st s t timing).1
        = .ok (honestProof st.params st.inputSet.M st.inputSet.M1 st.offset st.J w.l w.r w.r1 nn ξ)) := by
  refine ⟨_, _, rfl, rfl, ?_, ?_⟩ <;> intro h <;>
    rw [Proof.proveInternal_valid E R w st hst.ok (by rw [← hp]; exact hw.ok.2) s t timing hp hrel _ rfl _ rfl]
  · rw [if_pos h]
  · rw [if_neg h]

/-- C48: `prove` never panics and never diverges: it returns a proof with the prescribed dimensions, or an error. -/
theorem C48_no_panic {σ : Type} (E : Env F P) (R : Rng σ) (w : Witness F P) (st : Statement P) (s : σ) (t : Transcript)
    (timing : OperationTiming) (hw : WitnessBuilt E w) (hst : StatementBuilt E st) :
    (∃ p, (Proof.proveInternal E R w st s t timing).1 = .ok p ∧ Shape st.params p ∧ w.params = st.params ∧
        Rel st.params.G st.params.G1 st.params.U st.inputSet.M st.inputSet.M1 st.offset st.J w.l w.r w.r1) ∨
      (Proof.proveInternal E R w st s t timing).1 = .err .InvalidChallenge ∨
      ∃ msg, (Proof.proveInternal E R w st s t timing).1 = .err (.InvalidParameter msg) := by
  obtain ⟨r1, r2, r3, r4⟩ := C48_reject E R w st s t timing hw hst
  by_cases hp : w.params = st.params
  · by_cases h1 : st.inputSet.M[w.l]? = some (w.r • st.params.G)
    · by_cases h2 : st.inputSet.M1[w.l]? = some (w.r1 • st.params.G1 + st.offset)
      · by_cases h3 : w.r • st.J = st.params.U
        · obtain ⟨nn, ξ, -, -, a1, a2⟩ := C48_accept E R w st s t timing hw hst hp ⟨h1, h2, h3⟩
          by_cases h0 : ξ = 0
          · exact Or.inr (Or.inl (a1 h0))
          · exact Or.inl ⟨_, a2 h0, honest_shape _ _ _ _ _ _ _ _ _ _, hp, h1, h2, h3⟩
        · exact Or.inr (Or.inr ⟨_, by rw [r4 hp h1 h2 h3]⟩)
      · exact Or.inr (Or.inr ⟨_, by rw [r3 hp h1 h2]⟩)
    · exact Or.inr (Or.inr ⟨_, by rw [r2 hp h1]⟩)
  · exact Or.inr (Or.inr ⟨_, by rw [r1 hp]⟩)

theorem Toy.witness_built : WitnessBuilt (Toy.env 101) Toy.witness :=
  .new _ _ _ _ _ ⟨_, _, _, _, _, Toy.params_new⟩ Toy.witness_new
theorem Toy.witness'_built : WitnessBuilt (Toy.env 101) Toy.witness' :=
  .new _ _ _ _ _ ⟨_, _, _, _, _, Toy.params_new⟩ Toy.witness'_new
theorem Toy.statement_built : StatementBuilt (Toy.env 101) Toy.statement :=
  ⟨_, _, _, _, ⟨_, _, _, _, _, Toy.params_new⟩, Or.inl ⟨_, _, Toy.inputSet_new⟩, Toy.statement_new⟩
theorem Toy.statement'_built : StatementBuilt (Toy.env 101) Toy.statement' :=
  ⟨_, _, _, _, ⟨_, _, _, _, _, Toy.params_new⟩, Or.inl ⟨_, _, Toy.inputSet_new⟩, Toy.statement'_new⟩

/-- The hypotheses of `C48_accept`, `C48_no_panic`, `C48_timing` and `C48_nonces` are met. -/
example : WitnessBuilt (Toy.env 101) Toy.witness ∧ StatementBuilt (Toy.env 101) Toy.statement ∧
    Toy.witness.params = Toy.statement.params ∧ Toy.statement.inputSet.M[Toy.witness.l]? =
      some (Toy.witness.r • Toy.statement.params.G) ∧ Toy.statement.inputSet.M1[Toy.witness.l]? =
      some (Toy.witness.r1 • Toy.statement.params.G1 + Toy.statement.offset) ∧ Toy.witness.r • Toy.statement.J = Toy.statement.params.U ∧
    (Proof.proveInternal (Toy.env 101) nullRng Toy.witness Toy.statement () Toy.transcript .Constant).1
      = .ok Toy.proof :=
  ⟨Toy.witness_built, Toy.statement_built, by decide +kernel, by decide +kernel, by decide +kernel, by decide +kernel, Toy.proof_new⟩

/-- Cases of `C48_reject`: other parameters, a key that is not in the ring at the position, an auxiliary key that is not. -/
example : ∃ w w' w'' : Witness (ZMod 101) (ZMod 101), WitnessBuilt (Toy.env 101) w ∧ w.params ≠ Toy.statement.params ∧
    WitnessBuilt (Toy.env 101) w' ∧ w'.params = Toy.statement.params ∧
    Toy.statement.inputSet.M[w'.l]? ≠ some (w'.r • Toy.statement.params.G) ∧
    WitnessBuilt (Toy.env 101) w'' ∧ w''.params = Toy.statement.params ∧
    Toy.statement.inputSet.M[w''.l]? = some (w''.r • Toy.statement.params.G) ∧
    Toy.statement.inputSet.M1[w''.l]? ≠ some (w''.r1 • Toy.statement.params.G1 + Toy.statement.offset) := by
  have h : Params.new (Toy.env 101) 2 3 = .ok (Triptych.Toy.get Toy.params (Params.new (Toy.env 101) 2 3)) := by decide +kernel
  exact ⟨⟨Triptych.Toy.get Toy.params (Params.new (Toy.env 101) 2 3), 2, 7, 9⟩, ⟨Toy.params, 1, 7, 9⟩, ⟨Toy.params, 2, 7, 8⟩,
    .new _ 2 7 9 _ ⟨_, _, _, _, _, h⟩ (by decide +kernel), by decide +kernel,
    .new _ 1 7 9 _ ⟨_, _, _, _, _, Toy.params_new⟩ (by decide +kernel), by decide +kernel, by decide +kernel,
    .new _ 2 7 8 _ ⟨_, _, _, _, _, Toy.params_new⟩ (by decide +kernel), by decide +kernel, by decide +kernel, by decide +kernel⟩

/-- C48: a zero key or a zero auxiliary key never yields a proof, and the caller's transcript and generator are untouched. -/
theorem C48_zero_key {σ : Type} (E : Env F P) (R : Rng σ) (w : Witness F P) (st : Statement P) (s : σ) (t : Transcript)
    (timing : OperationTiming) (hw : WitnessBuilt E w) (hst : StatementBuilt E st) (hr : w.r = 0 ∨ w.r1 = 0) :
    ∃ msg, Proof.proveInternal E R w st s t timing = (.err (.InvalidParameter msg), t, s) := by
  obtain ⟨r1, r2, r3, r4⟩ := C48_reject E R w st s t timing hw hst
  by_cases hp : w.params = st.params
  · by_cases h1 : st.inputSet.M[w.l]? = some (w.r • st.params.G)
    · rcases hr with hr | hr
      · rw [hr, zero_smul] at h1
        exact absurd (List.mem_of_getElem? h1) hst.ok.nonzero
      · refine ⟨_, r3 hp h1 ?_⟩
        intro h
        rw [hr, zero_smul, zero_add] at h
        exact hst.ok.nonzero1 (List.mem_of_getElem? h)
    · exact ⟨_, r2 hp h1⟩
  · exact ⟨_, r1 hp⟩

/-- C48: in particular a zeroized witness is useless. -/
theorem C48_zeroized {σ : Type} (E : Env F P) (R : Rng σ) (w : Witness F P) (st : Statement P) (s : σ) (t : Transcript)
    (timing : OperationTiming) (hw : WitnessBuilt E w) (hst : StatementBuilt E st) :
    ∃ msg, Proof.proveInternal E R w.zeroize st s t timing = (.err (.InvalidParameter msg), t, s) :=
  C48_zero_key E R w.zeroize st s t timing (.zeroize w hw) hst (Or.inl rfl)

/-- The hypotheses of `C48_zero_key` and `C48_zeroized` are met. -/
example : WitnessBuilt (Toy.env 101) Toy.witness.zeroize ∧ (Toy.witness.zeroize.r = 0 ∨ Toy.witness.zeroize.r1 = 0) :=
  ⟨.zeroize _ Toy.witness_built, Or.inl rfl⟩

/-- C48: constant-time and variable-time provers agree on the result, the transcript and the generator's state. -/
theorem C48_timing {σ : Type} (E : Env F P) (R : Rng σ) (w : Witness F P) (st : Statement P) (s : σ) (t : Transcript)
    (hw : WitnessBuilt E w) (hst : StatementBuilt E st) :
    Proof.proveWithRngVartime E R w st s t = Proof.proveWithRng E R w st s t := by
  rw [Proof.proveWithRngVartime, Proof.proveWithRng]
  obtain ⟨r1, r2, r3, r4⟩ := C48_reject E R w st s t .Variable hw hst
  obtain ⟨q1, q2, q3, q4⟩ := C48_reject E R w st s t .Constant hw hst
  by_cases hp : w.params = st.params
  · by_cases h1 : st.inputSet.M[w.l]? = some (w.r • st.params.G)
    · by_cases h2 : st.inputSet.M1[w.l]? = some (w.r1 • st.params.G1 + st.offset)
      · by_cases h3 : w.r • st.J = st.params.U
        · rw [Proof.proveInternal_valid E R w st hst.ok (by rw [← hp]; exact hw.ok.2) s t .Variable hp ⟨h1, h2, h3⟩ _ rfl
              _ rfl,
            Proof.proveInternal_valid E R w st hst.ok (by rw [← hp]; exact hw.ok.2) s t .Constant hp ⟨h1, h2, h3⟩ _ rfl
              _ rfl]
        · rw [r4 hp h1 h2 h3, q4 hp h1 h2 h3]
      · rw [r3 hp h1 h2, q3 hp h1 h2]
    · rw [r2 hp h1, q2 hp h1]
  · rw [r1 hp, q1 hp]

example : (Proof.proveWithRngVartime (Toy.env 101) nullRng Toy.witness Toy.statement () Toy.transcript).1
    = .ok Toy.proof := by
  rw [C48_timing _ _ _ _ _ _ Toy.witness_built Toy.statement_built]; exact Toy.proof_new

/-- C48: every returned proof is the honest proof for randomness drawn from a generator keyed with the caller's transcript, the
statement hash, the witness and 32 external bytes. -/
theorem C48_nonces {σ : Type} (E : Env F P) (R : Rng σ) (w : Witness F P) (st : Statement P) (s : σ) (t : Transcript)
    (timing : OperationTiming) (hw : WitnessBuilt E w) (hst : StatementBuilt E st) (p : Proof F P)
    (h : (Proof.proveInternal E R w st s t timing).1 = .ok p) :
    p = honestProof st.params st.inputSet.M st.inputSet.M1 st.offset st.J w.l w.r w.r1
      (proverNonces E st.params.n st.params.m (proverKey E t st.hash w.l w.r w.r1 (R.fill s 32).1))
      (challenge E t st p) := by
  obtain ⟨q, hq, hshape, hp, hrel⟩ | hq | ⟨msg, hq⟩ := C48_no_panic E R w st s t timing hw hst
  · obtain ⟨nn, ξ, hnn, hξ, a1, a2⟩ := C48_accept E R w st s t timing hw hst hp hrel
    by_cases h0 : ξ = 0
    · rw [a1 h0] at h; simp at h
    · rw [a2 h0] at h
      simp only [Outcome.ok.injEq] at h
      have hc : challenge E t st p = ξ := by
        rw [hξ, ← h]
        rfl
      rw [hc, ← hnn, h]
  · rw [hq] at h; simp at h
  · rw [hq] at h; simp at h

/-- C48: the key material determines the caller's transcript, the statement hash, the index, both keys and the external bytes. So
two runs that differ in any of them use different generators. -/
theorem C48_key_inj (E : Env F P) (hE : E.Lawful) (t t' : Transcript) (h h' : Bytes) (l l' : ℕ) (r r1 r' r1' : F)
    (ext ext' : Bytes) (hl : l < 2 ^ 32) (hl' : l' < 2 ^ 32)
    (heq : proverKey E t h l r r1 ext = proverKey E t' h' l' r' r1' ext') :
    t = t' ∧ h = h' ∧ l = l' ∧ r = r' ∧ r1 = r1' ∧ ext = ext' := by
  simp only [proverKey, TRng.mk.injEq, List.cons.injEq, Prod.mk.injEq, true_and, and_true] at heq
  obtain ⟨h1, ⟨h2, h3, h31⟩, h4⟩ := heq
  obtain ⟨e1, e2⟩ := List.append_inj' h1 rfl
  simp only [List.cons.injEq, Op.append.injEq, true_and, and_true] at e2
  exact ⟨e1, e2, leBytes4_inj _ _ (by rw [u32Max]; omega) (by rw [u32Max]; omega) h2, hE.scalarBytes_inj _ _ h3,
    hE.scalarBytes_inj _ _ h31, h4⟩

/-- C48: within a run the query points of the `m n + 2 m + 4` secrets are pairwise distinct: they are numbered as follows. -/
theorem C48_indices (n m : ℕ) (hn : 0 < n) :
    (∀ j i j' i' : ℕ, i < n → i' < n → 1 + (j * n + i) = 1 + (j' * n + i') → j = j' ∧ i = i') ∧
    (∀ j i : ℕ, j < m → i < n → 0 < 1 + (j * n + i) ∧ 1 + (j * n + i) < 1 + m * n) ∧
    ∀ j : ℕ, j < m → 3 + m * n < 4 + m * n + j ∧ ∀ j', 4 + m * n + j < 4 + m * n + m + j' := by
  refine ⟨?_, ?_, fun j hj => ⟨by omega, fun j' => by omega⟩⟩
  · intro j i j' i' hi hi' h
    have h1 : j * n + i = j' * n + i' := by omega
    have e1 : (j * n + i) / n = j := by
      rw [Nat.mul_comm, Nat.mul_add_div hn, Nat.div_eq_of_lt hi, Nat.add_zero]
    have e2 : (j' * n + i') / n = j' := by
      rw [Nat.mul_comm, Nat.mul_add_div hn, Nat.div_eq_of_lt hi', Nat.add_zero]
    have hj : j = j' := by rw [← e1, ← e2, h1]
    subst hj
    exact ⟨rfl, by omega⟩
  · intro j i hj hi
    have : (j + 1) * n ≤ m * n := Nat.mul_le_mul_right n hj
    rw [Nat.succ_mul] at this
    omega

/-- `C48_key_inj` needs a lawful environment and positions below `2 ^ 32`; keys are fresh generators, as in `C25_query_inj`:
-/
example : (proverKey (Toy.env 101) Toy.transcript Toy.statement.hash 2 7 9 (List.replicate 32 0)).reqs = [] := rfl

end Triptych.Parallel
