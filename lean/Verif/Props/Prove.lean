import Verif.Props.Witness
import Verif.Lemmas.ProveMain

/-! # Properties of the prover: C11, C12, C13, C25 -/
set_option autoImplicit false
set_option linter.unusedSectionVars false

namespace Triptych
open Spec

variable {F P : Type} [Field F] [AddCommGroup P] [Module F P] [DecidableEq F] [DecidableEq P]

/-- C11, rejections: which error is returned for an invalid witness, in both timing modes, with the caller's transcript and
generator untouched. -/
theorem C11_reject {σ : Type} (E : Env F P) (R : Rng σ) (w : Witness F P) (st : Statement P) (s : σ) (t : Transcript)
    (timing : OperationTiming) (hw : WitnessBuilt E w) (hst : StatementBuilt E st) :
    (w.params ≠ st.params → Proof.proveInternal E R w st s t timing =
      (.err (.InvalidParameter "witness and statement parameters did not match"), t, s)) ∧
    (w.params = st.params → st.inputSet.M[w.l]? ≠ some (w.r • st.params.G) →
      Proof.proveInternal E R w st s t timing = (.err (.InvalidParameter "`M[l] != r * G`"), t, s)) ∧
    (w.params = st.params → st.inputSet.M[w.l]? = some (w.r • st.params.G) → w.r • st.J ≠ st.params.U →
      Proof.proveInternal E R w st s t timing = (.err (.InvalidParameter "`r * J != U`"), t, s)) := by
  have hl : w.params = st.params → w.l < st.inputSet.M.length := fun h => by
    rw [hst.ok.length, ← h]; exact hw.ok.2
  refine ⟨?_, ?_, ?_⟩
  · intro h
    apply Proof.proveInternal_invalid
    rw [Proof.checkWitness, if_pos h]
  · intro h h1
    apply Proof.proveInternal_invalid
    rw [Proof.checkWitness, if_neg (not_not.2 h), selectKey_eq _ _ (hl h), Outcome.bind_ok, if_pos]
    intro h2
    apply h1
    rw [← h2]
    simp [hl h]
  · intro h h1 h2
    apply Proof.proveInternal_invalid
    rw [Proof.checkWitness, if_neg (not_not.2 h), selectKey_eq _ _ (hl h), Outcome.bind_ok, if_neg, if_pos h2]
    rw [not_not, List.getD_eq_getElem?_getD, h1]
    rfl

/-- C11, acceptance: for a valid witness the prover returns the honest proof for the challenge derived from its own
commitments, or `InvalidChallenge` exactly if that challenge is zero. In particular it does not panic. -/
theorem C11_accept {σ : Type} (E : Env F P) (R : Rng σ) (w : Witness F P) (st : Statement P) (s : σ) (t : Transcript)
    (timing : OperationTiming) (hw : WitnessBuilt E w) (hst : StatementBuilt E st) (hp : w.params = st.params)
    (hrel : Rel st.params.G st.params.U st.inputSet.M st.J w.l w.r) :
    ∃ nn ξ, nn = proverNonces E st.params.n st.params.m (proverKey E t st.hash w.l w.r (R.fill s 32).1) ∧
      ξ = E.scalarOfWide (E.challenge (proverTranscript E t st w.l w.r nn)) ∧
      (ξ = 0 → (Proof.proveInternal E R w st s t timing).1 = .err .InvalidChallenge) ∧
      (ξ ≠ 0 → (Proof.proveInternal E R w st s t timing).1
        = .ok (honestProof st.params st.inputSet.M st.J w.l w.r nn ξ)) := by
  refine ⟨_, _, rfl, rfl, ?_, ?_⟩ <;> intro h <;>
    rw [Proof.proveInternal_valid E R w st hst.ok (by rw [← hp]; exact hw.ok.2) s t timing hp hrel _ rfl _ rfl]
  · rw [if_pos h]
  · rw [if_neg h]

/-- C11: `prove` never panics and never diverges: it returns a proof with the prescribed dimensions, or an error. -/
theorem C11_no_panic {σ : Type} (E : Env F P) (R : Rng σ) (w : Witness F P) (st : Statement P) (s : σ) (t : Transcript)
    (timing : OperationTiming) (hw : WitnessBuilt E w) (hst : StatementBuilt E st) :
    (∃ p, (Proof.proveInternal E R w st s t timing).1 = .ok p ∧ Shape st.params p ∧ w.params = st.params ∧
        Rel st.params.G st.params.U st.inputSet.M st.J w.l w.r) ∨
      (Proof.proveInternal E R w st s t timing).1 = .err .InvalidChallenge ∨
      ∃ msg, (Proof.proveInternal E R w st s t timing).1 = .err (.InvalidParameter msg) := by
  obtain ⟨r1, r2, r3⟩ := C11_reject E R w st s t timing hw hst
  by_cases hp : w.params = st.params
  · by_cases h1 : st.inputSet.M[w.l]? = some (w.r • st.params.G)
    · by_cases h2 : w.r • st.J = st.params.U
      · obtain ⟨nn, ξ, -, -, a1, a2⟩ := C11_accept E R w st s t timing hw hst hp ⟨h1, h2⟩
        by_cases h0 : ξ = 0
        · exact Or.inr (Or.inl (a1 h0))
        · exact Or.inl ⟨_, a2 h0, honest_shape _ _ _ _ _ _ _, hp, h1, h2⟩
      · exact Or.inr (Or.inr ⟨_, by rw [r3 hp h1 h2]⟩)
    · exact Or.inr (Or.inr ⟨_, by rw [r2 hp h1]⟩)
  · exact Or.inr (Or.inr ⟨_, by rw [r1 hp]⟩)

theorem Toy.witness_built : WitnessBuilt (Toy.env 101) Toy.witness :=
  .new _ _ _ _ ⟨_, _, _, _, Toy.params_new⟩ Toy.witness_new
theorem Toy.witness'_built : WitnessBuilt (Toy.env 101) Toy.witness' :=
  .new _ _ _ _ ⟨_, _, _, _, Toy.params_new⟩ Toy.witness'_new
theorem Toy.statement_built : StatementBuilt (Toy.env 101) Toy.statement :=
  ⟨_, _, _, ⟨_, _, _, _, Toy.params_new⟩, Or.inl ⟨_, Toy.inputSet_new⟩, Toy.statement_new⟩
theorem Toy.statement'_built : StatementBuilt (Toy.env 101) Toy.statement' :=
  ⟨_, _, _, ⟨_, _, _, _, Toy.params_new⟩, Or.inl ⟨_, Toy.inputSet_new⟩, Toy.statement'_new⟩

/-- The hypotheses of `C11_accept`, `C11_no_panic`, `C13_timing` and `C25_nonces` are met. -/
example : WitnessBuilt (Toy.env 101) Toy.witness ∧ StatementBuilt (Toy.env 101) Toy.statement ∧
    Toy.witness.params = Toy.statement.params ∧ Toy.statement.inputSet.M[Toy.witness.l]? =
      some (Toy.witness.r • Toy.statement.params.G) ∧ Toy.witness.r • Toy.statement.J = Toy.statement.params.U ∧
    (Proof.proveInternal (Toy.env 101) nullRng Toy.witness Toy.statement () Toy.transcript .Constant).1
      = .ok Toy.proof :=
  ⟨Toy.witness_built, Toy.statement_built, by decide +kernel, by decide +kernel, by decide +kernel, Toy.proof_new⟩

/-- Each case of `C11_reject` occurs: other parameters, a key that is not in the ring at the position, another tag. -/
example : ∃ w w' : Witness (ZMod 101) (ZMod 101), WitnessBuilt (Toy.env 101) w ∧ w.params ≠ Toy.statement.params ∧
    WitnessBuilt (Toy.env 101) w' ∧ w'.params = Toy.statement.params ∧
    Toy.statement.inputSet.M[w'.l]? ≠ some (w'.r • Toy.statement.params.G) ∧
    Toy.witness.params = Toy.statement'.params ∧
    Toy.statement'.inputSet.M[Toy.witness.l]? = some (Toy.witness.r • Toy.statement'.params.G) ∧
    Toy.witness.r • Toy.statement'.J ≠ Toy.statement'.params.U := by
  have h : Params.new (Toy.env 101) 2 3 = .ok (Toy.get Toy.params (Params.new (Toy.env 101) 2 3)) := by decide +kernel
  exact ⟨⟨Toy.get Toy.params (Params.new (Toy.env 101) 2 3), 2, 7⟩, ⟨Toy.params, 1, 7⟩,
    .new _ 2 7 _ ⟨_, _, _, _, h⟩ (by decide +kernel), by decide +kernel,
    .new _ 1 7 _ ⟨_, _, _, _, Toy.params_new⟩ (by decide +kernel), by decide +kernel, by decide +kernel, by decide +kernel,
    by decide +kernel, by decide +kernel⟩

/-- C12: a zero key never yields a proof, and the caller's transcript and generator are untouched. -/
theorem C12_zero_key {σ : Type} (E : Env F P) (R : Rng σ) (w : Witness F P) (st : Statement P) (s : σ) (t : Transcript)
    (timing : OperationTiming) (hw : WitnessBuilt E w) (hst : StatementBuilt E st) (hr : w.r = 0) :
    ∃ msg, Proof.proveInternal E R w st s t timing = (.err (.InvalidParameter msg), t, s) := by
  obtain ⟨r1, r2, r3⟩ := C11_reject E R w st s t timing hw hst
  by_cases hp : w.params = st.params
  · refine ⟨_, r2 hp ?_⟩
    intro h
    rw [hr, zero_smul] at h
    exact hst.ok.nonzero (List.mem_of_getElem? h)
  · exact ⟨_, r1 hp⟩

/-- C12: in particular a zeroized witness is useless. -/
theorem C12_zeroized {σ : Type} (E : Env F P) (R : Rng σ) (w : Witness F P) (st : Statement P) (s : σ) (t : Transcript)
    (timing : OperationTiming) (hw : WitnessBuilt E w) (hst : StatementBuilt E st) :
    ∃ msg, Proof.proveInternal E R w.zeroize st s t timing = (.err (.InvalidParameter msg), t, s) :=
  C12_zero_key E R w.zeroize st s t timing (.zeroize w hw) hst rfl

/-- The hypotheses of `C12_zero_key` and `C12_zeroized` are met. -/
example : WitnessBuilt (Toy.env 101) Toy.witness.zeroize ∧ Toy.witness.zeroize.r = 0 :=
  ⟨.zeroize _ Toy.witness_built, rfl⟩

/-- C13: constant-time and variable-time provers agree on the result, the transcript and the generator's state. -/
theorem C13_timing {σ : Type} (E : Env F P) (R : Rng σ) (w : Witness F P) (st : Statement P) (s : σ) (t : Transcript)
    (hw : WitnessBuilt E w) (hst : StatementBuilt E st) :
    Proof.proveWithRngVartime E R w st s t = Proof.proveWithRng E R w st s t := by
  rw [Proof.proveWithRngVartime, Proof.proveWithRng]
  obtain ⟨r1, r2, r3⟩ := C11_reject E R w st s t .Variable hw hst
  obtain ⟨q1, q2, q3⟩ := C11_reject E R w st s t .Constant hw hst
  by_cases hp : w.params = st.params
  · by_cases h1 : st.inputSet.M[w.l]? = some (w.r • st.params.G)
    · by_cases h2 : w.r • st.J = st.params.U
      · rw [Proof.proveInternal_valid E R w st hst.ok (by rw [← hp]; exact hw.ok.2) s t .Variable hp ⟨h1, h2⟩ _ rfl _ rfl,
          Proof.proveInternal_valid E R w st hst.ok (by rw [← hp]; exact hw.ok.2) s t .Constant hp ⟨h1, h2⟩ _ rfl _ rfl]
      · rw [r3 hp h1 h2, q3 hp h1 h2]
    · rw [r2 hp h1, q2 hp h1]
  · rw [r1 hp, q1 hp]

example : (Proof.proveWithRngVartime (Toy.env 101) nullRng Toy.witness Toy.statement () Toy.transcript).1
    = .ok Toy.proof := by
  rw [C13_timing _ _ _ _ _ _ Toy.witness_built Toy.statement_built]; exact Toy.proof_new

/-- C25: every returned proof is the honest proof for randomness drawn from a generator keyed with the caller's transcript, the
statement hash, the witness and 32 external bytes. -/
theorem C25_nonces {σ : Type} (E : Env F P) (R : Rng σ) (w : Witness F P) (st : Statement P) (s : σ) (t : Transcript)
    (timing : OperationTiming) (hw : WitnessBuilt E w) (hst : StatementBuilt E st) (p : Proof F P)
    (h : (Proof.proveInternal E R w st s t timing).1 = .ok p) :
    p = honestProof st.params st.inputSet.M st.J w.l w.r
      (proverNonces E st.params.n st.params.m (proverKey E t st.hash w.l w.r (R.fill s 32).1))
      (challenge E t st p) := by
  obtain ⟨q, hq, hshape, hp, hrel⟩ | hq | ⟨msg, hq⟩ := C11_no_panic E R w st s t timing hw hst
  · obtain ⟨nn, ξ, hnn, hξ, a1, a2⟩ := C11_accept E R w st s t timing hw hst hp hrel
    by_cases h0 : ξ = 0
    · rw [a1 h0] at h; simp at h
    · rw [a2 h0] at h
      simp only [Outcome.ok.injEq] at h
      have hc : challenge E t st p = ξ := by
        rw [hξ, ← h]
        rfl
      rw [hc, ← hnn, h]
  · rw [hq] at h; simp at h
  · rw [hq] at h; simp at h

/-- C25: the key material determines the caller's transcript, the statement hash, the index, the key and the external bytes. So
two runs that differ in any of them use different generators. -/
theorem C25_key_inj (E : Env F P) (hE : E.Lawful) (t t' : Transcript) (h h' : Bytes) (l l' : ℕ) (r r' : F)
    (ext ext' : Bytes) (hl : l < 2 ^ 32) (hl' : l' < 2 ^ 32)
    (heq : proverKey E t h l r ext = proverKey E t' h' l' r' ext') :
    t = t' ∧ h = h' ∧ l = l' ∧ r = r' ∧ ext = ext' := by
  simp only [proverKey, TRng.mk.injEq, List.cons.injEq, Prod.mk.injEq, true_and, and_true] at heq
  obtain ⟨h1, ⟨h2, h3⟩, h4⟩ := heq
  obtain ⟨e1, e2⟩ := List.append_inj' h1 rfl
  simp only [List.cons.injEq, Op.append.injEq, true_and, and_true] at e2
  exact ⟨e1, e2, leBytes4_inj _ _ (by rw [u32Max]; omega) (by rw [u32Max]; omega) h2, hE.scalarBytes_inj _ _ h3, h4⟩

/-- C25: distinct draws, within a run or across runs with different keys, are distinct queries to the PRF. -/
theorem C25_query_inj (key key' : TRng) (i i' : ℕ) (hk : key.reqs = []) (hk' : key'.reqs = [])
    (h : queryPoint key i = queryPoint key' i') : key = key' ∧ i = i' := by
  cases key; cases key'
  simp only [queryPoint, TRng.mk.injEq] at h
  obtain ⟨h1, h2, h3, h4⟩ := h
  simp only at hk hk'
  subst h1 h2 h3 hk hk'
  refine ⟨rfl, ?_⟩
  have := congrArg List.length h4
  simpa using this

/-- C25: within a run the query points of the `m n + m + 4` secrets are pairwise distinct: they are numbered as follows. -/
theorem C25_indices (n m : ℕ) (hn : 0 < n) :
    (∀ j i j' i' : ℕ, i < n → i' < n → 1 + (j * n + i) = 1 + (j' * n + i') → j = j' ∧ i = i') ∧
    (∀ j i : ℕ, j < m → i < n → 0 < 1 + (j * n + i) ∧ 1 + (j * n + i) < 1 + m * n) ∧
    ∀ j : ℕ, 3 + m * n < 4 + m * n + j := by
  refine ⟨?_, ?_, fun j => by omega⟩
  · intro j i j' i' hi hi' h
    have h1 : j * n + i = j' * n + i' := by omega
    have e1 : (j * n + i) / n = j := by
      rw [Nat.mul_comm, Nat.mul_add_div hn, Nat.div_eq_of_lt hi, Nat.add_zero]
    have e2 : (j' * n + i') / n = j' := by
      rw [Nat.mul_comm, Nat.mul_add_div hn, Nat.div_eq_of_lt hi', Nat.add_zero]
    have hj : j = j' := by rw [← e1, ← e2, h1]
    subst hj
    exact ⟨rfl, by omega⟩
  · intro j i hj hi
    have : (j + 1) * n ≤ m * n := Nat.mul_le_mul_right n hj
    rw [Nat.succ_mul] at this
    omega

/-- The hypotheses of `C25_query_inj` are met; `C25_key_inj` needs a lawful environment and positions below `2 ^ 32`. -/
example : (proverKey (Toy.env 101) Toy.transcript Toy.statement.hash 2 7 (List.replicate 32 0)).reqs = [] := rfl

end Triptych
