import Verif.Props.Prove
import Verif.Lemmas.ConstantTime
import Verif.Spec.ConstantTime

/-! # Property of the prover's execution: C62 -/
set_option autoImplicit false
set_option linter.unusedSectionVars false
set_option linter.unusedVariables false

namespace Triptych
open Spec Traced

variable {F P : Type} [Field F] [AddCommGroup P] [Module F P] [DecidableEq F] [DecidableEq P]

/-- The result of the computation with observations. -/
theorem Proof.proveInternalT_out {σ : Type} (E : Env F P) (R : Rng σ) (w : Witness F P) (st : Statement P) (s : σ)
    (t : Transcript) (timing : OperationTiming) :
    (Proof.proveInternalT E R w st s t timing).2 = Proof.proveInternal E R w st s t timing := by
  rw [proveInternalT, proveInternal, checkWitnessT_out]
  cases checkWitness w st timing with
  | ok u =>
    simp only [commitPhaseT_out]
    cases commitPhase w.l st timing
      (drawNonces E st.params.n st.params.m (ProofTranscript.new E R t st s (some w)).trng).1 with
    | ok c => simp [ProofTranscript.commitT, ProofTranscript.commit]
    | err e => rfl
    | panic => rfl
    | diverge => rfl
  | err e => rfl
  | panic => rfl
  | diverge => rfl

theorem Proof.checkWitnessT_kind {σ σ' : Type} (E : Env F P) (R : Rng σ) (R' : Rng σ') (w w' : Witness F P)
    (st st' : Statement P) (s : σ) (s' : σ') (t t' : Transcript) (hw : WitnessBuilt E w) (hw' : WitnessBuilt E w')
    (hst : StatementBuilt E st) (hst' : StatementBuilt E st') (hlen : SameVec st.inputSet.M st'.inputSet.M)
    (hk : kind (Proof.proveInternal E R w st s t .Constant).1 = kind (Proof.proveInternal E R' w' st' s' t' .Constant).1) :
    Same (fun _ _ => True) (checkWitnessT w st .Constant) (checkWitnessT w' st' .Constant) := by
  have key : ∀ {σ : Type} (st : Statement P) (hst : StatementBuilt E st) (R : Rng σ) (w : Witness F P) (s : σ) (t : Transcript), WitnessBuilt E w →
      w.params = st.params → st.inputSet.M[w.l]? = some (w.r • st.params.G) → w.r • st.J = st.params.U → ∀ m,
      kind (Proof.proveInternal E R w st s t .Constant).1 ≠ .err (.InvalidParameter m) := by
    intro σ st hst R w s t hw hp h1 h2 m
    obtain ⟨nn, ξ, -, -, a1, a2⟩ := C11_accept E R w st s t .Constant hw hst hp ⟨h1, h2⟩
    by_cases h0 : ξ = 0
    · rw [a1 h0]; simp [kind]
    · rw [a2 h0]; simp [kind]
  have hl : ∀ (st : Statement P) (hst : StatementBuilt E st) (w : Witness F P), WitnessBuilt E w → w.params = st.params → w.l < st.inputSet.M.length := fun st hst w hw h => by
    rw [hst.ok.length, ← h]; exact hw.ok.2
  have hsel : ∀ (st : Statement P) (hst : StatementBuilt E st) (w : Witness F P), WitnessBuilt E w → w.params = st.params →
      (selectKey st.inputSet.M w.l .Constant = .ok (w.r • st.params.G) ↔
        st.inputSet.M[w.l]? = some (w.r • st.params.G)) := by
    intro st hst w hw h
    rw [selectKey_constant, Outcome.ok.injEq, List.getD_eq_getElem?_getD, List.getElem?_eq_getElem (hl st hst w hw h)]
    simp
  obtain ⟨r1, r2, r3⟩ := C11_reject E R w st s t .Constant hw hst
  obtain ⟨q1, q2, q3⟩ := C11_reject E R' w' st' s' t' .Constant hw' hst'
  have k := key st hst R w s t hw
  have k' := key st' hst' R' w' s' t' hw'
  have hp : w.params = st.params ↔ w'.params = st'.params := by
    constructor
    · intro h
      by_contra h'
      rw [q1 h'] at hk
      by_cases h1 : st.inputSet.M[w.l]? = some (w.r • st.params.G)
      · by_cases h2 : w.r • st.J = st.params.U
        · exact k h h1 h2 _ hk
        · rw [r3 h h1 h2] at hk; simp [kind] at hk
      · rw [r2 h h1] at hk; simp [kind] at hk
    · intro h
      by_contra h'
      rw [r1 h'] at hk
      by_cases h1 : st'.inputSet.M[w'.l]? = some (w'.r • st'.params.G)
      · by_cases h2 : w'.r • st'.J = st'.params.U
        · exact k' h h1 h2 _ hk.symm
        · rw [q3 h h1 h2] at hk; simp [kind] at hk
      · rw [q2 h h1] at hk; simp [kind] at hk
  have hM : w.params = st.params →
      (st.inputSet.M[w.l]? = some (w.r • st.params.G) ↔ st'.inputSet.M[w'.l]? = some (w'.r • st'.params.G)) := by
    intro h
    have h' := hp.1 h
    constructor
    · intro h1
      by_contra h1'
      rw [q2 h' h1'] at hk
      by_cases h2 : w.r • st.J = st.params.U
      · exact k h h1 h2 _ hk
      · rw [r3 h h1 h2] at hk; simp [kind] at hk
    · intro h1
      by_contra h1'
      rw [r2 h h1'] at hk
      by_cases h2 : w'.r • st'.J = st'.params.U
      · exact k' h' h1 h2 _ hk.symm
      · rw [q3 h' h1 h2] at hk; simp [kind] at hk
  have hJ : w.params = st.params → st.inputSet.M[w.l]? = some (w.r • st.params.G) →
      (w.r • st.J = st.params.U ↔ w'.r • st'.J = st'.params.U) := by
    intro h h1
    have h' := hp.1 h
    have h1' := (hM h).1 h1
    constructor
    · intro h2
      by_contra h2'
      rw [q3 h' h1' h2'] at hk
      exact k h h1 h2 _ hk
    · intro h2
      by_contra h2'
      rw [r3 h h1 h2'] at hk
      exact k' h' h1' h2 _ hk.symm
  refine checkWitnessT_same w w' st st' hlen hp (fun h => ?_) (fun h h1 => ?_)
  · rw [hsel st hst w hw h, hsel st' hst' w' hw' (hp.1 h)]; exact hM h
  · exact hJ h ((hsel st hst w hw h).1 h1)

/-- C62: the observations belong to the prover: erasing them gives exactly the results of both entry points. -/
theorem C62_erase {σ : Type} (E : Env F P) (R : Rng σ) (w : Witness F P) (st : Statement P) (s : σ) (t : Transcript) :
    (Proof.proveWithRngT E R w st s t).2 = Proof.proveWithRng E R w st s t ∧
    (Proof.proveWithRngVartimeT E R w st s t).2 = Proof.proveWithRngVartime E R w st s t :=
  ⟨Proof.proveInternalT_out _ _ _ _ _ _ _, Proof.proveInternalT_out _ _ _ _ _ _ _⟩

/-- C62: two calls of the constant-time prover with the same `n` and `m` that end in the same way take the same jumps, touch the
same addresses and perform the same operations on operands of the same sizes and the same variable-time operations on the same
operands, whatever their witnesses, rings, linking tags, generators, generator states and transcripts. -/
theorem C62_constant {σ σ' : Type} (E : Env F P) (hE : E.Lawful) (R : Rng σ) (R' : Rng σ') (w w' : Witness F P)
    (st st' : Statement P) (s : σ) (s' : σ') (t t' : Transcript) (hw : WitnessBuilt E w) (hw' : WitnessBuilt E w')
    (hst : StatementBuilt E st) (hst' : StatementBuilt E st') (hn : st.params.n = st'.params.n)
    (hm : st.params.m = st'.params.m)
    (hk : kind (Proof.proveWithRng E R w st s t).1 = kind (Proof.proveWithRng E R' w' st' s' t').1) :
    (Proof.proveWithRngT E R w st s t).1 = (Proof.proveWithRngT E R' w' st' s' t').1 := by
  have hsize : SameSize st.params st'.params := ⟨hn, hm, by rw [hst.ok.params.CG, hst'.ok.params.CG, hn, hm]⟩
  have hlen : SameVec st.inputSet.M st'.inputSet.M :=
    sameVec_of_length (by rw [hst.ok.length, hst'.ok.length, hn, hm])
  have hcheck := Proof.checkWitnessT_kind E R R' w w' st st' s s' t t' hw hw' hst hst' hlen hk
  rw [Proof.proveWithRng, Proof.proveWithRng, ← Proof.proveInternalT_out, ← Proof.proveInternalT_out] at hk
  rw [Proof.proveWithRngT, Proof.proveWithRngT]
  rw [Proof.proveInternalT, Proof.proveInternalT] at *
  obtain ⟨hc, ho⟩ := hcheck
  generalize Proof.checkWitnessT w st .Constant = c at *
  generalize Proof.checkWitnessT w' st' .Constant = c' at *
  obtain ⟨ct, co⟩ := c
  obtain ⟨ct', co'⟩ := c'
  simp only at hc ho
  subst hc
  cases co <;> cases co' <;> simp only [OutRel] at ho <;> try rfl
  have hN : st.params.n ≤ u32Max :=
    le_trans (Nat.le_self_pow (by have := hst.ok.params.m; omega) _) hst.ok.params.N
  have hc := Proof.commitPhaseT_same E E w.l w'.l st st' hsize hlen hN (ProofTranscript.new E R t st s (some w)).trng
    (ProofTranscript.new E R' t' st' s' (some w')).trng
  have hnew : ProofTranscript.newT E (some w) = ProofTranscript.newT E (some w') := by
    rw [ProofTranscript.newT, ProofTranscript.newT, Proof.buildT_eq hE w w']
  simp only at hk ⊢
  rw [hnew]
  generalize Proof.commitPhaseT E w.l st .Constant (ProofTranscript.new E R t st s (some w)).trng = c at *
  generalize Proof.commitPhaseT E w'.l st' .Constant (ProofTranscript.new E R' t' st' s' (some w')).trng = c' at *
  obtain ⟨ht, ho⟩ := hc
  obtain ⟨ct, co⟩ := c
  obtain ⟨ct', co'⟩ := c'
  simp only at ht ho
  subst ht
  cases co <;> cases co' <;> simp only [OutRel] at ho <;> try rfl
  rename_i c c'
  obtain ⟨c, nn, trng⟩ := c
  obtain ⟨c', nn', trng'⟩ := c'
  obtain ⟨hX, hY, ha, hs, hr⟩ := ho
  simp only [ProofTranscript.commitT] at hk hX hY ha hs hr ⊢
  congr 1
  have hbuild : ∀ (w : Witness F P) (R : Rng σ) s t,
      (ProofTranscript.new E R t st s (some w)).witness = some w := fun _ _ _ _ => rfl
  have hbuild' : ∀ (w : Witness F P) (R : Rng σ') s t,
      (ProofTranscript.new E R t st' s (some w)).witness = some w := fun _ _ _ _ => rfl
  rw [hbuild, hbuild', Proof.buildT_eq hE w w', Proof.map_append_eq hE "X" hX, Proof.map_append_eq hE "Y" hY] at *
  obtain ⟨m, hm1⟩ : ∃ m, st.params.m = m + 1 := ⟨st.params.m - 1, by have := hst.ok.params.m; omega⟩
  rw [← hm] at hk ⊢
  generalize E.scalarOfWide _ = ξ at hk ⊢
  generalize E.scalarOfWide _ = ξ' at hk ⊢
  have hzero : ξ = 0 ↔ ξ' = 0 := by
    simp only [bind_out, xiPowersLoopT_out, Proof.respondPhaseT_out, hm1] at hk
    have n1 : ξ ≠ 0 → NoErr (xiPowersLoop ξ (m + 1 + 1) 1 >>= fun xi => Proof.respondPhase w.r st.params nn c xi) :=
      fun h => (xiPowersLoop_noErr ξ h _ 1 one_ne_zero).bind fun _ => Proof.respondPhase_noErr _ _ _ _ _
    have n2 : ξ' ≠ 0 → NoErr (xiPowersLoop ξ' (m + 1 + 1) 1 >>= fun xi => Proof.respondPhase w'.r st'.params nn' c' xi) :=
      fun h => (xiPowersLoop_noErr ξ' h _ 1 one_ne_zero).bind fun _ => Proof.respondPhase_noErr _ _ _ _ _
    have kerr : ∀ {α : Type} (o : Outcome ProofError α) e, kind o = .err e → o = .err e := by
      intro α o e h
      cases o <;> simp [kind] at h ⊢
      exact h
    constructor
    · intro h
      by_contra h'
      rw [h, xiPowersLoop_zero_err] at hk
      exact n2 h' _ (kerr _ _ hk.symm)
    · intro h
      by_contra h'
      rw [h, xiPowersLoop_zero_err] at hk
      exact n1 h' _ (kerr _ _ hk)
  have hxi := xiPowersLoopT_same ξ ξ' hzero (st.params.m + 1) 1 1 Iff.rfl
  have happ : ∀ (label : String) (x : P), (appendT label (E.compress x) : Leak F) = .call ("append " ++ label) [32] :=
    fun label x => by rw [appendT, hE.compress_length]
  simp only [happ]
  refine Same.trace (R := fun _ _ => True) ?_
  refine Same.bind (R := SameVec) ⟨?_, hxi.2⟩ fun xi xi' hx => Proof.respondPhaseT_same w.r w'.r hsize ha hs hr hx
  simp only [hxi.1]

/-- C62: in particular the observations of two successful calls are the same: they reveal neither the
position of the key nor the key nor the randomness. -/
theorem C62_valid {σ σ' : Type} (E : Env F P) (hE : E.Lawful) (R : Rng σ) (R' : Rng σ') (w w' : Witness F P)
    (st st' : Statement P) (s : σ) (s' : σ') (t t' : Transcript) (hw : WitnessBuilt E w) (hw' : WitnessBuilt E w')
    (hst : StatementBuilt E st) (hst' : StatementBuilt E st') (hn : st.params.n = st'.params.n)
    (hm : st.params.m = st'.params.m) (p p' : Proof F P) (h : (Proof.proveWithRng E R w st s t).1 = .ok p)
    (h' : (Proof.proveWithRng E R' w' st' s' t').1 = .ok p') :
    (Proof.proveWithRngT E R w st s t).1 = (Proof.proveWithRngT E R' w' st' s' t').1 :=
  C62_constant E hE R R' w w' st st' s s' t t' hw hw' hst hst' hn hm (by rw [h, h']; rfl)

/-- C62: the variable-time prover does reveal the position of the key: the calls for two witnesses with different indices are
told apart by the first address they touch. -/
theorem C62_vartime {σ σ' : Type} (E : Env F P) (R : Rng σ) (R' : Rng σ') (w w' : Witness F P)
    (st st' : Statement P) (s : σ) (s' : σ') (t t' : Transcript) (hp : w.params = st.params) (hp' : w'.params = st'.params)
    (h : (Proof.proveWithRngVartimeT E R w st s t).1 = (Proof.proveWithRngVartimeT E R' w' st' s' t').1) : w.l = w'.l := by
  have key : ∀ {σ : Type} (st : Statement P) (R : Rng σ) (w : Witness F P) (s : σ) (t : Transcript), w.params = st.params →
      (Proof.proveWithRngVartimeT E R w st s t).1[1]? = some (.access w.l) := by
    intro σ st R w s t hp
    have hc : (Proof.checkWitnessT w st .Variable).trace[1]? = some (.access w.l) := by
      simp only [Proof.checkWitnessT, if_neg (not_not.2 hp), bind_trace, leak, selectKeyT, idxT, step]
      cases (idx st.inputSet.M w.l : Outcome ProofError P) <;> rfl
    have hpre : ∀ x : List (Leak F), ((Proof.checkWitnessT w st .Variable).trace ++ x)[1]? = some (.access w.l) := by
      intro x
      rw [List.getElem?_append_left, hc]
      by_contra h
      rw [List.getElem?_eq_none (not_lt.1 h)] at hc
      simp at hc
    rw [Proof.proveWithRngVartimeT, Proof.proveInternalT]
    generalize Proof.checkWitnessT w st .Variable = c at *
    obtain ⟨ct, co⟩ := c
    cases co with
    | ok u =>
      simp only
      generalize Proof.commitPhaseT E w.l st .Variable (ProofTranscript.new E R t st s (some w)).trng = d
      obtain ⟨dt, d⟩ := d
      cases d <;> simp only [List.append_assoc] <;> exact hpre _
    | err e => exact hc
    | panic => exact hc
    | diverge => exact hc
  have h1 := key st R w s t hp
  rw [h, key st' R' w' s' t' hp'] at h1
  simpa using h1.symm

/-- The toy calls meet the hypotheses of `C62_constant`, `C62_valid` and `C62_vartime`, with different indices, keys and
rings, and have non-trivial observations. -/
example : WitnessBuilt (Toy.env 101) Toy.witness ∧ WitnessBuilt (Toy.env 101) Toy.witness' ∧
    StatementBuilt (Toy.env 101) Toy.statement ∧ StatementBuilt (Toy.env 101) Toy.statement' ∧
    Toy.witness.l ≠ Toy.witness'.l ∧ Toy.witness.r ≠ Toy.witness'.r ∧
    Toy.statement.params.n = Toy.statement'.params.n ∧ Toy.statement.params.m = Toy.statement'.params.m ∧
    (Proof.proveWithRng (Toy.env 101) nullRng Toy.witness Toy.statement () Toy.transcript).1 = .ok Toy.proof ∧
    (Proof.proveWithRng (Toy.env 101) nullRng Toy.witness' Toy.statement' () Toy.transcript').1 = .ok Toy.proof' :=
  ⟨Toy.witness_built, Toy.witness'_built, Toy.statement_built, Toy.statement'_built, by decide +kernel, by decide +kernel,
    by decide +kernel, by decide +kernel, Toy.proof_new, Toy.proof'_new⟩

example : 100 < (Proof.proveWithRngT (Toy.env 101) nullRng Toy.witness Toy.statement () Toy.transcript).1.length ∧
    (Proof.proveWithRngVartimeT (Toy.env 101) nullRng Toy.witness Toy.statement () Toy.transcript).1[1]? =
      some (.access Toy.witness.l) := by
  decide +kernel

end Triptych
