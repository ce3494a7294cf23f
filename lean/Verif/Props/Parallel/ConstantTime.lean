import Verif.Props.Parallel.Prove
import Verif.Lemmas.Parallel.ConstantTime
import Verif.Spec.ConstantTime

/-! # Property of the parallel prover's execution: C63 -/
set_option autoImplicit false
set_option linter.unusedSectionVars false
set_option linter.unusedVariables false

namespace Triptych.Parallel
open Triptych.Parallel.Spec
open Triptych.Spec (kind)
open Traced

variable {F P : Type} [Field F] [AddCommGroup P] [Module F P] [DecidableEq F] [DecidableEq P]

theorem Proof.checkWitness_kind {σ : Type} (E : Env F P) (R : Rng σ) (w : Witness F P) (st : Statement P) (s : σ)
    (t : Transcript) (hw : WitnessBuilt E w) (hst : StatementBuilt E st) :
    (∃ m, Proof.checkWitness w st .Constant = .err (.InvalidParameter m) ∧
        kind (Proof.proveInternal E R w st s t .Constant).1 = .err (.InvalidParameter m)) ∨
      (Proof.checkWitness w st .Constant = .ok () ∧
        ∀ m, kind (Proof.proveInternal E R w st s t .Constant).1 ≠ .err (.InvalidParameter m)) := by
  obtain ⟨r1, r2, r3, r4⟩ := C48_reject E R w st s t .Constant hw hst
  have inv : ∀ m, Proof.checkWitness w st .Constant = .err (.InvalidParameter m) →
      kind (Proof.proveInternal E R w st s t .Constant).1 = .err (.InvalidParameter m) := by
    intro m h
    rw [Proof.proveInternal_invalid E R w st s t .Constant _ h]; rfl
  have hcases : (∃ m, Proof.checkWitness w st .Constant = .err (.InvalidParameter m)) ∨
      Proof.checkWitness w st .Constant = .ok () := by
    rw [Proof.checkWitness, selectKeys]
    simp only [Outcome.bind_ok]
    repeat' split
    all_goals simp
  rcases hcases with ⟨m, h⟩ | h
  · exact Or.inl ⟨m, h, inv m h⟩
  · refine Or.inr ⟨h, fun m => ?_⟩
    have hl : w.params = st.params → w.l < st.inputSet.M.length := fun h => by
      rw [hst.ok.length, ← h]; exact hw.ok.2
    have hl1 : w.params = st.params → w.l < st.inputSet.M1.length := fun h => by
      rw [hst.ok.length1, ← h]; exact hw.ok.2
    by_cases hp : w.params = st.params
    · rw [Proof.checkWitness, if_neg (not_not.2 hp), selectKeys_eq _ _ _ (hl hp) (hl1 hp), Outcome.bind_ok] at h
      simp only [List.getD_eq_getElem?_getD, List.getElem?_eq_getElem (hl hp), List.getElem?_eq_getElem (hl1 hp),
        Option.getD_some] at h
      split at h
      · simp at h
      · rename_i h1
        split at h
        · simp at h
        · rename_i h2
          split at h
          · simp at h
          · rename_i h3
            rw [not_not] at h1 h2 h3
            have q1 : st.inputSet.M[w.l]? = some (w.r • st.params.G) := by
              rw [List.getElem?_eq_getElem (hl hp), h1]
            have q2 : st.inputSet.M1[w.l]? = some (w.r1 • st.params.G1 + st.offset) := by
              rw [List.getElem?_eq_getElem (hl1 hp), ← h2, sub_add_cancel]
            obtain ⟨nn, ξ, -, -, a1, a2⟩ := C48_accept E R w st s t .Constant hw hst hp ⟨q1, q2, h3⟩
            by_cases h0 : ξ = 0
            · rw [a1 h0]; simp [kind]
            · rw [a2 h0]; simp [kind]
    · rw [Proof.checkWitness, if_pos hp] at h
      simp at h

/-- C63: the observations belong to the prover: erasing them gives exactly the results of both entry points. -/
theorem C63_erase {σ : Type} (E : Env F P) (R : Rng σ) (w : Witness F P) (st : Statement P) (s : σ) (t : Transcript) :
    (Proof.proveWithRngT E R w st s t).2 = Proof.proveWithRng E R w st s t ∧
    (Proof.proveWithRngVartimeT E R w st s t).2 = Proof.proveWithRngVartime E R w st s t :=
  ⟨Proof.proveInternalT_out _ _ _ _ _ _ _, Proof.proveInternalT_out _ _ _ _ _ _ _⟩

/-- C63: two calls of the constant-time parallel prover with the same `n` and `m` that end in the same way take the same jumps, touch the
same addresses and perform the same operations on operands of the same sizes and the same variable-time operations on the same
operands, whatever their witnesses, rings, linking tags, generators, generator states and transcripts. -/
theorem C63_constant {σ σ' : Type} (E : Env F P) (hE : E.Lawful) (R : Rng σ) (R' : Rng σ') (w w' : Witness F P)
    (st st' : Statement P) (s : σ) (s' : σ') (t t' : Transcript) (hw : WitnessBuilt E w) (hw' : WitnessBuilt E w')
    (hst : StatementBuilt E st) (hst' : StatementBuilt E st') (hn : st.params.n = st'.params.n)
    (hm : st.params.m = st'.params.m)
    (hk : kind (Proof.proveWithRng E R w st s t).1 = kind (Proof.proveWithRng E R' w' st' s' t').1) :
    (Proof.proveWithRngT E R w st s t).1 = (Proof.proveWithRngT E R' w' st' s' t').1 := by
  have hsize : SameSize st.params st'.params := ⟨hn, hm, by rw [hst.ok.params.CG, hst'.ok.params.CG, hn, hm]⟩
  have hlen : SameVec st.inputSet.M st'.inputSet.M :=
    sameVec_of_length (by rw [hst.ok.length, hst'.ok.length, hn, hm])
  have hlen1 : SameVec st.inputSet.M1 st'.inputSet.M1 :=
    sameVec_of_length (by rw [hst.ok.length1, hst'.ok.length1, hn, hm])
  have hcheck : Same (fun _ _ => True) (Proof.checkWitnessT w st .Constant) (Proof.checkWitnessT w' st' .Constant) := by
    refine Proof.checkWitnessT_same w w' st st' hlen hlen1 ?_
    rw [Proof.proveWithRng, Proof.proveWithRng] at hk
    rcases Proof.checkWitness_kind E R w st s t hw hst with ⟨m1, c1, k1⟩ | ⟨c1, k1⟩ <;>
      rcases Proof.checkWitness_kind E R' w' st' s' t' hw' hst' with ⟨m2, c2, k2⟩ | ⟨c2, k2⟩
    · rw [k1, k2] at hk
      rw [c1, c2, hk]
    · exact absurd (hk ▸ k1) (k2 m1)
    · exact absurd (hk ▸ k2) (k1 m2)
    · rw [c1, c2]
  rw [Proof.proveWithRng, Proof.proveWithRng, ← Proof.proveInternalT_out, ← Proof.proveInternalT_out] at hk
  rw [Proof.proveWithRngT, Proof.proveWithRngT]
  rw [Proof.proveInternalT, Proof.proveInternalT] at *
  obtain ⟨hc, ho⟩ := hcheck
  generalize Proof.checkWitnessT w st .Constant = c at *
  generalize Proof.checkWitnessT w' st' .Constant = c' at *
  obtain ⟨ct, co⟩ := c
  obtain ⟨ct', co'⟩ := c'
  simp only at hc ho
  subst hc
  cases co <;> cases co' <;> simp only [OutRel] at ho <;> try rfl
  have hN : st.params.n ≤ u32Max :=
    le_trans (Nat.le_self_pow (by have := hst.ok.params.m; omega) _) hst.ok.params.N
  have hc := Proof.commitPhaseT_same E E w.l w'.l st st' hsize hlen hlen1 hN (ProofTranscript.new E R t st s (some w)).trng
    (ProofTranscript.new E R' t' st' s' (some w')).trng
  have hnew : ProofTranscript.newT E (some w) = ProofTranscript.newT E (some w') := by
    rw [ProofTranscript.newT, ProofTranscript.newT, Proof.buildT_eq hE w w']
  simp only at hk ⊢
  rw [hnew]
  generalize Proof.commitPhaseT E w.l st .Constant (ProofTranscript.new E R t st s (some w)).trng = c at *
  generalize Proof.commitPhaseT E w'.l st' .Constant (ProofTranscript.new E R' t' st' s' (some w')).trng = c' at *
  obtain ⟨ht, ho⟩ := hc
  obtain ⟨ct, co⟩ := c
  obtain ⟨ct', co'⟩ := c'
  simp only at ht ho
  subst ht
  cases co <;> cases co' <;> simp only [OutRel] at ho <;> try rfl
  rename_i c c'
  obtain ⟨c, nn, trng⟩ := c
  obtain ⟨c', nn', trng'⟩ := c'
  obtain ⟨hX, hX1, hY, ha, hs, hr, hr1⟩ := ho
  simp only [ProofTranscript.commitT] at hk hX hX1 hY ha hs hr hr1 ⊢
  congr 1
  have hbuild : ∀ (w : Witness F P) (R : Rng σ) s t,
      (ProofTranscript.new E R t st s (some w)).witness = some w := fun _ _ _ _ => rfl
  have hbuild' : ∀ (w : Witness F P) (R : Rng σ') s t,
      (ProofTranscript.new E R t st' s (some w)).witness = some w := fun _ _ _ _ => rfl
  rw [hbuild, hbuild', Proof.buildT_eq hE w w', Triptych.Proof.map_append_eq hE "X" hX,
    Triptych.Proof.map_append_eq hE "X1" hX1, Triptych.Proof.map_append_eq hE "Y" hY] at *
  obtain ⟨m, hm1⟩ : ∃ m, st.params.m = m + 1 := ⟨st.params.m - 1, by have := hst.ok.params.m; omega⟩
  rw [← hm] at hk ⊢
  generalize E.scalarOfWide _ = ξ at hk ⊢
  generalize E.scalarOfWide _ = ξ' at hk ⊢
  have hzero : ξ = 0 ↔ ξ' = 0 := by
    simp only [bind_out, xiPowersLoopT_out, Proof.respondPhaseT_out, hm1] at hk
    have n1 : ξ ≠ 0 → NoErr (xiPowersLoop ξ (m + 1 + 1) 1 >>= fun xi => Proof.respondPhase w.r w.r1 st.params nn c xi) :=
      fun h => (xiPowersLoop_noErr ξ h _ 1 one_ne_zero).bind fun _ => Proof.respondPhase_noErr _ _ _ _ _ _
    have n2 : ξ' ≠ 0 → NoErr (xiPowersLoop ξ' (m + 1 + 1) 1 >>= fun xi => Proof.respondPhase w'.r w'.r1 st'.params nn' c' xi) :=
      fun h => (xiPowersLoop_noErr ξ' h _ 1 one_ne_zero).bind fun _ => Proof.respondPhase_noErr _ _ _ _ _ _
    have kerr : ∀ {α : Type} (o : Outcome ProofError α) e, kind o = .err e → o = .err e := by
      intro α o e h
      cases o <;> simp [kind] at h ⊢
      exact h
    constructor
    · intro h
      by_contra h'
      rw [h, xiPowersLoop_zero_err] at hk
      exact n2 h' _ (kerr _ _ hk.symm)
    · intro h
      by_contra h'
      rw [h, xiPowersLoop_zero_err] at hk
      exact n1 h' _ (kerr _ _ hk)
  have hxi := xiPowersLoopT_same ξ ξ' hzero (st.params.m + 1) 1 1 Iff.rfl
  have happ : ∀ (label : String) (x : P), (appendT label (E.compress x) : Leak F) = .call ("append " ++ label) [32] :=
    fun label x => by rw [appendT, hE.compress_length]
  simp only [happ]
  refine Same.trace (R := fun _ _ => True) ?_
  refine Same.bind (R := SameVec) ⟨?_, hxi.2⟩ fun xi xi' hx => Proof.respondPhaseT_same w.r w'.r w.r1 w'.r1 hsize ha hs hr
    hr1 hx
  simp only [hxi.1]

/-- C63: in particular the observations of two successful calls are the same: they reveal neither the
position of the key nor the key nor the randomness. -/
theorem C63_valid {σ σ' : Type} (E : Env F P) (hE : E.Lawful) (R : Rng σ) (R' : Rng σ') (w w' : Witness F P)
    (st st' : Statement P) (s : σ) (s' : σ') (t t' : Transcript) (hw : WitnessBuilt E w) (hw' : WitnessBuilt E w')
    (hst : StatementBuilt E st) (hst' : StatementBuilt E st') (hn : st.params.n = st'.params.n)
    (hm : st.params.m = st'.params.m) (p p' : Proof F P) (h : (Proof.proveWithRng E R w st s t).1 = .ok p)
    (h' : (Proof.proveWithRng E R' w' st' s' t').1 = .ok p') :
    (Proof.proveWithRngT E R w st s t).1 = (Proof.proveWithRngT E R' w' st' s' t').1 :=
  C63_constant E hE R R' w w' st st' s s' t t' hw hw' hst hst' hn hm (by rw [h, h']; rfl)

/-- C63: the variable-time parallel prover does reveal the position of the key: the calls for two witnesses with different indices are
told apart by the first address they touch. -/
theorem C63_vartime {σ σ' : Type} (E : Env F P) (R : Rng σ) (R' : Rng σ') (w w' : Witness F P)
    (st st' : Statement P) (s : σ) (s' : σ') (t t' : Transcript) (hp : w.params = st.params) (hp' : w'.params = st'.params)
    (h : (Proof.proveWithRngVartimeT E R w st s t).1 = (Proof.proveWithRngVartimeT E R' w' st' s' t').1) : w.l = w'.l := by
  have key : ∀ {σ : Type} (st : Statement P) (R : Rng σ) (w : Witness F P) (s : σ) (t : Transcript), w.params = st.params →
      (Proof.proveWithRngVartimeT E R w st s t).1[1]? = some (.access w.l) := by
    intro σ st R w s t hp
    have hc : (Proof.checkWitnessT w st .Variable).trace[1]? = some (.access w.l) := by
      simp only [Proof.checkWitnessT, if_neg (not_not.2 hp), bind_trace, leak, selectKeysT, idxT, step]
      cases (idx st.inputSet.M w.l : Outcome ProofError P) <;>
        cases (idx st.inputSet.M1 w.l : Outcome ProofError P) <;> rfl
    have hpre : ∀ x : List (Leak F), ((Proof.checkWitnessT w st .Variable).trace ++ x)[1]? = some (.access w.l) := by
      intro x
      rw [List.getElem?_append_left, hc]
      by_contra h
      rw [List.getElem?_eq_none (not_lt.1 h)] at hc
      simp at hc
    rw [Proof.proveWithRngVartimeT, Proof.proveInternalT]
    generalize Proof.checkWitnessT w st .Variable = c at *
    obtain ⟨ct, co⟩ := c
    cases co with
    | ok u =>
      simp only
      generalize Proof.commitPhaseT E w.l st .Variable (ProofTranscript.new E R t st s (some w)).trng = d
      obtain ⟨dt, d⟩ := d
      cases d <;> simp only [List.append_assoc] <;> exact hpre _
    | err e => exact hc
    | panic => exact hc
    | diverge => exact hc
  have h1 := key st R w s t hp
  rw [h, key st' R' w' s' t' hp'] at h1
  simpa using h1.symm

/-- The toy calls meet the hypotheses, with different indices, keys and rings, and have non-trivial observations. -/
example : WitnessBuilt (Triptych.Toy.env 101) Toy.witness ∧ WitnessBuilt (Triptych.Toy.env 101) Toy.witness' ∧
    StatementBuilt (Triptych.Toy.env 101) Toy.statement ∧ StatementBuilt (Triptych.Toy.env 101) Toy.statement' ∧
    Toy.witness.l ≠ Toy.witness'.l ∧ Toy.witness.r ≠ Toy.witness'.r ∧
    Toy.statement.params.n = Toy.statement'.params.n ∧ Toy.statement.params.m = Toy.statement'.params.m ∧
    (Proof.proveWithRng (Triptych.Toy.env 101) nullRng Toy.witness Toy.statement () Triptych.Toy.transcript).1 = .ok Toy.proof ∧
    (Proof.proveWithRng (Triptych.Toy.env 101) nullRng Toy.witness' Toy.statement' () Triptych.Toy.transcript').1 = .ok Toy.proof' :=
  ⟨Toy.witness_built, Toy.witness'_built, Toy.statement_built, Toy.statement'_built, by decide +kernel, by decide +kernel,
    by decide +kernel, by decide +kernel, Toy.proof_new, Toy.proof'_new⟩

example : 100 < (Proof.proveWithRngT (Triptych.Toy.env 101) nullRng Toy.witness Toy.statement () Triptych.Toy.transcript).1.length ∧
    (Proof.proveWithRngVartimeT (Triptych.Toy.env 101) nullRng Toy.witness Toy.statement () Triptych.Toy.transcript).1[1]? =
      some (.access Toy.witness.l) := by
  decide +kernel

end Triptych.Parallel
