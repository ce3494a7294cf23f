import Verif.Props.Parallel.Soundness
import Verif.Props.Parallel.Batch
import Verif.Model.Parallel.RingCT
import Mathlib.Tactic.IntervalCases

/-! # The RingCT example: C55 -/
set_option autoImplicit false
set_option linter.unusedSectionVars false
set_option linter.unusedVariables false

namespace Triptych.Parallel
open Triptych.Parallel.Spec Finset
open Triptych.Spec (fullF NonzeroF SmallSums extractIndex extractKey)

variable {F P : Type} [Field F] [AddCommGroup P] [Module F P] [DecidableEq F] [DecidableEq P]

/-- C55: the setup of the example succeeds for every ring of non-identity keys, every ring of commitments different from the
offset, every index, value, nonzero signing key and pair of different masks; the statement has the own output in place, and the
witness `(index, r, a - b)` satisfies the relation. The entries at the own index before it is stored do not matter. -/
theorem C55_setup (E : Env F P) (params : Params P) (H : P) (keys commitments : List P) (index : ℕ) (r v a b : F)
    (hp : ParamsBuilt E params) (hk : keys.length = params.n ^ params.m) (hc : commitments.length = params.n ^ params.m)
    (hi : index < params.n ^ params.m) (hr : r ≠ 0) (hab : a ≠ b) (hG : params.G ≠ 0) (hG1 : params.G1 ≠ 0)
    (hkeys : ∀ i, i ≠ index → keys[i]? ≠ some 0)
    (hcom : ∀ i, i ≠ index → commitments[i]? ≠ some (v • H + b • params.G1)) :
    ∃ w st, RingCT.setup E params H keys commitments index r v a b = .ok (w, st) ∧ WitnessBuilt E w ∧ StatementBuilt E st ∧
      w.params = params ∧ st.params = params ∧ w.l = index ∧ w.r = r ∧ w.r1 = a - b ∧
      st.inputSet.M = keys.set index (r • params.G) ∧
      st.inputSet.M1 = commitments.set index (v • H + a • params.G1) ∧
      st.offset = v • H + b • params.G1 ∧ st.J = r⁻¹ • params.U ∧
      Rel params.G params.G1 params.U st.inputSet.M st.inputSet.M1 st.offset st.J index r (a - b) := by
  obtain ⟨w, hw, w1, w2, w3, w4⟩ := (C47_new E params index r (a - b) hp).2.2.2 hr (sub_ne_zero.2 hab) hi
  have hN := hp.ok.N
  rw [u32Max] at hN
  obtain ⟨i, hin, i1, i2⟩ := (C46_input_set_new E (keys.set index (r • params.G))
    (commitments.set index (v • H + a • params.G1))).2.2 (by simp [hk, hc]) (by simp [hk]; omega)
  have hnz : (0 : P) ∉ i.M := by
    rw [i1]
    intro h
    obtain ⟨k, h⟩ := List.mem_iff_getElem?.1 h
    rw [List.getElem?_set] at h
    split at h
    · rename_i hk'
      subst hk'
      rw [if_pos (by omega)] at h
      simp only [Option.some.injEq] at h
      rcases smul_eq_zero.1 h with h | h
      · exact hr h
      · exact hG h
    · rename_i hne
      exact hkeys k (Ne.symm hne) h
  have hoff : v • H + b • params.G1 ∉ i.M1 := by
    rw [i2]
    intro h
    obtain ⟨k, h⟩ := List.mem_iff_getElem?.1 h
    rw [List.getElem?_set] at h
    split at h
    · rename_i hk'
      subst hk'
      rw [if_pos (by omega)] at h
      simp only [Option.some.injEq, add_right_inj] at h
      rw [← sub_eq_zero, ← sub_smul] at h
      rcases smul_eq_zero.1 h with h | h
      · exact hab (sub_eq_zero.1 h)
      · exact hG1 h
    · rename_i hne
      exact hcom k (Ne.symm hne) h
  obtain ⟨st, hst, s1, s2, s3, s4⟩ := (C46_statement_new E params i (v • H + b • params.G1) w.computeLinkingTag hp).2.2
    (by rw [i1]; simp [hk]) hnz hoff
  have hJ : w.computeLinkingTag = r⁻¹ • params.U := by rw [Witness.computeLinkingTag, w3, w1]
  refine ⟨w, st, ?_, .new params index r (a - b) w hp hw, ⟨params, i, _, _, hp, Or.inl ⟨_, _, hin⟩, hst⟩, w1, s1, w2, w3, w4,
    by rw [s2, i1], by rw [s2, i2], s3, by rw [s4, hJ], ?_⟩
  · rw [RingCT.setup, if_neg (by omega)]
    simp only [RingCT.commitment, hw, RingCT.unwrap, Outcome.bind_ok, hin, hst]
  · rw [s2, s3, s4, hJ, i1, i2]
    refine ⟨?_, ?_, ?_⟩
    · rw [List.getElem?_set_self (by omega)]
    · rw [List.getElem?_set_self (by omega)]
      rw [sub_smul]
      congr 1
      abel
    · rw [smul_smul, mul_inv_cancel₀ hr, one_smul]

/-- C55: the example's setup panics for a zero signing key or equal masks. -/
theorem C55_reject (E : Env F P) (params : Params P) (H : P) (keys commitments : List P) (index : ℕ) (r v a b : F)
    (hp : ParamsBuilt E params) (h : r = 0 ∨ a = b) :
    RingCT.setup E params H keys commitments index r v a b = .panic := by
  rw [RingCT.setup]
  split
  · rfl
  · have : ∃ e, Witness.new params index r (a - b) = .err e := by
      obtain ⟨h1, h2, -⟩ := C47_new E params index r (a - b) hp
      by_cases h0 : r = 0
      · exact ⟨_, h1 h0⟩
      · exact ⟨_, h2 h0 (sub_eq_zero.2 (h.resolve_left h0))⟩
    obtain ⟨e, he⟩ := this
    simp only [he, RingCT.unwrap, Outcome.bind_panic]

/-- C55: for every generator and transcript, the prover called by the example returns a proof or reports a zero challenge. -/
theorem C55_proves {σ : Type} (E : Env F P) (R : Rng σ) (s : σ) (t : Transcript) (params : Params P) (H : P)
    (keys commitments : List P) (index : ℕ) (r v a b : F) (hp : ParamsBuilt E params)
    (hk : keys.length = params.n ^ params.m) (hc : commitments.length = params.n ^ params.m)
    (hi : index < params.n ^ params.m) (hr : r ≠ 0) (hab : a ≠ b) (hG : params.G ≠ 0) (hG1 : params.G1 ≠ 0)
    (hkeys : ∀ i, i ≠ index → keys[i]? ≠ some 0)
    (hcom : ∀ i, i ≠ index → commitments[i]? ≠ some (v • H + b • params.G1)) (w : Witness F P) (st : Statement P)
    (hs : RingCT.setup E params H keys commitments index r v a b = .ok (w, st)) :
    (∃ p, (Proof.proveWithRng E R w st s t).1 = .ok p) ∨ (Proof.proveWithRng E R w st s t).1 = .err .InvalidChallenge := by
  obtain ⟨w', st', h, hw, hst, w1, s1, w2, w3, w4, -, -, -, -, hrel⟩ :=
    C55_setup E params H keys commitments index r v a b hp hk hc hi hr hab hG hG1 hkeys hcom
  rw [hs] at h
  simp only [Outcome.ok.injEq, Prod.mk.injEq] at h
  obtain ⟨rfl, rfl⟩ := h
  obtain ⟨nn, ξ, -, -, a1, a2⟩ := C48_accept E R w st s t .Constant hw hst (w1.trans s1.symm) (by rw [s1, w2, w3, w4]; exact hrel)
  rw [Proof.proveWithRng]
  by_cases h0 : ξ = 0
  · exact Or.inr (a1 h0)
  · exact Or.inl ⟨_, a2 h0⟩

/-- C55: the whole example, proof and verification, succeeds if a proof was made and no response entry is zero. -/
theorem C55_complete {σ : Type} (E : Env F P) (cfg : Config) (R : Rng σ) (s : σ) (t : Transcript) (params : Params P) (H : P)
    (keys commitments : List P) (index : ℕ) (r v a b : F) (hp : ParamsBuilt E params)
    (hk : keys.length = params.n ^ params.m) (hc : commitments.length = params.n ^ params.m)
    (hi : index < params.n ^ params.m) (hr : r ≠ 0) (hab : a ≠ b) (hG : params.G ≠ 0) (hG1 : params.G1 ≠ 0)
    (hkeys : ∀ i, i ≠ index → keys[i]? ≠ some 0)
    (hcom : ∀ i, i ≠ index → commitments[i]? ≠ some (v • H + b • params.G1)) (w : Witness F P) (st : Statement P)
    (hs : RingCT.setup E params H keys commitments index r v a b = .ok (w, st)) (p : Proof F P)
    (hprove : (Proof.proveWithRng E R w st s t).1 = .ok p) (hsz : SizeOK cfg params 1)
    (hfuel : EnoughFuel E [st] [p] [t] cfg.fuel) (hnz : NonzeroF params.n params.m p.f (challenge E t st p)) :
    RingCT.run E cfg R s w st t = .ok () := by
  obtain ⟨w', st', h, hw, hst, w1, s1, -⟩ :=
    C55_setup E params H keys commitments index r v a b hp hk hc hi hr hab hG hG1 hkeys hcom
  rw [hs] at h
  simp only [Outcome.ok.injEq, Prod.mk.injEq] at h
  obtain ⟨rfl, rfl⟩ := h
  rw [RingCT.run, hprove, Outcome.bind_ok]
  exact (C49_complete E cfg st t p hst ⟨σ, R, w, s, .Constant, hw, hprove⟩ (by rw [s1]; exact hsz) hfuel).1
    (by rw [s1]; exact hnz)

/-- C55, balance: whoever satisfies the relation at a position whose commitment is to `v` with mask `a`, with an offset to
`v'` with mask `b`, knows `H` as an explicit multiple of `G1`, unless `v = v'`. -/
theorem C55_sound (G G1 U H : P) (M M1 : List P) (J : P) (l : ℕ) (r r1 v v' a b : F)
    (hrel : Rel G G1 U M M1 (v' • H + b • G1) J l r r1) (hM : M1[l]? = some (v • H + a • G1)) (hv : v ≠ v') :
    H = ((r1 + b - a) / (v - v')) • G1 := by
  have h := hrel.2.1
  rw [hM, Option.some.injEq] at h
  have h' : (v - v') • H = (r1 + b - a) • G1 := by
    rw [sub_smul, sub_smul, add_smul, sub_eq_sub_iff_add_eq_add, h]
    abel
  have h0 : v - v' ≠ 0 := sub_ne_zero.2 hv
  rw [div_eq_inv_mul, ← smul_smul, ← h', smul_smul, inv_mul_cancel₀ h0, one_smul]

/-- C55, balance against accepted proofs: `m + 1` valid answers to the same commitments, for a statement whose offset commits
to `v'` and whose ring commits to values all different from `v'`, yield `H` as an explicit multiple of `G1`, or a relation among
the commitment generators. -/
theorem C55_balance (E : Env F P) (st : Statement P) (hst : StatementBuilt E st) (hs : SmallSums F st.params.n)
    (p : ℕ → Proof F P) (ξ : ℕ → F) (hξ : Set.InjOn ξ (range (st.params.m + 1)))
    (hshape : ∀ e ≤ st.params.m, Shape st.params (p e))
    (hsame : ∀ e ≤ st.params.m, SameCommitments (p e) (p 0))
    (hvalid : ∀ e ≤ st.params.m, Valid st.params st.inputSet.M st.inputSet.M1 st.offset st.J (p e) (ξ e))
    (H : P) (values masks : ℕ → F) (v' b : F) (hoff : st.offset = v' • H + b • st.params.G1)
    (hring : ∀ i < st.params.n ^ st.params.m, st.inputSet.M1[i]? = some (values i • H + masks i • st.params.G1))
    (hv : ∀ i < st.params.n ^ st.params.m, values i ≠ v') :
    (∃ l < st.params.n ^ st.params.m, l = extractIndex st.params.n st.params.m ξ (fun e => fullF (p e).f (ξ e)) ∧
      H = ((extractKey st.params.m ξ (fun e => (p e).z1) + b - masks l) / (values l - v')) • st.params.G1) ∨
    ExtractedRelation st.params p ξ := by
  rcases C51_extract E st hst hs p ξ hξ hshape hsame hvalid with h | h
  · left
    have hl := (List.getElem?_eq_some_iff.1 h.1).1
    rw [hst.ok.length] at hl
    refine ⟨_, hl, rfl, ?_⟩
    rw [hoff] at h
    exact C55_sound _ _ _ _ _ _ _ _ _ _ _ _ _ _ h (hring _ hl) (hv _ hl)
  · exact Or.inr h

namespace Toy
open Triptych.Toy (env transcript cfg)

/-- The example's run: position 2, signing key 7, value 12345, masks 9 and 4, `H = 21`. -/
def ringCT : Witness (ZMod 101) (ZMod 101) × Statement (ZMod 101) :=
  Triptych.Toy.get (witness, statement) (RingCT.setup (env 101) params 21 keys [31, 33, 0, 44] 2 7 12345 9 4)
theorem ringCT_new : RingCT.setup (env 101) params 21 keys [31, 33, 0, 44] 2 7 12345 9 4 = .ok ringCT := by decide +kernel
def ringCTProof : Proof (ZMod 101) (ZMod 101) := Triptych.Toy.get emptyProof (Proof.proveWithRng (env 101) nullRng ringCT.1 ringCT.2 () transcript).1
theorem ringCTProof_new : (Proof.proveWithRng (env 101) nullRng ringCT.1 ringCT.2 () transcript).1 = .ok ringCTProof := by
  decide +kernel
end Toy

/-- A run of the example that meets all hypotheses; the own entries before they are stored are irrelevant. -/
example : ParamsBuilt (Toy.env 101) Toy.params ∧ Toy.keys.length = Toy.params.n ^ Toy.params.m ∧
    ([31, 33, 0, 44] : List (ZMod 101)).length = Toy.params.n ^ Toy.params.m ∧ 2 < Toy.params.n ^ Toy.params.m ∧
    (7 : ZMod 101) ≠ 0 ∧ (9 : ZMod 101) ≠ 4 ∧ Toy.params.G ≠ 0 ∧ Toy.params.G1 ≠ 0 ∧
    (∀ i, i ≠ 2 → Toy.keys[i]? ≠ some 0) ∧
    (∀ i, i ≠ 2 → ([31, 33, 0, 44] : List (ZMod 101))[i]? ≠ some ((12345 : ZMod 101) • 21 + (4 : ZMod 101) • Toy.params.G1)) ∧
    SizeOK Toy.cfg Toy.params 1 ∧
    EnoughFuel (Toy.env 101) [Toy.ringCT.2] [Toy.ringCTProof] [Toy.transcript] Toy.cfg.fuel ∧
    NonzeroF Toy.params.n Toy.params.m Toy.ringCTProof.f
      (challenge (Toy.env 101) Toy.transcript Toy.ringCT.2 Toy.ringCTProof) := by
  refine ⟨⟨_, _, _, _, _, Toy.params_new⟩, by decide +kernel, by decide +kernel, by decide +kernel, by decide +kernel,
    by decide +kernel, by decide +kernel, by decide +kernel, ?_, ?_, ?_, ?_, ?_⟩
  · intro i hi h
    have hl : Toy.keys.length = 4 := by decide +kernel
    have : i < 4 := by rw [← hl]; exact (List.getElem?_eq_some_iff.1 h).1
    revert h
    interval_cases i <;> decide +kernel
  · intro i hi h
    have : i < 4 := (List.getElem?_eq_some_iff.1 h).1
    revert h
    interval_cases i <;> decide +kernel
  · exact ⟨by decide, fun _ => by decide +kernel⟩
  · exact enoughFuel_mono _ _ _ _ 3 _ (by decide) (by rw [EnoughFuel]; decide +kernel)
  · rw [NonzeroF]; decide +kernel

/-- A satisfied relation whose offset commits to another value than the ring position: `H` is the multiple stated. -/
example : Rel Toy.params.G Toy.params.G1 Toy.params.U Toy.inputSet.M Toy.inputSet.M1
      ((3 : ZMod 101) • (21 : ZMod 101) + ((Toy.offset - 63) / Toy.params.G1) • Toy.params.G1) Toy.statement.J 2 (7 : ZMod 101) 9 ∧
    Toy.inputSet.M1[2]? = some ((5 : ZMod 101) • (21 : ZMod 101)
      + ((Toy.inputSet.M1.getD 2 0 - 105) / Toy.params.G1) • Toy.params.G1) ∧ (5 : ZMod 101) ≠ 3 := by
  simp only [Parallel.Spec.Rel]
  decide +kernel

/-- The additional hypotheses of the balance theorem hold for the three runs of `Verif.Props.Parallel.Soundness`. -/
example : Toy.statement.offset = (3 : ZMod 101) • (21 : ZMod 101) + ((Toy.offset - 63) / Toy.params.G1) • Toy.statement.params.G1 ∧
    (∀ i < Toy.statement.params.n ^ Toy.statement.params.m, Toy.statement.inputSet.M1[i]? = some ((5 : ZMod 101) • (21 : ZMod 101)
      + ((Toy.inputSet.M1.getD i 0 - 105) / Toy.params.G1) • Toy.statement.params.G1)) := by
  have h : Toy.statement.params.n ^ Toy.statement.params.m = 4 := by decide +kernel
  rw [h]
  decide +kernel

end Triptych.Parallel
