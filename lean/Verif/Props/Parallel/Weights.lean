import Verif.Props.Weights
import Verif.Props.Parallel.Batch
import Verif.Spec.Parallel.Weights
import Mathlib.Algebra.BigOperators.Fin
import Mathlib.Data.Set.Card

/-! # Verifier weights: C50, C57 -/
set_option autoImplicit false
set_option linter.unusedSectionVars false

namespace Triptych.Parallel
open Finset
open Triptych.Parallel.Spec
open Triptych.Spec (SameVerifier grayDigit digit commit fullF ringCoeff NonzeroF maskA selector ringPoly versionBytes points scalars
  weightTranscript weightScalar queryPoint drawn)

variable {F P : Type} [Field F] [AddCommGroup P] [Module F P] [DecidableEq F] [DecidableEq P]

theorem batchSum_eq_sum (params : Params P) (M M1 : List P) (sts : List (Statement P)) (ps : List (Proof F P)) (ξs : List F)
    (h1 : sts.length = ps.length) (h2 : ξs.length = ps.length) (w : Fin ps.length × Fin 5 → F) :
    batchSum params M M1 sts ps ξs (weightList w) =
      ∑ x : Fin ps.length × Fin 5, w x •
        equation params M M1 (sts[x.1.1]'(by omega)).offset (sts[x.1.1]'(by omega)).J ps[x.1.1] (ξs[x.1.1]'(by omega)) x.2 := by
  have hl : ((sts.zip (ps.zip (ξs.zip (weightList w)))).map fun x => weighted params M M1 x.1.offset x.1.J x.2.1 x.2.2.1 x.2.2.2)
      = List.ofFn fun i : Fin ps.length => weighted params M M1 (sts[i.1]'(by omega)).offset (sts[i.1]'(by omega)).J ps[i.1] (ξs[i.1]'(by omega))
          ⟨w (i, 0), w (i, 1), w (i, 2), w (i, 3), w (i, 4)⟩ := by
    apply List.ext_getElem
    · simp [h1, h2, weightList]
    · intro i hi hi'
      simp [weightList]
  rw [batchSum, hl, List.sum_ofFn, Fintype.sum_prod_type]
  apply Finset.sum_congr rfl
  intro i _
  rw [Fin.sum_univ_five]
  rfl

/-- C50: if some equation of some proof fails, then for any choice of all other weights at most one value of its weight makes
the weighted sum vanish. -/
theorem C50_weight_unique (params : Params P) (M M1 : List P) (sts : List (Statement P)) (ps : List (Proof F P)) (ξs : List F)
    (h1 : sts.length = ps.length) (h2 : ξs.length = ps.length) (i : Fin ps.length) (e : Fin 5)
    (hne : equation params M M1 (sts[i.1]'(by omega)).offset (sts[i.1]'(by omega)).J ps[i.1] (ξs[i.1]'(by omega)) e ≠ 0)
    (w w' : Fin ps.length × Fin 5 → F) (hagree : ∀ x, x ≠ (i, e) → w x = w' x)
    (hw : batchSum params M M1 sts ps ξs (weightList w) = 0) (hw' : batchSum params M M1 sts ps ξs (weightList w') = 0) :
    w = w' := by
  rw [batchSum_eq_sum params M M1 sts ps ξs h1 h2] at hw hw'
  exact weight_unique (fun x : Fin ps.length × Fin 5 =>
    equation params M M1 (sts[x.1.1]'(by omega)).offset (sts[x.1.1]'(by omega)).J ps[x.1.1] (ξs[x.1.1]'(by omega)) x.2) (i, e) hne w w' hagree hw hw'

/-- C50: so of the `|S| ^ (5 k)` weight vectors with entries in `S` at most `|S| ^ (5 k - 1)` make it vanish. -/
theorem C50_weight_count (params : Params P) (M M1 : List P) (sts : List (Statement P)) (ps : List (Proof F P)) (ξs : List F)
    (h1 : sts.length = ps.length) (h2 : ξs.length = ps.length) (i : Fin ps.length)
    (hv : ¬ Valid params M M1 (sts[i.1]'(by omega)).offset (sts[i.1]'(by omega)).J ps[i.1] (ξs[i.1]'(by omega))) (S : Finset F) :
    #{w ∈ Fintype.piFinset (fun _ : Fin ps.length × Fin 5 => S) | batchSum params M M1 sts ps ξs (weightList w) = 0}
      ≤ #S ^ (5 * ps.length - 1) := by
  obtain ⟨e, he⟩ : ∃ e, equation params M M1 (sts[i.1]'(by omega)).offset (sts[i.1]'(by omega)).J ps[i.1] (ξs[i.1]'(by omega)) e ≠ 0 := by
    by_contra hc
    push Not at hc
    exact hv ⟨hc 0, hc 1, hc 2, hc 3, hc 4⟩
  have := weight_count (fun x : Fin ps.length × Fin 5 =>
    equation params M M1 (sts[x.1.1]'(by omega)).offset (sts[x.1.1]'(by omega)).J ps[x.1.1] (ξs[x.1.1]'(by omega)) x.2) (i, e) he S
  have hcard : Fintype.card (Fin ps.length × Fin 5) = 5 * ps.length := by simp [mul_comm]
  rw [hcard] at this
  simpa only [batchSum_eq_sum params M M1 sts ps ξs h1 h2] using this

/-- C50: if a batch containing an invalid proof is accepted, then the weights derived from the batch, none of them zero, are in
an exceptional set of at most `(q - 1) ^ (5 k - 1)` of the `(q - 1) ^ (5 k)` vectors of non-zero weights. -/
theorem C50_exceptional [Fintype F] (E : Env F P) (cfg : Config) (first : Statement P) (rest : List (Statement P))
    (ps : List (Proof F P)) (ts : List Transcript) (hst : StatementBuilt E first)
    (h : (Proof.verifyBatch E cfg (first :: rest) ps ts).1 = .ok ())
    (i : ℕ) (st : Statement P) (p : Proof F P) (ξ : F) (hi : (first :: rest)[i]? = some st) (hp : ps[i]? = some p)
    (hξ : (challenges E (first :: rest) ps ts)[i]? = some ξ)
    (hv : ¬ Valid first.params first.inputSet.M first.inputSet.M1 st.offset st.J p ξ) :
    ∃ bad : Finset (Fin ps.length × Fin 5 → F),
      bad = ({w | (∀ x, w x ≠ 0) ∧ batchSum first.params first.inputSet.M first.inputSet.M1 (first :: rest) ps
        (challenges E (first :: rest) ps ts) (weightList w) = 0} : Finset _) ∧
      #bad ≤ (Fintype.card F - 1) ^ (5 * ps.length - 1) ∧
      ∃ w ∈ bad, IsWeights E (first :: rest) ps ts (weightList w) := by
  obtain ⟨a1, -, -, -, ws, a5, a6⟩ := C50_accepted E cfg first rest ps ts hst h
  obtain ⟨w1, w2⟩ := (C50_weights E (first :: rest) ps ts).2.2 ws a5
  have h1 := a1.proofs
  have h2 := Proof.challenges_length E (first :: rest) ps ts a1.proofs a1.transcripts
  obtain ⟨hip, rfl⟩ := List.getElem?_eq_some_iff.1 hp
  obtain ⟨hit, rfl⟩ := List.getElem?_eq_some_iff.1 hi
  obtain ⟨hic, rfl⟩ := List.getElem?_eq_some_iff.1 hξ
  refine ⟨_, rfl, ?_, fun x => ![(ws[x.1.1]'(by omega)).w1, (ws[x.1.1]'(by omega)).w2, (ws[x.1.1]'(by omega)).w3,
    (ws[x.1.1]'(by omega)).w4, (ws[x.1.1]'(by omega)).w5] x.2, ?_, ?_⟩
  · have := C50_weight_count first.params first.inputSet.M first.inputSet.M1 (first :: rest) ps (challenges E (first :: rest) ps ts) h1 h2
      ⟨i, hip⟩ hv (univ.erase 0)
    rw [Finset.card_erase_of_mem (Finset.mem_univ 0), Finset.card_univ] at this
    refine le_trans (Finset.card_le_card ?_) this
    intro w hw
    rw [Finset.mem_filter] at hw ⊢
    rw [Fintype.mem_piFinset]
    exact ⟨fun x => Finset.mem_erase.2 ⟨hw.2.1 x, Finset.mem_univ _⟩, hw.2.2⟩
  · have hws : weightList (fun x : Fin ps.length × Fin 5 => ![(ws[x.1.1]'(by omega)).w1, (ws[x.1.1]'(by omega)).w2,
        (ws[x.1.1]'(by omega)).w3, (ws[x.1.1]'(by omega)).w4, (ws[x.1.1]'(by omega)).w5] x.2) = ws := by
      apply List.ext_getElem
      · simp [weightList, w1]
      · intro j hj hj'; simp [weightList]
    rw [Finset.mem_filter]
    refine ⟨Finset.mem_univ _, ?_, by rw [hws]; exact a6⟩
    rintro ⟨j, e⟩
    have := w2 (ws[j.1]'(by omega)) (List.getElem_mem _)
    fin_cases e
    · exact this.1
    · exact this.2.1
    · exact this.2.2.1
    · exact this.2.2.2.1
    · exact this.2.2.2.2
  · have hws : weightList (fun x : Fin ps.length × Fin 5 => ![(ws[x.1.1]'(by omega)).w1, (ws[x.1.1]'(by omega)).w2,
        (ws[x.1.1]'(by omega)).w3, (ws[x.1.1]'(by omega)).w4, (ws[x.1.1]'(by omega)).w5] x.2) = ws := by
      apply List.ext_getElem
      · simp [weightList, w1]
      · intro j hj hj'; simp [weightList]
    rw [hws]; exact a5

/-! ## Predictability of the weights -/

/-- C57: the weights depend on nothing but the 64-bit seeds of the proofs. -/
theorem C57_seeds (E : Env F P) (sts sts' : List (Statement P)) (ps ps' : List (Proof F P)) (ts ts' : List Transcript)
    (hlen : ps.length = ps'.length) (h : seeds E sts ps ts = seeds E sts' ps' ts') (ws : List (Proof.Weights F)) :
    IsWeights E sts ps ts ws ↔ IsWeights E sts' ps' ts' ws := by
  rw [IsWeights, IsWeights, h, hlen]

/-- C57: hence, whatever the scalar field, over all statements, proofs and transcripts together at most `2 ^ 64` weight
quintuples occur in the verification of single proofs. -/
theorem C57_few (E : Env F P) (hprf : ∀ r len, (E.prf r len).length = len) :
    {w | ∃ st p t, IsWeights E [st] [p] [t] [w]}.encard ≤ 2 ^ 64 := by
  classical
  have hw : ∀ w, (∃ st p t, IsWeights E [st] [p] [t] [w]) →
      ∃ s < 2 ^ 64, ∃ q, [w] = usableQuints E (weightTranscript "Parallel Triptych verifier weights" [s]) q := by
    rintro w ⟨st, p, t, -, q, hq⟩
    refine ⟨weightSeed E t st p, ?_, q, hq⟩
    have := leNat_lt (E.prf ⟨responseTranscript E t st p, [], List.replicate 32 0, []⟩ 8)
    rw [hprf] at this
    calc _ < 256 ^ 8 := this
      _ = 2 ^ 64 := by norm_num
  let g : Proof.Weights F → ℕ := fun w => if h : ∃ st p t, IsWeights E [st] [p] [t] [w] then (hw w h).choose else 0
  have hg : ∀ w, (∃ st p t, IsWeights E [st] [p] [t] [w]) → g w < 2 ^ 64 ∧
      ∃ q, [w] = usableQuints E (weightTranscript "Parallel Triptych verifier weights" [g w]) q := by
    intro w h
    have := (hw w h).choose_spec
    simp only [g, dif_pos h]
    exact this
  have hinj : Set.InjOn g {w | ∃ st p t, IsWeights E [st] [p] [t] [w]} := by
    intro w h w' h' he
    obtain ⟨-, q, hq⟩ := hg w h
    obtain ⟨-, q', hq'⟩ := hg w' h'
    rw [← he] at hq'
    have : [w] = [w'] := by
      rcases Nat.le_total q q' with hl | hl
      · have := usableQuints_prefix E (weightTranscript "Parallel Triptych verifier weights" [g w]) q q' hl
        rw [← hq, ← hq'] at this
        exact this.eq_of_length rfl
      · have := usableQuints_prefix E (weightTranscript "Parallel Triptych verifier weights" [g w]) q' q hl
        rw [← hq, ← hq'] at this
        exact (this.eq_of_length rfl).symm
    simpa using this
  have hmaps : Set.MapsTo g {w | ∃ st p t, IsWeights E [st] [p] [t] [w]} (Finset.range (2 ^ 64) : Finset ℕ) := by
    intro w h
    rw [Finset.mem_coe, Finset.mem_range]
    exact (hg w h).1
  have := Set.encard_le_encard_of_injOn hmaps hinj
  rw [Set.encard_coe_eq_coe_finsetCard, Finset.card_range] at this
  exact_mod_cast this

/-- The linking tag that balances equations three, four and five for wrong keys `r`, `r1` and known weights. -/
def Spec.forgedTag (params : Params P) (M M1 : List P) (offset : P) (l : ℕ) (r r1 : F) (w : Proof.Weights F) : P :=
  r⁻¹ • (params.U + (w.w3 * w.w4⁻¹) • (M.getD l 0 - r • params.G)
    + (w.w5 * w.w4⁻¹) • (M1.getD l 0 - offset - r1 • params.G1))

/-- C57: run the prover's algorithm with any position `l`, any non-zero `r` and any `r1`, which need not be the keys of that
position, for any offset and the tag computed from the weights: then the weighted sum vanishes for these weights. -/
theorem C57_forgery (params : Params P) (E : Env F P) (hp : ParamsBuilt E params) (M M1 : List P) (offset : P) (l : ℕ)
    (hl : l < params.n ^ params.m) (r r1 ξ : F) (hr : r ≠ 0) (nn : Nonces F) (w : Proof.Weights F) (hw : w.w4 ≠ 0) :
    weighted params M M1 offset (forgedTag params M M1 offset l r r1 w)
      (honestProof params M M1 offset (forgedTag params M M1 offset l r r1 w) l r r1 nn ξ) ξ w = 0 := by
  obtain ⟨h1, h2, h3, h4, h5⟩ := honest_equations params hp.ok M M1 offset (forgedTag params M M1 offset l r r1 w) l r r1 nn hl ξ
  rw [weighted, h1, h2, h3, h4, h5, forgedTag, smul_smul r, mul_inv_cancel₀ hr, one_smul]
  have : w.w4 • ξ ^ params.m • (params.U - (params.U + (w.w3 * w.w4⁻¹) • (M.getD l 0 - r • params.G)
      + (w.w5 * w.w4⁻¹) • (M1.getD l 0 - offset - r1 • params.G1)))
      = -(w.w3 • ξ ^ params.m • (M.getD l 0 - r • params.G))
        - (w.w5 • ξ ^ params.m • (M1.getD l 0 - offset - r1 • params.G1)) := by
    have e3 : w.w4 * (w.w3 * w.w4⁻¹) = w.w3 := by field_simp
    have e5 : w.w4 * (w.w5 * w.w4⁻¹) = w.w5 := by field_simp
    have a3 : w.w3 • ξ ^ params.m • (M.getD l 0 - r • params.G)
        = w.w4 • ξ ^ params.m • ((w.w3 * w.w4⁻¹) • (M.getD l 0 - r • params.G)) := by
      rw [smul_smul, smul_smul, smul_smul]; congr 1; linear_combination (-ξ ^ params.m) * e3
    have a5 : w.w5 • ξ ^ params.m • (M1.getD l 0 - offset - r1 • params.G1)
        = w.w4 • ξ ^ params.m • ((w.w5 * w.w4⁻¹) • (M1.getD l 0 - offset - r1 • params.G1)) := by
      rw [smul_smul, smul_smul, smul_smul]; congr 1; linear_combination (-ξ ^ params.m) * e5
    rw [a3, a5]
    generalize (w.w3 * w.w4⁻¹) • (M.getD l 0 - r • params.G) = x
    generalize (w.w5 * w.w4⁻¹) • (M1.getD l 0 - offset - r1 • params.G1) = y
    module
  rw [this]
  simp only [smul_zero]
  abel

/-- C57: so `verify` accepts such a proof whenever the weights guessed in advance turn out to be the ones derived, whether or
not the statement is true. -/
theorem C57_accepted (E : Env F P) (cfg : Config) (st : Statement P) (hst : StatementBuilt E st) (l : ℕ)
    (hl : l < st.params.n ^ st.params.m) (r r1 : F) (hr : r ≠ 0) (nn : Nonces F) (w : Proof.Weights F)
    (hJ : st.J = forgedTag st.params st.inputSet.M st.inputSet.M1 st.offset l r r1 w) (t : Transcript) (p : Proof F P)
    (hp : p = honestProof st.params st.inputSet.M st.inputSet.M1 st.offset st.J l r r1 nn (challenge E t st p))
    (hc : challenge E t st p ≠ 0) (hnz : NonzeroF st.params.n st.params.m p.f (challenge E t st p))
    (hw : IsWeights E [st] [p] [t] [w]) (hsz : SizeOK cfg st.params 1)
    (hfuel : EnoughFuel E [st] [p] [t] cfg.fuel) : (Proof.verify E cfg p st t).1 = .ok () := by
  rw [C50_single E cfg st p t hst hsz hfuel w hw]
  refine ⟨by rw [hp]; exact honest_shape _ _ _ _ _ _ _ _ _ _, hc, hnz, ?_⟩
  have h4 := (((C50_weights E [st] [p] [t]).2.2 [w] hw).2 w (by simp)).2.2.2.1
  have := C57_forgery st.params E hst.params_built st.inputSet.M st.inputSet.M1 st.offset l hl r r1 (challenge E t st p) hr nn w h4
  rw [← hJ, ← hp] at this
  exact this

/-! A concrete case over the small field, where a guess is right about once in a hundred tries. -/
namespace Toy
open Triptych.Toy (env cfg get)

/-- A statement whose tag belongs to none of the ring members. -/
def falseStatement : Statement (ZMod 101) :=
  get ⟨params, inputSet, 0, 0, []⟩ (Statement.new (env 101) params inputSet 17 17)
def forgeryTranscript : Transcript := (Transcript.new (asciiBytes "test")).appendU64 "message" 9
def forgeryNonces : Nonces (ZMod 101) := ⟨1, [[2, 3], [4, 5]], 6, 7, 8, [0, 0], [0, 0]⟩

/-- The prover's algorithm with position 2 and the wrong keys 1 and 1, without the witness check. -/
def forgery : Proof (ZMod 101) (ZMod 101) :=
  let c := get ⟨0, 0, 0, 0, [], [], [], [], []⟩ (Proof.commitPhase 2 falseStatement .Variable forgeryNonces)
  let pt := ProofTranscript.new (env 101) nullRng forgeryTranscript falseStatement ()
    (none : Option (Witness (ZMod 101) (ZMod 101)))
  let (xi, _) := pt.commit (env 101) nullRng falseStatement.params c.A c.B c.C c.D c.X c.X1 c.Y
  get emptyProof (do let x ← xi; Proof.respondPhase 1 1 falseStatement.params forgeryNonces c x)

theorem falseStatement_new : Statement.new (env 101) params inputSet 17 17 = .ok falseStatement := by decide +kernel

theorem falseStatement_built : StatementBuilt (env 101) falseStatement :=
  ⟨_, _, _, _, ⟨_, _, _, _, _, params_new⟩, Or.inl ⟨_, _, inputSet_new⟩, falseStatement_new⟩

theorem falseStatement_false (l : ℕ) (r r1 : ZMod 101) :
    ¬ Rel falseStatement.params.G falseStatement.params.G1 falseStatement.params.U falseStatement.inputSet.M
      falseStatement.inputSet.M1 falseStatement.offset falseStatement.J l r r1 := by
  by_cases hl : l < 4
  · have : ∀ l < 4, ∀ r : ZMod 101, ¬ (falseStatement.inputSet.M[l]? = some (r • falseStatement.params.G) ∧
        r • falseStatement.J = falseStatement.params.U) := by decide +kernel
    exact fun h => this l hl r ⟨h.1, h.2.2⟩
  · intro h
    have hlen : falseStatement.inputSet.M.length = 4 := by decide +kernel
    have := h.1
    rw [List.getElem?_eq_none (by omega)] at this
    simp at this

theorem forgery_accepted : (Proof.verify (env 101) cfg forgery falseStatement forgeryTranscript).1 = .ok () := by
  decide +kernel

theorem forgery_honest : forgery = honestProof falseStatement.params falseStatement.inputSet.M falseStatement.inputSet.M1
    falseStatement.offset falseStatement.J 2 1 1 forgeryNonces
    (challenge (env 101) forgeryTranscript falseStatement forgery) := by
  have hn : NonceShape falseStatement.params.n falseStatement.params.m forgeryNonces :=
    ⟨by decide +kernel, by decide +kernel, by decide +kernel, by decide +kernel⟩
  obtain ⟨c, hc, h1, h2, h3, h4, h5, h6, h7, h8, h9⟩ := Proof.commitPhase_eq falseStatement falseStatement_built.ok 2
    (by decide +kernel) .Variable forgeryNonces hn 1 1 (challenge (env 101) forgeryTranscript falseStatement forgery)
  have h := Proof.respondPhase_eq falseStatement falseStatement_built.ok 2 1 1 forgeryNonces hn
    (challenge (env 101) forgeryTranscript falseStatement forgery) _ c h1 h2 h3 h4 h5 h6 h7 h8 h9
  have hf : Proof.respondPhase 1 1 falseStatement.params forgeryNonces
      (get ⟨0, 0, 0, 0, [], [], [], [], []⟩ (Proof.commitPhase 2 falseStatement .Variable forgeryNonces))
      ((List.range (falseStatement.params.m + 1)).map fun j => challenge (env 101) forgeryTranscript falseStatement forgery ^ j)
        = .ok forgery := by decide +kernel
  rw [hc, Triptych.Toy.get, h] at hf
  exact (Outcome.ok.inj hf).symm

/-- The weights that the verifier derives for the forgery, which the forger had to guess. -/
def forgeryWeights : Proof.Weights (ZMod 101) := ⟨75, 41, 22, 66, 38⟩

theorem forgery_weights : IsWeights (env 101) [falseStatement] [forgery] [forgeryTranscript] [forgeryWeights] := by
  refine ⟨by simp, 1, ?_⟩
  decide +kernel

end Toy

/-- The hypotheses of `C50_exceptional` are met: the statement is false and the proof does not satisfy the equations, but it is
accepted. -/
example : StatementBuilt (Toy.env 101) Toy.falseStatement ∧
    (∀ (l : ℕ) (r r1 : ZMod 101), ¬ Rel Toy.falseStatement.params.G Toy.falseStatement.params.G1
      Toy.falseStatement.params.U Toy.falseStatement.inputSet.M Toy.falseStatement.inputSet.M1 Toy.falseStatement.offset
      Toy.falseStatement.J l r r1) ∧
    (Proof.verify (Toy.env 101) Toy.cfg Toy.forgery Toy.falseStatement Toy.forgeryTranscript).1 = .ok () ∧
    ¬ Valid Toy.falseStatement.params Toy.falseStatement.inputSet.M Toy.falseStatement.inputSet.M1
      Toy.falseStatement.offset Toy.falseStatement.J Toy.forgery
      (challenge (Toy.env 101) Toy.forgeryTranscript Toy.falseStatement Toy.forgery) :=
  ⟨Toy.falseStatement_built, Toy.falseStatement_false, Toy.forgery_accepted, fun h => by
    have : E4 Toy.falseStatement.params Toy.falseStatement.J Toy.forgery
      (challenge (Toy.env 101) Toy.forgeryTranscript Toy.falseStatement Toy.forgery) ≠ 0 := by decide +kernel
    exact this h.e4⟩

/-- The hypotheses of `C50_weight_unique` and `C50_weight_count` are met: the fourth equation of this proof fails, yet the weighted
sum vanishes for the weights derived. -/
example : ∃ w : Fin 1 × Fin 5 → ZMod 101, (∀ x, w x ≠ 0) ∧ weightList w = [Toy.forgeryWeights] ∧
    equation Toy.falseStatement.params Toy.falseStatement.inputSet.M Toy.falseStatement.inputSet.M1 Toy.falseStatement.offset
      Toy.falseStatement.J Toy.forgery
      (challenge (Toy.env 101) Toy.forgeryTranscript Toy.falseStatement Toy.forgery) 3 ≠ 0 ∧
    batchSum Toy.falseStatement.params Toy.falseStatement.inputSet.M Toy.falseStatement.inputSet.M1 [Toy.falseStatement]
      [Toy.forgery] [challenge (Toy.env 101) Toy.forgeryTranscript Toy.falseStatement Toy.forgery] (weightList w) = 0 :=
  ⟨fun x => ![75, 41, 22, 66, 38] x.2, by decide +kernel, rfl, by decide +kernel, by decide +kernel⟩

/-- The hypotheses of `C57_accepted`, hence those of `C57_forgery`, are met, and the statement is false. -/
example : StatementBuilt (Toy.env 101) Toy.falseStatement ∧
    2 < Toy.falseStatement.params.n ^ Toy.falseStatement.params.m ∧ (1 : ZMod 101) ≠ 0 ∧
    Toy.falseStatement.J = forgedTag Toy.falseStatement.params Toy.falseStatement.inputSet.M Toy.falseStatement.inputSet.M1
      Toy.falseStatement.offset 2 1 1 Toy.forgeryWeights ∧
    Toy.forgery = honestProof Toy.falseStatement.params Toy.falseStatement.inputSet.M Toy.falseStatement.inputSet.M1
      Toy.falseStatement.offset Toy.falseStatement.J 2 1 1
      Toy.forgeryNonces (challenge (Toy.env 101) Toy.forgeryTranscript Toy.falseStatement Toy.forgery) ∧
    challenge (Toy.env 101) Toy.forgeryTranscript Toy.falseStatement Toy.forgery ≠ 0 ∧
    NonzeroF Toy.falseStatement.params.n Toy.falseStatement.params.m Toy.forgery.f
      (challenge (Toy.env 101) Toy.forgeryTranscript Toy.falseStatement Toy.forgery) ∧
    IsWeights (Toy.env 101) [Toy.falseStatement] [Toy.forgery] [Toy.forgeryTranscript] [Toy.forgeryWeights] ∧
    SizeOK Toy.cfg Toy.falseStatement.params 1 ∧
    EnoughFuel (Toy.env 101) [Toy.falseStatement] [Toy.forgery] [Toy.forgeryTranscript] Toy.cfg.fuel ∧
    (∀ (l : ℕ) (r r1 : ZMod 101), ¬ Rel Toy.falseStatement.params.G Toy.falseStatement.params.G1
      Toy.falseStatement.params.U Toy.falseStatement.inputSet.M Toy.falseStatement.inputSet.M1 Toy.falseStatement.offset
      Toy.falseStatement.J l r r1) :=
  ⟨Toy.falseStatement_built, by decide +kernel, by decide +kernel, by decide +kernel, Toy.forgery_honest, by decide +kernel,
    by unfold NonzeroF; decide +kernel, Toy.forgery_weights, by unfold SizeOK; decide +kernel,
    by unfold EnoughFuel; decide +kernel, Toy.falseStatement_false⟩

/-- The hypothesis of `C57_few` is met; those of `C57_seeds` are met by different transcripts (the toy hash has collisions). -/
example : (∀ r len, ((Toy.env 101).prf r len).length = len) ∧
    Transcript.new [0, 4, 34, 36, 0, 38, 25, 0, 0, 19] ≠ Transcript.new [17, 0, 0, 0, 8, 0, 0, 1, 5, 0] ∧
    seeds (Toy.env 101) [Toy.statement] [Toy.proof] [Transcript.new [0, 4, 34, 36, 0, 38, 25, 0, 0, 19]] =
      seeds (Toy.env 101) [Toy.statement] [Toy.proof] [Transcript.new [17, 0, 0, 0, 8, 0, 0, 1, 5, 0]] :=
  ⟨fun r len => Triptych.Toy.leBytes_length _ _, by decide +kernel, by decide +kernel⟩

/-! ## Determinism -/

theorem drawWeights_same (E E' : Env F P) (h : SameVerifier E E') (fuel : ℕ) (r : TRng)
    (hr : r.ext = List.replicate 32 0) :
    Proof.drawWeights E fuel r = Proof.drawWeights E' fuel r ∧
      ∀ w r', Proof.drawWeights E fuel r = some (w, r') → r'.ext = List.replicate 32 0 := by
  induction fuel generalizing r with
  | zero => exact ⟨rfl, fun w r' h => by simp [Proof.drawWeights] at h⟩
  | succ fuel ih =>
    rw [Proof.drawWeights, Proof.drawWeights]
    obtain ⟨a1, a2⟩ := scalar_same E E' h r hr
    obtain ⟨b1, b2⟩ := scalar_same E E' h _ a2
    obtain ⟨c1, c2⟩ := scalar_same E E' h _ b2
    obtain ⟨d1, d2⟩ := scalar_same E E' h _ c2
    obtain ⟨e1, e2⟩ := scalar_same E E' h _ d2
    simp only [← a1, ← b1, ← c1, ← d1, ← e1]
    obtain ⟨i1, i2⟩ := ih _ e2
    rw [← i1]
    refine ⟨rfl, ?_⟩
    intro w r' hw
    split at hw
    · exact i2 w r' hw
    · simp only [Option.some.injEq, Prod.mk.injEq] at hw
      rw [← hw.2]; exact e2

theorem processProof_same (E E' : Env F P) (h : SameVerifier E E') (cfg : Config) (params : Params P)
    (acc : Proof.Acc F) (r : TRng) (hr : r.ext = List.replicate 32 0) (p : Proof F P) (xi : List F) :
    Proof.processProof E cfg params acc r p xi = Proof.processProof E' cfg params acc r p xi ∧
      ∀ acc' r', Proof.processProof E cfg params acc r p xi = .ok (acc', r') → r'.ext = List.replicate 32 0 := by
  obtain ⟨h1, h2⟩ := drawWeights_same E E' h cfg.fuel r hr
  rw [Proof.processProof, Proof.processProof, ← h1]
  refine ⟨rfl, ?_⟩
  intro acc' r' hok
  cases hf : reconstructF params.m p.f xi with
  | err e => rw [hf] at hok; simp at hok
  | panic => rw [hf] at hok; simp at hok
  | diverge => rw [hf] at hok; simp at hok
  | ok f =>
    rw [hf, Outcome.bind_ok] at hok
    split at hok
    · simp at hok
    · cases hd : Proof.drawWeights E cfg.fuel r with
      | none => rw [hd] at hok; simp at hok
      | some x =>
        obtain ⟨w, r1⟩ := x
        have hr1 := h2 w r1 hd
        rw [hd] at hok
        have key : ∀ {α : Type} (x : Outcome ProofError α) (g : α → Outcome ProofError (Proof.Acc F × TRng)),
            (∀ a, g a = .ok (acc', r') → r' = r1) → (x >>= g) = .ok (acc', r') → r' = r1 := by
          intro α x g hg hx
          cases x with
          | ok a => exact hg a hx
          | err e => simp at hx
          | panic => simp at hx
          | diverge => simp at hx
        rw [← hr1]
        congr 1
        revert hok
        refine key _ _ fun _ => key _ _ fun _ => key _ _ fun _ => key _ _ fun _ => key _ _ fun _ => key _ _ fun _ =>
          key _ _ fun x => ?_
        intro hx
        simp only [Outcome.ok.injEq, Prod.mk.injEq] at hx
        exact hx.2.symm

theorem processLoop_same (E E' : Env F P) (h : SameVerifier E E') (cfg : Config) (params : Params P)
    (l : List (Proof F P × List F)) (acc : Proof.Acc F) (r : TRng) (hr : r.ext = List.replicate 32 0) :
    Proof.processLoop E cfg params l acc r = Proof.processLoop E' cfg params l acc r := by
  induction l generalizing acc r with
  | nil => rfl
  | cons a l ih =>
    obtain ⟨p, xi⟩ := a
    obtain ⟨h1, h2⟩ := processProof_same E E' h cfg params acc r hr p xi
    rw [Proof.processLoop, Proof.processLoop, ← h1]
    cases hd : Proof.processProof E cfg params acc r p xi with
    | ok x => rw [Outcome.bind_ok, Outcome.bind_ok]; exact ih x.1 x.2 (h2 x.1 x.2 hd)
    | err e => rfl
    | panic => rfl
    | diverge => rfl

theorem challengeLoop_same (E E' : Env F P) (h : SameVerifier E E') (params : Params P) (sts : List (Statement P))
    (ps : List (Proof F P)) (ts : List Transcript) (wt : Transcript) :
    Proof.challengeLoop E params sts ps ts wt = Proof.challengeLoop E' params sts ps ts wt := by
  induction ps generalizing sts ts wt with
  | nil => cases sts <;> cases ts <;> rfl
  | cons p ps ih =>
    cases sts with
    | nil => rfl
    | cons st sts =>
      cases ts with
      | nil => rfl
      | cons t ts =>
        have hc : ∀ pt : ProofTranscript F P Unit, pt.commit E nullRng params p.A p.B p.C p.D p.X p.X1 p.Y
            = pt.commit E' nullRng params p.A p.B p.C p.D p.X p.X1 p.Y := by
          intro pt
          simp only [ProofTranscript.commit, ProofTranscript.buildTranscriptRng, appendPoints,
            Transcript.challengeBytes, h.compress, h.challenge, h.scalarOfWide, h.scalarBytes]
        have hr : ∀ pt : ProofTranscript F P Unit, pt.response E nullRng p.f p.zA p.zC p.z p.z1
            = pt.response E' nullRng p.f p.zA p.zC p.z p.z1 := by
          intro pt
          simp only [ProofTranscript.response, ProofTranscript.buildTranscriptRng, appendMatrix, h.scalarBytes]
        have hn : ProofTranscript.new E nullRng t st () (none : Option (Witness F P))
            = ProofTranscript.new E' nullRng t st () none := rfl
        have hx : ∀ pt : ProofTranscript F P Unit, ((pt.response E' nullRng p.f p.zA p.zC p.z p.z1).1.nextU64 E)
            = ((pt.response E' nullRng p.f p.zA p.zC p.z p.z1).1.nextU64 E') := by
          intro pt
          have : (pt.response E' nullRng p.f p.zA p.zC p.z p.z1).1.ext = List.replicate 32 0 := by
            simp only [ProofTranscript.response, ProofTranscript.buildTranscriptRng]
            cases pt.witness <;> rfl
          simp only [TRng.nextU64, TRng.fill, h.prf _ _ this]
        rw [Proof.challengeLoop, Proof.challengeLoop]
        simp only [hn, hc, hr, hx, ih]

/-- C57: no external randomness enters the verification of a batch: result and transcripts are the same in any two
environments that agree on what a verifier can compute. -/
theorem C57_deterministic (E E' : Env F P) (h : SameVerifier E E') (cfg : Config) (sts : List (Statement P))
    (ps : List (Proof F P)) (ts : List Transcript) :
    Proof.verifyBatch E cfg sts ps ts = Proof.verifyBatch E' cfg sts ps ts := by
  have hf : ∀ params M M1 xis wt, Proof.finalCheck E cfg sts ps params M M1 xis wt
      = Proof.finalCheck E' cfg sts ps params M M1 xis wt := by
    intro params M M1 xis wt
    rw [Proof.finalCheck, Proof.finalCheck]
    simp only []
    rw [processLoop_same E E' h cfg params _ _ _ rfl]
  rw [Proof.verifyBatch, Proof.verifyBatch]
  simp only [challengeLoop_same E E' h, hf]

/-- C57: the same for the blame variants. -/
theorem C57_deterministic_blame (E E' : Env F P) (h : SameVerifier E E') (cfg : Config) (sts : List (Statement P))
    (ps : List (Proof F P)) (ts : List Transcript) :
    Proof.verifyBatchWithSingleBlame E cfg sts ps ts = Proof.verifyBatchWithSingleBlame E' cfg sts ps ts ∧
    Proof.verifyBatchWithFullBlame E cfg sts ps ts = Proof.verifyBatchWithFullBlame E' cfg sts ps ts := by
  have hs : Proof.subBatch E cfg sts ps ts = Proof.subBatch E' cfg sts ps ts := by
    funext left mid
    simp only [Proof.subBatch, C57_deterministic E E' h]
  have hv : (fun st p t => Proof.verify E cfg p st t) = fun st p t => Proof.verify E' cfg p st t := by
    funext st p t
    exact C57_deterministic E E' h cfg _ _ _
  constructor
  · rw [Proof.verifyBatchWithSingleBlame, Proof.verifyBatchWithSingleBlame, hs, C57_deterministic E E' h]
  · rw [Proof.verifyBatchWithFullBlame, Proof.verifyBatchWithFullBlame, hv, C57_deterministic E E' h]

/-- Environments that differ wherever external randomness is used meet the hypothesis. -/
example : SameVerifier (Toy.env 101) { Toy.env 101 with
    prf := fun r len => if r.ext = List.replicate 32 0 then (Toy.env 101).prf r len else [] } ∧
    (Toy.env 101) ≠ { Toy.env 101 with
      prf := fun r len => if r.ext = List.replicate 32 0 then (Toy.env 101).prf r len else [] } := by
  refine ⟨⟨rfl, rfl, rfl, rfl, fun r len h => by simp [h]⟩, fun h => ?_⟩
  have := congrArg (fun E => (E.prf ⟨[], [], [], []⟩ 8).length) h
  revert this
  decide +kernel

end Triptych.Parallel
