import Verif.Lemmas.VerifyCore

/-! # The verifier computes the weighted sum of the verification equations -/
set_option autoImplicit false
set_option linter.unusedSectionVars false
set_option linter.unusedVariables false
set_option linter.unusedSimpArgs false

namespace Triptych
open Finset Spec

variable {F P : Type} [Field F] [AddCommGroup P] [Module F P] [DecidableEq F] [DecidableEq P]

/-- What every parameter object built by the constructors satisfies. -/
structure ParamsOK {P : Type} (p : Params P) : Prop where
  n : 2 ≤ p.n
  m : 2 ≤ p.m
  N : p.n ^ p.m ≤ u32Max
  CG : p.CommitmentG.length = p.m * p.n

omit [AddCommGroup P] [DecidableEq P] in
theorem ParamsOK.getN {p : Params P} (h : ParamsOK p) : p.getN = p.n ^ p.m := by
  have := h.N
  rw [u32Max] at this
  exact Nat.mod_eq_of_lt (by omega)

namespace Proof

omit [DecidableEq F] in
theorem ringLoop_eq (n m : ℕ) (hn : 2 ≤ n) (hm : 1 ≤ m) (f : ℕ → ℕ → F) (hf : ∀ j < m, ∀ i < n, f j i ≠ 0) (w3 : F)
    (len k : ℕ) (hk : k + len ≤ n ^ m) (Ms : List F) (hMs : Ms.length = len) (Usp : F) :
    ringLoop (mat m n f) (mat m n fun j i => (f j i)⁻¹) w3 Ms ((List.range' k len).map (grayItem n m))
      (ringCoeff n m f (k - 1)) Usp
    = .ok (addZip Ms ((List.range' k len).map fun k => w3 * ringCoeff n m f k),
        Usp + ((List.range' k len).map (ringCoeff n m f)).sum) := by
  induction len generalizing k Ms Usp with
  | zero =>
    have : Ms = [] := List.length_eq_zero_iff.1 hMs
    subst this
    simp [ringLoop, addZip]
  | succ len ih =>
    cases Ms with
    | nil => simp at hMs
    | cons M0 Ms =>
      obtain ⟨t, ht, a, ha, b, hb, hitem, hstep⟩ := ringCoeff_step n m hn hm f k (by omega) hf
      simp only [List.range'_succ, List.map_cons, hitem]
      rw [ringLoop, idx2_mat m n _ t a ht ha, idx2_mat m n _ t b ht hb]
      simp only [Outcome.bind_ok]
      rw [hstep]
      have := ih (k + 1) (by omega) Ms (by simpa using hMs) (Usp + ringCoeff n m f k)
      rw [Nat.add_sub_cancel] at this
      rw [this]
      simp [addZip, add_assoc]

/-- The value of the accumulators against the points they belong to. -/
def Acc.value (acc : Acc F) (params : Params P) (M : List P) (pts : List P) : P :=
  msmSum acc.scalars pts + acc.G • params.G + msmSum acc.CommitmentG params.CommitmentG
    + acc.CommitmentH • params.CommitmentH + msmSum acc.M M + acc.U • params.U

/-- Lengths of the accumulators. -/
structure Acc.OK (acc : Acc F) (params : Params P) (M : List P) (pts : List P) : Prop where
  scalars : acc.scalars.length = pts.length
  CG : acc.CommitmentG.length = params.CommitmentG.length
  M : acc.M.length = M.length

/-- The points a proof contributes. -/
def pointsOf (p : Proof F P) (J : P) : List P := [p.A, p.B, p.C, p.D, J] ++ p.X ++ p.Y

omit [DecidableEq F] [DecidableEq P] in
theorem sum_smul_neg (c : F) (m : ℕ) (ξ : F) (X : List P) :
    ∑ j ∈ range m, (-c * ξ ^ j) • X.getD j 0 = -(c • ∑ j ∈ range m, ξ ^ j • X.getD j 0) := by
  rw [Finset.smul_sum, ← Finset.sum_neg_distrib]
  apply Finset.sum_congr rfl
  intro j _
  rw [neg_mul, neg_smul, mul_smul]

omit [DecidableEq P] in
theorem processProof_eq (E : Env F P) (cfg : Config) (params : Params P) (hp : ParamsOK params) (M : List P)
    (hM : M.length = params.n ^ params.m) (acc : Acc F) (pts : List P) (hacc : acc.OK params M pts) (trng : TRng)
    (p : Proof F P) (J : P) (hs : Shape params p) (ξ : F) :
    (NonzeroF params.n params.m p.f ξ → ∀ w trng', drawWeights E cfg.fuel trng = some (w, trng') →
      ∃ acc', processProof E cfg params acc trng p ((List.range (params.m + 1)).map fun j => ξ ^ j)
          = .ok (acc', trng') ∧ acc'.OK params M (pts ++ pointsOf p J) ∧
        acc'.value params M (pts ++ pointsOf p J) = acc.value params M pts + weighted params M J p ξ w) ∧
    (NonzeroF params.n params.m p.f ξ → drawWeights E cfg.fuel trng = none →
      processProof E cfg params acc trng p ((List.range (params.m + 1)).map fun j => ξ ^ j) = .diverge) ∧
    (¬ NonzeroF params.n params.m p.f ξ →
      processProof E cfg params acc trng p ((List.range (params.m + 1)).map fun j => ξ ^ j)
        = .err (.InvalidParameter "proof `f` matrix contained 0")) := by
  have hn := hp.n
  have hm := hp.m
  have hrec := reconstructF_eq params.n params.m hn (by omega) p.f ξ hs.f hs.row
  have hany : ((mat params.m params.n (fullF p.f ξ)).any fun row => decide ((0 : F) ∈ row)) = true ↔
      ¬ NonzeroF params.n params.m p.f ξ := by
    rw [List.any_eq_true]
    simp only [decide_eq_true_eq]
    have := mem_flatten_mat params.m params.n (fullF p.f ξ) 0
    rw [List.mem_flatten] at this
    rw [this]
    simp only [NonzeroF, not_forall, not_not]
    constructor
    · rintro ⟨j, hj, i, hi, h⟩; exact ⟨j, hj, i, hi, h⟩
    · rintro ⟨j, hj, i, hi, h⟩; exact ⟨j, hj, i, hi, h⟩
  refine ⟨?_, ?_, ?_⟩
  · intro hnz w trng' hw
    have hany' : ¬ ((mat params.m params.n (fullF p.f ξ)).any fun row => decide ((0 : F) ∈ row)) = true := by
      rw [hany, not_not]; exact hnz
    have hfirst : ((mat params.m params.n (fullF p.f ξ)).mapM fun row => (idx row 0 : Outcome ProofError F))
        = .ok ((List.range params.m).map fun j => fullF p.f ξ j 0) := by
      rw [mat]
      rw [mapM_ok _ _ (fun row => row.getD 0 0)]
      · rw [List.map_map]
        congr 1
        apply List.map_congr_left
        intro j _
        have : 0 < params.n := by omega
        simp [this]
      · intro row hrow
        obtain ⟨j, _, rfl⟩ := List.mem_map.1 hrow
        rw [idx_map_range _ _ 0 (by omega)]
        have : 0 < params.n := by omega
        simp [this]
    have hprod : ((List.range params.m).map fun j => fullF p.f ξ j 0).prod
        = ringCoeff params.n params.m (fullF p.f ξ) (0 - 1) := by
      rw [prod_map_range, ringCoeff]
      apply Finset.prod_congr rfl
      intro j _
      congr 1
      simp [grayDigit, digit]
    have hring := ringLoop_eq params.n params.m hn (by omega) (fullF p.f ξ) hnz w.w3 (params.n ^ params.m) 0 (by omega)
      acc.M (by rw [hacc.M, hM]) 0
    have hslice : (slice ((List.range (params.m + 1)).map fun j => ξ ^ j) 0 params.m : Outcome ProofError (List F))
        = .ok ((List.range params.m).map fun j => ξ ^ j) := by
      rw [slice, if_pos (by simp)]
      rw [List.drop_zero, ← List.map_take, List.take_range, Nat.min_eq_left (by omega)]
    refine ⟨?_, ?_, ?_, ?_⟩
    rotate_left
    · rw [processProof, hrec]
      simp only [Outcome.bind_ok, hany', if_false, hw, Bool.false_eq_true]
      rw [idx_map_range _ _ 1 (by omega), hslice]
      simp only [Outcome.bind_ok, hfirst]
      rw [grayIter_new _ _ hn (by omega) hp.N]
      simp only [Outcome.ofOption, Outcome.bind_ok]
      rw [batchInvert_mat _ _ _ hnz]
      simp only [Outcome.bind_ok]
      rw [chunksExact_mat _ _ (by omega)]
      simp only [Outcome.bind_ok]
      rw [gray_toList _ _ hn (by omega) hp.N, hprod, List.range_eq_range', hring]
      simp only [Outcome.bind_ok]
      rfl
    · have hX := hs.X
      have hY := hs.Y
      constructor
      · simp only [pointsOf, List.length_append, List.length_map, List.length_range, List.length_cons,
          List.length_nil, hacc.scalars, hX, hY]
        omega
      · rw [addZip_length, hacc.CG]
        rw [hacc.CG, hp.CG, List.length_map, mat_flatten_length]
      · rw [addZip_length, hacc.M]
        simp [hacc.M, hM]
    · have hX := hs.X
      have hY := hs.Y
      have hCGl : acc.CommitmentG.length = ((mat params.m params.n (fullF p.f ξ)).flatten.map
          fun x => w.w1 * x + w.w2 * x * (ξ ^ 1 - x)).length := by
        rw [hacc.CG, hp.CG, List.length_map, mat_flatten_length]
      have hMl : acc.M.length = ((List.range' 0 (params.n ^ params.m)).map
          fun k => w.w3 * ringCoeff params.n params.m (fullF p.f ξ) k).length := by
        simp [hacc.M, hM]
      simp only [Acc.value, pointsOf]
      rw [List.append_assoc, List.append_assoc, msmSum_append _ _ _ _ hacc.scalars,
        List.append_assoc ([p.A, p.B, p.C, p.D, J]),
        msmSum_append _ _ _ _ (by simp), msmSum_append _ _ _ _ (by simp [hX]),
        msmSum_addZip _ _ _ hCGl, msmSum_addZip _ _ _ hMl, mat_flatten_map, msmSum_flatten_mat _ _ _ _ hp.CG,
        List.map_map, List.map_map, ← List.range_eq_range',
        msmSum_map_range _ _ _ hX, msmSum_map_range _ _ _ hY, msmSum_map_range _ _ _ hM, sum_map_range]
      simp only [msmSum_cons, msmSum_nil, Function.comp_apply, pow_one, sum_smul_neg, add_zero]
      have e1 : ∑ j ∈ range params.m, ∑ i ∈ range params.n,
            (w.w1 * fullF p.f ξ j i + w.w2 * fullF p.f ξ j i * (ξ - fullF p.f ξ j i)) •
              params.CommitmentG.getD (j * params.n + i) 0
          = w.w1 • (∑ j ∈ range params.m, ∑ i ∈ range params.n,
              fullF p.f ξ j i • params.CommitmentG.getD (j * params.n + i) 0)
            + w.w2 • (∑ j ∈ range params.m, ∑ i ∈ range params.n,
              (fullF p.f ξ j i * (ξ - fullF p.f ξ j i)) • params.CommitmentG.getD (j * params.n + i) 0) := by
        simp only [Finset.smul_sum, ← Finset.sum_add_distrib]
        apply Finset.sum_congr rfl
        intro j _
        apply Finset.sum_congr rfl
        intro i _
        module
      have e3 : ∑ k ∈ range (params.n ^ params.m),
            (w.w3 * ringCoeff params.n params.m (fullF p.f ξ) k) • M.getD k 0
          = w.w3 • ∑ k ∈ range (params.n ^ params.m),
            ringCoeff params.n params.m (fullF p.f ξ) k • M.getD k 0 := by
        simp only [Finset.smul_sum, mul_smul]
      rw [e1, e3]
      simp only [weighted, E1, E2, E3, E4, commit]
      module
  · intro hnz hw
    have hany' : ¬ ((mat params.m params.n (fullF p.f ξ)).any fun row => decide ((0 : F) ∈ row)) = true := by
      rw [hany, not_not]; exact hnz
    rw [processProof, hrec]
    simp only [Outcome.bind_ok, hany', if_false, hw, Bool.false_eq_true]
  · intro hnz
    rw [processProof, hrec]
    simp only [Outcome.bind_ok, hany.2 hnz, if_true]

end Proof
end Triptych
