import Verif.Lemmas.Prove
import Verif.Lemmas.Parallel.Built
import Verif.Spec.Parallel.Prover

/-! # The parallel prover computes the honest proof of the specification -/
set_option autoImplicit false
set_option linter.unusedSectionVars false
set_option linter.unusedVariables false
set_option linter.unusedSimpArgs false

namespace Triptych.Parallel
open Finset
open Triptych.Parallel.Spec
open Triptych.Spec (grayDigit digit commit fullF ringCoeff NonzeroF maskA selector ringPoly versionBytes points scalars
  weightTranscript weightScalar queryPoint drawn)

variable {F P : Type} [Field F] [AddCommGroup P] [Module F P] [DecidableEq F] [DecidableEq P]

theorem drawNonces_shape (E : Env F P) (n m : ℕ) (r : TRng) : NonceShape n m (Proof.drawNonces E n m r).1 :=
  ⟨drawMatrix_length E n m _, drawMatrix_row E n m _, drawScalars_length E m _, drawScalars_length E m _⟩

theorem commitMatrix_mat (params : Params P) (hp : ParamsOK params) (g : ℕ → ℕ → F) (mask : F)
    (timing : OperationTiming) :
    params.commitMatrix (mat params.m params.n g) mask timing
      = .ok (commit params.n params.m params.CommitmentG params.CommitmentH g mask) := by
  have hany : ((mat params.m params.n g).any fun row => decide (row.length ≠ params.n)) = false := by
    rw [List.any_eq_false]
    intro row hrow
    rw [mat] at hrow
    obtain ⟨j, _, rfl⟩ := List.mem_map.1 hrow
    simp
  rw [Params.commitMatrix, if_neg (by simp [mat_length]), hany]
  simp only [Bool.false_eq_true, if_false]
  have h : (msm ((mat params.m params.n g).flatten ++ [mask]) (params.CommitmentG ++ [params.CommitmentH]) :
      Outcome ParameterError P) = .ok (commit params.n params.m params.CommitmentG params.CommitmentH g mask) := by
    have hlen : (mat params.m params.n g).flatten.length = params.CommitmentG.length := by
      rw [mat_flatten_length, hp.CG]
    rw [msm_ok _ _ (by rw [List.length_append, List.length_append, hlen]; rfl)]
    rw [msmSum_append _ _ _ _ hlen, msmSum_flatten_mat _ _ _ _ hp.CG, msmSum_singleton]
    rfl
  cases timing <;> exact h

/-! ## Selecting the keys -/

theorem selectFold {α : Type} (l : ℕ) (d : α) (L : List α) (s : ℕ) (acc : α) :
    (L.zipIdx s).foldl (fun acc x => bif x.2 == l then x.1 else acc) acc
      = if s ≤ l ∧ l < s + L.length then L.getD (l - s) d else acc := by
  induction L generalizing s acc with
  | nil => simp
  | cons x L ih =>
    rw [List.zipIdx_cons, List.foldl_cons, ih]
    by_cases h : s = l
    · subst h
      rw [if_neg (by omega), if_pos (by simp)]
      simp
    · have hb : (s == l) = false := by simpa using h
      simp only [hb, cond_false, List.length_cons]
      by_cases h2 : s + 1 ≤ l ∧ l < s + 1 + L.length
      · rw [if_pos h2, if_pos (by omega)]
        obtain ⟨e, he⟩ : ∃ e, l - s = e + 1 := ⟨l - s - 1, by omega⟩
        rw [he, show l - (s + 1) = e by omega]
        simp
      · rw [if_neg h2, if_neg (by omega)]

theorem selectKeys_eq (M M1 : List P) (l : ℕ) (hl : l < M.length) (hl1 : l < M1.length) (timing : OperationTiming) :
    selectKeys M M1 l timing = .ok (M.getD l 0, M1.getD l 0) := by
  cases timing
  · rw [selectKeys]
    congr 1
    have h : l < (M.zip M1).length := by simp [hl, hl1]
    have := selectFold l ((0 : P), (0 : P)) (M.zip M1) 0 (0, 0)
    rw [if_pos (by omega)] at this
    refine Eq.trans this ?_
    have h2 : (M.zip M1)[l]? = some (M[l], M1[l]) := by simp [List.getElem?_eq_getElem, hl, hl1]
    rw [Nat.sub_zero, List.getD_eq_getElem?_getD, h2]
    simp [hl, hl1]
  · rw [selectKeys, idx_ok M l hl, idx_ok M1 l hl1]
    simp [hl, hl1]

namespace Proof

theorem checkWitness_ok_iff (w : Witness F P) (st : Statement P)
    (hl : w.params = st.params → w.l < st.inputSet.M.length ∧ w.l < st.inputSet.M1.length) (timing : OperationTiming) :
    checkWitness w st timing = .ok () ↔ w.params = st.params ∧
      Rel st.params.G st.params.G1 st.params.U st.inputSet.M st.inputSet.M1 st.offset st.J w.l w.r w.r1 := by
  rw [checkWitness]
  by_cases h : w.params = st.params
  · obtain ⟨hl, hl1⟩ := hl h
    rw [if_neg (not_not.2 h), selectKeys_eq _ _ _ hl hl1]
    have hg : st.inputSet.M.getD w.l 0 = st.inputSet.M[w.l]'hl := by simp [hl]
    have hg1 : st.inputSet.M1.getD w.l 0 = st.inputSet.M1[w.l]'hl1 := by simp [hl1]
    have hq : st.inputSet.M[w.l]? = some (st.inputSet.M[w.l]'hl) := by simp [hl]
    have hq1 : st.inputSet.M1[w.l]? = some (st.inputSet.M1[w.l]'hl1) := by simp [hl1]
    simp only [Outcome.bind_ok, hg, hg1, Rel, hq, hq1, Option.some.injEq]
    by_cases h1 : st.inputSet.M[w.l]'hl = w.r • st.params.G
    · rw [if_neg (not_not.2 h1)]
      by_cases h3 : st.inputSet.M1[w.l]'hl1 - st.offset = w.r1 • st.params.G1
      · rw [if_neg (not_not.2 h3)]
        rw [sub_eq_iff_eq_add] at h3
        by_cases h2 : w.r • st.J = st.params.U
        · rw [if_neg (not_not.2 h2)]; simp [h, h1, h2, h3]
        · rw [if_pos h2]; simp [h2]
      · rw [if_pos h3]
        rw [sub_eq_iff_eq_add] at h3
        simp [h3]
    · rw [if_pos h1]; simp [h1]
  · rw [if_pos h]; simp [h]

theorem checkWitness_cases (w : Witness F P) (st : Statement P)
    (hl : w.params = st.params → w.l < st.inputSet.M.length ∧ w.l < st.inputSet.M1.length) (timing : OperationTiming) :
    checkWitness w st timing = .ok () ∨ ∃ msg, checkWitness w st timing = .err (.InvalidParameter msg) := by
  rw [checkWitness]
  by_cases h : w.params = st.params
  · rw [if_neg (not_not.2 h), selectKeys_eq _ _ _ (hl h).1 (hl h).2]
    simp only [Outcome.bind_ok]
    split
    · right; exact ⟨_, rfl⟩
    · split
      · right; exact ⟨_, rfl⟩
      · split
        · right; exact ⟨_, rfl⟩
        · left; rfl
  · rw [if_pos h]; right; exact ⟨_, rfl⟩

theorem checkWitness_timing (w : Witness F P) (st : Statement P)
    (hl : w.params = st.params → w.l < st.inputSet.M.length ∧ w.l < st.inputSet.M1.length) (timing : OperationTiming) :
    checkWitness w st timing = checkWitness w st .Constant := by
  rw [checkWitness, checkWitness]
  by_cases h : w.params = st.params
  · rw [if_neg (not_not.2 h), if_neg (not_not.2 h), selectKeys_eq _ _ _ (hl h).1 (hl h).2,
      selectKeys_eq _ _ _ (hl h).1 (hl h).2]
  · rw [if_pos h, if_pos h]

theorem rows_eq (N m j : ℕ) (hj : j < m) (c : ℕ → Polynomial F) :
    (((List.range N).map fun k => coeffList m (c k)).mapM fun row => (idx row j : Outcome ProofError F))
      = .ok ((List.range N).map fun k => (c k).coeff j) := by
  rw [mapM_ok _ _ (fun row => row.getD j 0)]
  · rw [List.map_map]
    congr 1
    apply List.map_congr_left
    intro k _
    have : j < m + 1 := by omega
    simp [coeffList, this]
  · intro row hrow
    obtain ⟨k, _, rfl⟩ := List.mem_map.1 hrow
    have : j < m + 1 := by omega
    rw [coeffList, idx_map_range _ _ _ this]
    simp [this]

theorem computeX_eq (params : Params P) (M : List P) (N m : ℕ) (hM : M.length = N) (c : ℕ → Polynomial F)
    (rho : List F) (hrho : rho.length = m) (timing : OperationTiming) :
    computeX params M ((List.range N).map fun k => coeffList m (c k)) rho timing
      = .ok ((List.range m).map fun j => ∑ k ∈ range N, (c k).coeff j • M.getD k 0 + rho.getD j 0 • params.G) := by
  rw [computeX, mapM_ok _ _ (fun x => ∑ k ∈ range N, (c k).coeff x.2 • M.getD k 0 + x.1 • params.G)]
  · congr 1
    apply List.ext_getElem
    · simp [hrho]
    · intro j h1 h2
      have hj : j < rho.length := by simpa using h1
      simp [hj]
  · rintro ⟨x, j⟩ hx
    have hj : j < m := by
      have := List.mem_zipIdx hx
      omega
    simp only [rows_eq N m j hj, Outcome.bind_ok]
    have hmsm : (msm ((List.range N).map (fun k => (c k).coeff j) ++ [x]) (M ++ [params.G]) : Outcome ProofError P)
        = .ok (∑ k ∈ range N, (c k).coeff j • M.getD k 0 + x • params.G) := by
      rw [msm_ok _ _ (by simp [hM]), msmSum_append _ _ _ _ (by simp [hM]), msmSum_map_range _ _ _ hM, msmSum_singleton]
    cases timing <;> exact hmsm

theorem computeX1_eq (params : Params P) (M1 : List P) (offset : P) (N m : ℕ) (hM : M1.length = N)
    (c : ℕ → Polynomial F) (rho : List F) (hrho : rho.length = m) (timing : OperationTiming) :
    computeX1 params M1 offset ((List.range N).map fun k => coeffList m (c k)) rho timing
      = .ok ((List.range m).map fun j =>
          ∑ k ∈ range N, (c k).coeff j • (M1.getD k 0 - offset) + rho.getD j 0 • params.G1) := by
  rw [computeX1, mapM_ok _ _ (fun x => ∑ k ∈ range N, (c k).coeff x.2 • (M1.getD k 0 - offset) + x.1 • params.G1)]
  · congr 1
    apply List.ext_getElem
    · simp [hrho]
    · intro j h1 h2
      have hj : j < rho.length := by simpa using h1
      simp [hj]
  · rintro ⟨x, j⟩ hx
    have hj : j < m := by
      have := List.mem_zipIdx hx
      omega
    simp only [rows_eq N m j hj, Outcome.bind_ok]
    have hmsm : (msm ((List.range N).map (fun k => (c k).coeff j) ++ [x] ++
          [((List.range N).map (fun k => (c k).coeff j)).sum]) (M1 ++ [params.G1] ++ [-offset]) : Outcome ProofError P)
        = .ok (∑ k ∈ range N, (c k).coeff j • (M1.getD k 0 - offset) + x • params.G1) := by
      rw [msm_ok _ _ (by simp [hM]), msmSum_append _ _ _ _ (by simp [hM]), msmSum_append _ _ _ _ (by simp [hM]),
        msmSum_map_range _ _ _ hM, msmSum_singleton, msmSum_singleton, sum_map_range]
      simp only [smul_sub, Finset.sum_sub_distrib, smul_neg, Finset.sum_smul]
      congr 1
      abel
    cases timing <;> exact hmsm

theorem commitPhase_eq (st : Statement P) (hst : StatementOK st) (l : ℕ) (hl : l < st.params.n ^ st.params.m)
    (timing : OperationTiming) (nn : Nonces F) (hnn : NonceShape st.params.n st.params.m nn) (r r1 ξ : F) :
    ∃ c, commitPhase l st timing nn = .ok c ∧
      c.A = (honestProof st.params st.inputSet.M st.inputSet.M1 st.offset st.J l r r1 nn ξ).A ∧
      c.B = (honestProof st.params st.inputSet.M st.inputSet.M1 st.offset st.J l r r1 nn ξ).B ∧
      c.C = (honestProof st.params st.inputSet.M st.inputSet.M1 st.offset st.J l r r1 nn ξ).C ∧
      c.D = (honestProof st.params st.inputSet.M st.inputSet.M1 st.offset st.J l r r1 nn ξ).D ∧
      c.X = (honestProof st.params st.inputSet.M st.inputSet.M1 st.offset st.J l r r1 nn ξ).X ∧
      c.X1 = (honestProof st.params st.inputSet.M st.inputSet.M1 st.offset st.J l r r1 nn ξ).X1 ∧
      c.Y = (honestProof st.params st.inputSet.M st.inputSet.M1 st.offset st.J l r r1 nn ξ).Y ∧
      c.a = mat st.params.m st.params.n (maskA st.params.n nn.a) ∧
      c.sigma = mat st.params.m st.params.n (selector st.params.n l) := by
  have hp := hst.params
  have hn := hp.n
  have hm := hp.m
  rw [commitPhase]
  simp only []
  rw [fixRow_mat st.params.n st.params.m (by omega) nn.a hnn.a hnn.row]
  simp only [Outcome.bind_ok, commitMatrix_mat _ hp, Outcome.mapErr]
  rw [decomposeIndex_eq _ _ _ hn hm hp.N hl]
  simp only [Outcome.bind_ok, sigmaMatrix_eq, commitMatrix_mat _ hp, aSigmaMatrix_eq, aSquareMatrix_eq]
  rw [polynomials_eq _ _ hn (by omega) hp.N, Outcome.bind_ok,
    computeX_eq _ _ _ _ hst.length _ _ hnn.rho, Outcome.bind_ok,
    computeX1_eq _ _ _ _ _ hst.length1 _ _ hnn.rho1, Outcome.bind_ok]
  refine ⟨_, rfl, rfl, rfl, rfl, rfl, rfl, rfl, ?_, rfl, rfl⟩
  simp only [honestProof]
  conv_lhs => rw [list_eq_map_range nn.rho 0 _ hnn.rho]
  rw [List.map_map]
  rfl

theorem respondPhase_eq (st : Statement P) (hst : StatementOK st) (l : ℕ) (r r1 : F) (nn : Nonces F)
    (hnn : NonceShape st.params.n st.params.m nn) (ξ ξ' : F) (c : Committed F P)
    (hA : c.A = (honestProof st.params st.inputSet.M st.inputSet.M1 st.offset st.J l r r1 nn ξ').A)
    (hB : c.B = (honestProof st.params st.inputSet.M st.inputSet.M1 st.offset st.J l r r1 nn ξ').B)
    (hC : c.C = (honestProof st.params st.inputSet.M st.inputSet.M1 st.offset st.J l r r1 nn ξ').C)
    (hD : c.D = (honestProof st.params st.inputSet.M st.inputSet.M1 st.offset st.J l r r1 nn ξ').D)
    (hX : c.X = (honestProof st.params st.inputSet.M st.inputSet.M1 st.offset st.J l r r1 nn ξ').X)
    (hX1 : c.X1 = (honestProof st.params st.inputSet.M st.inputSet.M1 st.offset st.J l r r1 nn ξ').X1)
    (hY : c.Y = (honestProof st.params st.inputSet.M st.inputSet.M1 st.offset st.J l r r1 nn ξ').Y)
    (ha : c.a = mat st.params.m st.params.n (maskA st.params.n nn.a))
    (hs : c.sigma = mat st.params.m st.params.n (selector st.params.n l)) :
    respondPhase r r1 st.params nn c ((List.range (st.params.m + 1)).map fun j => ξ ^ j)
      = .ok (honestProof st.params st.inputSet.M st.inputSet.M1 st.offset st.J l r r1 nn ξ) := by
  have hn := hst.params.n
  have hm := hst.params.m
  rw [respondPhase, ha, hs, responseMatrix_eq _ _ hn (by omega), Outcome.bind_ok, idx_map_range _ _ 1 (by omega),
    Outcome.bind_ok, responseZ_eq _ _ _ hnn.rho, Outcome.bind_ok, responseZ_eq _ _ _ hnn.rho1, Outcome.bind_ok,
    hA, hB, hC, hD, hX, hX1, hY]
  simp only [pow_one]
  rfl

end Proof
end Triptych.Parallel
