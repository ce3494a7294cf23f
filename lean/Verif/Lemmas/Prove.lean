import Verif.Lemmas.Built
import Verif.Spec.Prover

/-! # The prover computes the honest proof of the specification -/
set_option autoImplicit false
set_option linter.unusedSectionVars false
set_option linter.unusedVariables false
set_option linter.unusedSimpArgs false

namespace Triptych
open Finset Spec

variable {F P : Type} [Field F] [AddCommGroup P] [Module F P] [DecidableEq F] [DecidableEq P]

/-! ## Draws -/

theorem drawScalars_length (E : Env F P) (k : ℕ) (r : TRng) : (drawScalars E k r).1.length = k := by
  induction k generalizing r with
  | zero => rfl
  | succ k ih => simp [drawScalars, ih]

theorem drawMatrix_length (E : Env F P) (cols k : ℕ) (r : TRng) : (drawMatrix E cols k r).1.length = k := by
  induction k generalizing r with
  | zero => rfl
  | succ k ih => simp [drawMatrix, ih]

theorem drawMatrix_row (E : Env F P) (cols k : ℕ) (r : TRng) :
    ∀ row ∈ (drawMatrix E cols k r).1, row.length = cols := by
  induction k generalizing r with
  | zero => simp [drawMatrix]
  | succ k ih =>
    intro row hrow
    simp only [drawMatrix, List.mem_cons] at hrow
    rcases hrow with rfl | h
    · exact drawScalars_length E cols r
    · exact ih _ row h

theorem drawNonces_shape (E : Env F P) (n m : ℕ) (r : TRng) : NonceShape n m (Proof.drawNonces E n m r).1 :=
  ⟨drawMatrix_length E n m _, drawMatrix_row E n m _, drawScalars_length E m _⟩

/-! ## Matrices -/

theorem fixRow_mat (n m : ℕ) (hn : 1 ≤ n) (a : List (List F)) (h1 : a.length = m) (h2 : ∀ row ∈ a, row.length = n) :
    a.mapM fixRow = .ok (mat m n (maskA n a)) := by
  obtain ⟨k, rfl⟩ : ∃ k, n = k + 1 := ⟨n - 1, by omega⟩
  rw [mapM_ok a fixRow (fun row => -row.tail.sum :: row.tail)]
  · congr 1
    rw [mat]
    apply List.ext_getElem
    · simp [h1]
    · intro j hj1 hj2
      have hj : j < a.length := by simpa using hj1
      have hlen := h2 _ (List.getElem_mem hj)
      simp only [List.getElem_map, List.getElem_range]
      have hrow : a[j].tail = (List.range k).map fun i => (a.getD j []).getD (i + 1) 0 := by
        rw [list_eq_map_range a[j].tail 0 k (by simp [hlen])]
        apply List.map_congr_left
        intro i hi
        simp only [List.getD_eq_getElem?_getD, List.getElem?_tail]
        simp [hj]
      rw [hrow, sum_map_range, List.range_succ_eq_map, List.map_cons, List.map_map]
      rfl
  · intro row hrow
    have := h2 row hrow
    cases row with
    | nil => simp at this
    | cons x tl => rfl

theorem commitMatrix_mat (params : Params P) (hp : ParamsOK params) (g : ℕ → ℕ → F) (mask : F)
    (timing : OperationTiming) :
    params.commitMatrix (mat params.m params.n g) mask timing
      = .ok (commit params.n params.m params.CommitmentG params.CommitmentH g mask) := by
  have hany : ((mat params.m params.n g).any fun row => decide (row.length ≠ params.n)) = false := by
    rw [List.any_eq_false]
    intro row hrow
    rw [mat] at hrow
    obtain ⟨j, _, rfl⟩ := List.mem_map.1 hrow
    simp
  rw [Params.commitMatrix, if_neg (by simp [mat_length]), hany]
  simp only [Bool.false_eq_true, if_false]
  have h : (msm ((mat params.m params.n g).flatten ++ [mask]) (params.CommitmentG ++ [params.CommitmentH]) :
      Outcome ParameterError P) = .ok (commit params.n params.m params.CommitmentG params.CommitmentH g mask) := by
    have hlen : (mat params.m params.n g).flatten.length = params.CommitmentG.length := by
      rw [mat_flatten_length, hp.CG]
    rw [msm_ok _ _ (by rw [List.length_append, List.length_append, hlen]; rfl)]
    rw [msmSum_append _ _ _ _ hlen, msmSum_flatten_mat _ _ _ _ hp.CG, msmSum_singleton]
    rfl
  cases timing <;> exact h

theorem decomposeIndex_eq (n m l : ℕ) (hn : 2 ≤ n) (hm : 2 ≤ m) (hN : n ^ m ≤ u32Max) (hl : l < n ^ m)
    (timing : OperationTiming) : decomposeIndex n m l timing = .ok (grayCode n m l) := by
  cases timing
  · rw [decomposeIndex, decompose_eq n m l hn (by omega) hN hl]; rfl
  · rw [decomposeIndex, decomposeVartime_eq n m l hn (by omega) hN hl]; rfl

theorem delta_eq (x y : ℕ) (timing : OperationTiming) : (delta x y timing : F) = if x = y then 1 else 0 := by
  cases timing
  · rw [delta]
    by_cases h : x = y
    · simp [h]
    · have : (x == y) = false := by simpa using h
      simp [h, this]
  · rfl

theorem sigmaMatrix_eq (n m l : ℕ) (timing : OperationTiming) :
    (sigmaMatrix n m (grayCode n m l) timing : Outcome ProofError (List (List F))) = .ok (mat m n (selector n l)) := by
  rw [sigmaMatrix]
  apply mat_ok
  intro j hj i hi
  rw [idx_ok _ j (by rw [grayCode_length]; exact hj), Outcome.bind_ok, delta_eq]
  simp [grayCode, selector]

theorem aSigmaMatrix_eq (n m : ℕ) (a σ : ℕ → ℕ → F) :
    aSigmaMatrix n m (mat m n a) (mat m n σ) = .ok (mat m n fun j i => a j i * (1 - 2 * σ j i)) := by
  rw [aSigmaMatrix]
  apply mat_ok
  intro j hj i hi
  rw [idx2_mat _ _ _ _ _ hj hi, idx2_mat _ _ _ _ _ hj hi]
  rfl

theorem aSquareMatrix_eq (n m : ℕ) (a : ℕ → ℕ → F) :
    aSquareMatrix n m (mat m n a) = .ok (mat m n fun j i => -(a j i * a j i)) := by
  rw [aSquareMatrix]
  apply mat_ok
  intro j hj i hi
  rw [idx2_mat _ _ _ _ _ hj hi]
  simp only [Outcome.bind_ok, neg_mul]

/-! ## Polynomials -/

/-- The polynomial of the first `t` rows. -/
noncomputable def partialPoly (n : ℕ) (a σ : ℕ → ℕ → F) (k t : ℕ) : Polynomial F :=
  ∏ j ∈ range t, (Polynomial.C (a j (grayDigit n k j)) + Polynomial.C (σ j (grayDigit n k j)) * Polynomial.X)

theorem partialPoly_degree (n : ℕ) (a σ : ℕ → ℕ → F) (k t i : ℕ) (h : t < i) :
    (partialPoly n a σ k t).coeff i = 0 := by
  induction t generalizing i with
  | zero => rw [partialPoly, Finset.prod_range_zero, Polynomial.coeff_one, if_neg (by omega)]
  | succ t ih =>
    rw [partialPoly, Finset.prod_range_succ]
    change (partialPoly n a σ k t * _).coeff i = 0
    obtain ⟨i, rfl⟩ : ∃ i', i = i' + 1 := ⟨i - 1, by omega⟩
    rw [mul_add, Polynomial.coeff_add, Polynomial.coeff_mul_C, ← mul_assoc, Polynomial.coeff_mul_X,
      Polynomial.coeff_mul_C, ih (i + 1) (by omega), ih i (by omega)]
    ring

/-- The coefficient list of a polynomial. -/
noncomputable def coeffList (m : ℕ) (p : Polynomial F) : List F := (List.range (m + 1)).map p.coeff

theorem convolveStep_eq (n m : ℕ) (hn : 1 ≤ n) (a σ : ℕ → ℕ → F) (k j : ℕ) (hj : j < m) :
    convolveStep (mat m n a) (mat m n σ) (grayCode n m k) (coeffList m (partialPoly n a σ k j)) j
      = .ok (coeffList m (partialPoly n a σ k (j + 1))) := by
  have hd := grayDigit_lt n k j (by omega)
  rw [convolveStep, idx_ok _ j (by rw [grayCode_length]; exact hj), Outcome.bind_ok]
  have hg : (grayCode n m k)[j]'(by rw [grayCode_length]; exact hj) = grayDigit n k j := by simp [grayCode]
  rw [hg, idx2_mat _ _ _ _ _ hj hd, idx2_mat _ _ _ _ _ hj hd]
  have hrot : rotateRight1 (coeffList m (partialPoly n a σ k j))
      = .ok (0 :: (List.range m).map (partialPoly n a σ k j).coeff) := by
    rw [rotateRight1, coeffList, List.range_succ, List.map_append]
    simp only [List.map_cons, List.map_nil, List.getLast?_append, List.getLast?_singleton, Option.some_or,
      List.dropLast_concat]
    rw [partialPoly_degree n a σ k j m hj]
  rw [hrot]
  simp only [Outcome.bind_ok]
  congr 1
  apply List.ext_getElem
  · simp [coeffList]
  · intro i h1 h2
    have hi : i < m + 1 := by simpa [coeffList] using h2
    have hsplit : partialPoly n a σ k (j + 1) = partialPoly n a σ k j *
        (Polynomial.C (a j (grayDigit n k j)) + Polynomial.C (σ j (grayDigit n k j)) * Polynomial.X) := by
      rw [partialPoly, Finset.prod_range_succ]; rfl
    cases i with
    | zero =>
      simp only [coeffList, List.getElem_zipWith, List.getElem_map, List.getElem_range, List.getElem_cons_zero, hsplit]
      rw [mul_add, Polynomial.coeff_add, Polynomial.coeff_mul_C, ← mul_assoc, Polynomial.coeff_mul_X_zero]
      ring
    | succ i =>
      simp only [coeffList, List.getElem_zipWith, List.getElem_map, List.getElem_range, List.getElem_cons_succ, hsplit]
      rw [mul_add, Polynomial.coeff_add, Polynomial.coeff_mul_C, ← mul_assoc, Polynomial.coeff_mul_X,
        Polynomial.coeff_mul_C]
      ring

theorem coefficients_eq (n m : ℕ) (hn : 1 ≤ n) (hm : 1 ≤ m) (a σ : ℕ → ℕ → F) (k : ℕ) :
    coefficients m (mat m n a) (mat m n σ) (grayCode n m k) = .ok (coeffList m (ringPoly n m a σ k)) := by
  have hd := grayDigit_lt n k 0 (by omega)
  rw [coefficients]
  rw [idx_ok _ 0 (by rw [grayCode_length]; exact hm), Outcome.bind_ok]
  have hg : (grayCode n m k)[0]'(by rw [grayCode_length]; exact hm) = grayDigit n k 0 := by simp [grayCode]
  rw [hg, idx2_mat _ _ _ _ _ hm hd, idx2_mat _ _ _ _ _ hm hd]
  simp only [Outcome.bind_ok]
  rw [setIdx, if_pos (by simp), Outcome.bind_ok, setIdx, if_pos (by simp; omega), Outcome.bind_ok]
  have hstart : ((List.replicate (m + 1) (0 : F)).set 0 (a 0 (grayDigit n k 0))).set 1 (σ 0 (grayDigit n k 0))
      = coeffList m (partialPoly n a σ k 1) := by
    apply List.ext_getElem
    · simp [coeffList]
    · intro i h1 h2
      have hp1 : partialPoly n a σ k 1 =
          Polynomial.C (a 0 (grayDigit n k 0)) + Polynomial.C (σ 0 (grayDigit n k 0)) * Polynomial.X := by
        simp [partialPoly]
      simp only [coeffList, List.getElem_map, List.getElem_range, hp1, List.getElem_set, List.getElem_replicate]
      rcases i with _ | _ | i
      · simp
      · simp
      · simp [Polynomial.coeff_C, Polynomial.coeff_X]
  rw [hstart]
  have key : ∀ t, 1 + t ≤ m → ((List.range t).map (· + 1)).foldlM (convolveStep (mat m n a) (mat m n σ) (grayCode n m k))
      (coeffList m (partialPoly n a σ k 1)) = .ok (coeffList m (partialPoly n a σ k (t + 1))) := by
    intro t
    induction t with
    | zero => intro _; rfl
    | succ t ih =>
      intro ht
      rw [List.range_succ, List.map_append, List.foldlM_append, ih (by omega)]
      simp only [Outcome.bind_ok, List.map_cons, List.map_nil, List.foldlM_cons, List.foldlM_nil]
      rw [convolveStep_eq n m hn a σ k (t + 1) (by omega)]
      rfl
  rw [key (m - 1) (by omega), Nat.sub_add_cancel hm]
  rfl

theorem gray_set (n m k : ℕ) (hn : 2 ≤ n) (hm : 1 ≤ m) (hk : k < n ^ m) :
    (setIdx (grayCode n m (k - 1)) (grayItem n m k).1 (grayItem n m k).2.2 : Outcome ProofError (List ℕ))
      = .ok (grayCode n m k) := by
  cases k with
  | zero =>
    rw [setIdx, grayItem, if_pos (by rw [grayCode_length]; exact hm), grayCode_zero]
    congr 1
    apply List.ext_getElem
    · simp
    · intro i h1 h2; simp [List.getElem_set]
  | succ k =>
    obtain ⟨t, ht, hset, hfind⟩ := grayCode_succ n m k hn hk
    rw [grayItem, hfind, Nat.add_sub_cancel, Option.getD_some]
    simp only []
    rw [setIdx, if_pos ht, ← hset]

theorem coefficientsLoop_eq (n m : ℕ) (hn : 2 ≤ n) (hm : 1 ≤ m) (a σ : ℕ → ℕ → F) (len k : ℕ)
    (hk : k + len ≤ n ^ m) :
    coefficientsLoop m (mat m n a) (mat m n σ) ((List.range' k len).map (grayItem n m)) (grayCode n m (k - 1))
      = .ok ((List.range' k len).map fun k => coeffList m (ringPoly n m a σ k)) := by
  induction len generalizing k with
  | zero => rfl
  | succ len ih =>
    simp only [List.range'_succ, List.map_cons]
    rw [coefficientsLoop, gray_set n m k hn hm (by omega), Outcome.bind_ok, coefficients_eq n m (by omega) hm,
      Outcome.bind_ok]
    have := ih (k + 1) (by omega)
    rw [Nat.add_sub_cancel] at this
    rw [this]
    rfl

theorem polynomials_eq (n m : ℕ) (hn : 2 ≤ n) (hm : 1 ≤ m) (hN : n ^ m ≤ u32Max) (a σ : ℕ → ℕ → F) :
    polynomials n m (mat m n a) (mat m n σ)
      = .ok ((List.range (n ^ m)).map fun k => coeffList m (ringPoly n m a σ k)) := by
  rw [polynomials, grayIter_new n m hn hm hN]
  simp only [Outcome.ofOption, Outcome.bind_ok]
  rw [gray_toList n m hn hm hN, List.range_eq_range', ← grayCode_zero n m]
  exact coefficientsLoop_eq n m hn hm a σ (n ^ m) 0 (by omega)

/-! ## Responses -/

theorem responseMatrix_eq (n m : ℕ) (hn : 2 ≤ n) (hm : 1 ≤ m) (a σ : ℕ → ℕ → F) (ξ : F) :
    responseMatrix n m (mat m n a) (mat m n σ) ((List.range (m + 1)).map fun j => ξ ^ j)
      = .ok ((List.range m).map fun j => (List.range (n - 1)).map fun i => σ j (i + 1) * ξ + a j (i + 1)) := by
  rw [responseMatrix]
  apply mapM_range_ok
  intro j hj
  rw [mapM_ok _ _ (fun i => σ j i * ξ + a j i)]
  · rw [List.map_map]; rfl
  · intro i hi
    obtain ⟨i', hi', rfl⟩ := List.mem_map.1 hi
    rw [List.mem_range] at hi'
    rw [idx2_mat _ _ _ _ _ hj (by omega), idx2_mat _ _ _ _ _ hj (by omega), idx_map_range _ _ 1 (by omega)]
    simp

theorem responseZ_eq (m : ℕ) (r : F) (rho : List F) (hrho : rho.length = m) (ξ : F) :
    responseZ m r rho ((List.range (m + 1)).map fun j => ξ ^ j)
      = .ok (r * ξ ^ m - ∑ j ∈ range m, rho.getD j 0 * ξ ^ j) := by
  rw [responseZ, idx_map_range _ _ m (by omega), Outcome.bind_ok]
  congr 2
  conv_lhs => rw [list_eq_map_range rho 0 m hrho]
  rw [List.range_succ, List.map_append, ← List.append_nil (List.map (fun i => rho.getD i 0) (List.range m)),
    List.zipWith_append (by simp), List.zipWith_map, List.zipWith_self, List.sum_append, sum_map_range]
  simp

/-! ## Selecting the key -/

theorem selectKey_constant (M : List P) (l : ℕ) : selectKey M l .Constant = .ok (M.getD l 0) := by
  rw [selectKey]
  congr 1
  have key : ∀ (M : List P) (s : ℕ) (acc : P),
      (M.zipIdx s).foldl (fun acc x => bif x.2 == l then x.1 else acc) acc
        = if s ≤ l ∧ l < s + M.length then M.getD (l - s) 0 else acc := by
    intro M
    induction M with
    | nil => intro s acc; simp
    | cons x M ih =>
      intro s acc
      rw [List.zipIdx_cons, List.foldl_cons, ih]
      by_cases h : s = l
      · subst h
        rw [if_neg (by omega), if_pos (by simp)]
        simp
      · have hb : (s == l) = false := by simpa using h
        simp only [hb, cond_false, List.length_cons]
        by_cases h2 : s + 1 ≤ l ∧ l < s + 1 + M.length
        · rw [if_pos h2, if_pos (by omega)]
          obtain ⟨d, hd⟩ : ∃ d, l - s = d + 1 := ⟨l - s - 1, by omega⟩
          rw [hd, show l - (s + 1) = d by omega]
          simp
        · rw [if_neg h2, if_neg (by omega)]
  have := key M 0 0
  rw [this]
  by_cases h : l < M.length
  · rw [if_pos (by omega)]; rfl
  · rw [if_neg (by omega)]
    simp [Nat.le_of_not_lt h]

theorem selectKey_eq (M : List P) (l : ℕ) (hl : l < M.length) (timing : OperationTiming) :
    selectKey M l timing = .ok (M.getD l 0) := by
  cases timing
  · exact selectKey_constant M l
  · rw [selectKey, idx_ok M l hl]
    simp [hl]

namespace Proof

theorem checkWitness_ok_iff (w : Witness F P) (st : Statement P) (hl : w.params = st.params → w.l < st.inputSet.M.length)
    (timing : OperationTiming) :
    checkWitness w st timing = .ok () ↔ w.params = st.params ∧ Rel st.params.G st.params.U st.inputSet.M st.J w.l w.r := by
  rw [checkWitness]
  by_cases h : w.params = st.params
  · rw [if_neg (not_not.2 h), selectKey_eq _ _ (hl h)]
    have hg : st.inputSet.M.getD w.l 0 = st.inputSet.M[w.l]'(hl h) := by simp [hl h]
    have hq : st.inputSet.M[w.l]? = some (st.inputSet.M[w.l]'(hl h)) := by simp [hl h]
    simp only [Outcome.bind_ok, hg, Rel, hq, Option.some.injEq]
    by_cases h1 : st.inputSet.M[w.l]'(hl h) = w.r • st.params.G
    · rw [if_neg (not_not.2 h1)]
      by_cases h2 : w.r • st.J = st.params.U
      · rw [if_neg (not_not.2 h2)]; simp [h, h1, h2]
      · rw [if_pos h2]; simp [h2]
    · rw [if_pos h1]; simp [h1]
  · rw [if_pos h]; simp [h]

theorem checkWitness_cases (w : Witness F P) (st : Statement P)
    (hl : w.params = st.params → w.l < st.inputSet.M.length) (timing : OperationTiming) :
    checkWitness w st timing = .ok () ∨ ∃ msg, checkWitness w st timing = .err (.InvalidParameter msg) := by
  rw [checkWitness]
  by_cases h : w.params = st.params
  · rw [if_neg (not_not.2 h), selectKey_eq _ _ (hl h)]
    simp only [Outcome.bind_ok]
    split
    · right; exact ⟨_, rfl⟩
    · split
      · right; exact ⟨_, rfl⟩
      · left; rfl
  · rw [if_pos h]; right; exact ⟨_, rfl⟩

theorem checkWitness_timing (w : Witness F P) (st : Statement P)
    (hl : w.params = st.params → w.l < st.inputSet.M.length) (timing : OperationTiming) :
    checkWitness w st timing = checkWitness w st .Constant := by
  rw [checkWitness, checkWitness]
  by_cases h : w.params = st.params
  · rw [if_neg (not_not.2 h), if_neg (not_not.2 h), selectKey_eq _ _ (hl h), selectKey_eq _ _ (hl h)]
  · rw [if_pos h, if_pos h]

theorem computeX_eq (params : Params P) (M : List P) (N m : ℕ) (hM : M.length = N) (c : ℕ → Polynomial F)
    (rho : List F) (hrho : rho.length = m) (timing : OperationTiming) :
    computeX params M ((List.range N).map fun k => coeffList m (c k)) rho timing
      = .ok ((List.range m).map fun j => ∑ k ∈ range N, (c k).coeff j • M.getD k 0 + rho.getD j 0 • params.G) := by
  rw [computeX, mapM_ok _ _ (fun x => ∑ k ∈ range N, (c k).coeff x.2 • M.getD k 0 + x.1 • params.G)]
  · congr 1
    apply List.ext_getElem
    · simp [hrho]
    · intro j h1 h2
      have hj : j < rho.length := by simpa using h1
      simp [hj]
  · rintro ⟨x, j⟩ hx
    have hj : j < m := by
      have := List.mem_zipIdx hx
      omega
    have hrows : (((List.range N).map fun k => coeffList m (c k)).mapM fun row => (idx row j : Outcome ProofError F))
        = .ok ((List.range N).map fun k => (c k).coeff j) := by
      rw [mapM_ok _ _ (fun row => row.getD j 0)]
      · rw [List.map_map]
        congr 1
        apply List.map_congr_left
        intro k _
        have : j < m + 1 := by omega
        simp [coeffList, this]
      · intro row hrow
        obtain ⟨k, _, rfl⟩ := List.mem_map.1 hrow
        have : j < m + 1 := by omega
        rw [coeffList, idx_map_range _ _ _ this]
        simp [this]
    simp only [hrows, Outcome.bind_ok]
    have hmsm : (msm ((List.range N).map (fun k => (c k).coeff j) ++ [x]) (M ++ [params.G]) : Outcome ProofError P)
        = .ok (∑ k ∈ range N, (c k).coeff j • M.getD k 0 + x • params.G) := by
      rw [msm_ok _ _ (by simp [hM]), msmSum_append _ _ _ _ (by simp [hM]), msmSum_map_range _ _ _ hM, msmSum_singleton]
    cases timing <;> exact hmsm

theorem commitPhase_eq (st : Statement P) (hst : StatementOK st) (l : ℕ) (hl : l < st.params.n ^ st.params.m)
    (timing : OperationTiming) (nn : Nonces F) (hnn : NonceShape st.params.n st.params.m nn) (r ξ : F) :
    ∃ c, commitPhase l st timing nn = .ok c ∧
      c.A = (honestProof st.params st.inputSet.M st.J l r nn ξ).A ∧
      c.B = (honestProof st.params st.inputSet.M st.J l r nn ξ).B ∧
      c.C = (honestProof st.params st.inputSet.M st.J l r nn ξ).C ∧
      c.D = (honestProof st.params st.inputSet.M st.J l r nn ξ).D ∧
      c.X = (honestProof st.params st.inputSet.M st.J l r nn ξ).X ∧
      c.Y = (honestProof st.params st.inputSet.M st.J l r nn ξ).Y ∧
      c.a = mat st.params.m st.params.n (maskA st.params.n nn.a) ∧
      c.sigma = mat st.params.m st.params.n (selector st.params.n l) := by
  have hp := hst.params
  have hn := hp.n
  have hm := hp.m
  rw [commitPhase]
  simp only []
  rw [fixRow_mat st.params.n st.params.m (by omega) nn.a hnn.a hnn.row]
  simp only [Outcome.bind_ok, commitMatrix_mat _ hp, Outcome.mapErr]
  rw [decomposeIndex_eq _ _ _ hn hm hp.N hl]
  simp only [Outcome.bind_ok, sigmaMatrix_eq, commitMatrix_mat _ hp, aSigmaMatrix_eq, aSquareMatrix_eq]
  rw [polynomials_eq _ _ hn (by omega) hp.N, Outcome.bind_ok,
    computeX_eq _ _ _ _ hst.length _ _ hnn.rho, Outcome.bind_ok]
  refine ⟨_, rfl, rfl, rfl, rfl, rfl, rfl, ?_, rfl, rfl⟩
  simp only [honestProof]
  conv_lhs => rw [list_eq_map_range nn.rho 0 _ hnn.rho]
  rw [List.map_map]
  rfl

theorem respondPhase_eq (st : Statement P) (hst : StatementOK st) (l : ℕ) (r : F) (nn : Nonces F)
    (hnn : NonceShape st.params.n st.params.m nn) (ξ ξ' : F) (c : Committed F P)
    (hA : c.A = (honestProof st.params st.inputSet.M st.J l r nn ξ').A)
    (hB : c.B = (honestProof st.params st.inputSet.M st.J l r nn ξ').B)
    (hC : c.C = (honestProof st.params st.inputSet.M st.J l r nn ξ').C)
    (hD : c.D = (honestProof st.params st.inputSet.M st.J l r nn ξ').D)
    (hX : c.X = (honestProof st.params st.inputSet.M st.J l r nn ξ').X)
    (hY : c.Y = (honestProof st.params st.inputSet.M st.J l r nn ξ').Y)
    (ha : c.a = mat st.params.m st.params.n (maskA st.params.n nn.a))
    (hs : c.sigma = mat st.params.m st.params.n (selector st.params.n l)) :
    respondPhase r st.params nn c ((List.range (st.params.m + 1)).map fun j => ξ ^ j)
      = .ok (honestProof st.params st.inputSet.M st.J l r nn ξ) := by
  have hn := hst.params.n
  have hm := hst.params.m
  rw [respondPhase, ha, hs, responseMatrix_eq _ _ hn (by omega), Outcome.bind_ok, idx_map_range _ _ 1 (by omega),
    Outcome.bind_ok, responseZ_eq _ _ _ hnn.rho, Outcome.bind_ok, hA, hB, hC, hD, hX, hY]
  simp only [pow_one]
  rfl

end Proof
end Triptych
