import Verif.Lemmas.Basic
import Verif.Lemmas.GraySum
import Verif.Spec.Equations
import Verif.Spec.Transcripts

/-! # Verifier building blocks shared by both proof types -/
set_option autoImplicit false
set_option linter.unusedSectionVars false
set_option linter.unusedVariables false
set_option linter.unusedSimpArgs false

namespace Triptych
open Finset Spec

variable {F P : Type} [Field F] [AddCommGroup P] [Module F P] [DecidableEq F] [DecidableEq P]

/-! ## Challenge powers -/

theorem xiPowersLoop_ok (ξ : F) (hξ : ξ ≠ 0) (k : ℕ) (a : ℕ) :
    xiPowersLoop ξ k (ξ ^ a) = .ok ((List.range' a k).map fun j => ξ ^ j) := by
  induction k generalizing a with
  | zero => rfl
  | succ k ih =>
    have h : ξ ^ a ≠ 0 := pow_ne_zero _ hξ
    rw [xiPowersLoop, if_neg h, ← pow_succ, ih (a + 1)]
    rfl

theorem xiPowersLoop_zero (k : ℕ) : xiPowersLoop (0 : F) (k + 2) 1 = .err .InvalidChallenge := by
  simp [xiPowersLoop]

theorem xiPowersLoop_eq (ξ : F) (m : ℕ) (hm : 1 ≤ m) :
    xiPowersLoop ξ (m + 1) 1 =
      if ξ = 0 then .err .InvalidChallenge else .ok ((List.range (m + 1)).map fun j => ξ ^ j) := by
  split
  · rename_i h
    subst h
    obtain ⟨k, rfl⟩ : ∃ k, m = k + 1 := ⟨m - 1, by omega⟩
    exact xiPowersLoop_zero k
  · rename_i h
    have := xiPowersLoop_ok ξ h (m + 1) 0
    rw [pow_zero] at this
    rw [this, List.range_eq_range']

/-! ## Response matrix -/

omit [DecidableEq F] in
theorem reconstructF_eq (n m : ℕ) (hn : 2 ≤ n) (hm : 1 ≤ m) (f : List (List F)) (ξ : F) (hf : f.length = m)
    (hrow : ∀ row ∈ f, row.length = n - 1) :
    reconstructF m f ((List.range (m + 1)).map fun j => ξ ^ j) = .ok (mat m n (fullF f ξ)) := by
  rw [reconstructF, mat]
  apply mapM_range_ok
  intro j hj
  rw [idx_map_range _ _ 1 (by omega), idx_ok f j (by omega)]
  simp only [Outcome.bind_ok, pow_one]
  congr 1
  obtain ⟨k, rfl⟩ : ∃ k, n = k + 1 := ⟨n - 1, by omega⟩
  rw [List.range_succ_eq_map, List.map_cons]
  have hjj : f.getD j [] = f[j] := by simp [hf, hj]
  congr 1
  · simp [fullF, hf, hj]
  · rw [List.map_map]
    conv_lhs => rw [list_eq_map_range f[j] 0 k (by simpa using hrow _ (List.getElem_mem (by omega)))]
    apply List.map_congr_left
    intro i _
    simp [fullF, hf, hj]

omit [DecidableEq F] in
theorem fullF_row_sum (n m : ℕ) (hn : 1 ≤ n) (f : List (List F)) (ξ : F) (hf : f.length = m)
    (hrow : ∀ row ∈ f, row.length = n - 1) (j : ℕ) (hj : j < m) : ∑ i ∈ range n, fullF f ξ j i = ξ := by
  obtain ⟨k, rfl⟩ : ∃ k, n = k + 1 := ⟨n - 1, by omega⟩
  rw [Finset.sum_range_succ']
  have hjj : f.getD j [] = f[j] := by simp [hf, hj]
  have hsum : f[j].sum = ∑ i ∈ range k, f[j].getD i 0 := by
    conv_lhs => rw [list_eq_map_range f[j] 0 k (by simpa using hrow _ (List.getElem_mem (by omega)))]
    rw [sum_map_range]
  simp only [fullF, hjj, hsum]
  ring

omit [DecidableEq F] in
/-- The ring coefficients always sum to `ξ^m`. -/
theorem sum_ringCoeff (n m : ℕ) (hn : 2 ≤ n) (f : ℕ → ℕ → F) (ξ : F)
    (hf : ∀ j < m, ∑ i ∈ range n, f j i = ξ) : ∑ k ∈ range (n ^ m), ringCoeff n m f k = ξ ^ m := by
  simp only [ringCoeff]
  rw [sum_gray_prod n m hn f, Finset.prod_congr rfl (fun j hj => hf j (Finset.mem_range.1 hj))]
  simp

/-! ## Gray-code product updates -/

omit [DecidableEq F] in
/-- Product before the `k`-th ring position is processed. -/
theorem ringCoeff_step (n m : ℕ) (hn : 2 ≤ n) (hm : 1 ≤ m) (f : ℕ → ℕ → F) (k : ℕ) (hk : k < n ^ m)
    (hf : ∀ j < m, ∀ i < n, f j i ≠ 0) :
    ∃ t < m, ∃ a < n, ∃ b < n, grayItem n m k = (t, a, b) ∧
      ringCoeff n m f (k - 1) * ((f t a)⁻¹ * f t b) = ringCoeff n m f k := by
  cases k with
  | zero =>
    refine ⟨0, by omega, 0, by omega, 0, by omega, rfl, ?_⟩
    rw [inv_mul_cancel₀ (hf 0 (by omega) 0 (by omega)), mul_one]
  | succ k =>
    obtain ⟨t, ht, hset, hfind⟩ := grayCode_succ n m k hn hk
    have htm : t < m := by rwa [grayCode_length] at ht
    have hget : (grayCode n m k)[t] = grayDigit n k t := by simp [grayCode]
    have hdig : ∀ j, j < m → grayDigit n (k + 1) j
        = if t = j then (grayDigit n k t + 1) % n else grayDigit n k j := by
      intro j hj
      have h1 : (grayCode n m (k + 1))[j]'(by rw [grayCode_length]; exact hj) = grayDigit n (k + 1) j := by
        simp [grayCode]
      rw [← h1]
      simp only [hset, List.getElem_set]
      simp [grayCode]
    refine ⟨t, htm, grayDigit n k t, grayDigit_lt n k t (by omega), (grayDigit n k t + 1) % n,
      Nat.mod_lt _ (by omega), ?_, ?_⟩
    · simp [grayItem, hfind, hget]
    · simp only [ringCoeff, Nat.add_sub_cancel]
      have hmem : t ∈ range m := Finset.mem_range.2 htm
      rw [← Finset.mul_prod_erase _ _ hmem, ← Finset.mul_prod_erase (range m) (fun j => f j (grayDigit n (k + 1) j)) hmem]
      have hne := hf t htm (grayDigit n k t) (grayDigit_lt n k t (by omega))
      rw [hdig t htm, if_pos rfl]
      rw [Finset.prod_congr rfl (g := fun j => f j (grayDigit n k j)) (s₁ := (range m).erase t)
        (f := fun j => f j (grayDigit n (k + 1) j))]
      · field_simp
      · intro j hj
        rw [Finset.mem_erase, Finset.mem_range] at hj
        rw [hdig j hj.2, if_neg (Ne.symm hj.1)]

/-! ## `addZip`, inversion -/

omit [DecidableEq F] in
theorem addZip_length (a b : List F) (h : a.length = b.length) : (addZip a b).length = a.length := by
  induction a generalizing b with
  | nil => cases b <;> simp [addZip]
  | cons x a ih =>
    cases b with
    | nil => simp [addZip]
    | cons y b => simp [addZip, ih b (by simpa using h)]

omit [DecidableEq F] [DecidableEq P] in
theorem msmSum_addZip (a b : List F) (p : List P) (h : a.length = b.length) :
    msmSum (addZip a b) p = msmSum a p + msmSum b p := by
  induction a generalizing b p with
  | nil =>
    cases b with
    | nil => simp [addZip]
    | cons y b => simp at h
  | cons x a ih =>
    cases b with
    | nil => simp at h
    | cons y b =>
      cases p with
      | nil => simp [msmSum]
      | cons q p =>
        simp only [addZip, msmSum_cons, ih b p (by simpa using h), add_smul]
        abel

theorem chunksExact_mat {ε α : Type} (n m : ℕ) (hn : 1 ≤ n) (g : ℕ → ℕ → α) :
    (chunksExact n (mat m n g).flatten : Outcome ε (List (List α))) = .ok (mat m n g) := by
  have h0 : n ≠ 0 := by omega
  rw [chunksExact, if_neg h0, mat_flatten_length, Nat.mul_div_cancel _ (by omega)]
  congr 1
  have key : ∀ m (g : ℕ → ℕ → α), (List.range m).map (fun i => ((mat m n g).flatten.drop (i * n)).take n)
      = mat m n g := by
    intro m
    induction m with
    | zero => intro g; rfl
    | succ m ih =>
      intro g
      have hmat : mat (m + 1) n g = (List.range n).map (g 0) :: mat m n fun j i => g (j + 1) i := by
        rw [mat, mat, List.range_succ_eq_map]
        simp [Function.comp_def]
      rw [hmat, List.range_succ_eq_map, List.map_cons, List.map_map]
      congr 1
      · simp
      · refine Eq.trans ?_ (ih fun j i => g (j + 1) i)
        apply List.map_congr_left
        intro i _
        simp only [Function.comp_apply, List.flatten_cons, Nat.succ_mul]
        rw [Nat.add_comm (i * n) n, ← List.drop_drop]
        simp
  exact key m g

theorem batchInvert_mat (n m : ℕ) (g : ℕ → ℕ → F) (h : ∀ j < m, ∀ i < n, g j i ≠ 0) :
    batchInvert (mat m n g).flatten = .ok (mat m n fun j i => (g j i)⁻¹).flatten := by
  rw [batchInvert, if_neg, mat_flatten_map]
  rw [mem_flatten_mat]
  rintro ⟨j, hj, i, hi, h0⟩
  exact h j hj i hi h0

end Triptych
