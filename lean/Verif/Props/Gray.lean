import Verif.Lemmas.GraySum
import Verif.Toy

/-! # Properties of the enumeration of ring positions: C39 -/
set_option autoImplicit false
set_option linter.unusedVariables false

namespace Triptych
open Spec

/-- C39: on accepted dimensions the decomposition of every position succeeds, has `m` digits below `n`, and is the same in
both versions, namely the base-`n` Gray code. -/
theorem C39_decompose (n m : ℕ) (hn : 2 ≤ n) (hm : 1 ≤ m) (hN : n ^ m ≤ u32Max) (k : ℕ) (hk : k < n ^ m) :
    ∃ ds, GrayIterator.decompose n m k = some ds ∧ GrayIterator.decomposeVartime n m k = some ds ∧ ds = grayCode n m k ∧
      ds.length = m ∧ ∀ d ∈ ds, d < n := by
  refine ⟨grayCode n m k, decompose_eq n m k hn hm hN hk, decomposeVartime_eq n m k hn hm hN hk, rfl, grayCode_length n m k, ?_⟩
  intro d hd
  obtain ⟨j, -, rfl⟩ := List.mem_map.1 hd
  exact grayDigit_lt n k j (by omega)

/-- C39: every vector of `m` digits below `n` is the decomposition of exactly one position. -/
theorem C39_bijective (n m : ℕ) (hn : 2 ≤ n) (hm : 1 ≤ m) (hN : n ^ m ≤ u32Max) (ds : List ℕ) (hl : ds.length = m)
    (hd : ∀ d ∈ ds, d < n) :
    ∃ k < n ^ m, GrayIterator.decompose n m k = some ds ∧
      ∀ k' < n ^ m, GrayIterator.decompose n m k' = some ds → k' = k := by
  obtain ⟨k, hk⟩ := (grayCode_bijective n m hn).2 fun j => ⟨ds[j]'(by rw [hl]; exact j.2), hd _ (List.getElem_mem _)⟩
  have hcode : grayCode n m k = ds := by
    apply List.ext_getElem (by rw [grayCode_length, hl])
    intro j h1 h2
    have := congrFun hk ⟨j, by omega⟩
    simp only [Fin.mk.injEq] at this
    simpa [grayCode] using this
  refine ⟨k, k.2, by rw [decompose_eq n m k hn hm hN k.2, hcode], fun k' hk' h => ?_⟩
  rw [decompose_eq n m k' hn hm hN hk', ← hcode] at h
  simp only [Option.some.injEq] at h
  refine grayDigit_injective n m k' k hn hk' k.2 fun j hj => ?_
  have := congrArg (fun l => l[j]?) h
  simpa [grayCode, hj] using this

/-- C39: neighbouring positions differ in exactly one digit, by one modulo `n`. -/
theorem C39_step (n m : ℕ) (hn : 2 ≤ n) (hm : 1 ≤ m) (hN : n ^ m ≤ u32Max) (k : ℕ) (hk : k + 1 < n ^ m) (ds ds' : List ℕ)
    (h : GrayIterator.decompose n m k = some ds) (h' : GrayIterator.decompose n m (k + 1) = some ds') :
    ∃ t, ∃ ht : t < ds.length, ds' = ds.set t ((ds[t] + 1) % n) ∧ (ds[t] + 1) % n ≠ ds[t] := by
  rw [decompose_eq n m k hn hm hN (by omega)] at h
  rw [decompose_eq n m (k + 1) hn hm hN hk] at h'
  simp only [Option.some.injEq] at h h'
  subst h h'
  obtain ⟨t, ht, h1, -⟩ := grayCode_succ n m k hn hk
  refine ⟨t, ht, h1, ?_⟩
  have hlt : (grayCode n m k)[t] < n := by
    simp only [grayCode, List.getElem_map]
    exact grayDigit_lt _ _ _ (by omega)
  by_cases h2 : (grayCode n m k)[t] + 1 < n
  · rw [Nat.mod_eq_of_lt h2]; omega
  · rw [show (grayCode n m k)[t] + 1 = n by omega, Nat.mod_self]; omega

theorem replay_items (n m : ℕ) (hn : 2 ≤ n) (len k : ℕ) (hk : k + 1 + len = n ^ m) :
    replay (grayCode n m k) ((List.range' (k + 1) len).map (grayItem n m)) = (List.range' (k + 1) len).map (grayCode n m) ∧
    consistent (grayCode n m k) ((List.range' (k + 1) len).map (grayItem n m)) := by
  induction len generalizing k with
  | zero => simp [replay, consistent]
  | succ len ih =>
    obtain ⟨t, ht, h1, h2⟩ := grayCode_succ n m k hn (by omega)
    have hitem : grayItem n m (k + 1) = (t, (grayCode n m k)[t], ((grayCode n m k)[t] + 1) % n) := by
      simp [grayItem, h2]
    obtain ⟨i1, i2⟩ := ih (k + 1) (by omega)
    rw [List.range'_succ, List.map_cons, List.map_cons, hitem, replay, consistent, ← h1]
    exact ⟨by rw [i1], by simp, i2⟩

/-- C39: the iterator exists, returns exactly `n ^ m` changes, each consistent with the digits so far, and replaying them from
the zero vector gives the decompositions of all positions in order. -/
theorem C39_iterator (n m : ℕ) (hn : 2 ≤ n) (hm : 1 ≤ m) (hN : n ^ m ≤ u32Max) :
    ∃ g, GrayIterator.new n m = some g ∧ g.toList.length = n ^ m ∧ consistent (List.replicate m 0) g.toList ∧
      (replay (List.replicate m 0) g.toList).map some = (List.range (n ^ m)).map (GrayIterator.decompose n m) := by
  refine ⟨_, grayIter_new n m hn hm hN, ?_⟩
  rw [gray_toList n m hn hm hN]
  have hpos : 1 ≤ n ^ m := Nat.one_le_pow _ _ (by omega)
  obtain ⟨q, hq⟩ : ∃ q, n ^ m = q + 1 := ⟨n ^ m - 1, by omega⟩
  have hr : List.range (n ^ m) = 0 :: List.range' 1 q := by
    rw [hq, List.range_eq_range', List.range'_succ]
  have h0 : (List.replicate m 0).set 0 0 = grayCode n m 0 := by
    rw [grayCode_zero]
    apply List.ext_getElem?
    intro i
    rw [List.getElem?_set]
    split
    · subst i; simp [List.getElem?_replicate]
    · rfl
  have h00 : (List.replicate m 0)[0]? = some 0 := by rw [List.getElem?_replicate, if_pos (by omega)]
  obtain ⟨r1, r2⟩ := replay_items n m hn q 0 (by omega)
  have hi0 : grayItem n m 0 = (0, 0, 0) := by simp [grayItem]
  have hdec : (List.range (n ^ m)).map (GrayIterator.decompose n m) = ((List.range (n ^ m)).map (grayCode n m)).map some := by
    rw [List.map_map]
    apply List.map_congr_left
    intro k hk
    exact decompose_eq n m k hn hm hN (List.mem_range.1 hk)
  refine ⟨by simp, ?_, ?_⟩
  · rw [hr, List.map_cons, hi0, consistent, h0]
    exact ⟨h00, r2⟩
  · rw [hdec, hr, List.map_cons, hi0, replay, h0, List.map_cons, r1]
    rfl

/-- C39: after the last position the iterator returns `None`, and keeps doing so. -/
theorem C39_end (n m : ℕ) (hn : 2 ≤ n) (hm : 1 ≤ m) (hN : n ^ m ≤ u32Max) (last : List ℕ) :
    GrayIterator.next ⟨n, m, n ^ m, last⟩ = none := by
  have hpos : n ^ m ≠ 0 := by have := Nat.one_le_pow m n (by omega); omega
  rw [GrayIterator.next, if_neg hpos, checkedPow, if_pos hN]
  simp

/-- C39: dimensions outside the bounds are refused. -/
theorem C39_refused (n m : ℕ) (h : n < 2 ∨ m < 1 ∨ u32Max < n ^ m) : GrayIterator.new n m = none := by
  rw [GrayIterator.new]
  split
  · rfl
  · rw [checkedPow, if_neg (by omega)]; rfl

/-- Base 3 with two digits meets the hypotheses of `C39_decompose`, `C39_bijective`, `C39_step`, `C39_iterator` and `C39_end`.
-/
example : (2 : ℕ) ≤ 3 ∧ (1 : ℕ) ≤ 2 ∧ 3 ^ 2 ≤ u32Max ∧ GrayIterator.decompose 3 2 5 = some [1, 1] ∧
    (GrayIterator.new 3 2).map GrayIterator.toList =
      some [(0, 0, 0), (0, 0, 1), (0, 1, 2), (1, 0, 1), (0, 2, 0), (0, 0, 1), (1, 1, 2), (0, 1, 2), (0, 2, 0)] := by
  decide +kernel

/-- Arguments that `C39_refused` refuses. -/
example : GrayIterator.new 1 2 = none ∧ GrayIterator.new 2 0 = none ∧ GrayIterator.new 65536 2 = none := by decide +kernel

end Triptych
