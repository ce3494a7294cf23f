import Verif.Model.Gray
import Verif.Spec.Gray
import Mathlib.Tactic.Ring
import Mathlib.Tactic.Linarith
import Mathlib.Data.Nat.ModEq
import Mathlib.Algebra.Order.Ring.Nat
import Mathlib.Data.List.Basic

/-! # Gray code lemmas -/
set_option autoImplicit false
set_option linter.unusedSectionVars false
set_option linter.unusedVariables false
set_option linter.unusedSimpArgs false

namespace Triptych
open Spec

/-! ## The loops compute the specification's digits -/

theorem mul_le_pow_self (n m : ℕ) (hn : 2 ≤ n) : m * n ≤ n ^ m := by
  cases m with
  | zero => simp
  | succ m =>
    have h : m + 1 ≤ n ^ m := Nat.lt_pow_self (by omega)
    calc (m + 1) * n ≤ n ^ m * n := Nat.mul_le_mul_right _ h
      _ = n ^ (m + 1) := (pow_succ _ _).symm

/-- The Gray digits of the number with base digits `bs` (top digit compared with zero). -/
def grayOfBase (N : ℕ) : List ℕ → List ℕ
  | [] => []
  | b :: bs => (b + (N - bs.headD 0)) % N :: grayOfBase N bs

theorem grayOfBase_length (N : ℕ) (bs : List ℕ) : (grayOfBase N bs).length = bs.length := by
  induction bs with
  | nil => rfl
  | cons b bs ih => simp [grayOfBase, ih]

theorem grayLoopVartime_eq (N : ℕ) (hN : 2 ≤ N) (bs : List ℕ) (hb : ∀ b ∈ bs, b < N)
    (hmax : bs.length * N ≤ u32Max) :
    ∃ shift, GrayIterator.grayLoopVartime N bs = some (grayOfBase N bs, shift) ∧
      shift ≤ bs.length * N ∧ (shift + bs.headD 0) % N = 0 := by
  induction bs with
  | nil => exact ⟨0, by simp [GrayIterator.grayLoopVartime, grayOfBase]⟩
  | cons b bs ih =>
    have hlen : (b :: bs).length * N = bs.length * N + N := by simp [Nat.add_mul]
    rw [hlen] at hmax
    obtain ⟨s, hs, hle, hmod⟩ := ih (fun x hx => hb x (by simp [hx])) (by omega)
    have hbN : b < N := hb b (by simp)
    have hhd : bs.headD 0 < N := by
      cases bs with
      | nil => simp; omega
      | cons c cs => simpa using hb c (by simp)
    have hd : (b + s) % N = (b + (N - bs.headD 0)) % N := by
      have h1 : (b + s + bs.headD 0) % N = (b + (N - bs.headD 0) + bs.headD 0) % N := by
        have : b + (N - bs.headD 0) + bs.headD 0 = b + N := by omega
        rw [this, Nat.add_mod_right, Nat.add_assoc, Nat.add_mod, hmod]; simp
      exact Nat.ModEq.add_right_cancel' (bs.headD 0) h1
    have hlt : (b + s) % N < N := Nat.mod_lt _ (by omega)
    refine ⟨s + N - (b + s) % N, ?_, by omega, ?_⟩
    · have c1 : checkedAdd b s = some (b + s) := by simp only [checkedAdd]; rw [if_pos (by omega)]
      have c2 : checkedRem (b + s) N = some ((b + s) % N) := by simp only [checkedRem]; rw [if_neg (by omega)]
      have c3 : checkedAdd s N = some (s + N) := by simp only [checkedAdd]; rw [if_pos (by omega)]
      have c4 : checkedSub (s + N) ((b + s) % N) = some (s + N - (b + s) % N) := by
        simp only [checkedSub]; rw [if_pos (by omega)]
      simp only [GrayIterator.grayLoopVartime, hs, Option.bind_eq_bind, Option.bind_some, c1, c2, c3, c4]
      rw [grayOfBase, hd]
    · simp only [List.headD_cons]
      have : s + N - (b + s) % N + b = N + N * ((b + s) / N) := by
        have := Nat.div_add_mod (b + s) N
        omega
      rw [this, Nat.add_mul_mod_self_left, Nat.mod_self]

theorem grayLoop_eq (N : ℕ) (hN : 2 ≤ N) (bs : List ℕ) (hb : ∀ b ∈ bs, b < N)
    (hmax : bs.length * N ≤ u32Max) :
    ∃ shift, GrayIterator.grayLoop N bs = (grayOfBase N bs, shift) ∧
      shift ≤ bs.length * N ∧ (shift + bs.headD 0) % N = 0 := by
  induction bs with
  | nil => exact ⟨0, by simp [GrayIterator.grayLoop, grayOfBase]⟩
  | cons b bs ih =>
    have hlen : (b :: bs).length * N = bs.length * N + N := by simp [Nat.add_mul]
    rw [hlen] at hmax
    obtain ⟨s, hs, hle, hmod⟩ := ih (fun x hx => hb x (by simp [hx])) (by omega)
    have hbN : b < N := hb b (by simp)
    have hhd : bs.headD 0 < N := by
      cases bs with
      | nil => simp; omega
      | cons c cs => simpa using hb c (by simp)
    have hd : (b + s) % N = (b + (N - bs.headD 0)) % N := by
      have h1 : (b + s + bs.headD 0) % N = (b + (N - bs.headD 0) + bs.headD 0) % N := by
        have : b + (N - bs.headD 0) + bs.headD 0 = b + N := by omega
        rw [this, Nat.add_mod_right, Nat.add_assoc, Nat.add_mod, hmod]; simp
      exact Nat.ModEq.add_right_cancel' (bs.headD 0) h1
    have hlt : (b + s) % N < N := Nat.mod_lt _ (by omega)
    have hu : u32Max ≤ u64Max := by decide
    refine ⟨s + N - (b + s) % N, ?_, by omega, ?_⟩
    · have c1 : saturatingAdd64 b s = b + s := by simp only [saturatingAdd64]; omega
      have c3 : saturatingAdd64 s N = s + N := by simp only [saturatingAdd64]; omega
      simp only [GrayIterator.grayLoop, hs, c1, c3]
      rw [grayOfBase, hd]
    · simp only [List.headD_cons]
      have : s + N - (b + s) % N + b = N + N * ((b + s) / N) := by
        have := Nat.div_add_mod (b + s) N
        omega
      rw [this, Nat.add_mul_mod_self_left, Nat.mod_self]

theorem baseLoop_eq (N : ℕ) (M v : ℕ) :
    GrayIterator.baseLoop N M v = (List.range M).map (digit N v) := by
  induction M generalizing v with
  | zero => rfl
  | succ M ih =>
    rw [GrayIterator.baseLoop, ih, List.range_succ_eq_map]
    simp only [List.map_cons, List.map_map, digit, pow_zero, Nat.div_one, List.cons.injEq, true_and]
    apply List.map_congr_left
    intro j _
    simp [digit, pow_succ', Nat.div_div_eq_div_mul]

theorem baseLoopVartime_eq (N : ℕ) (hN : 2 ≤ N) (M v : ℕ) :
    GrayIterator.baseLoopVartime N M v = some ((List.range M).map (digit N v)) := by
  rw [← baseLoop_eq]
  induction M generalizing v with
  | zero => rfl
  | succ M ih =>
    have h : N ≠ 0 := by omega
    simp [GrayIterator.baseLoopVartime, GrayIterator.baseLoop, checkedRem, checkedDiv, h, ih]

theorem digit_lt (n k j : ℕ) (hn : 0 < n) : digit n k j < n := Nat.mod_lt _ hn

theorem digit_top (n m k : ℕ) (hk : k < n ^ m) : digit n k m = 0 := by
  simp [digit, Nat.div_eq_of_lt hk]

theorem grayDigit_lt (n k j : ℕ) (hn : 0 < n) : grayDigit n k j < n := Nat.mod_lt _ hn

/-- Gray digits of a digit function read off a list of base digits, up to the top digit. -/
theorem grayOfBase_digits (N M : ℕ) (v : ℕ) (hv : v < N ^ M) :
    grayOfBase N ((List.range M).map (digit N v)) = grayCode N M v := by
  have key : ∀ k a, a + k = M → grayOfBase N ((List.range' a k).map (digit N v))
      = (List.range' a k).map (grayDigit N v) := by
    intro k
    induction k with
    | zero => intro a _; simp [grayOfBase]
    | succ k ih =>
      intro a ha
      simp only [List.range'_succ, List.map_cons, grayOfBase]
      rw [ih (a + 1) (by omega)]
      congr 1
      rw [grayDigit]
      congr 3
      cases k with
      | zero =>
        have : a + 1 = M := by omega
        simp [this, digit_top N M v hv]
      | succ k => simp [List.range'_succ]
  rw [grayCode, List.range_eq_range']
  exact key M 0 (by omega)

theorem decomposeVartime_eq (N M v : ℕ) (hN : 2 ≤ N) (hM : 1 ≤ M) (hmax : N ^ M ≤ u32Max) (hv : v < N ^ M) :
    GrayIterator.decomposeVartime N M v = some (grayCode N M v) := by
  have h1 : ¬ (N ≤ 1 ∨ M = 0) := by omega
  have hb : ∀ b ∈ (List.range M).map (digit N v), b < N := by
    intro b hb
    obtain ⟨j, _, rfl⟩ := List.mem_map.1 hb
    exact digit_lt N v j (by omega)
  have hle := (mul_le_pow_self N M hN).trans hmax
  obtain ⟨s, hs, -, -⟩ := grayLoopVartime_eq N hN ((List.range M).map (digit N v)) hb (by simpa using hle)
  simp only [GrayIterator.decomposeVartime, h1, if_false, baseLoopVartime_eq N hN, hs, Option.bind_eq_bind,
    Option.bind_some, grayOfBase_digits N M v hv]

theorem decompose_eq (N M v : ℕ) (hN : 2 ≤ N) (hM : 1 ≤ M) (hmax : N ^ M ≤ u32Max) (hv : v < N ^ M) :
    GrayIterator.decompose N M v = some (grayCode N M v) := by
  have h1 : ¬ (N ≤ 1 ∨ M = 0) := by omega
  have hb : ∀ b ∈ (List.range M).map (digit N v), b < N := by
    intro b hb
    obtain ⟨j, _, rfl⟩ := List.mem_map.1 hb
    exact digit_lt N v j (by omega)
  have hle := (mul_le_pow_self N M hN).trans hmax
  obtain ⟨s, hs, -, -⟩ := grayLoop_eq N hN ((List.range M).map (digit N v)) hb (by simpa using hle)
  simp only [GrayIterator.decompose, h1, if_false, baseLoop_eq N, hs, grayOfBase_digits N M v hv]
  have hNN : N ≤ u32Max := by
    have := Nat.pow_le_pow_right (show 0 < N by omega) hM
    rw [pow_one] at this
    omega
  have : ∀ l : List ℕ, (∀ d ∈ l, d < N) →
      (l.mapM fun d => if d ≤ u32Max then some d else none) = some l := by
    intro l
    induction l with
    | nil => intro _; rfl
    | cons d l ih =>
      intro h
      have hd : d ≤ u32Max := (h d (by simp)).le.trans hNN
      rw [List.mapM_cons, ih (fun x hx => h x (by simp [hx]))]
      simp [hd]
  apply this
  intro d hd
  obtain ⟨j, _, rfl⟩ := List.mem_map.1 hd
  exact grayDigit_lt N v j (by omega)

/-! ## Neighbouring codes differ in exactly one digit -/

theorem digit_succ_cases (n k : ℕ) (hn : 2 ≤ n) :
    ∃ t, digit n (k + 1) t = (digit n k t + 1) % n ∧ digit n k t + 1 < n ∧
      (∀ j < t, digit n k j = n - 1 ∧ digit n (k + 1) j = 0) ∧ (∀ j, t < j → digit n (k + 1) j = digit n k j) := by
  induction k using Nat.strong_induction_on with
  | _ k ih =>
    have hdiv : ∀ j x : ℕ, digit n x (j + 1) = digit n (x / n) j := by
      intro j x
      simp [digit, pow_succ', Nat.div_div_eq_div_mul]
    have hk0 : ∀ x : ℕ, digit n x 0 = x % n := by intro x; simp [digit]
    have hdm := Nat.div_add_mod k n
    have hml := Nat.mod_lt k (show 0 < n by omega)
    by_cases h : k % n + 1 < n
    · have hq : (k + 1) / n = k / n := by
        have hk1 : k + 1 = (k % n + 1) + n * (k / n) := by omega
        rw [hk1, Nat.add_mul_div_left _ _ (by omega), Nat.div_eq_of_lt h]; simp
      refine ⟨0, ?_, by rw [hk0]; exact h, by intro j hj; omega, ?_⟩
      · rw [hk0, hk0, Nat.add_mod k 1 n, Nat.mod_eq_of_lt (show 1 < n by omega)]
      · intro j hj
        obtain ⟨i, rfl⟩ : ∃ i, j = i + 1 := ⟨j - 1, by omega⟩
        rw [hdiv, hdiv, hq]
    · have hkn : k % n = n - 1 := by omega
      have hk1 : k + 1 = n * (k / n + 1) := by rw [Nat.mul_add]; omega
      have hq : (k + 1) / n = k / n + 1 := by rw [hk1, Nat.mul_div_cancel_left _ (by omega)]
      have hlt : k / n < k := by
        apply Nat.div_lt_self _ (by omega)
        by_contra h0
        have : k = 0 := by omega
        subst this
        simp at hkn; omega
      obtain ⟨t, h1, h2, h3, h4⟩ := ih (k / n) hlt
      refine ⟨t + 1, ?_, ?_, ?_, ?_⟩
      · rw [hdiv, hdiv, hq, h1]
      · rw [hdiv]; exact h2
      · intro j hj
        cases j with
        | zero => rw [hk0, hk0, hkn, hk1]; simp
        | succ j => rw [hdiv, hdiv, hq]; exact h3 j (by omega)
      · intro j hj
        obtain ⟨i, rfl⟩ : ∃ i, j = i + 1 := ⟨j - 1, by omega⟩
        rw [hdiv, hdiv, hq]; exact h4 i (by omega)

/-- Exactly one Gray digit changes between `k` and `k + 1`, and it is incremented modulo `n`. -/
theorem grayDigit_succ (n m k : ℕ) (hn : 2 ≤ n) (hk : k + 1 < n ^ m) :
    ∃ t < m, grayDigit n (k + 1) t = (grayDigit n k t + 1) % n ∧
      ∀ j, j ≠ t → grayDigit n (k + 1) j = grayDigit n k j := by
  obtain ⟨t, h1, h2, h3, h4⟩ := digit_succ_cases n k hn
  have hd1 : digit n (k + 1) t = digit n k t + 1 := by rw [h1, Nat.mod_eq_of_lt h2]
  have htm : t < m := by
    by_contra h
    have hz : digit n (k + 1) t = 0 := by
      have : k + 1 < n ^ t := lt_of_lt_of_le hk (Nat.pow_le_pow_right (by omega) (by omega))
      exact digit_top n t (k + 1) this
    omega
  refine ⟨t, htm, ?_, ?_⟩
  · rw [grayDigit, grayDigit, h4 (t + 1) (by omega), hd1]
    rw [Nat.add_mod_eq_add_mod_right 1 (Nat.mod_mod _ _)]
    congr 1
    omega
  · intro j hj
    rw [grayDigit, grayDigit]
    rcases Nat.lt_trichotomy j t with hlt | heq | hgt
    · obtain ⟨hj1, hj2⟩ := h3 j hlt
      rw [hj1, hj2]
      by_cases hjt : j + 1 = t
      · rw [hjt, hd1]
        have : n - 1 + (n - digit n k t) = n + (0 + (n - (digit n k t + 1))) := by omega
        rw [this, Nat.add_mod_left]
      · obtain ⟨hj3, hj4⟩ := h3 (j + 1) (by omega)
        rw [hj3, hj4]
        have : n - 1 + (n - (n - 1)) = 0 + (n - 0) := by omega
        rw [this]
    · exact absurd heq hj
    · rw [h4 j hgt, h4 (j + 1) (by omega)]

/-! ## Injectivity -/

theorem gray_digit_eq (n a b c : ℕ) (ha : a < n) (hb : b < n)
    (h : (a + (n - c)) % n = (b + (n - c)) % n) : a = b := by
  have h1 : (a + (n - c)) ≡ (b + (n - c)) [MOD n] := h
  have h2 := Nat.ModEq.add_right_cancel' (n - c) h1
  have h3 : a % n = b % n := h2
  rwa [Nat.mod_eq_of_lt ha, Nat.mod_eq_of_lt hb] at h3

theorem grayDigit_injective (n m k k' : ℕ) (hn : 2 ≤ n) (hk : k < n ^ m) (hk' : k' < n ^ m)
    (h : ∀ j < m, grayDigit n k j = grayDigit n k' j) : k = k' := by
  have key : ∀ i j, j + i = m → k / n ^ j = k' / n ^ j := by
    intro i
    induction i with
    | zero =>
      intro j hj
      have : j = m := by omega
      subst this
      rw [Nat.div_eq_of_lt hk, Nat.div_eq_of_lt hk']
    | succ i ih =>
      intro j hj
      have hq := ih (j + 1) (by omega)
      have hdig : digit n k (j + 1) = digit n k' (j + 1) := by simp [digit, hq]
      have hg := h j (by omega)
      rw [grayDigit, grayDigit, hdig] at hg
      have hd : digit n k j = digit n k' j :=
        gray_digit_eq n _ _ _ (digit_lt n k j (by omega)) (digit_lt n k' j (by omega)) hg
      have e1 := Nat.div_add_mod (k / n ^ j) n
      have e2 := Nat.div_add_mod (k' / n ^ j) n
      rw [Nat.div_div_eq_div_mul, ← pow_succ] at e1 e2
      simp only [digit] at hd
      rw [← e1, ← e2, hq, hd]
  simpa using key m 0 (by omega)

/-! ## The iterator -/

theorem grayCode_length (n m k : ℕ) : (grayCode n m k).length = m := by simp [grayCode]

theorem grayCode_zero (n m : ℕ) : grayCode n m 0 = List.replicate m 0 := by
  rw [grayCode, List.eq_replicate_iff]
  refine ⟨by simp, ?_⟩
  intro b hb
  obtain ⟨j, _, rfl⟩ := List.mem_map.1 hb
  simp [grayDigit, digit]

theorem findChange_eq (l : List ℕ) (t : ℕ) (x p : ℕ) (ht : t < l.length) (hx : l[t] ≠ x) :
    GrayIterator.findChange l (l.set t x) p = some (p + t, l[t], x) := by
  induction l generalizing t p with
  | nil => simp at ht
  | cons a l ih =>
    cases t with
    | zero => simp only [List.getElem_cons_zero] at hx; simp [GrayIterator.findChange, hx]
    | succ t =>
      simp only [List.getElem_cons_succ] at hx
      simp only [List.length_cons, Nat.add_lt_add_iff_right] at ht
      rw [List.set_cons_succ, GrayIterator.findChange]
      simp only [ne_eq, not_true_eq_false, if_false, List.getElem_cons_succ]
      rw [ih t (p + 1) ht hx]
      congr 2
      omega

/-- One step of the iteration from code `k` to code `k + 1`. -/
theorem grayCode_succ (n m k : ℕ) (hn : 2 ≤ n) (hk : k + 1 < n ^ m) :
    ∃ t, ∃ h : t < (grayCode n m k).length,
      grayCode n m (k + 1) = (grayCode n m k).set t (((grayCode n m k)[t] + 1) % n) ∧
      GrayIterator.findChange (grayCode n m k) (grayCode n m (k + 1)) 0
        = some (t, (grayCode n m k)[t], ((grayCode n m k)[t] + 1) % n) := by
  obtain ⟨t, htm, h1, h2⟩ := grayDigit_succ n m k hn hk
  have hlen : t < (grayCode n m k).length := by rw [grayCode_length]; exact htm
  have hget : (grayCode n m k)[t] = grayDigit n k t := by simp [grayCode]
  have hset : grayCode n m (k + 1) = (grayCode n m k).set t (((grayCode n m k)[t] + 1) % n) := by
    apply List.ext_getElem
    · simp [grayCode_length]
    · intro j hj1 hj2
      rw [List.getElem_set]
      split
      · rename_i h; subst h; rw [hget, ← h1]; simp [grayCode]
      · rename_i h
        have := h2 j (fun e => h e.symm)
        simp [grayCode, this]
  refine ⟨t, hlen, hset, ?_⟩
  conv_lhs => rw [hset]
  rw [findChange_eq _ t _ 0 hlen]
  · simp
  · have hlt : (grayCode n m k)[t] < n := by rw [hget]; exact grayDigit_lt n k t (by omega)
    intro he
    by_cases h : (grayCode n m k)[t] + 1 < n
    · rw [Nat.mod_eq_of_lt h] at he; omega
    · have : (grayCode n m k)[t] + 1 = n := by omega
      rw [this, Nat.mod_self] at he
      omega

/-- The `k`-th item produced by the iterator. -/
def grayItem (n m k : ℕ) : ℕ × ℕ × ℕ :=
  match k with
  | 0 => (0, 0, 0)
  | k + 1 => (GrayIterator.findChange (grayCode n m k) (grayCode n m (k + 1)) 0).getD (0, 0, 0)

theorem grayIter_new (N M : ℕ) (hN : 2 ≤ N) (hM : 1 ≤ M) (hmax : N ^ M ≤ u32Max) :
    GrayIterator.new N M = some { N := N, M := M, i := 0, last := List.replicate M 0 } := by
  have h1 : ¬ (N ≤ 1 ∨ M = 0) := by omega
  simp [GrayIterator.new, h1, checkedPow, hmax]

theorem gray_items_succ (N M : ℕ) (hN : 2 ≤ N) (hM : 1 ≤ M) (hmax : N ^ M ≤ u32Max) (len k fuel : ℕ)
    (hk : k + 1 + len = N ^ M) (hf : len + 1 ≤ fuel) :
    GrayIterator.items fuel { N := N, M := M, i := k + 1, last := grayCode N M k }
      = (List.range' (k + 1) len).map (grayItem N M) := by
  induction len generalizing k fuel with
  | zero =>
    obtain ⟨fuel, rfl⟩ : ∃ g, fuel = g + 1 := ⟨fuel - 1, by omega⟩
    have : k + 1 = N ^ M := by omega
    have hN0 : N ≠ 0 := by omega
    simp [GrayIterator.items, GrayIterator.next, checkedPow, hmax, this, hN0]
  | succ len ih =>
    obtain ⟨fuel, rfl⟩ : ∃ g, fuel = g + 1 := ⟨fuel - 1, by omega⟩
    obtain ⟨t, ht, hset, hfind⟩ := grayCode_succ N M k hN (by omega)
    have hne : ¬ (k + 1 = N ^ M) := by omega
    have hadd : checkedAdd (k + 1) 1 = some (k + 1 + 1) := by
      simp only [checkedAdd]; rw [if_pos (by omega)]
    have hnext : GrayIterator.next { N := N, M := M, i := k + 1, last := grayCode N M k }
        = some (grayItem N M (k + 1), { N := N, M := M, i := k + 1 + 1, last := grayCode N M (k + 1) }) := by
      simp only [GrayIterator.next, Nat.add_eq_zero_iff, one_ne_zero, and_false, if_false, checkedPow, hmax, if_true,
        Option.bind_eq_bind, Option.bind_some, hne, decomposeVartime_eq N M (k + 1) hN hM hmax (by omega), hfind,
        hadd, grayItem, Option.getD_some]
    rw [GrayIterator.items, hnext]
    simp only [List.range'_succ, List.map_cons]
    rw [ih (k + 1) fuel (by omega) (by omega)]

/-- The complete list of items of the iterator. -/
theorem gray_toList (N M : ℕ) (hN : 2 ≤ N) (hM : 1 ≤ M) (hmax : N ^ M ≤ u32Max) :
    GrayIterator.toList { N := N, M := M, i := 0, last := List.replicate M 0 }
      = (List.range (N ^ M)).map (grayItem N M) := by
  have hpos : 1 ≤ N ^ M := Nat.one_le_pow _ _ (by omega)
  obtain ⟨q, hq⟩ : ∃ q, N ^ M = q + 1 := ⟨N ^ M - 1, by omega⟩
  rw [GrayIterator.toList]
  simp only []
  rw [GrayIterator.items]
  have hnext : GrayIterator.next { N := N, M := M, i := 0, last := List.replicate M 0 }
      = some (grayItem N M 0, { N := N, M := M, i := 0 + 1, last := grayCode N M 0 }) := by
    simp [GrayIterator.next, grayItem, grayCode_zero]
  rw [hnext]
  simp only []
  rw [gray_items_succ N M hN hM hmax q 0 (N ^ M) (by omega) (by omega), hq, List.range_eq_range',
    List.range'_succ, List.map_cons]

end Triptych
