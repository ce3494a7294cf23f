import Verif.Props.Forgery
import Verif.Props.Parallel.Witness
import Verif.Spec.Sampling
import Mathlib.Data.Int.CardIntervalMod

/-! # How random witnesses are distributed: C64 -/
set_option autoImplicit false
set_option linter.unusedSectionVars false

namespace Triptych
open Spec Finset

local notation "ℓ" => (2 ^ 252 + 27742317777372353535851937790883648493 : ℕ)

/-- The number of 64-bit words with a given remainder. -/
theorem words_mod (N l : ℕ) (hl : l < N) :
    2 ^ 64 / N ≤ #{x : Fin (2 ^ 64) | x.val % N = l} ∧ #{x : Fin (2 ^ 64) | x.val % N = l} ≤ 2 ^ 64 / N + 1 := by
  have h : #{x : Fin (2 ^ 64) | x.val % N = l} = (2 ^ 64).count (· ≡ l [MOD N]) := by
    rw [Nat.count_eq_card_filter_range]
    apply Finset.card_bij (fun x _ => x.val)
    · intro x hx
      simp only [mem_filter, mem_univ, true_and, mem_range] at hx ⊢
      exact ⟨x.2, by rw [Nat.ModEq, hx, Nat.mod_eq_of_lt hl]⟩
    · intro x _ y _ h
      exact Fin.ext h
    · intro x hx
      simp only [mem_filter, mem_range] at hx
      refine ⟨⟨x, hx.1⟩, ?_, rfl⟩
      simp only [mem_filter, mem_univ, true_and]
      have := hx.2
      rwa [Nat.ModEq, Nat.mod_eq_of_lt hl] at this
  rw [h, Nat.count_modEq_card _ (by omega : 0 < N)]
  split <;> omega

/-- At most `2 ^ 260` of `2 ^ 512` blocks. -/
theorem block_ratio (a : ℕ) (h : a ≤ 2 ^ 255 * 2 ^ 5) : (a : ℚ) / Fintype.card Block ≤ 1 / 2 ^ 252 := by
  have hcard : (Fintype.card Block : ℚ) = 2 ^ 255 * 2 ^ 5 * 2 ^ 252 := by
    have : Fintype.card Block = 2 ^ (255 + 5 + 252) := by
      rw [Fintype.card_pi_const, Fintype.card_fin, show (256 : ℕ) = 2 ^ 8 by norm_num, ← pow_mul]
    rw [this, pow_add, pow_add]
    norm_num
  have h' : (a : ℚ) ≤ 2 ^ 255 * 2 ^ 5 := by exact_mod_cast h
  rw [hcard, div_le_div_iff₀ (by positivity) (by positivity), one_mul]
  exact mul_le_mul_of_nonneg_right h' (by positivity)

variable {F P : Type} [Field F] [AddCommGroup P] [Module F P] [DecidableEq F] [DecidableEq P]

open Classical in
/-- C64: over all outputs of the generator, every index of the ring is chosen `⌊2^64 / N⌋` or one more times, independently of the
key. -/
theorem C64_index {ε : Type} (E : Env F P) (params : Params P) (hp : ParamsBuilt E params) (b : Bytes) (l : ℕ)
    (hl : l < params.n ^ params.m) :
    ∃ count, count = #{x : Fin (2 ^ 64) |
        ∃ w s', (Witness.random E scripted params (UInt64.ofFin x, [b]) : Outcome ε _) = .ok (w, s') ∧ w.l = l} ∧
      2 ^ 64 / params.n ^ params.m ≤ count ∧ count ≤ 2 ^ 64 / params.n ^ params.m + 1 := by
  refine ⟨_, rfl, ?_⟩
  have e : ∀ x : Fin (2 ^ 64), (∃ w s', (Witness.random E scripted params (UInt64.ofFin x, [b]) : Outcome ε _) = .ok (w, s') ∧
      w.l = l) ↔ x.val % params.n ^ params.m = l := by
    intro x
    obtain ⟨w, s', h1, -, -, h4, -⟩ := C09_random (ε := ε) E scripted params (UInt64.ofFin x, [b]) hp
    rw [h1]
    constructor
    · rintro ⟨w', s'', h, hl⟩
      rw [Outcome.ok.injEq, Prod.mk.injEq] at h
      rw [← hl, ← h.1, h4]
      rfl
    · intro h
      exact ⟨w, s', rfl, by rw [h4, ← h]; rfl⟩
  simp only [e]
  convert words_mod _ _ hl

open Classical in
/-- C64 for Ristretto: over all outputs of the generator, a given key is chosen with probability at most `2 ^ -252`; in particular
the useless key zero (which `random` does not exclude). -/
theorem C64_key {ε : Type} {P : Type} [AddCommGroup P] [Module (ZMod ℓ) P] [DecidableEq P] (E : Env (ZMod ℓ) P)
    (hwide : ∀ b, E.scalarOfWide b = ((leNat b : ℕ) : ZMod ℓ)) (params : Params P) (hp : ParamsBuilt E params) (x : UInt64)
    (r : ZMod ℓ) :
    (#{b : Block | ∃ w s', (Witness.random E scripted params (x, [b.bytes]) : Outcome ε _) = .ok (w, s') ∧ w.r = r} : ℚ) /
      Fintype.card Block ≤ 1 / 2 ^ 252 := by
  have e : ∀ b : Block, (∃ w s', (Witness.random E scripted params (x, [b.bytes]) : Outcome ε _) = .ok (w, s') ∧
      w.r = r) ↔ ((leNat b.bytes : ℕ) : ZMod ℓ) = r := by
    intro b
    obtain ⟨w, s', h1, -, -, -, h5, -⟩ := C09_random (ε := ε) E scripted params (x, [b.bytes]) hp
    rw [h1]
    constructor
    · rintro ⟨w', s'', h, hr⟩
      rw [Outcome.ok.injEq, Prod.mk.injEq] at h
      rw [← hr, ← h.1, h5, hwide]
      rfl
    · intro h
      exact ⟨w, s', rfl, by rw [h5, hwide, ← h]; rfl⟩
  simp only [e]
  have h := blocks_ristretto r
  refine block_ratio _ ?_
  convert h

open Classical in
/-- C64, parallel proofs: the index. -/
theorem C64_index_parallel {ε : Type} (E : Env F P) (params : Parallel.Params P)
    (hp : Parallel.Spec.ParamsBuilt E params) (b b1 : Bytes) (l : ℕ) (hl : l < params.n ^ params.m) :
    ∃ count, count = #{x : Fin (2 ^ 64) |
        ∃ w s', (Parallel.Witness.random E scripted params (UInt64.ofFin x, [b, b1]) : Outcome ε _) = .ok (w, s') ∧ w.l = l} ∧
      2 ^ 64 / params.n ^ params.m ≤ count ∧ count ≤ 2 ^ 64 / params.n ^ params.m + 1 := by
  refine ⟨_, rfl, ?_⟩
  have e : ∀ x : Fin (2 ^ 64), (∃ w s', (Parallel.Witness.random E scripted params (UInt64.ofFin x, [b, b1]) :
      Outcome ε _) = .ok (w, s') ∧ w.l = l) ↔ x.val % params.n ^ params.m = l := by
    intro x
    obtain ⟨w, s', h1, -, -, h4, -⟩ := Parallel.C47_random (ε := ε) E scripted params (UInt64.ofFin x, [b, b1]) hp
    rw [h1]
    constructor
    · rintro ⟨w', s'', h, hl⟩
      rw [Outcome.ok.injEq, Prod.mk.injEq] at h
      rw [← hl, ← h.1, h4]
      rfl
    · intro h
      exact ⟨w, s', rfl, by rw [h4, ← h]; rfl⟩
  simp only [e]
  convert words_mod _ _ hl

open Classical in
/-- C64 for Ristretto, parallel proofs: each of the two keys. -/
theorem C64_key_parallel {ε : Type} {P : Type} [AddCommGroup P] [Module (ZMod ℓ) P] [DecidableEq P] (E : Env (ZMod ℓ) P)
    (hwide : ∀ b, E.scalarOfWide b = ((leNat b : ℕ) : ZMod ℓ)) (params : Parallel.Params P)
    (hp : Parallel.Spec.ParamsBuilt E params) (x : UInt64) (b0 : Bytes) (r : ZMod ℓ) :
    (#{b : Block | ∃ w s', (Parallel.Witness.random E scripted params (x, [b.bytes, b0]) : Outcome ε _) = .ok (w, s') ∧
        w.r = r} : ℚ) / Fintype.card Block ≤ 1 / 2 ^ 252 ∧
    (#{b : Block | ∃ w s', (Parallel.Witness.random E scripted params (x, [b0, b.bytes]) : Outcome ε _) = .ok (w, s') ∧
        w.r1 = r} : ℚ) / Fintype.card Block ≤ 1 / 2 ^ 252 := by
  have e : ∀ b : Block, (∃ w s', (Parallel.Witness.random E scripted params (x, [b.bytes, b0]) : Outcome ε _) = .ok (w, s') ∧
      w.r = r) ↔ ((leNat b.bytes : ℕ) : ZMod ℓ) = r := by
    intro b
    obtain ⟨w, s', h1, -, -, -, h5, -⟩ := Parallel.C47_random (ε := ε) E scripted params (x, [b.bytes, b0]) hp
    rw [h1]
    constructor
    · rintro ⟨w', s'', h, hr⟩
      rw [Outcome.ok.injEq, Prod.mk.injEq] at h
      rw [← hr, ← h.1, h5, hwide]
      rfl
    · intro h
      exact ⟨w, s', rfl, by rw [h5, hwide, ← h]; rfl⟩
  have e1 : ∀ b : Block, (∃ w s', (Parallel.Witness.random E scripted params (x, [b0, b.bytes]) : Outcome ε _) = .ok (w, s') ∧
      w.r1 = r) ↔ ((leNat b.bytes : ℕ) : ZMod ℓ) = r := by
    intro b
    obtain ⟨w, s', h1, -, -, -, -, h5, -⟩ := Parallel.C47_random (ε := ε) E scripted params (x, [b0, b.bytes]) hp
    rw [h1]
    constructor
    · rintro ⟨w', s'', h, hr⟩
      rw [Outcome.ok.injEq, Prod.mk.injEq] at h
      rw [← hr, ← h.1, h5, hwide]
      rfl
    · intro h
      exact ⟨w, s', rfl, by rw [h5, hwide, ← h]; rfl⟩
  simp only [e, e1]
  have h := blocks_ristretto r
  constructor <;>
  · refine block_ratio _ ?_
    convert h

/-- Parameters exist, and the words and blocks with given results are not trivially empty. -/
example : ParamsBuilt (Toy.env 101) Toy.params ∧ 2 < Toy.params.n ^ Toy.params.m ∧
    (Witness.random (Toy.env 101) scripted Toy.params (UInt64.ofFin 6, [[7]]) : Outcome Unit _)
      = .ok (Toy.witness, (UInt64.ofFin 6, [])) :=
  ⟨⟨_, _, _, _, Toy.params_new⟩, by decide +kernel, by decide +kernel⟩

end Triptych
