import Verif.Props.Generator
import Verif.Props.Weights
import Verif.Lemmas.Draws

/-! # The verifier's weights from an ideal generator: C75

The weights of a batch are what the code draws from the weight generator, whose first outputs form a random table. (The table is
random after the batch is fixed. That the generator depends on the proofs only through 64-bit numbers is a different matter, see
C41.) -/
set_option autoImplicit false
set_option linter.unusedSectionVars false
set_option linter.unusedVariables false

namespace Triptych
open Spec Finset

variable {F P : Type} [Field F] [AddCommGroup P] [Module F P] [DecidableEq F] [DecidableEq P]

theorem seeds_withTable (E : Env F P) (key : TRng) {N : ℕ} (τ : Fin N → Block) (sts : List (Statement P)) (ps : List (Proof F P))
    (ts : List Transcript) : seeds (withTable E key τ) sts ps ts = seeds E sts ps ts := by
  rw [seeds, seeds]
  apply List.map_congr_left
  intro x _
  rw [weightSeed, weightSeed]
  congr 1
  show (if h : _ then _ else _) = _
  rw [dif_neg fun h => absurd h.2.2 (by decide)]
  rfl

theorem challenges_withTable (E : Env F P) (key : TRng) {N : ℕ} (τ : Fin N → Block) (sts : List (Statement P))
    (ps : List (Proof F P)) (ts : List Transcript) : challenges (withTable E key τ) sts ps ts = challenges E sts ps ts := rfl

theorem withTable_weightScalar (E : Env F P) (label : String) (sd : List ℕ) {N : ℕ} (τ : Fin N → Block) (i : ℕ) (hi : i < N) :
    weightScalar (withTable E (weightKey label sd) τ) (weightTranscript label sd) i = E.scalarOfWide (τ ⟨i, hi⟩).bytes :=
  withTable_drawn E (weightKey label sd) τ i hi

/-- A tuple of four scalars as weights. -/
def quadOf (v : Fin 4 → F) : Proof.Weights F := ⟨v 0, v 1, v 2, v 3⟩

theorem quadOf_injective : Function.Injective (quadOf : (Fin 4 → F) → Proof.Weights F) := by
  intro v v' h
  simp only [quadOf, Proof.Weights.mk.injEq] at h
  ext e
  fin_cases e
  exacts [h.1, h.2.1, h.2.2.1, h.2.2.2]

theorem usable_quadOf (v : Fin 4 → F) : usable (quadOf v) = true ↔ ∀ e, v e ≠ 0 := by
  rw [usable, decide_eq_true_iff, Fin.forall_fin_succ, Fin.forall_fin_succ, Fin.forall_fin_succ, Fin.forall_fin_succ]
  simp [quadOf]

theorem withTable_usable (E : Env F P) (label : String) (sd : List ℕ) {L : ℕ} (τ : Fin (L * 4) → Block) :
    usableQuads (withTable E (weightKey label sd) τ) (weightTranscript label sd) L =
      (usableDraws (rowValue E) (rowsOf τ)).map quadOf := by
  refine draws_tuples E quadOf usable usable_quadOf _ (rowsOf τ) fun q hq => ?_
  have h : ∀ e : Fin 4, e.val + 4 * q < L * 4 := fun e => by have := e.2; omega
  have h' := fun e : Fin 4 => withTable_weightScalar E label sd τ _ (h e)
  rw [weightQuad, quadOf, Proof.Weights.mk.injEq]
  refine ⟨?_, ?_, ?_, ?_⟩
  · refine Eq.trans ?_ (h' 0)
    congr 1
    simp
  · refine Eq.trans ?_ (h' 1)
    congr 1
    exact Nat.add_comm _ _
  · refine Eq.trans ?_ (h' 2)
    congr 1
    exact Nat.add_comm _ _
  · refine Eq.trans ?_ (h' 3)
    congr 1
    exact Nat.add_comm _ _

theorem weightList_eq {k : ℕ} (w : Fin k × Fin 4 → F) : weightList w = (List.ofFn fun i => fun e => w (i, e)).map quadOf := by
  rw [weightList, List.map_ofFn]
  rfl

/-- C75: `verify_batch` draws weights until none is zero. It needs more than `j` attempts per proof on average with probability
at most `k (4 K / 2 ^ 512) ^ j`: that is the fraction of tables for which it may not return after drawing `k j` quadruples. -/
theorem C75_terminates (E : Env F P) (cfg : Config) (sts : List (Statement P)) (ps : List (Proof F P)) (ts : List Transcript)
    (hst : ∀ s ∈ sts, StatementBuilt E s)
    (hsz : ∀ first, sts.head? = some first → cfg.overflowChecks = true → batchSize first.params ps.length ≤ u32Max)
    (D K : ℕ) (hD : D = 2 ^ 512) (hK : ∀ x : F, #{b : Block | E.scalarOfWide b.bytes = x} ≤ K) (hK2 : K < D) (j : ℕ)
    (hfuel : ps.length * j ≤ cfg.fuel) :
    (#{τ : Fin (ps.length * j * 4) → Block |
      (Proof.verifyBatch (withTable E (weightKey "Triptych verifier weights" (seeds E sts ps ts)) τ) cfg sts ps ts).1 = .diverge} : ℚ) /
      Fintype.card (Fin (ps.length * j * 4) → Block) ≤ ps.length * (4 * K / D : ℚ) ^ j := by
  rw [← avg_ind']
  have hD' : Fintype.card Block = D := by rw [block_card, hD]
  refine draws_short E D K hD' hK hK2 ps.length j 4 _ fun τ hτ => ?_
  have h := (C16_no_panic (withTable E (weightKey "Triptych verifier weights" (seeds E sts ps ts)) τ) cfg sts ps ts hst hsz).2 hτ
  rw [EnoughFuel, seeds_withTable, not_le] at h
  have h2 := (usableQuads_prefix (withTable E (weightKey "Triptych verifier weights" (seeds E sts ps ts)) τ)
    (weightTranscript "Triptych verifier weights" (seeds E sts ps ts)) _ _ hfuel).length_le
  rw [withTable_usable, List.length_map] at h2
  omega

/-- C75: a batch with an invalid proof is accepted for few tables, whatever the batch: with `k` proofs and `q` scalars, for at
most a fraction `(q - 1) ^ (4 k - 1) (K / (2 ^ 512 - K)) ^ (4 k) + k (4 K / 2 ^ 512) ^ j` of the tables. -/
theorem C75_accept [Fintype F] (E : Env F P) (cfg : Config) (first : Statement P) (rest : List (Statement P))
    (ps : List (Proof F P)) (ts : List Transcript) (hst : StatementBuilt E first)
    (i : ℕ) (st : Statement P) (p : Proof F P) (ξ : F) (hi : (first :: rest)[i]? = some st) (hp : ps[i]? = some p)
    (hξ : (challenges E (first :: rest) ps ts)[i]? = some ξ) (hv : ¬ Valid first.params first.inputSet.M st.J p ξ)
    (D K : ℕ) (hD : D = 2 ^ 512) (hK : ∀ x : F, #{b : Block | E.scalarOfWide b.bytes = x} ≤ K) (hK2 : K < D) (j : ℕ) :
    (#{τ : Fin (ps.length * j * 4) → Block |
      (Proof.verifyBatch (withTable E (weightKey "Triptych verifier weights" (seeds E (first :: rest) ps ts)) τ) cfg
        (first :: rest) ps ts).1 = .ok ()} : ℚ) / Fintype.card (Fin (ps.length * j * 4) → Block) ≤
      (Fintype.card F - 1 : ℕ) ^ (4 * ps.length - 1) * (K / (D - K) : ℚ) ^ (4 * ps.length) + ps.length * (4 * K / D : ℚ) ^ j := by
  have hD' : Fintype.card Block = D := by rw [block_card, hD]
  have hKD : (K : ℚ) < D := by exact_mod_cast hK2
  have hp0 : (0 : ℚ) ≤ (K / (D - K)) ^ (4 * ps.length) := pow_nonneg (div_nonneg (Nat.cast_nonneg _) (sub_nonneg.2 hKD.le)) _
  have hR : (0 : ℚ) ≤ (Fintype.card F - 1 : ℕ) ^ (4 * ps.length - 1) * (K / (D - K) : ℚ) ^ (4 * ps.length) +
      ps.length * (4 * K / D : ℚ) ^ j :=
    add_nonneg (mul_nonneg (pow_nonneg (Nat.cast_nonneg _) _) hp0)
      (mul_nonneg (Nat.cast_nonneg _) (pow_nonneg (div_nonneg (mul_nonneg (by norm_num) (Nat.cast_nonneg _)) (Nat.cast_nonneg _)) _))
  have key := fun (τ : Fin (ps.length * j * 4) → Block) (h : (Proof.verifyBatch (withTable E (weightKey "Triptych verifier weights"
      (seeds E (first :: rest) ps ts)) τ) cfg (first :: rest) ps ts).1 = .ok ()) =>
    C19_accepted (withTable E (weightKey "Triptych verifier weights" (seeds E (first :: rest) ps ts)) τ) cfg first rest ps ts
      (statementBuilt_withTable _ _ _ _ hst) h i st p ξ hi hp hξ hv
  rw [← avg_ind']
  by_cases hne : ∃ τ : Fin (ps.length * j * 4) → Block, (Proof.verifyBatch (withTable E (weightKey "Triptych verifier weights"
      (seeds E (first :: rest) ps ts)) τ) cfg (first :: rest) ps ts).1 = .ok ()
  · obtain ⟨τ₀, hτ₀⟩ := hne
    obtain ⟨bad, b1, b2, -⟩ := key τ₀ hτ₀
    refine (draws_event E D K hD' hK hK2 ps.length j 4 bad _ fun τ hτ => ?_).trans ?_
    · obtain ⟨bad', b1', -, w, hw, hw1, q, hw2⟩ := key τ hτ
      have hbb : bad' = bad := b1'.trans b1.symm
      subst hbb
      rw [seeds_withTable] at hw2
      by_cases hs : (usableDraws (rowValue E) (rowsOf τ)).length < ps.length
      · exact Or.inl hs
      · refine Or.inr ⟨w, hw, ?_⟩
        rw [not_lt] at hs
        have e := withTable_usable E "Triptych verifier weights" (seeds E (first :: rest) ps ts) τ
        have hpre : weightList w <+: (usableDraws (rowValue E) (rowsOf τ)).map quadOf := by
          rw [hw2, ← e]
          rcases Nat.le_total q (ps.length * j) with hq | hq
          · exact usableQuads_prefix _ _ _ _ hq
          · have h' := usableQuads_prefix (withTable E (weightKey "Triptych verifier weights" (seeds E (first :: rest) ps ts)) τ)
              (weightTranscript "Triptych verifier weights" (seeds E (first :: rest) ps ts)) _ _ hq
            rw [h'.eq_of_length_le (by rw [← hw2, hw1, e, List.length_map]; exact hs)]
        rw [weightList_eq] at hpre
        rw [List.prefix_iff_eq_take] at hpre ⊢
        rw [← List.map_take] at hpre
        rw [List.length_map] at hpre
        exact List.map_injective_iff.2 quadOf_injective hpre
    · have b2' : (#bad : ℚ) ≤ ((Fintype.card F - 1 : ℕ) : ℚ) ^ (4 * ps.length - 1) := by exact_mod_cast b2
      exact add_le_add (mul_le_mul_of_nonneg_right b2' hp0) (le_of_eq (by rw [Nat.cast_ofNat]))
  · have : ∀ τ : Fin (ps.length * j * 4) → Block, ind ((Proof.verifyBatch (withTable E (weightKey "Triptych verifier weights"
        (seeds E (first :: rest) ps ts)) τ) cfg (first :: rest) ps ts).1 = .ok ()) = 0 := fun τ => ind_neg fun h => hne ⟨τ, h⟩
    simp only [this]
    rw [avg_const]
    exact hR

local notation "ℓ" => (2 ^ 252 + 27742317777372353535851937790883648493 : ℕ)

theorem weight_ratio (q D : ℕ) (hq : 0 < q) (e : ℚ) (hK : D / q + 1 < D) (he : (q : ℚ) ≤ e * (D - (D / q + 1 : ℕ))) :
    ((q - 1 : ℕ) * ((D / q + 1 : ℕ) / (D - (D / q + 1 : ℕ))) : ℚ) ≤ 1 + e := by
  have hKD : ((D / q + 1 : ℕ) : ℚ) < D := by exact_mod_cast hK
  have h1 : (q * (D / q) : ℕ) ≤ D := Nat.mul_div_le D q
  have h2 : ((q : ℚ) * (D / q : ℕ)) ≤ D := by exact_mod_cast h1
  have h3 : ((D / q + 1 : ℕ) : ℚ) = (D / q : ℕ) + 1 := by push_cast; rfl
  rw [← mul_div_assoc, div_le_iff₀ (sub_pos.2 hKD), Nat.cast_sub hq, Nat.cast_one]
  generalize ((D / q + 1 : ℕ) : ℚ) = K at *
  generalize ((D / q : ℕ) : ℚ) = L at *
  subst h3
  nlinarith

/-- The bound of C75 for numbers of the size of Ristretto's, with `d` weights per proof. -/
theorem weight_arith (q D z d k : ℕ) (hz : z = 2 ^ 252) (hq1 : z < q) (hq2 : q ≤ 2 * z) (hD : D = 256 * z * z)
    (hd : 0 < d) (hd8 : d ≤ 8) (hk : 0 < k) (hk32 : k ≤ 2 ^ 32) :
    D / q + 1 < D ∧ ((q - 1 : ℕ) : ℚ) ^ (d * k - 1) * ((D / q + 1 : ℕ) / (D - (D / q + 1 : ℕ)) : ℚ) ^ (d * k) +
      k * (d * (D / q + 1 : ℕ) / D : ℚ) ^ 2 ≤ 2 / z := by
  have hz40 : 2 ^ 100 ≤ z := by rw [hz]; exact Nat.pow_le_pow_right (by norm_num) (by norm_num)
  clear hz
  have hzq : (2 ^ 100 : ℚ) ≤ z := by exact_mod_cast hz40
  have hz0 : (0 : ℚ) < z := lt_of_lt_of_le (by norm_num) hzq
  have hK1 : D / q ≤ 256 * z := by
    rw [hD]
    exact Nat.div_le_of_le_mul (by nlinarith)
  have hK1' : ((D / q + 1 : ℕ) : ℚ) ≤ 257 * z := by
    have : D / q + 1 ≤ 257 * z := by nlinarith
    exact_mod_cast this
  have hDq : (D : ℚ) = 256 * z * z := by rw [hD]; push_cast; ring
  have hlt : D / q + 1 < D := by
    have h : 257 * z < D := by rw [hD]; nlinarith
    have : D / q + 1 ≤ 257 * z := by nlinarith
    omega
  refine ⟨hlt, ?_⟩
  have hq1' : (z : ℚ) ≤ (q - 1 : ℕ) := by exact_mod_cast (show z ≤ q - 1 by omega)
  have hq2' : (q : ℚ) ≤ 2 * z := by exact_mod_cast hq2
  have hratio := weight_ratio q D (by omega) (1 / z) hlt (by
    rw [hDq, div_mul_eq_mul_div, le_div_iff₀ hz0]
    nlinarith)
  have hlt' : ((D / q + 1 : ℕ) : ℚ) < D := by exact_mod_cast hlt
  have hK0 : (0 : ℚ) ≤ (D / q + 1 : ℕ) := Nat.cast_nonneg _
  generalize ((D / q + 1 : ℕ) : ℚ) = K at *
  generalize ((q - 1 : ℕ) : ℚ) = q1 at *
  have hq10 : 0 < q1 := hz0.trans_le hq1'
  have hN : ((d * k : ℕ) : ℚ) ≤ 2 ^ 35 := by
    have : d * k ≤ 8 * 2 ^ 32 := Nat.mul_le_mul hd8 hk32
    exact_mod_cast this
  have hk' : (k : ℚ) ≤ 2 ^ 32 := by exact_mod_cast hk32
  have hd' : (d : ℚ) ≤ 8 := by exact_mod_cast hd8
  obtain ⟨N, hN1⟩ : ∃ N, d * k = N + 1 := ⟨d * k - 1, by have := Nat.mul_pos hd hk; omega⟩
  rw [hN1] at hN ⊢
  have hx0 : 0 ≤ K / (D - K) := div_nonneg hK0 (sub_pos.2 hlt').le
  have e1 : q1 ^ (N + 1 - 1) * (K / (D - K)) ^ (N + 1) = (q1 * (K / (D - K))) ^ (N + 1) / q1 := by
    rw [Nat.add_sub_cancel, mul_pow, pow_succ q1]
    field_simp
  have hb := one_add_pow_le (1 / z) (by positivity) (N + 1) (by
    rw [mul_one_div, div_le_one hz0]
    nlinarith)
  have hb2 : 2 * ((N + 1 : ℕ) : ℚ) * (1 / z) ≤ 1 / 2 := by
    rw [mul_one_div, div_le_div_iff₀ hz0 (by norm_num)]
    nlinarith
  have h1 : (q1 * (K / (D - K))) ^ (N + 1) / q1 ≤ 3 / 2 / z := by
    have := pow_le_pow_left₀ (mul_nonneg hq10.le hx0) hratio (N + 1)
    refine div_le_div₀ (by norm_num) (by linarith) hz0 hq1'
  have h2 : (d * K / D : ℚ) ≤ 9 / z := by
    rw [hDq, div_le_div_iff₀ (by positivity) hz0]
    have h3 : d * K ≤ 8 * (257 * z) := mul_le_mul hd' hK1' hK0 (by norm_num)
    have := mul_le_mul_of_nonneg_right h3 hz0.le
    nlinarith
  have h3 : (k : ℚ) * (d * K / D) ^ 2 ≤ 1 / 2 / z := by
    have h4 : (d * K / D : ℚ) ^ 2 ≤ (9 / z) ^ 2 := pow_le_pow_left₀ (by rw [hDq]; positivity) h2 2
    calc (k : ℚ) * (d * K / D) ^ 2 ≤ 2 ^ 32 * (9 / z) ^ 2 := mul_le_mul hk' h4 (sq_nonneg _) (by norm_num)
      _ = 2 ^ 32 * 81 / z / z := by field_simp; norm_num
      _ ≤ _ := by
        refine div_le_div_of_nonneg_right ?_ hz0.le
        rw [div_le_iff₀ hz0]
        nlinarith
  rw [e1]
  calc _ ≤ 3 / 2 / (z : ℚ) + 1 / 2 / z := add_le_add h1 h3
    _ = _ := by ring

theorem short_arith (q D z k j : ℕ) (hz : z = 2 ^ 252) (hq1 : z < q) (hD : D = 256 * z * z) (d : ℚ) (hd : 0 ≤ d) (hd7 : d ≤ 7 := by norm_num) :
    (k * (d * (D / q + 1 : ℕ) / D) ^ j : ℚ) ≤ k / 2 ^ (249 * j) := by
  have hz1 : (z : ℚ) = 8 * 2 ^ 249 := by
    rw [hz, Nat.cast_pow, Nat.cast_ofNat, show (8 : ℚ) = 2 ^ 3 by norm_num, ← pow_add]
  have hz40 : 2 ^ 100 ≤ z := by rw [hz]; exact Nat.pow_le_pow_right (by norm_num) (by norm_num)
  rw [pow_mul]
  have hx : (0 : ℚ) < 2 ^ 249 := pow_pos (by norm_num) _
  generalize (2 : ℚ) ^ 249 = x at *
  clear hz
  have hK1 : D / q ≤ 256 * z := by
    rw [hD]
    exact Nat.div_le_of_le_mul (by nlinarith)
  have hK1' : ((D / q + 1 : ℕ) : ℚ) ≤ 257 * z := by
    have : D / q + 1 ≤ 257 * z := by nlinarith
    exact_mod_cast this
  have hDq : (D : ℚ) = 256 * z * z := by rw [hD]; push_cast; ring
  have hz0 : (0 : ℚ) < z := by rw [hz1]; positivity
  have hK0 : (0 : ℚ) ≤ (D / q + 1 : ℕ) := Nat.cast_nonneg _
  generalize ((D / q + 1 : ℕ) : ℚ) = K at *
  have h : d * K / D ≤ 1 / x := by
    have h8 : 1 / x = 8 / (z : ℚ) := by rw [hz1]; field_simp
    rw [h8, hDq, div_le_div_iff₀ (by positivity) hz0]
    have h3 : d * K ≤ 7 * (257 * z) := mul_le_mul hd7 hK1' hK0 (by norm_num)
    have := mul_le_mul_of_nonneg_right h3 hz0.le
    nlinarith
  have h0 : 0 ≤ d * K / D := by rw [hDq]; positivity
  calc (k : ℚ) * (d * K / D) ^ j ≤ k * (1 / x) ^ j := mul_le_mul_of_nonneg_left (pow_le_pow_left₀ h0 h j) (Nat.cast_nonneg _)
    _ = _ := by rw [one_div, inv_pow, div_eq_mul_inv]

theorem two_pow_512 (z : ℕ) (hz : z = 2 ^ 252) : 2 ^ 512 = 256 * z * z := by
  rw [hz, show (256 : ℕ) = 2 ^ 8 by norm_num, ← pow_add, ← pow_add]

theorem two_div (z : ℕ) (hz : z = 2 ^ 252) : (2 : ℚ) / z = 1 / 2 ^ 251 := by
  have e : (z : ℚ) = 2 * 2 ^ 251 := by rw [hz, Nat.cast_pow, Nat.cast_ofNat, ← pow_succ']
  have h0 : (2 : ℚ) ^ 251 ≠ 0 := pow_ne_zero _ (by norm_num)
  rw [e]
  generalize (2 : ℚ) ^ 251 = x at *
  field_simp

theorem order_lt (z : ℕ) (hz : z = 2 ^ 252) : z < ℓ := by rw [hz]; exact Nat.lt_add_of_pos_right (by norm_num)

theorem order_le (z : ℕ) (hz : z = 2 ^ 252) : ℓ ≤ 2 * z := by
  have h : 27742317777372353535851937790883648493 ≤ 2 ^ 252 := by norm_num
  rw [← hz] at h ⊢
  omega

/-- C75 for Ristretto: a batch with an invalid proof is accepted for fewer than one in `2 ^ 251` tables. -/
theorem C75_ristretto {P : Type} [AddCommGroup P] [Module (ZMod ℓ) P] [DecidableEq P] (E : Env (ZMod ℓ) P)
    (hwide : ∀ b, E.scalarOfWide b = ((leNat b : ℕ) : ZMod ℓ)) (cfg : Config) (first : Statement P) (rest : List (Statement P))
    (ps : List (Proof (ZMod ℓ) P)) (ts : List Transcript) (hst : StatementBuilt E first)
    (i : ℕ) (st : Statement P) (p : Proof (ZMod ℓ) P) (ξ : ZMod ℓ) (hi : (first :: rest)[i]? = some st) (hp : ps[i]? = some p)
    (hξ : (challenges E (first :: rest) ps ts)[i]? = some ξ) (hv : ¬ Valid first.params first.inputSet.M st.J p ξ) :
    (#{τ : Fin (ps.length * 2 * 4) → Block |
      (Proof.verifyBatch (withTable E (weightKey "Triptych verifier weights" (seeds E (first :: rest) ps ts)) τ) cfg
        (first :: rest) ps ts).1 = .ok ()} : ℚ) / Fintype.card (Fin (ps.length * 2 * 4) → Block) ≤ 1 / 2 ^ 251 := by
  by_cases hk32 : ps.length ≤ 2 ^ 32
  · obtain ⟨z, hz⟩ : ∃ z, z = 2 ^ 252 := ⟨_, rfl⟩
    obtain ⟨D, hD⟩ : ∃ D, D = 2 ^ 512 := ⟨_, rfl⟩
    have hD' : 256 ^ 64 ≤ D := by rw [hD, show (256 : ℕ) = 2 ^ 8 by norm_num, ← pow_mul]
    have hk : 0 < ps.length := by
      obtain ⟨h, -⟩ := List.getElem?_eq_some_iff.1 hp
      omega
    obtain ⟨a1, a2⟩ := weight_arith ℓ D z 4 ps.length hz (order_lt z hz) (order_le z hz) (hD.trans (two_pow_512 z hz))
      (by norm_num) (by norm_num) hk hk32
    refine (C75_accept E cfg first rest ps ts hst i st p ξ hi hp hξ hv D (D / ℓ + 1) hD
      (fun x => by simp only [hwide]; exact blocks_value ℓ D hD' x) a1 2).trans ?_
    rw [ZMod.card]
    rw [two_div z hz, Nat.cast_ofNat] at a2
    exact a2
  · have h0 : ∀ τ : Fin (ps.length * 2 * 4) → Block, (Proof.verifyBatch (withTable E (weightKey "Triptych verifier weights"
        (seeds E (first :: rest) ps ts)) τ) cfg (first :: rest) ps ts).1 ≠ .ok () := by
      intro τ h
      have := (C18_accepted (withTable E (weightKey "Triptych verifier weights" (seeds E (first :: rest) ps ts)) τ) cfg first rest
        ps ts (statementBuilt_withTable _ _ _ _ hst) h).2.1.1
      rw [u32Max] at this
      omega
    rw [filter_false_of_mem fun τ _ => h0 τ, card_empty, Nat.cast_zero, zero_div]
    positivity

/-- C75 for Ristretto: the probability that `verify_batch` needs more than `j` quadruples per proof is at most
`k / 2 ^ (249 j)`. -/
theorem C75_ristretto_terminates {P : Type} [AddCommGroup P] [Module (ZMod ℓ) P] [DecidableEq P] (E : Env (ZMod ℓ) P)
    (hwide : ∀ b, E.scalarOfWide b = ((leNat b : ℕ) : ZMod ℓ)) (cfg : Config) (sts : List (Statement P))
    (ps : List (Proof (ZMod ℓ) P)) (ts : List Transcript) (hst : ∀ s ∈ sts, StatementBuilt E s)
    (hsz : ∀ first, sts.head? = some first → cfg.overflowChecks = true → batchSize first.params ps.length ≤ u32Max) (j : ℕ)
    (hfuel : ps.length * j ≤ cfg.fuel) :
    (#{τ : Fin (ps.length * j * 4) → Block |
      (Proof.verifyBatch (withTable E (weightKey "Triptych verifier weights" (seeds E sts ps ts)) τ) cfg sts ps ts).1 = .diverge} : ℚ) /
      Fintype.card (Fin (ps.length * j * 4) → Block) ≤ ps.length / 2 ^ (249 * j) := by
  obtain ⟨z, hz⟩ : ∃ z, z = 2 ^ 252 := ⟨_, rfl⟩
  obtain ⟨D, hD⟩ : ∃ D, D = 2 ^ 512 := ⟨_, rfl⟩
  have hD' : 256 ^ 64 ≤ D := by rw [hD, show (256 : ℕ) = 2 ^ 8 by norm_num, ← pow_mul]
  obtain ⟨a1, -⟩ := weight_arith ℓ D z 4 1 hz (order_lt z hz) (order_le z hz) (hD.trans (two_pow_512 z hz))
    (by norm_num) (by norm_num) (by norm_num) (by norm_num)
  refine (C75_terminates E cfg sts ps ts hst hsz D (D / ℓ + 1) hD
    (fun x => by simp only [hwide]; exact blocks_value ℓ D hD' x) a1 j hfuel).trans ?_
  exact short_arith ℓ D z ps.length j hz (order_lt z hz) (hD.trans (two_pow_512 z hz)) 4 (by norm_num)

/-- The hypotheses of `C75_accept` and `C75_ristretto`: a proof whose last response was changed violates its equations. -/
example : StatementBuilt (Toy.env ℓ) Toy.Ristretto.statement ∧
    (∃ ξ, (challenges (Toy.env ℓ) [Toy.Ristretto.statement] [{ Toy.Ristretto.proof with z := Toy.Ristretto.proof.z + 1 }]
        [Toy.transcript])[0]? = some ξ ∧
      ¬ Valid Toy.Ristretto.statement.params Toy.Ristretto.statement.inputSet.M Toy.Ristretto.statement.J
        { Toy.Ristretto.proof with z := Toy.Ristretto.proof.z + 1 } ξ) ∧
    ∀ b, (Toy.env ℓ).scalarOfWide b = ((leNat b : ℕ) : ZMod ℓ) := by
  refine ⟨Toy.Ristretto.statement_built, ⟨_, rfl, fun h => ?_⟩, fun _ => rfl⟩
  have : E4 Toy.Ristretto.statement.params Toy.Ristretto.statement.J
      { Toy.Ristretto.proof with z := Toy.Ristretto.proof.z + 1 }
      (challenge (Toy.env ℓ) Toy.transcript Toy.Ristretto.statement
        { Toy.Ristretto.proof with z := Toy.Ristretto.proof.z + 1 }) ≠ 0 := by decide +kernel
  exact this h.e4

/-- The hypotheses of `C75_terminates`: over the toy field, with at most `256 ^ 64 / 101 + 1` strings of the same value. -/
example : (∀ s ∈ [Toy.statement], StatementBuilt (Toy.env 101) s) ∧
    batchSize Toy.statement.params [Toy.proof].length ≤ u32Max ∧
    (∀ x : ZMod 101, #{b : Block | (Toy.env 101).scalarOfWide b.bytes = x} ≤ 256 ^ 64 / 101 + 1) ∧
    [Toy.proof].length * 1 ≤ Toy.cfg.fuel := by
  refine ⟨fun s hs => ?_, by decide +kernel, fun x => blocks_value 101 _ le_rfl x, by decide +kernel⟩
  rw [List.mem_singleton.1 hs]
  exact Toy.statement_built

end Triptych
