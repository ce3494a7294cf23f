import Verif.Props.Draws
import Verif.Props.Parallel.Generator
import Verif.Props.Parallel.Weights

/-! # The weights of the parallel verifier from an ideal generator: C77

The weights of a batch are what the code draws from the weight generator, whose first outputs form a random table. (The table is
random after the batch is fixed. That the generator depends on the proofs only through 64-bit numbers is a different matter, see
C57.) -/
set_option autoImplicit false
set_option linter.unusedSectionVars false
set_option linter.unusedVariables false

namespace Triptych.Parallel
open Finset
open Triptych.Parallel.Spec
open Triptych.Spec (avg Block Block.bytes withTable weightKey weightTranscript weightScalar)

variable {F P : Type} [Field F] [AddCommGroup P] [Module F P] [DecidableEq F] [DecidableEq P]

theorem seeds_withTable (E : Env F P) (key : TRng) {N : ℕ} (τ : Fin N → Block) (sts : List (Statement P)) (ps : List (Proof F P))
    (ts : List Transcript) : seeds (withTable E key τ) sts ps ts = seeds E sts ps ts := by
  rw [seeds, seeds]
  apply List.map_congr_left
  intro x _
  rw [weightSeed, weightSeed]
  congr 1
  show (if h : _ then _ else _) = _
  rw [dif_neg fun h => absurd h.2.2 (by decide)]
  rfl

theorem challenges_withTable (E : Env F P) (key : TRng) {N : ℕ} (τ : Fin N → Block) (sts : List (Statement P))
    (ps : List (Proof F P)) (ts : List Transcript) : challenges (withTable E key τ) sts ps ts = challenges E sts ps ts := rfl

/-- A tuple of five scalars as weights. -/
def quintOf (v : Fin 5 → F) : Proof.Weights F := ⟨v 0, v 1, v 2, v 3, v 4⟩

theorem quintOf_injective : Function.Injective (quintOf : (Fin 5 → F) → Proof.Weights F) := by
  intro v v' h
  simp only [quintOf, Proof.Weights.mk.injEq] at h
  ext e
  fin_cases e
  exacts [h.1, h.2.1, h.2.2.1, h.2.2.2.1, h.2.2.2.2]

theorem usable_quintOf (v : Fin 5 → F) : usable (quintOf v) = true ↔ ∀ e, v e ≠ 0 := by
  rw [usable, decide_eq_true_iff, Fin.forall_fin_succ, Fin.forall_fin_succ, Fin.forall_fin_succ, Fin.forall_fin_succ,
    Fin.forall_fin_succ]
  simp [quintOf]

theorem withTable_usable (E : Env F P) (label : String) (sd : List ℕ) {L : ℕ} (τ : Fin (L * 5) → Block) :
    usableQuints (withTable E (weightKey label sd) τ) (weightTranscript label sd) L =
      (usableDraws (rowValue E) (rowsOf τ)).map quintOf := by
  refine draws_tuples E quintOf usable usable_quintOf _ (rowsOf τ) fun q hq => ?_
  have h : ∀ e : Fin 5, e.val + 5 * q < L * 5 := fun e => by have := e.2; omega
  have h' := fun e : Fin 5 => Triptych.withTable_weightScalar E label sd τ _ (h e)
  rw [weightQuint, quintOf, Proof.Weights.mk.injEq]
  refine ⟨?_, ?_, ?_, ?_, ?_⟩
  · refine Eq.trans ?_ (h' 0)
    congr 1
    simp
  · refine Eq.trans ?_ (h' 1)
    congr 1
    exact Nat.add_comm _ _
  · refine Eq.trans ?_ (h' 2)
    congr 1
    exact Nat.add_comm _ _
  · refine Eq.trans ?_ (h' 3)
    congr 1
    exact Nat.add_comm _ _
  · refine Eq.trans ?_ (h' 4)
    congr 1
    exact Nat.add_comm _ _

theorem weightList_eq {k : ℕ} (w : Fin k × Fin 5 → F) : weightList w = (List.ofFn fun i => fun e => w (i, e)).map quintOf := by
  rw [weightList, List.map_ofFn]
  rfl

/-- C77: `verify_batch` draws weights until none is zero. It needs more than `j` attempts per proof on average with probability
at most `k (5 K / 2 ^ 512) ^ j`: that is the fraction of tables for which it may not return after drawing `k j` quintuples. -/
theorem C77_terminates (E : Env F P) (cfg : Config) (sts : List (Statement P)) (ps : List (Proof F P)) (ts : List Transcript)
    (hst : ∀ s ∈ sts, StatementBuilt E s)
    (hsz : ∀ first, sts.head? = some first → cfg.overflowChecks = true → batchSize first.params ps.length ≤ u32Max)
    (D K : ℕ) (hD : D = 2 ^ 512) (hK : ∀ x : F, #{b : Block | E.scalarOfWide b.bytes = x} ≤ K) (hK2 : K < D) (j : ℕ)
    (hfuel : ps.length * j ≤ cfg.fuel) :
    (#{τ : Fin (ps.length * j * 5) → Block |
      (Proof.verifyBatch (withTable E (weightKey "Parallel Triptych verifier weights" (seeds E sts ps ts)) τ) cfg sts ps ts).1 = .diverge} : ℚ) /
      Fintype.card (Fin (ps.length * j * 5) → Block) ≤ ps.length * (5 * K / D : ℚ) ^ j := by
  rw [← avg_ind']
  have hD' : Fintype.card Block = D := by rw [block_card, hD]
  refine draws_short E D K hD' hK hK2 ps.length j 5 _ fun τ hτ => ?_
  have h := (C50_no_panic (withTable E (weightKey "Parallel Triptych verifier weights" (seeds E sts ps ts)) τ) cfg sts ps ts hst hsz).2 hτ
  rw [EnoughFuel, seeds_withTable, not_le] at h
  have h2 := (usableQuints_prefix (withTable E (weightKey "Parallel Triptych verifier weights" (seeds E sts ps ts)) τ)
    (weightTranscript "Parallel Triptych verifier weights" (seeds E sts ps ts)) _ _ hfuel).length_le
  rw [withTable_usable, List.length_map] at h2
  omega

/-- C77: a batch with an invalid proof is accepted for few tables, whatever the batch: with `k` proofs and `q` scalars, for at
most a fraction `(q - 1) ^ (5 k - 1) (K / (2 ^ 512 - K)) ^ (5 k) + k (5 K / 2 ^ 512) ^ j` of the tables. -/
theorem C77_accept [Fintype F] (E : Env F P) (cfg : Config) (first : Statement P) (rest : List (Statement P))
    (ps : List (Proof F P)) (ts : List Transcript) (hst : StatementBuilt E first)
    (i : ℕ) (st : Statement P) (p : Proof F P) (ξ : F) (hi : (first :: rest)[i]? = some st) (hp : ps[i]? = some p)
    (hξ : (challenges E (first :: rest) ps ts)[i]? = some ξ) (hv : ¬ Valid first.params first.inputSet.M first.inputSet.M1 st.offset st.J p ξ)
    (D K : ℕ) (hD : D = 2 ^ 512) (hK : ∀ x : F, #{b : Block | E.scalarOfWide b.bytes = x} ≤ K) (hK2 : K < D) (j : ℕ) :
    (#{τ : Fin (ps.length * j * 5) → Block |
      (Proof.verifyBatch (withTable E (weightKey "Parallel Triptych verifier weights" (seeds E (first :: rest) ps ts)) τ) cfg
        (first :: rest) ps ts).1 = .ok ()} : ℚ) / Fintype.card (Fin (ps.length * j * 5) → Block) ≤
      (Fintype.card F - 1 : ℕ) ^ (5 * ps.length - 1) * (K / (D - K) : ℚ) ^ (5 * ps.length) + ps.length * (5 * K / D : ℚ) ^ j := by
  have hD' : Fintype.card Block = D := by rw [block_card, hD]
  have hKD : (K : ℚ) < D := by exact_mod_cast hK2
  have hp0 : (0 : ℚ) ≤ (K / (D - K)) ^ (5 * ps.length) := pow_nonneg (div_nonneg (Nat.cast_nonneg _) (sub_nonneg.2 hKD.le)) _
  have hR : (0 : ℚ) ≤ (Fintype.card F - 1 : ℕ) ^ (5 * ps.length - 1) * (K / (D - K) : ℚ) ^ (5 * ps.length) +
      ps.length * (5 * K / D : ℚ) ^ j :=
    add_nonneg (mul_nonneg (pow_nonneg (Nat.cast_nonneg _) _) hp0)
      (mul_nonneg (Nat.cast_nonneg _) (pow_nonneg (div_nonneg (mul_nonneg (by norm_num) (Nat.cast_nonneg _)) (Nat.cast_nonneg _)) _))
  have key := fun (τ : Fin (ps.length * j * 5) → Block) (h : (Proof.verifyBatch (withTable E (weightKey "Parallel Triptych verifier weights"
      (seeds E (first :: rest) ps ts)) τ) cfg (first :: rest) ps ts).1 = .ok ()) =>
    C50_exceptional (withTable E (weightKey "Parallel Triptych verifier weights" (seeds E (first :: rest) ps ts)) τ) cfg first rest ps ts
      (statementBuilt_withTable _ _ _ _ hst) h i st p ξ hi hp hξ hv
  rw [← avg_ind']
  by_cases hne : ∃ τ : Fin (ps.length * j * 5) → Block, (Proof.verifyBatch (withTable E (weightKey "Parallel Triptych verifier weights"
      (seeds E (first :: rest) ps ts)) τ) cfg (first :: rest) ps ts).1 = .ok ()
  · obtain ⟨τ₀, hτ₀⟩ := hne
    obtain ⟨bad, b1, b2, -⟩ := key τ₀ hτ₀
    refine (draws_event E D K hD' hK hK2 ps.length j 5 bad _ fun τ hτ => ?_).trans ?_
    · obtain ⟨bad', b1', -, w, hw, hw1, q, hw2⟩ := key τ hτ
      have hbb : bad' = bad := b1'.trans b1.symm
      subst hbb
      rw [seeds_withTable] at hw2
      by_cases hs : (usableDraws (rowValue E) (rowsOf τ)).length < ps.length
      · exact Or.inl hs
      · refine Or.inr ⟨w, hw, ?_⟩
        rw [not_lt] at hs
        have e := withTable_usable E "Parallel Triptych verifier weights" (seeds E (first :: rest) ps ts) τ
        have hpre : weightList w <+: (usableDraws (rowValue E) (rowsOf τ)).map quintOf := by
          rw [hw2, ← e]
          rcases Nat.le_total q (ps.length * j) with hq | hq
          · exact usableQuints_prefix _ _ _ _ hq
          · have h' := usableQuints_prefix (withTable E (weightKey "Parallel Triptych verifier weights" (seeds E (first :: rest) ps ts)) τ)
              (weightTranscript "Parallel Triptych verifier weights" (seeds E (first :: rest) ps ts)) _ _ hq
            rw [h'.eq_of_length_le (by rw [← hw2, hw1, e, List.length_map]; exact hs)]
        rw [weightList_eq] at hpre
        rw [List.prefix_iff_eq_take] at hpre ⊢
        rw [← List.map_take] at hpre
        rw [List.length_map] at hpre
        exact List.map_injective_iff.2 quintOf_injective hpre
    · have b2' : (#bad : ℚ) ≤ ((Fintype.card F - 1 : ℕ) : ℚ) ^ (5 * ps.length - 1) := by exact_mod_cast b2
      exact add_le_add (mul_le_mul_of_nonneg_right b2' hp0) (le_of_eq (by rw [Nat.cast_ofNat]))
  · have : ∀ τ : Fin (ps.length * j * 5) → Block, ind ((Proof.verifyBatch (withTable E (weightKey "Parallel Triptych verifier weights"
        (seeds E (first :: rest) ps ts)) τ) cfg (first :: rest) ps ts).1 = .ok ()) = 0 := fun τ => ind_neg fun h => hne ⟨τ, h⟩
    simp only [this]
    rw [avg_const]
    exact hR

local notation "ℓ" => (2 ^ 252 + 27742317777372353535851937790883648493 : ℕ)

/-- C77 for Ristretto: a batch with an invalid proof is accepted for fewer than one in `2 ^ 251` tables. -/
theorem C77_ristretto {P : Type} [AddCommGroup P] [Module (ZMod ℓ) P] [DecidableEq P] (E : Env (ZMod ℓ) P)
    (hwide : ∀ b, E.scalarOfWide b = ((leNat b : ℕ) : ZMod ℓ)) (cfg : Config) (first : Statement P) (rest : List (Statement P))
    (ps : List (Proof (ZMod ℓ) P)) (ts : List Transcript) (hst : StatementBuilt E first)
    (i : ℕ) (st : Statement P) (p : Proof (ZMod ℓ) P) (ξ : ZMod ℓ) (hi : (first :: rest)[i]? = some st) (hp : ps[i]? = some p)
    (hξ : (challenges E (first :: rest) ps ts)[i]? = some ξ) (hv : ¬ Valid first.params first.inputSet.M first.inputSet.M1 st.offset st.J p ξ) :
    (#{τ : Fin (ps.length * 2 * 5) → Block |
      (Proof.verifyBatch (withTable E (weightKey "Parallel Triptych verifier weights" (seeds E (first :: rest) ps ts)) τ) cfg
        (first :: rest) ps ts).1 = .ok ()} : ℚ) / Fintype.card (Fin (ps.length * 2 * 5) → Block) ≤ 1 / 2 ^ 251 := by
  by_cases hk32 : ps.length ≤ 2 ^ 32
  · obtain ⟨z, hz⟩ : ∃ z, z = 2 ^ 252 := ⟨_, rfl⟩
    obtain ⟨D, hD⟩ : ∃ D, D = 2 ^ 512 := ⟨_, rfl⟩
    have hD' : 256 ^ 64 ≤ D := by rw [hD, show (256 : ℕ) = 2 ^ 8 by norm_num, ← pow_mul]
    have hk : 0 < ps.length := by
      obtain ⟨h, -⟩ := List.getElem?_eq_some_iff.1 hp
      omega
    obtain ⟨a1, a2⟩ := weight_arith ℓ D z 5 ps.length hz (order_lt z hz) (order_le z hz) (hD.trans (two_pow_512 z hz))
      (by norm_num) (by norm_num) hk hk32
    refine (C77_accept E cfg first rest ps ts hst i st p ξ hi hp hξ hv D (D / ℓ + 1) hD
      (fun x => by simp only [hwide]; exact blocks_value ℓ D hD' x) a1 2).trans ?_
    rw [ZMod.card]
    rw [two_div z hz, Nat.cast_ofNat] at a2
    exact a2
  · have h0 : ∀ τ : Fin (ps.length * 2 * 5) → Block, (Proof.verifyBatch (withTable E (weightKey "Parallel Triptych verifier weights"
        (seeds E (first :: rest) ps ts)) τ) cfg (first :: rest) ps ts).1 ≠ .ok () := by
      intro τ h
      have := (C50_accepted (withTable E (weightKey "Parallel Triptych verifier weights" (seeds E (first :: rest) ps ts)) τ) cfg first rest
        ps ts (statementBuilt_withTable _ _ _ _ hst) h).2.1.1
      rw [u32Max] at this
      omega
    rw [filter_false_of_mem fun τ _ => h0 τ, card_empty, Nat.cast_zero, zero_div]
    positivity

/-- C77 for Ristretto: the probability that `verify_batch` needs more than `j` quintuples per proof is at most
`k / 2 ^ (249 j)`. -/
theorem C77_ristretto_terminates {P : Type} [AddCommGroup P] [Module (ZMod ℓ) P] [DecidableEq P] (E : Env (ZMod ℓ) P)
    (hwide : ∀ b, E.scalarOfWide b = ((leNat b : ℕ) : ZMod ℓ)) (cfg : Config) (sts : List (Statement P))
    (ps : List (Proof (ZMod ℓ) P)) (ts : List Transcript) (hst : ∀ s ∈ sts, StatementBuilt E s)
    (hsz : ∀ first, sts.head? = some first → cfg.overflowChecks = true → batchSize first.params ps.length ≤ u32Max) (j : ℕ)
    (hfuel : ps.length * j ≤ cfg.fuel) :
    (#{τ : Fin (ps.length * j * 5) → Block |
      (Proof.verifyBatch (withTable E (weightKey "Parallel Triptych verifier weights" (seeds E sts ps ts)) τ) cfg sts ps ts).1 = .diverge} : ℚ) /
      Fintype.card (Fin (ps.length * j * 5) → Block) ≤ ps.length / 2 ^ (249 * j) := by
  obtain ⟨z, hz⟩ : ∃ z, z = 2 ^ 252 := ⟨_, rfl⟩
  obtain ⟨D, hD⟩ : ∃ D, D = 2 ^ 512 := ⟨_, rfl⟩
  have hD' : 256 ^ 64 ≤ D := by rw [hD, show (256 : ℕ) = 2 ^ 8 by norm_num, ← pow_mul]
  obtain ⟨a1, -⟩ := weight_arith ℓ D z 5 1 hz (order_lt z hz) (order_le z hz) (hD.trans (two_pow_512 z hz))
    (by norm_num) (by norm_num) (by norm_num) (by norm_num)
  refine (C77_terminates E cfg sts ps ts hst hsz D (D / ℓ + 1) hD
    (fun x => by simp only [hwide]; exact blocks_value ℓ D hD' x) a1 j hfuel).trans ?_
  exact short_arith ℓ D z ps.length j hz (order_lt z hz) (hD.trans (two_pow_512 z hz)) 5 (by norm_num)

/-- A proof that violates its equations. -/
def Toy.Ristretto.badProof : Proof (ZMod ℓ) (ZMod ℓ) := ⟨0, 0, 0, 0, [0, 0], [0, 0], [0, 0], [[0], [0]], 0, 0, 1, 0⟩

theorem Toy.Ristretto.badProof_invalid : E4 Toy.Ristretto.statement.params Toy.Ristretto.statement.J Toy.Ristretto.badProof
    (challenge (Triptych.Toy.env ℓ) Triptych.Toy.transcript Toy.Ristretto.statement Toy.Ristretto.badProof) ≠ 0 := by
  decide +kernel

/-- The hypotheses of `C77_accept` and `C77_ristretto`, over the real scalar field. -/
example : StatementBuilt (Triptych.Toy.env ℓ) Toy.Ristretto.statement ∧
    (∃ ξ, (challenges (Triptych.Toy.env ℓ) [Toy.Ristretto.statement] [Toy.Ristretto.badProof]
        [Triptych.Toy.transcript])[0]? = some ξ ∧
      ¬ Valid Toy.Ristretto.statement.params Toy.Ristretto.statement.inputSet.M Toy.Ristretto.statement.inputSet.M1
        Toy.Ristretto.statement.offset Toy.Ristretto.statement.J Toy.Ristretto.badProof ξ) ∧
    ∀ b, (Triptych.Toy.env ℓ).scalarOfWide b = ((leNat b : ℕ) : ZMod ℓ) := by
  have h := Toy.Ristretto.badProof_invalid
  have hb := Toy.Ristretto.statement_built
  generalize Toy.Ristretto.statement = st at *
  generalize Toy.Ristretto.badProof = p at *
  exact ⟨hb, ⟨_, rfl, fun hv => h hv.e4⟩, fun _ => rfl⟩

/-- The hypotheses of `C77_terminates`: over the toy field, with at most `256 ^ 64 / 101 + 1` strings of the same value. -/
example : (∀ s ∈ [Toy.statement], StatementBuilt (Triptych.Toy.env 101) s) ∧
    batchSize Toy.statement.params [Toy.proof].length ≤ u32Max ∧
    (∀ x : ZMod 101, #{b : Block | (Triptych.Toy.env 101).scalarOfWide b.bytes = x} ≤ 256 ^ 64 / 101 + 1) ∧
    [Toy.proof].length * 1 ≤ Triptych.Toy.cfg.fuel := by
  refine ⟨fun s hs => ?_, by decide +kernel, fun x => blocks_value 101 _ le_rfl x, by decide +kernel⟩
  rw [List.mem_singleton.1 hs]
  exact Toy.statement_built

end Triptych.Parallel
