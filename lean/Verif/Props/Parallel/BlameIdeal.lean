import Verif.Props.BlameIdeal
import Verif.Props.Parallel.Draws
import Verif.Props.Parallel.Blame
import Verif.Spec.Parallel.BlameIdeal

/-! # The blame functions of the parallel verifier with ideal weights: C115

The weight generators of all parts of a batch answer from independent random tables, chosen after the batch. The blame functions
then give the right answer except with negligible probability. -/
set_option autoImplicit false
set_option linter.unusedSectionVars false
set_option linter.unusedVariables false

namespace Triptych.Parallel
open Finset
open Triptych.Parallel.Spec
open Triptych.Spec (avg Block Block.bytes withTable withTables SingleRight FullRight weightKey weightTranscript part)

variable {F P : Type} [Field F] [AddCommGroup P] [Module F P] [DecidableEq F] [DecidableEq P]

theorem seeds_withTables (E : Env F P) (L : Finset Transcript) {N : ℕ} (W : L → Fin N → Block) (sts : List (Statement P))
    (ps : List (Proof F P)) (ts : List Transcript) : seeds (withTables E L W) sts ps ts = seeds E sts ps ts := by
  rw [seeds, seeds]
  apply List.map_congr_left
  intro x _
  rw [weightSeed, weightSeed]
  congr 1
  show (if h : _ then _ else _) = _
  rw [dif_neg fun h => absurd h.2.2.2 (by decide)]
  rfl

/-- What is genuine does not depend on the generators. -/
theorem genuineAt_prf (E : Env F P) (f : TRng → Nat → Bytes) (sts : List (Statement P)) (ps : List (Proof F P)) (ts : List Transcript)
    (i : ℕ) : GenuineAt { E with prf := f } sts ps ts i ↔ GenuineAt E sts ps ts i := by
  constructor
  · rintro ⟨st, p, t, e1, e2, e3, e4⟩
    exact ⟨st, p, t, e1, e2, e3, ⟨e4.shape, e4.challenge, e4.responses, e4.valid⟩⟩
  · rintro ⟨st, p, t, e1, e2, e3, e4⟩
    exact ⟨st, p, t, e1, e2, e3, ⟨e4.shape, e4.challenge, e4.responses, e4.valid⟩⟩

theorem genuineAt_withTable (E : Env F P) (key : TRng) {N : ℕ} (τ : Fin N → Block) (sts : List (Statement P)) (ps : List (Proof F P))
    (ts : List Transcript) (i : ℕ) : GenuineAt (withTable E key τ) sts ps ts i ↔ GenuineAt E sts ps ts i :=
  genuineAt_prf E _ sts ps ts i

theorem genuineAt_withTables (E : Env F P) (L : Finset Transcript) {N : ℕ} (W : L → Fin N → Block) (sts : List (Statement P))
    (ps : List (Proof F P)) (ts : List Transcript) (i : ℕ) : GenuineAt (withTables E L W) sts ps ts i ↔ GenuineAt E sts ps ts i :=
  genuineAt_prf E _ sts ps ts i

/-- An entry of an accepted batch that is not genuine violates its equations. -/
theorem not_valid_of_accepted (E : Env F P) (cfg : Config) (first : Statement P) (rest : List (Statement P)) (ps : List (Proof F P))
    (ts : List Transcript) (hst : StatementBuilt E first) (hp : ∀ s ∈ first :: rest, s.params = first.params)
    (hi : ∀ s ∈ first :: rest, s.inputSet = first.inputSet)
    (h : (Proof.verifyBatch E cfg (first :: rest) ps ts).1 = .ok ()) (i : ℕ) (hk : i < ps.length)
    (hg : ¬ GenuineAt E (first :: rest) ps ts i) :
    ∃ st p ξ, (first :: rest)[i]? = some st ∧ ps[i]? = some p ∧ (challenges E (first :: rest) ps ts)[i]? = some ξ ∧
      ¬ Valid first.params first.inputSet.M first.inputSet.M1 st.offset st.J p ξ := by
  obtain ⟨c1, -, c3, c4, -⟩ := C50_accepted E cfg first rest ps ts hst h
  have l1 := c1.proofs
  have l2 := c1.transcripts
  have g1 : (first :: rest)[i]? = some (first :: rest)[i] := List.getElem?_eq_getElem (by omega)
  have g2 : ps[i]? = some ps[i] := List.getElem?_eq_getElem (by omega)
  have g3 : ts[i]? = some ts[i] := List.getElem?_eq_getElem (by omega)
  have g4 : (challenges E (first :: rest) ps ts)[i]? = some (challenge E ts[i] (first :: rest)[i] ps[i]) := by
    have g5 : (ps.zip ts)[i]? = some (ps[i], ts[i]) := List.getElem?_zip_eq_some.2 ⟨g2, g3⟩
    have g6 : ((first :: rest).zip (ps.zip ts))[i]? = some ((first :: rest)[i], ps[i], ts[i]) :=
      List.getElem?_zip_eq_some.2 ⟨g1, g5⟩
    rw [challenges, List.getElem?_map, g6]
    rfl
  refine ⟨_, _, _, g1, g2, g4, fun hv => hg ⟨_, _, _, g1, g2, g3, ?_⟩⟩
  have hm : (first :: rest)[i] ∈ first :: rest := List.getElem_mem _
  refine ⟨?_, ?_, ?_, ?_⟩
  · rw [hp _ hm]
    exact c1.shapes _ (List.getElem_mem _)
  · intro h0
    exact c3 (h0 ▸ List.mem_of_getElem? g4)
  · rw [hp _ hm]
    exact c4 (ps[i], _) (List.mem_of_getElem? (List.getElem?_zip_eq_some.2 ⟨g2, g4⟩))
  · rw [hp _ hm, hi _ hm]
    exact hv

/-- A batch goes wrong: too few weights can be drawn, or it is accepted although an entry is not genuine. -/
def Wrong (E : Env F P) (cfg : Config) (sts : List (Statement P)) (ps : List (Proof F P)) (ts : List Transcript) : Prop :=
  ¬ EnoughFuel E sts ps ts cfg.fuel ∨
  (Proof.verifyBatch E cfg sts ps ts).1 = .ok () ∧ ∃ i < ps.length, ¬ GenuineAt E sts ps ts i

theorem wrong_bound [Fintype F] (E : Env F P) (cfg : Config) (first : Statement P) (rest : List (Statement P))
    (ps : List (Proof F P)) (ts : List Transcript) (hst : StatementBuilt E first)
    (hp : ∀ s ∈ first :: rest, s.params = first.params) (hi : ∀ s ∈ first :: rest, s.inputSet = first.inputSet)
    (D K : ℕ) (hD : D = 2 ^ 512) (hK : ∀ x : F, #{b : Block | E.scalarOfWide b.bytes = x} ≤ K) (hK2 : K < D) (j : ℕ)
    (hfuel : ps.length * j ≤ cfg.fuel) (ε : ℚ)
    (hε : (Fintype.card F - 1 : ℕ) ^ (5 * ps.length - 1) * (K / (D - K) : ℚ) ^ (5 * ps.length) +
      ps.length * (5 * K / D : ℚ) ^ j + ps.length * (5 * K / D : ℚ) ^ j ≤ ε) :
    avg (fun τ : Fin (ps.length * j * 5) → Block =>
      ind (Wrong (withTable E (weightKey "Parallel Triptych verifier weights" (seeds E (first :: rest) ps ts)) τ) cfg (first :: rest) ps ts)) ≤
      ε := by
  have hD' : Fintype.card Block = D := by rw [block_card, hD]
  have hKD : (K : ℚ) < D := by exact_mod_cast hK2
  have h1 : avg (fun τ : Fin (ps.length * j * 5) → Block => ind (¬ EnoughFuel (withTable E (weightKey "Parallel Triptych verifier weights"
      (seeds E (first :: rest) ps ts)) τ) (first :: rest) ps ts cfg.fuel)) ≤ ps.length * (5 * K / D : ℚ) ^ j := by
    refine draws_short E D K hD' hK hK2 ps.length j 5 _ fun τ hτ => ?_
    rw [EnoughFuel, seeds_withTable, not_le] at hτ
    have h2 := (usableQuints_prefix (withTable E (weightKey "Parallel Triptych verifier weights" (seeds E (first :: rest) ps ts)) τ)
      (weightTranscript "Parallel Triptych verifier weights" (seeds E (first :: rest) ps ts)) _ _ hfuel).length_le
    rw [withTable_usable, List.length_map] at h2
    omega
  have h2 : avg (fun τ : Fin (ps.length * j * 5) → Block => ind ((Proof.verifyBatch (withTable E (weightKey
      "Parallel Triptych verifier weights" (seeds E (first :: rest) ps ts)) τ) cfg (first :: rest) ps ts).1 = .ok () ∧
      ∃ i < ps.length, ¬ GenuineAt E (first :: rest) ps ts i)) ≤
      (Fintype.card F - 1 : ℕ) ^ (5 * ps.length - 1) * (K / (D - K) : ℚ) ^ (5 * ps.length) + ps.length * (5 * K / D : ℚ) ^ j := by
    by_cases hne : ∃ τ : Fin (ps.length * j * 5) → Block, (Proof.verifyBatch (withTable E (weightKey
      "Parallel Triptych verifier weights" (seeds E (first :: rest) ps ts)) τ) cfg (first :: rest) ps ts).1 = .ok () ∧
      ∃ i < ps.length, ¬ GenuineAt E (first :: rest) ps ts i
    · obtain ⟨τ, a, i, hik, hg⟩ := hne
      obtain ⟨st, p, ξ, e1, e2, e3, e4⟩ := not_valid_of_accepted (withTable E (weightKey "Parallel Triptych verifier weights"
        (seeds E (first :: rest) ps ts)) τ) cfg first rest ps ts (statementBuilt_withTable _ _ _ _ hst) hp hi a i hik
        fun x => hg ((genuineAt_withTable _ _ _ _ _ _ _).1 x)
      refine le_trans ?_ (C77_accept E cfg first rest ps ts hst i st p ξ e1 e2 e3 e4 D K hD hK hK2 j)
      rw [← avg_ind']
      exact avg_mono _ _ fun τ => ind_mono fun h => h.1
    · have : ∀ τ : Fin (ps.length * j * 5) → Block, ind ((Proof.verifyBatch (withTable E (weightKey
          "Parallel Triptych verifier weights" (seeds E (first :: rest) ps ts)) τ) cfg (first :: rest) ps ts).1 = .ok () ∧
          ∃ i < ps.length, ¬ GenuineAt E (first :: rest) ps ts i) = 0 := fun τ => ind_neg fun h => hne ⟨τ, h⟩
      simp only [this]
      rw [avg_const]
      have hp0 : (0 : ℚ) ≤ (K / (D - K)) ^ (5 * ps.length) :=
        pow_nonneg (div_nonneg (Nat.cast_nonneg _) (sub_nonneg.2 hKD.le)) _
      exact add_nonneg (mul_nonneg (pow_nonneg (Nat.cast_nonneg _) _) hp0)
        (mul_nonneg (Nat.cast_nonneg _) (pow_nonneg (div_nonneg (mul_nonneg (by norm_num) (Nat.cast_nonneg _)) (Nat.cast_nonneg _)) _))
  refine le_trans ?_ ((add_le_add h2 h1).trans hε)
  rw [← avg_add]
  refine avg_mono _ _ fun τ => ?_
  by_cases hf : EnoughFuel (withTable E (weightKey "Parallel Triptych verifier weights" (seeds E (first :: rest) ps ts)) τ)
      (first :: rest) ps ts cfg.fuel
  · refine le_trans (ind_mono fun h => ?_) (le_add_of_nonneg_right (ind_nonneg _))
    obtain ⟨h1, i, h2, h3⟩ := h.resolve_left fun x => x hf
    exact ⟨h1, i, h2, fun x => h3 ((genuineAt_withTable _ _ _ _ _ _ _).2 x)⟩
  · rw [ind_pos hf]
    exact (ind_le_one _).trans (le_add_of_nonneg_left (ind_nonneg _))

/-- If no part of the batch goes wrong, both blame functions answer right. -/
theorem right_of_parts (E : Env F P) (cfg : Config) (sts : List (Statement P)) (ps : List (Proof F P)) (ts : List Transcript)
    (h : BlameInput E cfg sts ps ts)
    (hw : ∀ a b, a < b → b ≤ ps.length → ¬ Wrong E cfg (part sts a b) (part ps a b) (part ts a b)) :
    SingleRight (GenuineAt E sts ps ts) ps.length (Proof.verifyBatchWithSingleBlame E cfg sts ps ts).1 ∧
    FullRight (GenuineAt E sts ps ts) ps.length (Proof.verifyBatchWithFullBlame E cfg sts ps ts).1 := by
  have hB : BlameBatch E cfg sts ps ts := ⟨h.proofs, h.transcripts, h.built, h.params, h.inputSets, h.size, h.index,
    fun a b hab hb => by_contra fun x => hw a b hab hb (Or.inl x)⟩
  have l1 := h.proofs
  have l2 := h.transcripts
  have hpart : ∀ a b, a < b → b ≤ ps.length →
      (Proof.verifyBatch E cfg (part sts a b) (part ps a b) (part ts a b)).1 = .ok () → ∀ i, a ≤ i → i < b → GenuineAt E sts ps ts i := by
    intro a b hab hb hok i hai hib
    by_contra hg
    refine hw a b hab hb (Or.inr ⟨hok, i - a, ?_, ?_⟩)
    · rw [part, take_drop_length ps a b hb]
      omega
    · rintro ⟨st, p, t, e1, e2, e3, e4⟩
      rw [part, take_drop_getElem?, if_pos (by omega), Nat.add_sub_cancel' hai] at e1 e2 e3
      exact hg ⟨st, p, t, e1, e2, e3, e4⟩
  have whole : ∀ hk : 0 < ps.length, (Proof.verifyBatch E cfg sts ps ts).1 = .ok () ↔ ∀ i < ps.length, GenuineAt E sts ps ts i := by
    intro hk
    rw [← hB.whole hk, hB.sub 0 _ hk le_rfl]
    exact ⟨fun x i hi => hpart 0 _ hk le_rfl x i (by omega) hi, fun x => hB.part_ok 0 _ hk le_rfl fun i _ hi => x i hi⟩
  have whole' : (Proof.verifyBatch E cfg sts ps ts).1 = .ok () ↔ ∀ i < ps.length, GenuineAt E sts ps ts i := by
    by_cases hk : 0 < ps.length
    · exact whole hk
    · refine ⟨fun _ i hi => by omega, fun _ => by_contra fun hr => hk (hB.pos hr)⟩
  obtain ⟨s1, s2⟩ := C53_blame E cfg sts ps ts hB
  constructor
  · by_cases hr : (Proof.verifyBatch E cfg sts ps ts).1 = .ok ()
    · exact Or.inl ⟨whole'.1 hr, s1.2 hr⟩
    · obtain ⟨i, hi, e1, e2⟩ := s2 hr
      refine Or.inr ⟨i, hi, ?_⟩
      rcases e2 with e2 | ⟨c, hc, c1, j, j1, j2, j3⟩
      · exact ⟨e2.1, e2.2, e1⟩
      · obtain ⟨-, d2, -⟩ := C53_cost E cfg sts ps ts h.index
        exact absurd (hpart c.1 c.2 (d2 c hc).1 (d2 c hc).2 c1 j j1 j2) j3
  · have hf1 : ∀ (j : ℕ) st p t, sts[j]? = some st → ps[j]? = some p → ts[j]? = some t → EnoughFuel E [st] [p] [t] cfg.fuel := by
      intro j st p t e1 e2 e3
      have := hB.fuel j (j + 1) (by omega) (by
        have : j < ps.length := (List.getElem?_eq_some_iff.1 e2).1
        omega)
      rwa [part_one _ _ _ e1, part_one _ _ _ e2, part_one _ _ _ e3] at this
    by_cases hk : 0 < ps.length
    · have hf0 := hB.fuel 0 ps.length hk le_rfl
      rw [part_zero sts _ l1, part_zero ps _ rfl, part_zero ts _ (by omega)] at hf0
      obtain ⟨f1, f2⟩ := C53_full E cfg sts ps ts h.built (fun s hs => by
        rw [max_eq_right hk]
        exact h.size s hs) (fun _ _ => hf0) hf1
      by_cases hr : (Proof.verifyBatch E cfg sts ps ts).1 = .ok ()
      · exact Or.inl ⟨whole'.1 hr, f1.2 hr⟩
      · obtain ⟨is, e1, e2, e3⟩ := f2 hr
        have e4 : ∀ i, i ∈ is ↔ i < ps.length ∧ ¬ GenuineAt E sts ps ts i := by
          intro i
          rw [e3 i]
          constructor
          · rintro ⟨st, p, t, g1, g2, g3, g4⟩
            have hi : i < ps.length := (List.getElem?_eq_some_iff.1 g2).1
            refine ⟨hi, fun hg => g4 ?_⟩
            have := hB.part_ok i (i + 1) (by omega) (by omega) fun i' a b => by
              rwa [show i' = i by omega]
            rwa [part_one _ _ _ g1, part_one _ _ _ g2, part_one _ _ _ g3] at this
          · rintro ⟨hi, hg⟩
            have g1 : sts[i]? = some sts[i] := List.getElem?_eq_getElem (by omega)
            have g2 : ps[i]? = some ps[i] := List.getElem?_eq_getElem hi
            have g3 : ts[i]? = some ts[i] := List.getElem?_eq_getElem (by omega)
            refine ⟨_, _, _, g1, g2, g3, fun hv => hg ?_⟩
            refine hpart i (i + 1) (by omega) (by omega) ?_ i le_rfl (by omega)
            rwa [part_one _ _ _ g1, part_one _ _ _ g2, part_one _ _ _ g3]
        refine Or.inr ⟨is, ?_, e2, e4, e1⟩
        rintro rfl
        exact hr (whole'.2 fun i hi => by_contra fun hg => by simpa using (e4 i).2 ⟨hi, hg⟩)
    · refine Or.inl ⟨fun i hi => by omega, ?_⟩
      have hr : (Proof.verifyBatch E cfg sts ps ts).1 = .ok () := by_contra fun hr => hk (hB.pos hr)
      rw [Proof.verifyBatchWithFullBlame, hr]

theorem Spec.BlameInput.withTables {E : Env F P} {cfg : Config} {sts : List (Statement P)} {ps : List (Proof F P)}
    {ts : List Transcript} (h : BlameInput E cfg sts ps ts) (L : Finset Transcript) {N : ℕ} (W : L → Fin N → Block) :
    BlameInput (withTables E L W) cfg sts ps ts :=
  ⟨h.proofs, h.transcripts, h.built, h.params, h.inputSets, h.size, h.index⟩

/-- One part goes wrong with small probability. -/
theorem part_bound [Fintype F] (E : Env F P) (cfg : Config) (sts : List (Statement P)) (ps : List (Proof F P)) (ts : List Transcript)
    (h : BlameInput E cfg sts ps ts) (L : Finset Transcript) (a b : ℕ) (hab : a < b) (hb : b ≤ ps.length)
    (hL : weightTranscript "Parallel Triptych verifier weights" (seeds E (part sts a b) (part ps a b) (part ts a b)) ∈ L)
    (D K : ℕ) (hD : D = 2 ^ 512) (hK : ∀ x : F, #{b : Block | E.scalarOfWide b.bytes = x} ≤ K) (hK2 : K < D) (j N : ℕ)
    (hN : ps.length * j * 5 ≤ N) (hfuel : ps.length * j ≤ cfg.fuel) (ε : ℚ)
    (hε : ∀ k : ℕ, 0 < k → k ≤ ps.length → (Fintype.card F - 1 : ℕ) ^ (5 * k - 1) * (K / (D - K) : ℚ) ^ (5 * k) +
      k * (5 * K / D : ℚ) ^ j + k * (5 * K / D : ℚ) ^ j ≤ ε) :
    avg (fun W : L → Fin N → Block =>
      ind (Wrong (withTables E L W) cfg (part sts a b) (part ps a b) (part ts a b))) ≤ ε := by
  have l1 := h.proofs
  have e1 : (part sts a b).length = b - a := take_drop_length sts a b (by omega)
  have e2 : (part ps a b).length = b - a := take_drop_length ps a b hb
  have hle : (part ps a b).length ≤ ps.length := by omega
  have hε' := hε (part ps a b).length (by omega) hle
  have hA : (part ps a b).length * j * 5 ≤ N := (Nat.mul_le_mul_right 5 (Nat.mul_le_mul_right j hle)).trans hN
  have hfu : (part ps a b).length * j ≤ cfg.fuel := (Nat.mul_le_mul_right j hle).trans hfuel
  have hmem : ∀ s ∈ part sts a b, s ∈ sts := fun s hs => mem_take_drop hs
  generalize part sts a b = sts' at *
  generalize part ps a b = ps' at *
  generalize part ts a b = ts' at *
  cases sts' with
  | nil => simp at e1; omega
  | cons first rest =>
    have hfirst := hmem first (by simp)
    refine avg_tables E L N ⟨_, hL⟩ (fun E' => Wrong E' cfg (first :: rest) ps' ts') ε fun W => ?_
    refine avg_longer _ _ (ps'.length * j * 5) N hA (fun E' => Wrong E' cfg (first :: rest) ps' ts') ε ?_
    rintro _ ⟨τ₀, rfl⟩
    have hs : seeds (withTable (withTables E L W) ⟨weightTranscript "Parallel Triptych verifier weights" (seeds E (first :: rest) ps' ts'), [],
        List.replicate 32 0, []⟩ τ₀) (first :: rest) ps' ts' = seeds E (first :: rest) ps' ts' := by
      rw [seeds_withTable, seeds_withTables]
    have := wrong_bound (withTable (withTables E L W) ⟨weightTranscript "Parallel Triptych verifier weights"
        (seeds E (first :: rest) ps' ts'), [], List.replicate 32 0, []⟩ τ₀) cfg first rest ps' ts' (h.built first hfirst)
      (fun s hs => h.params s (hmem s hs) first hfirst) (fun s hs => h.inputSets s (hmem s hs) first hfirst) D K hD hK hK2 j hfu ε hε'
    rw [hs] at this
    exact this

open Classical in
/-- C115: when every weight generator a batch can need answers from its own random table, single blame names the first proof that is
not genuine and full blame exactly those that are not (and both succeed when all are genuine), except for a fraction `k ^ 2 ε` of the
tables, where `ε` bounds what can go wrong for a batch of at most `k` proofs (see C77). -/
theorem C115_blame [Fintype F] (E : Env F P) (cfg : Config) (sts : List (Statement P)) (ps : List (Proof F P)) (ts : List Transcript)
    (h : BlameInput E cfg sts ps ts) (L : Finset Transcript)
    (hL : ∀ a b, a < b → b ≤ ps.length →
      weightTranscript "Parallel Triptych verifier weights" (seeds E (part sts a b) (part ps a b) (part ts a b)) ∈ L)
    (D K : ℕ) (hD : D = 2 ^ 512) (hK : ∀ x : F, #{b : Block | E.scalarOfWide b.bytes = x} ≤ K) (hK2 : K < D) (j N : ℕ)
    (hN : ps.length * j * 5 ≤ N) (hfuel : ps.length * j ≤ cfg.fuel) (ε : ℚ)
    (hε : ∀ k : ℕ, 0 < k → k ≤ ps.length → (Fintype.card F - 1 : ℕ) ^ (5 * k - 1) * (K / (D - K) : ℚ) ^ (5 * k) +
      k * (5 * K / D : ℚ) ^ j + k * (5 * K / D : ℚ) ^ j ≤ ε) :
    (#{W : L → Fin N → Block | ¬ (
      SingleRight (GenuineAt E sts ps ts) ps.length (Proof.verifyBatchWithSingleBlame (withTables E L W) cfg sts ps ts).1 ∧
      FullRight (GenuineAt E sts ps ts) ps.length (Proof.verifyBatchWithFullBlame (withTables E L W) cfg sts ps ts).1)} : ℚ) /
      Fintype.card (L → Fin N → Block) ≤ ps.length ^ 2 * ε := by
  rw [← avg_ind']
  have hb : ∀ x : Fin ps.length × Fin ps.length, avg (fun W : L → Fin N → Block => ind (x.1.val < x.2.val + 1 ∧
      Wrong (withTables E L W) cfg (part sts x.1 (x.2 + 1)) (part ps x.1 (x.2 + 1)) (part ts x.1 (x.2 + 1)))) ≤ ε := by
    intro x
    have hx1 := x.1.2
    have hx2 := x.2.2
    by_cases hx : x.1.val < x.2.val + 1
    · refine (avg_mono _ _ fun W => ind_mono fun y => y.2).trans
        (part_bound E cfg sts ps ts h L x.1 (x.2 + 1) hx hx2 (hL _ _ hx hx2) D K hD hK hK2 j N hN hfuel ε hε)
    · have hKD : (K : ℚ) < D := by exact_mod_cast hK2
      have hp0 : (0 : ℚ) ≤ (K / (D - K)) ^ (5 * 1) := pow_nonneg (div_nonneg (Nat.cast_nonneg _) (sub_nonneg.2 hKD.le)) _
      have hp1 : (0 : ℚ) ≤ (1 : ℕ) * (5 * K / D : ℚ) ^ j :=
        mul_nonneg (Nat.cast_nonneg _) (pow_nonneg (div_nonneg (mul_nonneg (by norm_num) (Nat.cast_nonneg _)) (Nat.cast_nonneg _)) _)
      have h0 : 0 ≤ ε := le_trans (add_nonneg (add_nonneg (mul_nonneg (pow_nonneg (Nat.cast_nonneg _) _) hp0) hp1) hp1)
        (hε 1 (by norm_num) (by omega))
      refine le_trans (avg_mono _ (fun _ => 0) fun W => le_of_eq (ind_neg fun y => hx y.1)) ?_
      rwa [avg_const]
  have hsum := sum_le_sum (s := univ) fun (x : Fin ps.length × Fin ps.length) _ => hb x
  rw [← avg_sum', sum_const, card_univ, Fintype.card_prod, Fintype.card_fin, nsmul_eq_mul] at hsum
  refine le_trans (avg_mono _ _ fun W => ?_) (hsum.trans (le_of_eq (by push_cast; ring)))
  by_cases hall : ∀ a b, a < b → b ≤ ps.length → ¬ Wrong (withTables E L W) cfg (part sts a b) (part ps a b) (part ts a b)
  · rw [ind_neg]
    · exact sum_nonneg fun x _ => ind_nonneg _
    · rw [not_not]
      have := right_of_parts (withTables E L W) cfg sts ps ts (h.withTables L W) hall
      have e : GenuineAt (withTables E L W) sts ps ts = GenuineAt E sts ps ts :=
        funext fun i => propext (genuineAt_withTables E L W sts ps ts i)
      rwa [e] at this
  · push Not at hall
    obtain ⟨a, b, hab, hb', hw⟩ := hall
    refine (ind_le_one _).trans ?_
    have hx := single_le_sum (s := univ) (f := fun x : Fin ps.length × Fin ps.length => ind (x.1.val < x.2.val + 1 ∧
      Wrong (withTables E L W) cfg (part sts x.1 (x.2 + 1)) (part ps x.1 (x.2 + 1)) (part ts x.1 (x.2 + 1))))
      (fun x _ => ind_nonneg _) (mem_univ (⟨a, by omega⟩, ⟨b - 1, by omega⟩))
    refine le_trans (le_of_eq ?_) hx
    have eb : b - 1 + 1 = b := by omega
    simp only [eb]
    rw [ind_pos ⟨hab, hw⟩]

local notation "ℓ" => (2 ^ 252 + 27742317777372353535851937790883648493 : ℕ)

open Classical in
/-- C115 for Ristretto: the blame functions give a wrong answer for a batch of `k` proofs with probability at most
`k ^ 2 / 2 ^ 250`. -/
theorem C115_ristretto {P : Type} [AddCommGroup P] [Module (ZMod ℓ) P] [DecidableEq P] (E : Env (ZMod ℓ) P)
    (hwide : ∀ b, E.scalarOfWide b = ((leNat b : ℕ) : ZMod ℓ)) (cfg : Config) (sts : List (Statement P))
    (ps : List (Proof (ZMod ℓ) P)) (ts : List Transcript) (h : BlameInput E cfg sts ps ts) (L : Finset Transcript)
    (hL : ∀ a b, a < b → b ≤ ps.length →
      weightTranscript "Parallel Triptych verifier weights" (seeds E (part sts a b) (part ps a b) (part ts a b)) ∈ L)
    (hfuel : ps.length * 2 ≤ cfg.fuel) :
    (#{W : L → Fin (ps.length * 2 * 5) → Block | ¬ (
      SingleRight (GenuineAt E sts ps ts) ps.length (Proof.verifyBatchWithSingleBlame (withTables E L W) cfg sts ps ts).1 ∧
      FullRight (GenuineAt E sts ps ts) ps.length (Proof.verifyBatchWithFullBlame (withTables E L W) cfg sts ps ts).1)} : ℚ) /
      Fintype.card (L → Fin (ps.length * 2 * 5) → Block) ≤ ps.length ^ 2 / 2 ^ 250 := by
  obtain ⟨z, hz⟩ : ∃ z, z = 2 ^ 252 := ⟨_, rfl⟩
  obtain ⟨D, hD⟩ : ∃ D, D = 2 ^ 512 := ⟨_, rfl⟩
  have hD' : 256 ^ 64 ≤ D := by rw [hD, show (256 : ℕ) = 2 ^ 8 by norm_num, ← pow_mul]
  obtain ⟨a1, -⟩ := weight_arith ℓ D z 5 1 hz (order_lt z hz) (order_le z hz) (hD.trans (two_pow_512 z hz))
    (by norm_num) (by norm_num) (by norm_num) (by norm_num)
  refine (C115_blame E cfg sts ps ts h L hL D (D / ℓ + 1) hD (fun x => by simp only [hwide]; exact blocks_value ℓ D hD' x) a1 2
    (ps.length * 2 * 5) le_rfl hfuel (1 / 2 ^ 250) fun k hk hkl => ?_).trans (le_of_eq (mul_one_div _ _))
  have hk32 : k ≤ 2 ^ 32 := by
    have l1 := h.proofs
    have := (h.size _ (List.getElem_mem (show 0 < sts.length by omega))).1
    rw [u32Max] at this
    omega
  obtain ⟨-, a2⟩ := weight_arith ℓ D z 5 k hz (order_lt z hz) (order_le z hz) (hD.trans (two_pow_512 z hz))
    (by norm_num) (by norm_num) hk hk32
  rw [two_div z hz, Nat.cast_ofNat] at a2
  rw [ZMod.card]
  exact few_short k hk32 _ _ a2 (short_arith ℓ D z k 2 hz (order_lt z hz) (hD.trans (two_pow_512 z hz)) 5 (by norm_num))

/-! ## Examples -/

theorem exists_weightTranscripts (E : Env F P) (sts : List (Statement P)) (ps : List (Proof F P)) (ts : List Transcript) :
    ∃ L : Finset Transcript, ∀ a b, a < b → b ≤ ps.length →
      weightTranscript "Parallel Triptych verifier weights" (seeds E (part sts a b) (part ps a b) (part ts a b)) ∈ L :=
  ⟨(range (ps.length + 1) ×ˢ range (ps.length + 1)).image fun x => weightTranscript "Parallel Triptych verifier weights"
      (seeds E (part sts x.1 x.2) (part ps x.1 x.2) (part ts x.1 x.2)), fun a b hab hb =>
    mem_image.2 ⟨(a, b), mem_product.2 ⟨mem_range.2 (by omega), mem_range.2 (by omega)⟩, rfl⟩⟩

/-- The hypotheses of `C115_blame`: a batch of three whose second proof is forged. -/
example : BlameInput (Triptych.Toy.env 101) Triptych.Toy.cfg Toy.sts3 Toy.ps3 Toy.ts3 ∧
    (∃ L : Finset Transcript, ∀ a b, a < b → b ≤ Toy.ps3.length → weightTranscript "Parallel Triptych verifier weights"
      (seeds (Triptych.Toy.env 101) (part Toy.sts3 a b) (part Toy.ps3 a b) (part Toy.ts3 a b)) ∈ L) ∧
    (∀ x : ZMod 101, #{b : Block | (Triptych.Toy.env 101).scalarOfWide b.bytes = x} ≤ 256 ^ 64 / 101 + 1) ∧
    Toy.ps3.length * 1 ≤ Triptych.Toy.cfg.fuel :=
  have h := Toy.blameBatch
  ⟨⟨h.proofs, h.transcripts, h.built, h.params, h.inputSets, h.size, h.index⟩, exists_weightTranscripts _ _ _ _,
    fun x => blocks_value 101 _ le_rfl x, by decide +kernel⟩

theorem pair_input (E : Env F P) (cfg : Config) (st : Statement P) (p q : Proof F P) (t t' : Transcript) (h : StatementBuilt E st)
    (hs : SizeOK cfg st.params 2) (hi : 2 < cfg.usizeMax) : BlameInput E cfg [st, st] [p, q] [t, t'] := by
  have e : ∀ s ∈ [st, st], s = st := by simp
  refine ⟨rfl, rfl, fun s h' => ?_, fun s h s' h' => ?_, fun s h s' h' => ?_, fun s h => ?_, hi⟩
  · rw [e s h']; exact h
  · rw [e s h, e s' h']
  · rw [e s h, e s' h']
  · rw [e s h]
    exact hs

theorem pair_transcripts (E : Env F P) (st : Statement P) (p q : Proof F P) (t t' : Transcript) :
    ∃ L : Finset Transcript, ∀ a b, a < b → b ≤ 2 →
      weightTranscript "Parallel Triptych verifier weights" (seeds E (part [st, st] a b) (part [p, q] a b) (part [t, t'] a b)) ∈ L :=
  exists_weightTranscripts E [st, st] [p, q] [t, t']

/-- The hypotheses of `C115_ristretto`: two proofs that violate their equations. -/
example : BlameInput (Triptych.Toy.env ℓ) Triptych.Toy.cfg [Toy.Ristretto.statement, Toy.Ristretto.statement]
      [Toy.Ristretto.badProof, Toy.Ristretto.badProof] [Triptych.Toy.transcript, Triptych.Toy.transcript] ∧
    (∃ L : Finset Transcript, ∀ a b, a < b → b ≤ 2 → weightTranscript "Parallel Triptych verifier weights"
      (seeds (Triptych.Toy.env ℓ) (part [Toy.Ristretto.statement, Toy.Ristretto.statement] a b)
        (part [Toy.Ristretto.badProof, Toy.Ristretto.badProof] a b)
        (part [Triptych.Toy.transcript, Triptych.Toy.transcript] a b)) ∈ L) ∧
    (∀ b, (Triptych.Toy.env ℓ).scalarOfWide b = ((leNat b : ℕ) : ZMod ℓ)) ∧ 2 * 2 ≤ Triptych.Toy.cfg.fuel := by
  exact ⟨pair_input _ _ _ _ _ _ _ Toy.Ristretto.statement_built ⟨show (2 : ℕ) ≤ _ by decide, fun _ => by decide +kernel⟩
    (by decide +kernel), pair_transcripts _ _ _ _ _ _, fun _ => rfl, by decide +kernel⟩

end Triptych.Parallel
