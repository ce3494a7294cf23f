import Verif.Lemmas.Seeds
import Verif.Props.Parallel.Draws
import Verif.Props.Parallel.Transcripts
import Verif.Props.Parallel.Forgery

/-! # Lemmas: parallel proofs, seeds and weights from oracles -/
set_option autoImplicit false
set_option linter.unusedSectionVars false
set_option linter.unusedVariables false

namespace Triptych.Parallel
open Finset Function
open Triptych.Parallel.Spec
open Triptych.Spec (avg Block Block.bytes weightKey weightTranscript weightScalar queryPoint withSeeds Seed)

variable {F P : Type} [Field F] [AddCommGroup P] [Module F P] [DecidableEq F] [DecidableEq P]

section
variable (E : Env F P) (label : String) (A : Finset Transcript) (H : A → Seed) {V : Type} (list : V → List ℕ) {N : ℕ}
  (W : V → Fin N → Block)

theorem withSeeds_weightSeed (t : Transcript) (st : Statement P) (p : Proof F P) (h : responseTranscript E t st p ∈ A) :
    weightSeed (withSeeds E label A H list W) t st p = (H ⟨_, h⟩).val := by
  rw [weightSeed]
  refine (congrArg leNat (Triptych.withSeeds_seed E label A H list W _ h)).trans ?_
  exact leNat_leBytes 8 _ (by have := (H ⟨_, h⟩).2; norm_num at this ⊢; exact this)

theorem statementBuilt_withSeeds (st : Statement P) (h : StatementBuilt E st) : StatementBuilt (withSeeds E label A H list W) st := h

end

theorem table_usable (E : Env F P) (label : String) (sd : List ℕ) {L : ℕ} (τ : Fin (L * 5) → Block)
    (hτ : ∀ i (hi : i < L * 5), E.prf (queryPoint (weightKey label sd) i) 64 = (τ ⟨i, hi⟩).bytes) :
    usableQuints E (weightTranscript label sd) L = (usableDraws (rowValue E) (rowsOf τ)).map quintOf := by
  refine draws_tuples E quintOf usable usable_quintOf _ (rowsOf τ) fun q hq => ?_
  have h : ∀ e : Fin 5, e.val + 5 * q < L * 5 := fun e => by have := e.2; omega
  have h' : ∀ e : Fin 5, weightScalar E (weightTranscript label sd) (e.val + 5 * q) = E.scalarOfWide (rowsOf τ ⟨q, hq⟩ e).bytes :=
    fun e => congrArg E.scalarOfWide (hτ _ (h e))
  rw [weightQuint, quintOf, Proof.Weights.mk.injEq]
  refine ⟨?_, ?_, ?_, ?_, ?_⟩
  · refine Eq.trans ?_ (h' 0)
    congr 1
    simp
  · refine Eq.trans ?_ (h' 1)
    congr 1
    exact Nat.add_comm _ _
  · refine Eq.trans ?_ (h' 2)
    congr 1
    exact Nat.add_comm _ _
  · refine Eq.trans ?_ (h' 3)
    congr 1
    exact Nat.add_comm _ _
  · refine Eq.trans ?_ (h' 4)
    congr 1
    exact Nat.add_comm _ _

/-- Some proof of the batch does not satisfy its equations. -/
def Spec.InvalidBatch (E : Env F P) (first : Statement P) (rest : List (Statement P)) (ps : List (Proof F P))
    (ts : List Transcript) : Prop :=
  ∃ (i : ℕ) (st : Statement P) (p : Proof F P) (ξ : F), (first :: rest)[i]? = some st ∧ ps[i]? = some p ∧
    (challenges E (first :: rest) ps ts)[i]? = some ξ ∧ ¬ Valid first.params first.inputSet.M first.inputSet.M1 st.offset st.J p ξ

/-- The table has too few usable quintuples, or the first of them are in the exceptional set of C50. -/
def BadTable (E : Env F P) (first : Statement P) (rest : List (Statement P)) (ps : List (Proof F P))
    (ts : List Transcript) {k j : ℕ} (τ : Fin (k * j * 5) → Block) : Prop :=
  (usableDraws (rowValue E) (rowsOf τ)).length < k ∨
    ∃ w : Fin k × Fin 5 → F, (∀ x, w x ≠ 0) ∧ batchSum first.params first.inputSet.M first.inputSet.M1 (first :: rest) ps
      (challenges E (first :: rest) ps ts) (weightList w) = 0 ∧
      (List.ofFn fun i => fun e => w (i, e)) <+: usableDraws (rowValue E) (rowsOf τ)

/-- A batch with an invalid proof is accepted only if the table with its weights is bad. -/
theorem accepted_rows [Fintype F] (E : Env F P) (cfg : Config) (first : Statement P) (rest : List (Statement P))
    (ps : List (Proof F P)) (ts : List Transcript) (hst : StatementBuilt E first)
    (h : (Proof.verifyBatch E cfg (first :: rest) ps ts).1 = .ok ()) (hv : InvalidBatch E first rest ps ts)
    {k j : ℕ} (hk : ps.length = k) (τ : Fin (k * j * 5) → Block)
    (hτ : ∀ i (hi : i < k * j * 5), E.prf (queryPoint (weightKey "Parallel Triptych verifier weights"
      (seeds E (first :: rest) ps ts)) i) 64 = (τ ⟨i, hi⟩).bytes) :
    BadTable E first rest ps ts τ := by
  subst hk
  obtain ⟨i, st, p, ξ, hi, hp, hξ, hv⟩ := hv
  obtain ⟨bad, rfl, -, w, hw, hw1, q, hw2⟩ := C50_exceptional E cfg first rest ps ts hst h i st p ξ hi hp hξ hv
  rw [mem_filter] at hw
  by_cases hs : (usableDraws (rowValue E) (rowsOf τ)).length < ps.length
  · exact Or.inl hs
  · refine Or.inr ⟨w, hw.2.1, hw.2.2, ?_⟩
    rw [not_lt] at hs
    have e := table_usable E "Parallel Triptych verifier weights" (seeds E (first :: rest) ps ts) τ hτ
    have hpre : weightList w <+: (usableDraws (rowValue E) (rowsOf τ)).map quintOf := by
      rw [hw2, ← e]
      rcases Nat.le_total q (ps.length * j) with hq | hq
      · exact usableQuints_prefix _ _ _ _ hq
      · have h' := usableQuints_prefix E (weightTranscript "Parallel Triptych verifier weights" (seeds E (first :: rest) ps ts)) _ _ hq
        rw [h'.eq_of_length_le (by rw [← hw2, hw1, e, List.length_map]; exact hs)]
    rw [weightList_eq] at hpre
    rw [List.prefix_iff_eq_take] at hpre ⊢
    rw [← List.map_take] at hpre
    rw [List.length_map] at hpre
    exact List.map_injective_iff.2 quintOf_injective hpre

/-- Few tables are bad for an invalid batch. -/
theorem badTable_avg [Fintype F] (E : Env F P) (first : Statement P) (rest : List (Statement P))
    (ps : List (Proof F P)) (ts : List Transcript) (hps : (first :: rest).length = ps.length)
    (hts : (first :: rest).length = ts.length) (hv : InvalidBatch E first rest ps ts)
    (D K : ℕ) (hD : D = 2 ^ 512) (hK : ∀ x : F, #{b : Block | E.scalarOfWide b.bytes = x} ≤ K) (hK2 : K < D)
    {k : ℕ} (hk : ps.length = k) (j : ℕ) :
    (avg fun τ : Fin (k * j * 5) → Block => ind (BadTable E first rest ps ts τ)) ≤
      (Fintype.card F - 1 : ℕ) ^ (5 * k - 1) * (K / (D - K) : ℚ) ^ (5 * k) + k * (5 * K / D : ℚ) ^ j := by
  subst hk
  obtain ⟨i, st, p, ξ, hi, hp, hξ, hv⟩ := hv
  have hD' : Fintype.card Block = D := by rw [block_card, hD]
  have hKD : (K : ℚ) < D := by exact_mod_cast hK2
  have hp0 : (0 : ℚ) ≤ (K / (D - K)) ^ (5 * ps.length) := pow_nonneg (div_nonneg (Nat.cast_nonneg _) (sub_nonneg.2 hKD.le)) _
  obtain ⟨hip, rfl⟩ := List.getElem?_eq_some_iff.1 hp
  obtain ⟨hit, rfl⟩ := List.getElem?_eq_some_iff.1 hi
  obtain ⟨hic, rfl⟩ := List.getElem?_eq_some_iff.1 hξ
  have hcount := C50_weight_count first.params first.inputSet.M first.inputSet.M1 (first :: rest) ps (challenges E (first :: rest) ps ts) hps
    (Proof.challenges_length E (first :: rest) ps ts hps hts) ⟨i, hip⟩ hv (univ.erase 0)
  rw [Finset.card_erase_of_mem (Finset.mem_univ 0), Finset.card_univ] at hcount
  have hset : #({w | (∀ x, w x ≠ 0) ∧ batchSum first.params first.inputSet.M first.inputSet.M1 (first :: rest) ps
      (challenges E (first :: rest) ps ts) (weightList w) = 0} : Finset (Fin ps.length × Fin 5 → F)) ≤
      (Fintype.card F - 1) ^ (5 * ps.length - 1) := by
    clear hp0 hKD hD' hD hK hK2
    convert hcount using 2
    ext w
    simp
  generalize hS : ({w | (∀ x, w x ≠ 0) ∧ batchSum first.params first.inputSet.M first.inputSet.M1 (first :: rest) ps
      (challenges E (first :: rest) ps ts) (weightList w) = 0} : Finset (Fin ps.length × Fin 5 → F)) = S at hset
  refine (draws_event E D K hD' hK hK2 ps.length j 5 S _ fun τ hτ => ?_).trans ?_
  · rcases hτ with h | ⟨w, h1, h2, h3⟩
    · exact Or.inl h
    · exact Or.inr ⟨w, by rw [← hS]; exact mem_filter.2 ⟨mem_univ _, h1, h2⟩, h3⟩
  · have b2' : (#S : ℚ) ≤ ((Fintype.card F - 1 : ℕ) : ℚ) ^ (5 * ps.length - 1) := by exact_mod_cast hset
    exact add_le_add (mul_le_mul_of_nonneg_right b2' hp0) (le_of_eq (by rw [Nat.cast_ofNat]))

/-- The transcript from which the seed is derived determines the statement. -/
theorem response_hash (E : Env F P) (hE : E.Lawful) (t t' : Transcript) (st st' : Statement P) (p p' : Proof F P)
    (heq : responseTranscript E t st p = responseTranscript E t' st' p') : st.hash = st'.hash := by
  simp only [responseTranscript] at heq
  obtain ⟨h1, h2⟩ := List.append_inj' heq rfl
  obtain ⟨h3, h4⟩ := scalars_suffix_inj hE "f" _ _ _ _ (by simp [challengeTranscript_getLast])
    (by simp [challengeTranscript_getLast]) h1
  exact (challengeTranscript_inj hE _ _ _ _ _ _ _ _ _ _ _ _ _ _ _ _ _ _ h4).2.1

/-- It determines the statement, the proof and the transcript before it. -/
theorem response_inj (E : Env F P) (hE : E.Lawful) {κ : Type} (sts : κ → Statement P)
    (hinj : ∀ k k', (sts k).hash = (sts k').hash → k = k') (params : Params P) (hn : 2 ≤ params.n)
    (x y : Forgery κ F P) (hx : Shape params x.p) (hy : Shape params y.p)
    (heq : responseTranscript E x.t (sts x.k) x.p = responseTranscript E y.t (sts y.k) y.p) : x = y := by
  have hk : x.k = y.k := hinj _ _ (response_hash E hE _ _ _ _ _ _ heq)
  obtain ⟨k, t, p⟩ := x
  obtain ⟨k', t', p'⟩ := y
  simp only at hk hx hy heq
  subst hk
  obtain ⟨h1, -, h2⟩ := C54_response E hE t t' (sts k) (sts k) p p' ⟨params.n - 1, fun row hrow => by
    rcases List.mem_append.1 hrow with h | h
    · exact ⟨hx.row _ h, by omega⟩
    · exact ⟨hy.row _ h, by omega⟩⟩ heq
  rw [h1, h2]

end Triptych.Parallel
