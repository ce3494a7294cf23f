import Verif.Lemmas.Verify
import Verif.Lemmas.Transcripts

/-! # Batch verification in closed form -/
set_option autoImplicit false
set_option linter.unusedSectionVars false
set_option linter.unusedVariables false
set_option linter.unusedSimpArgs false

namespace Triptych
open Finset Spec

variable {F P : Type} [Field F] [AddCommGroup P] [Module F P] [DecidableEq F] [DecidableEq P]

/-! ## Weights -/

/-- The weight generator after `i` draws. -/
def weightRng (wt : Transcript) (i : ℕ) : TRng := ⟨wt, [], List.replicate 32 0, List.replicate i 64⟩

omit [Field F] [AddCommGroup P] [Module F P] [DecidableEq F] [DecidableEq P] in
theorem weightRng_scalar (E : Env F P) (wt : Transcript) (i : ℕ) :
    (weightRng wt i).scalar E = (weightScalar E wt i, weightRng wt (i + 1)) := by
  simp [TRng.scalar, TRng.fill, weightRng, weightScalar, List.replicate_succ']

namespace Proof

omit [AddCommGroup P] [Module F P] [DecidableEq P] in
theorem drawWeights_succ (E : Env F P) (wt : Transcript) (fuel q : ℕ) :
    drawWeights E (fuel + 1) (weightRng wt (4 * q)) =
      if usable (weightQuad E wt q) then some (weightQuad E wt q, weightRng wt (4 * (q + 1)))
      else drawWeights E fuel (weightRng wt (4 * (q + 1))) := by
  rw [drawWeights]
  simp only [weightRng_scalar]
  have h4 : 4 * q + 1 + 1 + 1 + 1 = 4 * (q + 1) := by ring
  rw [h4]
  by_cases h : usable (weightQuad E wt q) = true
  · rw [if_pos h, if_neg]
    · rfl
    · have h' := of_decide_eq_true h
      simp only [weightQuad] at h'
      tauto
  · rw [if_neg h, if_pos]
    by_contra hc
    refine h (decide_eq_true ?_)
    simp only [weightQuad]
    tauto

/-- Weights for `k` proofs in a row. -/
def drawMany (E : Env F P) (fuel : ℕ) : ℕ → TRng → Option (List (Weights F))
  | 0, _ => some []
  | k + 1, r =>
    match drawWeights E fuel r with
    | none => none
    | some (w, r') => (drawMany E fuel k r').map (w :: ·)

omit [AddCommGroup P] [Module F P] [DecidableEq P] in
theorem drawWeights_some (E : Env F P) (wt : Transcript) (fuel q : ℕ) (w : Weights F) (r : TRng)
    (h : drawWeights E fuel (weightRng wt (4 * q)) = some (w, r)) :
    ∃ q' < q + fuel, q ≤ q' ∧ w = weightQuad E wt q' ∧ r = weightRng wt (4 * (q' + 1)) ∧ usable w = true ∧
      ∀ i, q ≤ i → i < q' → usable (weightQuad E wt i) = false := by
  induction fuel generalizing q with
  | zero => simp [drawWeights] at h
  | succ fuel ih =>
    rw [drawWeights_succ] at h
    split at h
    · rename_i hu
      simp only [Option.some.injEq, Prod.mk.injEq] at h
      obtain ⟨rfl, rfl⟩ := h
      exact ⟨q, by omega, le_refl q, rfl, rfl, hu, fun i h1 h2 => by omega⟩
    · rename_i hu
      obtain ⟨q', h1, h2, h3, h4, h5, h6⟩ := ih (q + 1) h
      refine ⟨q', by omega, by omega, h3, h4, h5, ?_⟩
      intro i hi1 hi2
      by_cases hi : i = q
      · subst hi; simpa using hu
      · exact h6 i (by omega) hi2

omit [AddCommGroup P] [Module F P] [DecidableEq P] in
theorem drawWeights_none (E : Env F P) (wt : Transcript) (fuel q : ℕ)
    (h : drawWeights E fuel (weightRng wt (4 * q)) = none) :
    ∀ i, q ≤ i → i < q + fuel → usable (weightQuad E wt i) = false := by
  induction fuel generalizing q with
  | zero => intro i h1 h2; omega
  | succ fuel ih =>
    rw [drawWeights_succ] at h
    split at h
    · simp at h
    · rename_i hu
      intro i h1 h2
      by_cases hi : i = q
      · subst hi; simpa using hu
      · exact ih (q + 1) h i (by omega) (by omega)

omit [AddCommGroup P] [Module F P] [DecidableEq P] in
/-- Usable quadruples with index in `[q, q + len)`. -/
theorem filter_range'_none (E : Env F P) (wt : Transcript) (q len : ℕ)
    (h : ∀ i, q ≤ i → i < q + len → usable (weightQuad E wt i) = false) :
    ((List.range' q len).map (weightQuad E wt)).filter usable = [] := by
  rw [List.filter_eq_nil_iff]
  intro w hw
  obtain ⟨i, hi, rfl⟩ := List.mem_map.1 hw
  rw [List.mem_range'_1] at hi
  simp [h i hi.1 hi.2]

omit [AddCommGroup P] [Module F P] [DecidableEq P] in
theorem drawMany_some (E : Env F P) (wt : Transcript) (fuel k q : ℕ) (ws : List (Weights F))
    (h : drawMany E fuel k (weightRng wt (4 * q)) = some ws) :
    ws.length = k ∧ ∃ len, ws = ((List.range' q len).map (weightQuad E wt)).filter usable := by
  induction k generalizing q ws with
  | zero => simp only [drawMany, Option.some.injEq] at h; subst h; exact ⟨rfl, 0, rfl⟩
  | succ k ih =>
    rw [drawMany] at h
    cases hw : drawWeights E fuel (weightRng wt (4 * q)) with
    | none => rw [hw] at h; simp at h
    | some x =>
      obtain ⟨w, r⟩ := x
      rw [hw] at h
      obtain ⟨q', h1, h2, h3, h4, h5, h6⟩ := drawWeights_some E wt fuel q w r hw
      subst h4
      simp only [Option.map_eq_some_iff] at h
      obtain ⟨ws', hws', rfl⟩ := h
      obtain ⟨hl, len, hlen⟩ := ih (q' + 1) ws' hws'
      refine ⟨by simp [hl], (q' - q) + (1 + len), ?_⟩
      have hsplit : List.range' q (q' - q + (1 + len))
          = List.range' q (q' - q) ++ (q' :: List.range' (q' + 1) len) := by
        rw [← List.range'_append_1, Nat.add_sub_cancel' h2, Nat.add_comm 1 len, List.range'_succ]
      rw [hsplit, List.map_append, List.filter_append, filter_range'_none E wt q (q' - q)
        (fun i hi1 hi2 => h6 i hi1 (by omega)), List.nil_append, List.map_cons, ← h3, List.filter_cons, if_pos h5, hlen]

omit [AddCommGroup P] [Module F P] [DecidableEq P] in
theorem drawMany_none (E : Env F P) (wt : Transcript) (fuel k q : ℕ)
    (h : drawMany E fuel k (weightRng wt (4 * q)) = none) :
    ∀ len ≤ fuel, (((List.range' q len).map (weightQuad E wt)).filter usable).length < k := by
  induction k generalizing q with
  | zero => simp [drawMany] at h
  | succ k ih =>
    intro len hlen
    rw [drawMany] at h
    cases hw : drawWeights E fuel (weightRng wt (4 * q)) with
    | none =>
      have := drawWeights_none E wt fuel q hw
      rw [filter_range'_none E wt q len (fun i h1 h2 => this i h1 (by omega))]
      simp
    | some x =>
      obtain ⟨w, r⟩ := x
      rw [hw] at h
      obtain ⟨q', h1, h2, h3, h4, h5, h6⟩ := drawWeights_some E wt fuel q w r hw
      subst h4
      simp only [Option.map_eq_none_iff] at h
      by_cases hq : q + len ≤ q'
      · rw [filter_range'_none E wt q len (fun i hi1 hi2 => h6 i hi1 (by omega))]
        simp
      · obtain ⟨l', hl'⟩ : ∃ l', len = (q' - q) + (1 + l') := ⟨len - (q' - q) - 1, by omega⟩
        have hsplit : List.range' q (q' - q + (1 + l'))
            = List.range' q (q' - q) ++ (q' :: List.range' (q' + 1) l') := by
          rw [← List.range'_append_1, Nat.add_sub_cancel' h2, Nat.add_comm 1 l', List.range'_succ]
        rw [hl', hsplit, List.map_append, List.filter_append, filter_range'_none E wt q (q' - q)
          (fun i hi1 hi2 => h6 i hi1 (by omega)), List.nil_append, List.map_cons, ← h3, List.filter_cons, if_pos h5,
          List.length_cons]
        have := ih (q' + 1) h l' (by omega)
        omega

/-! ## Processing all proofs -/

omit [DecidableEq P] in
theorem processLoop_eq (E : Env F P) (cfg : Config) (params : Params P) (hp : ParamsOK params) (M : List P)
    (hM : M.length = params.n ^ params.m) (sts : List (Statement P)) (ps : List (Proof F P)) (ξs : List F)
    (h1 : sts.length = ps.length) (h2 : ξs.length = ps.length) (hs : ∀ p ∈ ps, Shape params p)
    (acc : Acc F) (pts : List P) (hacc : acc.OK params M pts) (trng : TRng) :
    ((∀ x ∈ ps.zip ξs, NonzeroF params.n params.m x.1.f x.2) →
      (∀ ws, drawMany E cfg.fuel ps.length trng = some ws →
        ∃ acc', processLoop E cfg params (ps.zip (ξs.map fun ξ => (List.range (params.m + 1)).map fun j => ξ ^ j))
            acc trng = .ok acc' ∧
          acc'.OK params M (pts ++ (ps.zip sts).flatMap fun x => pointsOf x.1 x.2.J) ∧
          acc'.value params M (pts ++ (ps.zip sts).flatMap fun x => pointsOf x.1 x.2.J)
            = acc.value params M pts + batchSum params M sts ps ξs ws) ∧
      (drawMany E cfg.fuel ps.length trng = none →
        processLoop E cfg params (ps.zip (ξs.map fun ξ => (List.range (params.m + 1)).map fun j => ξ ^ j))
          acc trng = .diverge)) ∧
    (¬ (∀ x ∈ ps.zip ξs, NonzeroF params.n params.m x.1.f x.2) →
      processLoop E cfg params (ps.zip (ξs.map fun ξ => (List.range (params.m + 1)).map fun j => ξ ^ j))
          acc trng = .err (.InvalidParameter "proof `f` matrix contained 0") ∨
      (processLoop E cfg params (ps.zip (ξs.map fun ξ => (List.range (params.m + 1)).map fun j => ξ ^ j))
          acc trng = .diverge ∧ drawMany E cfg.fuel ps.length trng = none)) := by
  induction ps generalizing sts ξs acc pts trng with
  | nil =>
    have e1 : sts = [] := List.length_eq_zero_iff.1 (by simpa using h1)
    have e2 : ξs = [] := List.length_eq_zero_iff.1 (by simpa using h2)
    subst e1 e2
    simp only [List.zip_nil_left, List.not_mem_nil, false_implies, implies_true, List.length_nil, drawMany,
      Option.some.injEq, processLoop, List.flatMap_nil, List.append_nil, forall_eq',
      batchSum, List.map_nil, List.sum_nil, add_zero, true_implies, not_true_eq_false, reduceCtorEq, and_true]
    exact ⟨acc, rfl, hacc, rfl⟩
  | cons p ps ih =>
    obtain ⟨st, sts, rfl⟩ : ∃ a b, sts = a :: b := by
      cases sts with
      | nil => simp at h1
      | cons a b => exact ⟨a, b, rfl⟩
    obtain ⟨ξ, ξs, rfl⟩ : ∃ a b, ξs = a :: b := by
      cases ξs with
      | nil => simp at h2
      | cons a b => exact ⟨a, b, rfl⟩
    obtain ⟨g1, g2, g3⟩ := processProof_eq E cfg params hp M hM acc pts hacc trng p st.J (hs p (by simp)) ξ
    simp only [List.map_cons, List.zip_cons_cons, List.mem_cons, forall_eq_or_imp, List.length_cons, processLoop]
    by_cases hnz : NonzeroF params.n params.m p.f ξ
    · cases hw : drawWeights E cfg.fuel trng with
      | none =>
        rw [g2 hnz hw]
        simp only [Outcome.bind_diverge, drawMany, hw]
        refine ⟨fun _ => ⟨fun ws h => by simp at h, fun _ => trivial⟩, fun _ => Or.inr ⟨trivial, trivial⟩⟩
      | some x =>
        obtain ⟨w, trng'⟩ := x
        obtain ⟨acc', k1, k2, k3⟩ := g1 hnz w trng' hw
        obtain ⟨i1, i2⟩ := ih sts ξs (by simpa using h1) (by simpa using h2) (fun q hq => hs q (by simp [hq])) acc'
          (pts ++ pointsOf p st.J) k2 trng'
        rw [k1]
        simp only [Outcome.bind_ok, drawMany, hw, hnz, true_and]
        constructor
        · intro hall
          obtain ⟨j1, j2⟩ := i1 hall
          constructor
          · intro ws hws
            simp only [Option.map_eq_some_iff] at hws
            obtain ⟨ws', hws', rfl⟩ := hws
            obtain ⟨acc'', l1, l2, l3⟩ := j1 ws' hws'
            refine ⟨acc'', l1, ?_, ?_⟩
            · simpa [List.append_assoc] using l2
            · rw [List.flatMap_cons, ← List.append_assoc, l3, k3, add_assoc]
              simp [batchSum]
          · intro hnone
            simp only [Option.map_eq_none_iff] at hnone
            exact j2 hnone
        · intro hall
          rcases i2 hall with h | h
          · exact Or.inl h
          · right; simp [h]
    · rw [g3 hnz]
      simp only [Outcome.bind_err]
      exact ⟨fun h => absurd h.1 hnz, fun _ => Or.inl trivial⟩

end Proof
end Triptych
