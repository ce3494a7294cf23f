import Verif.Props.BlameIdeal
import Verif.Props.Replay
import Verif.Props.Linkable

/-! # Batches in which messages or statements were exchanged: C118 -/
set_option autoImplicit false
set_option linter.unusedSectionVars false
set_option linter.unusedVariables false

namespace Triptych
open Spec Finset

variable {F P : Type} [Field F] [AddCommGroup P] [Module F P] [DecidableEq F] [DecidableEq P]

/-- The proofs made by runs of the code's prover (`x.k` is the statement of the run `x`). -/
def Spec.MadeBy {σ : Type} (E : Env F P) (xs : List (Signature σ (Statement P) F P)) (ps : List (Proof F P)) : Prop :=
  List.Forall₂ (fun x p => x.made E id = .ok p) xs ps

/-- Proof `i` is to be verified with the statement and transcript it was made for, and its response matrix has no zero entry. -/
def Spec.Kept {σ : Type} (E : Env F P) (xs : List (Signature σ (Statement P) F P)) (ps : List (Proof F P))
    (sts : List (Statement P)) (ts : List Transcript) (i : ℕ) : Prop :=
  ∃ x p, xs[i]? = some x ∧ ps[i]? = some p ∧ sts[i]? = some x.k ∧ ts[i]? = some x.t ∧
    NonzeroF x.k.params.n x.k.params.m p.f (challenge E x.t x.k p)

/-- The answer of batch verification a caller wants for `k` proofs: success if all proofs are as they should be, an error otherwise. -/
def Spec.BatchRight (good : ℕ → Prop) (k : ℕ) (answer : Outcome ProofError Unit) : Prop :=
  ((∀ i < k, good i) ∧ answer = .ok ()) ∨ ((∃ i < k, ¬ good i) ∧ ∃ e, answer = .err e)

local notation "ℓ" => (2 ^ 252 + 27742317777372353535851937790883648493 : ℕ)

open Classical in
/-- A proof verified with another statement or transcript than its own: for few oracles only the equations hold. -/
theorem replaced_bound {σ : Type} {P : Type} [AddCommGroup P] [Module (ZMod ℓ) P] [DecidableEq P] (E : Env (ZMod ℓ) P) (hE : E.Lawful)
    (hwide : ∀ b, E.scalarOfWide b = ((leNat b : ℕ) : ZMod ℓ)) (S : Finset Transcript)
    (hS : ∀ t ∈ S, t.getLast? = some (.challenge "xi" 64)) (x : Signature σ (Statement P) (ZMod ℓ) P) (st : Statement P)
    (t : Transcript) (hk : StatementBuilt E x.k) (hst : StatementBuilt E st) (hw : WitnessBuilt E x.w)
    (hhash : st.hash = x.k.hash → st = x.k) (hne : ¬ (st = x.k ∧ t = x.t)) (m : ℕ) (hm : x.k.params.m ≤ m) (hm' : st.params.m ≤ m)
    (hpt : ∀ (O : S → Block) p, x.made (withOracle E S O) id = .ok p → challengeTranscript E t st.hash p.A p.B p.C p.D p.X p.Y ∈ S) :
    avg (fun O : S → Block => ind (∃ p, x.made (withOracle E S O) id = .ok p ∧ Genuine (withOracle E S O) st p t)) ≤ m / 2 ^ 252 := by
  by_cases he : st = x.k
  · subst he
    have ht : t ≠ x.t := fun h => hne ⟨rfl, h⟩
    have h := C86_ristretto E hE hwide S hS (fun _ : Unit => x.k) (fun _ => hk) (fun _ _ _ => rfl)
      (fun _ : Unit => (⟨(), x.R, x.w, x.s, x.t, x.timing⟩ : Signature σ Unit (ZMod ℓ) P)) (fun _ => hw) m (fun _ => hm)
      (.done ⟨(), (), t⟩) 0 (fun _ => le_rfl)
    rw [← avg_ind'] at h
    refine (avg_mono _ _ fun O => ind_mono ?_).trans (h.trans (le_of_eq (by simp)))
    rintro ⟨p, h1, h2⟩
    exact ⟨p, h1, Or.inr ht, hpt O p h1, h2.shape, h2.valid⟩
  · have hh : st.hash ≠ x.k.hash := fun h => he (hhash h)
    have h := C86_ristretto E hE hwide S hS (fun b : Bool => if b then st else x.k) (fun b => by cases b <;> simpa)
      (fun b b' h => by
        cases b <;> cases b'
        · rfl
        · exact absurd h.symm hh
        · exact absurd h hh
        · rfl)
      (fun _ : Unit => (⟨false, x.R, x.w, x.s, x.t, x.timing⟩ : Signature σ Bool (ZMod ℓ) P)) (fun _ => hw) m
      (fun b => by cases b <;> simpa) (.done ⟨(), true, t⟩) 0 (fun _ => le_rfl)
    rw [← avg_ind'] at h
    refine (avg_mono _ _ fun O => ind_mono ?_).trans (h.trans (le_of_eq (by simp)))
    rintro ⟨p, h1, h2⟩
    exact ⟨p, h1, Or.inl (by show true ≠ false; decide), hpt O p h1, h2.shape, h2.valid⟩

theorem made_honest {σ : Type} (E : Env F P) (x : Signature σ (Statement P) F P) (hw : WitnessBuilt E x.w) (p : Proof F P)
    (h : x.made E id = .ok p) : Honest E x.k x.t p := ⟨σ, x.R, x.w, x.s, x.timing, hw, h⟩

theorem madeBy_get {σ : Type} (E : Env F P) (xs : List (Signature σ (Statement P) F P)) (ps : List (Proof F P)) (h : MadeBy E xs ps)
    (i : ℕ) (x : Signature σ (Statement P) F P) (hx : xs[i]? = some x) : ∃ p, ps[i]? = some p ∧ x.made E id = .ok p := by
  have hi : i < xs.length := (List.getElem?_eq_some_iff.1 hx).1
  have hl := h.length_eq
  have := (List.forall₂_iff_get.1 h).2 i hi (by omega)
  refine ⟨ps[i]'(by omega), List.getElem?_eq_getElem _, ?_⟩
  rw [List.getElem?_eq_getElem hi, Option.some.injEq] at hx
  subst hx
  exact this

theorem madeBy_unique {σ : Type} (E : Env F P) (xs : List (Signature σ (Statement P) F P)) (ps ps' : List (Proof F P))
    (h : MadeBy E xs ps) (h' : MadeBy E xs ps') : ps = ps' := by
  refine List.ext_getElem? fun i => ?_
  by_cases hi : i < xs.length
  · obtain ⟨p, e1, e2⟩ := madeBy_get E xs ps h i _ (List.getElem?_eq_getElem hi)
    obtain ⟨p', e1', e2'⟩ := madeBy_get E xs ps' h' i _ (List.getElem?_eq_getElem hi)
    rw [e2, Outcome.ok.injEq] at e2'
    rw [e1, e1', e2']
  · rw [List.getElem?_eq_none (by have := h.length_eq; omega), List.getElem?_eq_none (by have := h'.length_eq; omega)]

/-- If no exchanged entry satisfies the equations, the genuine entries are those that were kept. -/
theorem genuineAt_kept {σ : Type} (E : Env F P) (xs : List (Signature σ (Statement P) F P)) (ps : List (Proof F P))
    (sts : List (Statement P)) (ts : List Transcript) (h : MadeBy E xs ps) (hl : sts.length = xs.length) (hl' : ts.length = xs.length)
    (hk : ∀ x ∈ xs, StatementBuilt E x.k) (hw : ∀ x ∈ xs, WitnessBuilt E x.w)
    (hno : ∀ (i : ℕ) (x : Signature σ (Statement P) F P) (st : Statement P) (t : Transcript), xs[i]? = some x → sts[i]? = some st → ts[i]? = some t → ¬ (st = x.k ∧ t = x.t) →
      ∀ p, x.made E id = .ok p → ¬ Genuine E st p t) (i : ℕ) (hi : i < ps.length) :
    GenuineAt E sts ps ts i ↔ Kept E xs ps sts ts i := by
  have hlen := h.length_eq
  obtain ⟨x, hx⟩ : ∃ x, xs[i]? = some x := ⟨xs[i]'(by omega), List.getElem?_eq_getElem _⟩
  obtain ⟨p, hp, hm⟩ := madeBy_get E xs ps h i x hx
  have hxm := List.mem_of_getElem? hx
  constructor
  · rintro ⟨st, p', t, h1, h2, h3, h4⟩
    rw [hp, Option.some.injEq] at h2
    subst h2
    by_cases he : st = x.k ∧ t = x.t
    · obtain ⟨rfl, rfl⟩ := he
      exact ⟨x, p, hx, hp, h1, h3, h4.responses⟩
    · exact absurd h4 (hno i x st t hx h1 h3 he p hm)
  · rintro ⟨x', p', h1, h2, h3, h4, h5⟩
    rw [hx, Option.some.injEq] at h1
    subst h1
    rw [hp, Option.some.injEq] at h2
    subst h2
    obtain ⟨f1, f2, f3⟩ := (made_honest E x (hw x hxm) p hm).facts (hk x hxm)
    exact ⟨x.k, p, x.t, h3, hp, h4, f1, f2, h5, f3⟩

theorem singleRight_congr (g g' : ℕ → Prop) (k : ℕ) (a : Outcome ProofError Unit) (h : ∀ i < k, g i ↔ g' i) (hs : SingleRight g k a) :
    SingleRight g' k a := by
  rcases hs with ⟨h1, h2⟩ | ⟨i, hi, h1, h2, h3⟩
  · exact Or.inl ⟨fun i hi => (h i hi).1 (h1 i hi), h2⟩
  · exact Or.inr ⟨i, hi, fun hg => h1 ((h i hi).2 hg), fun j hj => (h j (by omega)).1 (h2 j hj), h3⟩

theorem fullRight_congr (g g' : ℕ → Prop) (k : ℕ) (a : Outcome ProofError Unit) (h : ∀ i < k, g i ↔ g' i) (hs : FullRight g k a) :
    FullRight g' k a := by
  rcases hs with ⟨h1, h2⟩ | ⟨is, h1, h2, h3, h4⟩
  · exact Or.inl ⟨fun i hi => (h i hi).1 (h1 i hi), h2⟩
  · refine Or.inr ⟨is, h1, h2, fun i => ?_, h4⟩
    rw [h3]
    exact and_congr_right fun hi => not_congr (h i hi)

theorem bisect_ne_ok (cfg : Config) (sub : ℕ → ℕ → Outcome ProofError Unit) (fuel : ℕ) :
    ∀ left right, (bisect cfg sub fuel left right).1 ≠ .ok () := by
  induction fuel with
  | zero => intro l r h; cases h
  | succ fuel ih =>
    intro l r
    rw [bisect]
    by_cases hlr : l < r
    · rw [if_pos hlr]
      split
      · intro h; cases h
      · split
        · intro h; cases h
        · split
          · intro h; cases h
          · intro h; cases h
          · split
            · intro h; cases h
            · split_ifs
              · intro h; cases h
              · exact ih _ _
          · split
            · intro h; cases h
            · split_ifs
              · split
                · intro h; cases h
                · intro h; cases h
              · exact ih _ _
    · rw [if_neg hlr]
      intro h; cases h

/-- What single blame says about the batch, batch verification says too. -/
theorem batchRight_of_single (E : Env F P) (cfg : Config) (sts : List (Statement P)) (ps : List (Proof F P)) (ts : List Transcript)
    (g : ℕ → Prop) (k : ℕ) (h : SingleRight g k (Proof.verifyBatchWithSingleBlame E cfg sts ps ts).1) :
    BatchRight g k (Proof.verifyBatch E cfg sts ps ts).1 := by
  rcases hv : (Proof.verifyBatch E cfg sts ps ts).1 with ⟨⟨⟩⟩ | e | _ | _ <;>
    simp only [Proof.verifyBatchWithSingleBlame, hv] at h
  · rcases h with ⟨h1, -⟩ | ⟨i, -, -, -, h3⟩
    · exact Or.inl ⟨h1, rfl⟩
    · cases h3
  · rcases h with ⟨h1, h2⟩ | ⟨i, hi, h1, -, -⟩
    · exact absurd h2 (bisect_ne_ok cfg _ _ _ _)
    · exact Or.inr ⟨⟨i, hi, h1⟩, e, rfl⟩
  · rcases h with ⟨h1, h2⟩ | ⟨i, -, -, -, h3⟩
    · cases h2
    · cases h3
  · rcases h with ⟨h1, h2⟩ | ⟨i, -, -, -, h3⟩
    · cases h2
    · cases h3

open Classical in
/-- C118: honest provers make proofs, for any statements and transcripts; the batch is then verified with other statements and
transcripts in any number of places. With random challenges and weights, batch verification fails exactly if there is such a place (or
a response matrix has a zero), single blame names the first one, and full blame exactly these, except with probability at most
`k m / 2 ^ 252 + k ^ 2 / 2 ^ 250` for `k` proofs. -/
theorem C118_exchanged {σ : Type} {P : Type} [AddCommGroup P] [Module (ZMod ℓ) P] [DecidableEq P] (E : Env (ZMod ℓ) P) (hE : E.Lawful)
    (hwide : ∀ b, E.scalarOfWide b = ((leNat b : ℕ) : ZMod ℓ)) (cfg : Config) (S L : Finset Transcript)
    (hS : ∀ t ∈ S, t.getLast? = some (.challenge "xi" 64)) (xs : List (Signature σ (Statement P) (ZMod ℓ) P))
    (sts : List (Statement P)) (ts : List Transcript) (hk : ∀ x ∈ xs, StatementBuilt E x.k) (hw : ∀ x ∈ xs, WitnessBuilt E x.w)
    (hin : ∀ ps : List (Proof (ZMod ℓ) P), ps.length = xs.length → BlameInput E cfg sts ps ts)
    (hhash : ∀ (i : ℕ) x st, xs[i]? = some x → sts[i]? = some st → st.hash = x.k.hash → st = x.k) (m : ℕ)
    (hm : ∀ x ∈ xs, x.k.params.m ≤ m) (hm' : ∀ st ∈ sts, st.params.m ≤ m)
    (hpt : ∀ (i : ℕ) x st t (O : S → Block) p, xs[i]? = some x → sts[i]? = some st → ts[i]? = some t →
      x.made (withOracle E S O) id = .ok p → challengeTranscript E t st.hash p.A p.B p.C p.D p.X p.Y ∈ S)
    (hL : ∀ (O : S → Block) ps, MadeBy (withOracle E S O) xs ps → ∀ a b, a < b → b ≤ ps.length → weightTranscript
      "Triptych verifier weights" (seeds (withOracle E S O) (part sts a b) (part ps a b) (part ts a b)) ∈ L)
    (hfuel : xs.length * 2 ≤ cfg.fuel) :
    avg (fun O : S → Block => avg fun W : L → Fin (xs.length * 2 * 4) → Block => ind (∃ ps, MadeBy (withOracle E S O) xs ps ∧ ¬ (
      BatchRight (Kept (withOracle E S O) xs ps sts ts) xs.length
        (Proof.verifyBatch (withTables (withOracle E S O) L W) cfg sts ps ts).1 ∧
      SingleRight (Kept (withOracle E S O) xs ps sts ts) xs.length
        (Proof.verifyBatchWithSingleBlame (withTables (withOracle E S O) L W) cfg sts ps ts).1 ∧
      FullRight (Kept (withOracle E S O) xs ps sts ts) xs.length
        (Proof.verifyBatchWithFullBlame (withTables (withOracle E S O) L W) cfg sts ps ts).1))) ≤
      xs.length * m / 2 ^ 252 + xs.length ^ 2 / 2 ^ 250 := by
  obtain ⟨ps0, hps0⟩ : ∃ ps : List (Proof (ZMod ℓ) P), ps.length = xs.length :=
    ⟨xs.map fun _ => ⟨0, 0, 0, 0, [], [], [], 0, 0, 0⟩, by simp⟩
  have hin0 := hin ps0 hps0
  have hls : sts.length = xs.length := by
    have := hin0.proofs
    rw [this, hps0]
  have hlt : ts.length = xs.length := by
    have := hin0.transcripts
    omega
  -- some exchanged entry is genuine
  let Q : (S → Block) → ℕ → Prop := fun O i => ∃ x st t p, xs[i]? = some x ∧ sts[i]? = some st ∧ ts[i]? = some t ∧
    ¬ (st = x.k ∧ t = x.t) ∧ x.made (withOracle E S O) id = .ok p ∧ Genuine (withOracle E S O) st p t
  have hQ : ∀ i ∈ range xs.length, avg (fun O => ind (Q O i)) ≤ m / 2 ^ 252 := by
    intro i hi
    have hi := mem_range.1 hi
    have h1 : xs[i]? = some xs[i] := List.getElem?_eq_getElem hi
    have h2 : sts[i]? = some (sts[i]'(by omega)) := List.getElem?_eq_getElem _
    have h3 : ts[i]? = some (ts[i]'(by omega)) := List.getElem?_eq_getElem _
    by_cases he : sts[i]'(by omega) = xs[i].k ∧ ts[i]'(by omega) = xs[i].t
    · refine (avg_mono _ (fun _ => 0) fun O => ?_).trans ?_
      · rw [ind, if_neg]
        rintro ⟨x, st, t, p, e1, e2, e3, e4, -, -⟩
        rw [h1, Option.some.injEq] at e1
        rw [h2, Option.some.injEq] at e2
        rw [h3, Option.some.injEq] at e3
        subst e1 e2 e3
        exact e4 he
      · rw [avg_const]
        exact div_nonneg (Nat.cast_nonneg _) (pow_nonneg (by norm_num) _)
    · refine (avg_mono _ _ fun O => ind_mono ?_).trans (replaced_bound E hE hwide S hS xs[i] (sts[i]'(by omega)) (ts[i]'(by omega))
        (hk _ (List.getElem_mem hi)) (hin0.built _ (List.getElem_mem _)) (hw _ (List.getElem_mem hi))
        (hhash i _ _ h1 h2) he m (hm _ (List.getElem_mem hi)) (hm' _ (List.getElem_mem _)) fun O p hp => hpt i _ _ _ O p h1 h2 h3 hp)
      rintro ⟨x, st, t, p, e1, e2, e3, e4, e5, e6⟩
      rw [h1, Option.some.injEq] at e1
      rw [h2, Option.some.injEq] at e2
      rw [h3, Option.some.injEq] at e3
      subst e1 e2 e3
      exact ⟨p, e5, e6⟩
  have hW : ∀ O : S → Block, avg (fun W : L → Fin (xs.length * 2 * 4) → Block => ind (∃ ps, MadeBy (withOracle E S O) xs ps ∧ ¬ (
      BatchRight (Kept (withOracle E S O) xs ps sts ts) xs.length
        (Proof.verifyBatch (withTables (withOracle E S O) L W) cfg sts ps ts).1 ∧
      SingleRight (Kept (withOracle E S O) xs ps sts ts) xs.length
        (Proof.verifyBatchWithSingleBlame (withTables (withOracle E S O) L W) cfg sts ps ts).1 ∧
      FullRight (Kept (withOracle E S O) xs ps sts ts) xs.length
        (Proof.verifyBatchWithFullBlame (withTables (withOracle E S O) L W) cfg sts ps ts).1))) ≤
      (∑ i ∈ range xs.length, ind (Q O i)) + xs.length ^ 2 / 2 ^ 250 := by
    intro O
    by_cases hbad : ∃ i ∈ range xs.length, Q O i
    · have h1 : (1 : ℚ) ≤ ∑ i ∈ range xs.length, ind (Q O i) := by
        have := ind_le_sum (range xs.length) True (Q O) fun _ => hbad
        rwa [ind, if_pos trivial] at this
      have h2 : avg (fun W : L → Fin (xs.length * 2 * 4) → Block => ind (∃ ps, MadeBy (withOracle E S O) xs ps ∧ ¬ (
          BatchRight (Kept (withOracle E S O) xs ps sts ts) xs.length
            (Proof.verifyBatch (withTables (withOracle E S O) L W) cfg sts ps ts).1 ∧
          SingleRight (Kept (withOracle E S O) xs ps sts ts) xs.length
            (Proof.verifyBatchWithSingleBlame (withTables (withOracle E S O) L W) cfg sts ps ts).1 ∧
          FullRight (Kept (withOracle E S O) xs ps sts ts) xs.length
            (Proof.verifyBatchWithFullBlame (withTables (withOracle E S O) L W) cfg sts ps ts).1))) ≤ 1 := by
        refine (avg_mono _ (fun _ => 1) fun W => ?_).trans (le_of_eq (avg_const 1))
        rw [ind]
        split_ifs <;> norm_num
      have h3 : (0 : ℚ) ≤ xs.length ^ 2 / 2 ^ 250 := div_nonneg (pow_nonneg (Nat.cast_nonneg _) _) (pow_nonneg (by norm_num) _)
      linarith
    · have hno : ∀ (i : ℕ) (x : Signature σ (Statement P) (ZMod ℓ) P) (st : Statement P) (t : Transcript), xs[i]? = some x →
          sts[i]? = some st → ts[i]? = some t → ¬ (st = x.k ∧ t = x.t) → ∀ p, x.made (withOracle E S O) id = .ok p →
          ¬ Genuine (withOracle E S O) st p t := by
        intro i x st t e1 e2 e3 e4 p e5 e6
        exact hbad ⟨i, mem_range.2 (List.getElem?_eq_some_iff.1 e1).1, x, st, t, p, e1, e2, e3, e4, e5, e6⟩
      refine le_trans ?_ (le_add_of_nonneg_left (sum_nonneg fun i _ => ind_nonneg _))
      by_cases hps : ∃ ps, MadeBy (withOracle E S O) xs ps
      · obtain ⟨ps, hps⟩ := hps
        have hlen : ps.length = xs.length := hps.length_eq.symm
        have huniq : ∀ ps', MadeBy (withOracle E S O) xs ps' → ps' = ps := fun ps' h' => madeBy_unique _ _ _ _ h' hps
        have hin' : BlameInput (withOracle E S O) cfg sts ps ts := by
          obtain ⟨b1, b2, b3, b4, b5, b6, b7⟩ := hin ps hlen
          exact ⟨b1, b2, fun s hs => statementBuilt_withOracle E S O hS s (b3 s hs), b4, b5, b6, b7⟩
        have hc := C114_ristretto (withOracle E S O) hwide cfg sts ps ts hin' L (hL O ps hps) (by rw [hlen]; exact hfuel)
        rw [← avg_ind', hlen] at hc
        refine (avg_mono _ _ fun W => ind_mono ?_).trans hc
        rintro ⟨ps', h1, h2⟩
        rw [huniq ps' h1] at h2
        intro ⟨h3, h4⟩
        have hg := genuineAt_kept (withOracle E S O) xs ps sts ts hps hls hlt
          (fun x hx => statementBuilt_withOracle E S O hS _ (hk x hx)) (fun x hx => witnessBuilt_withOracle E S O hS _ (hw x hx)) hno
        rw [hlen] at hg
        have h3' := singleRight_congr _ _ _ _ hg h3
        exact h2 ⟨batchRight_of_single _ _ _ _ _ _ _ h3', h3', fullRight_congr _ _ _ _ hg h4⟩
      · refine (avg_mono _ (fun _ => 0) fun W => ?_).trans ?_
        · rw [ind, if_neg]
          rintro ⟨ps, h1, -⟩
          exact hps ⟨ps, h1⟩
        · rw [avg_const]
          exact div_nonneg (pow_nonneg (Nat.cast_nonneg _) _) (pow_nonneg (by norm_num) _)
  refine (avg_mono _ _ hW).trans ?_
  rw [avg_add, avg_const, avg_sum]
  refine add_le_add ((sum_le_sum hQ).trans (le_of_eq ?_)) le_rfl
  rw [sum_const, card_range, nsmul_eq_mul, mul_div_assoc]

/-! ## Examples -/

/-- For given runs and a given batch there are sets of questions as `C118_exchanged` needs them. -/
theorem exists_questions {σ : Type} (E : Env F P) (xs : List (Signature σ (Statement P) F P)) (sts : List (Statement P))
    (ts : List Transcript) (hk : ∀ x ∈ xs, StatementBuilt E x.k) (hw : ∀ x ∈ xs, WitnessBuilt E x.w) :
    ∃ S L : Finset Transcript, (∀ t ∈ S, t.getLast? = some (.challenge "xi" 64)) ∧
    (∀ (i : ℕ) x st t (O : S → Block) p, xs[i]? = some x → sts[i]? = some st → ts[i]? = some t →
      x.made (withOracle E S O) id = .ok p → challengeTranscript E t st.hash p.A p.B p.C p.D p.X p.Y ∈ S) ∧
    (∀ (O : S → Block) ps, MadeBy (withOracle E S O) xs ps → ∀ a b, a < b → b ≤ ps.length → weightTranscript
      "Triptych verifier weights" (seeds (withOracle E S O) (part sts a b) (part ps a b) (part ts a b)) ∈ L) := by
  classical
  let pt : Signature σ (Statement P) F P → Statement P → Transcript → Transcript := fun x st t =>
    challengeTranscript E t st.hash (sigBase E id x).A (sigBase E id x).B (sigBase E id x).C (sigBase E id x).D (sigBase E id x).X
      (sigBase E id x).Y
  let S : Finset Transcript := ((xs.product (sts.product ts)).map fun y => pt y.1 y.2.1 y.2.2).toFinset
  have hS : ∀ t ∈ S, t.getLast? = some (.challenge "xi" 64) := by
    intro t ht
    obtain ⟨y, -, rfl⟩ := List.mem_map.1 (List.mem_toFinset.1 ht)
    simp only [pt, challengeTranscript]
    exact List.getLast?_concat
  have hex : ∀ O : S → Block, ∃ L : Finset Transcript, ∀ ps, MadeBy (withOracle E S O) xs ps → ∀ a b, a < b → b ≤ ps.length →
      weightTranscript "Triptych verifier weights" (seeds (withOracle E S O) (part sts a b) (part ps a b) (part ts a b)) ∈ L := by
    intro O
    by_cases hps : ∃ ps, MadeBy (withOracle E S O) xs ps
    · obtain ⟨ps, hps⟩ := hps
      obtain ⟨L, hL⟩ := exists_weightTranscripts (withOracle E S O) sts ps ts
      exact ⟨L, fun ps' h' => by rw [madeBy_unique _ _ _ _ h' hps]; exact hL⟩
    · exact ⟨∅, fun ps h => absurd ⟨ps, h⟩ hps⟩
  choose L hL using hex
  refine ⟨S, univ.biUnion L, hS, ?_, fun O ps h a b hab hb => mem_biUnion.2 ⟨O, mem_univ _, hL O ps h a b hab hb⟩⟩
  intro i x st t O p h1 h2 h3 h4
  have hx := List.mem_of_getElem? h1
  obtain ⟨⟨c1, c2, c3, c4, c5, c6⟩, -⟩ := made_withOracle E S hS (fun _ : Unit => x.k) (fun _ => hk x hx)
    (⟨(), x.R, x.w, x.s, x.t, x.timing⟩ : Signature σ Unit F P) (hw x hx) O p h4
  rw [c1, c2, c3, c4, c5, c6]
  exact List.mem_toFinset.2 (List.mem_map.2 ⟨(x, st, t), List.mem_product.2 ⟨hx, List.mem_product.2
    ⟨List.mem_of_getElem? h2, List.mem_of_getElem? h3⟩⟩, rfl⟩)

theorem two_inputs (E : Env F P) (cfg : Config) (st : Statement P) (t t' : Transcript) (h : StatementBuilt E st)
    (hs : SizeOK cfg st.params 2) (hi : 2 < cfg.usizeMax) (ps : List (Proof F P)) (hl : ps.length = 2) :
    BlameInput E cfg [st, st] ps [t, t'] := by
  obtain ⟨p, q, rfl⟩ := List.length_eq_two.1 hl
  exact pair_input E cfg st p q t t' h hs hi

/-- The toy signer signs twice; the second proof is verified with another message. -/
example : ∃ (xs : List (Signature Unit (Statement (ZMod ℓ)) (ZMod ℓ) (ZMod ℓ))) (sts : List (Statement (ZMod ℓ))) (ts : List Transcript),
    (∀ x ∈ xs, StatementBuilt (Toy.env ℓ) x.k) ∧ (∀ x ∈ xs, WitnessBuilt (Toy.env ℓ) x.w) ∧
    (∀ ps : List (Proof (ZMod ℓ) (ZMod ℓ)), ps.length = xs.length → BlameInput (Toy.env ℓ) Toy.cfg sts ps ts) ∧
    (∀ (i : ℕ) x st, xs[i]? = some x → sts[i]? = some st → st.hash = x.k.hash → st = x.k) ∧
    MadeBy (Toy.env ℓ) xs [Toy.Ristretto.proof, Toy.Ristretto.proof] ∧ xs.map (fun x => x.t) ≠ ts ∧ xs.length * 2 ≤ Toy.cfg.fuel := by
  have hw := WitnessBuilt.new _ _ _ _ Toy.Ristretto.params_built Toy.Ristretto.witness_new
  refine ⟨List.replicate 2 ⟨Toy.Ristretto.statement, nullRng, Toy.Ristretto.witness, (), Toy.transcript, .Constant⟩,
    [Toy.Ristretto.statement, Toy.Ristretto.statement], [Toy.transcript, Toy.transcript'],
    fun x hx => ?_, fun x hx => ?_, fun ps hl => ?_, fun i x st h1 h2 _ => ?_, .cons Toy.Ristretto.proof_new (.cons Toy.Ristretto.proof_new .nil),
    by decide +kernel, by decide +kernel⟩
  · rw [List.eq_of_mem_replicate hx]
    exact Toy.Ristretto.statement_built
  · rw [List.eq_of_mem_replicate hx]
    exact hw
  · exact two_inputs _ _ _ _ _ Toy.Ristretto.statement_built ⟨show (2 : ℕ) ≤ _ by decide, fun _ => by decide +kernel⟩ (by decide +kernel) ps hl
  · rw [List.eq_of_mem_replicate (List.mem_of_getElem? h1)]
    have := List.mem_of_getElem? h2
    simp only [List.mem_cons, List.not_mem_nil, or_false, or_self] at this
    exact this

end Triptych
