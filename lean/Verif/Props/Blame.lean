import Verif.Props.Batch
import Verif.Spec.Blame
import Verif.Lemmas.Blame
import Verif.Lemmas.BlameLoop
import Mathlib.Tactic.IntervalCases

/-! # Properties of batch verification with blame: C29-C33 -/
set_option autoImplicit false
set_option linter.unusedSectionVars false
set_option linter.unusedVariables false

namespace Triptych
open Spec

variable {F P : Type} [Field F] [AddCommGroup P] [Module F P] [DecidableEq F] [DecidableEq P]

theorem Proof.challengeLoop_length (E : Env F P) (params : Params P) (sts : List (Statement P)) (ps : List (Proof F P))
    (ts : List Transcript) (wt : Transcript) : (Proof.challengeLoop E params sts ps ts wt).2.length = ts.length := by
  induction sts generalizing ps ts wt with
  | nil => simp [Proof.challengeLoop]
  | cons st sts ih =>
    cases ps with
    | nil => simp [Proof.challengeLoop]
    | cons p ps =>
      cases ts with
      | nil => simp [Proof.challengeLoop]
      | cons t ts =>
        rw [Proof.challengeLoop]
        simp only
        split
        · simp
        · simp
        · simp
        · simp only [List.length_cons, ih]

theorem Proof.verifyBatch_length (E : Env F P) (cfg : Config) (sts : List (Statement P)) (ps : List (Proof F P))
    (ts : List Transcript) : (Proof.verifyBatch E cfg sts ps ts).2.length = ts.length := by
  rw [Proof.verifyBatch]
  split
  · rfl
  split
  · rfl
  split
  · rfl
  split
  · rfl
  split
  · rfl
  simp only
  split
  · rfl
  · rfl
  · rfl
  · exact Proof.challengeLoop_length E _ _ _ _ _

theorem Proof.subBatch_eq (E : Env F P) (cfg : Config) (sts : List (Statement P)) (ps : List (Proof F P))
    (ts : List Transcript) (a b : ℕ) (h : a ≤ b) (h1 : b ≤ sts.length) (h2 : b ≤ ps.length) (h3 : b ≤ ts.length) :
    Proof.subBatch E cfg sts ps ts a b = (Proof.verifyBatch E cfg (part sts a b) (part ps a b) (part ts a b)).1 := by
  rw [Proof.subBatch, slice_eq sts a b h h1, slice_eq ps a b h h2, slice_eq ts a b h h3]
  rfl

theorem Proof.subBatch_panic (E : Env F P) (cfg : Config) (sts : List (Statement P)) (ps : List (Proof F P))
    (ts : List Transcript) (a b : ℕ) (h : sts.length < b ∨ ts.length < b) :
    Proof.subBatch E cfg sts ps ts a b = .panic := by
  rw [Proof.subBatch]
  by_cases h1 : sts.length < b
  · rw [slice_panic sts a b h1]; rfl
  · have h3 : ts.length < b := by omega
    rw [slice_panic ts a b h3, slice, slice]
    split <;> split <;> rfl

theorem batchSize_mono (params : Params P) (k k' : ℕ) (h : k ≤ k') : batchSize params k ≤ batchSize params k' := by
  simp only [batchSize]
  have := Nat.mul_le_mul_right (4 + 1 + 2 * params.m) h
  omega

theorem Spec.SizeOK.mono {cfg : Config} {params : Params P} {k k' : ℕ} (h : SizeOK cfg params k') (hk : k ≤ k') :
    SizeOK cfg params k :=
  ⟨le_trans hk h.1, fun hc => le_trans (batchSize_mono params k k' hk) (h.2 hc)⟩

theorem part_zero {α : Type} (l : List α) (k : ℕ) (h : l.length = k) : part l 0 k = l := by
  rw [part, List.drop_zero, ← h, List.take_length]

theorem part_one {α : Type} (l : List α) (i : ℕ) (x : α) (h : l[i]? = some x) : part l i (i + 1) = [x] := by
  have hi : i < l.length := (List.getElem?_eq_some_iff.1 h).1
  apply List.ext_getElem?
  intro j
  rw [part, take_drop_getElem?]
  cases j with
  | zero => simpa using h
  | succ j => simp

/-- A part of a blame batch consisting of genuine entries is accepted. -/
theorem Spec.BlameBatch.part_ok {E : Env F P} {cfg : Config} {sts : List (Statement P)} {ps : List (Proof F P)}
    {ts : List Transcript} (h : BlameBatch E cfg sts ps ts) (a b : ℕ) (hab : a < b) (hb : b ≤ ps.length)
    (hg : ∀ i, a ≤ i → i < b → GenuineAt E sts ps ts i) :
    (Proof.verifyBatch E cfg (part sts a b) (part ps a b) (part ts a b)).1 = .ok () := by
  have hf := h.fuel a b hab hb
  have h1 := h.proofs
  have h2 := h.transcripts
  have l1 : (part sts a b).length = b - a := take_drop_length sts a b (by omega)
  have l2 : (part ps a b).length = b - a := take_drop_length ps a b hb
  have l3 : (part ts a b).length = b - a := take_drop_length ts a b (by omega)
  have hget : ∀ (j : ℕ) st p t, (part sts a b)[j]? = some st → (part ps a b)[j]? = some p → (part ts a b)[j]? = some t →
      Genuine E st p t := by
    intro j st p t e1 e2 e3
    have hj : j < b - a := by
      rw [← l1]; exact (List.getElem?_eq_some_iff.1 e1).1
    rw [part, take_drop_getElem?, if_pos (by omega)] at e1 e2 e3
    obtain ⟨st', p', t', g1, g2, g3, g4⟩ := hg (a + j) (by omega) (by omega)
    rw [e1] at g1; rw [e2] at g2; rw [e3] at g3
    simp only [Option.some.injEq] at g1 g2 g3
    subst g1 g2 g3
    exact g4
  have hmem : ∀ s ∈ part sts a b, s ∈ sts := fun s hs => mem_take_drop hs
  generalize part sts a b = sts' at *
  generalize part ps a b = ps' at *
  generalize part ts a b = ts' at *
  cases sts' with
  | nil => simp at l1; omega
  | cons first rest =>
    have hfirst := hmem first (by simp)
    have hp : ∀ s ∈ first :: rest, s.params = first.params := fun s hs => h.params s (hmem s hs) first hfirst
    have hi : ∀ s ∈ first :: rest, s.inputSet = first.inputSet := fun s hs => h.inputSets s (hmem s hs) first hfirst
    have hzip : ∀ x ∈ (first :: rest).zip (ps'.zip ts'), Genuine E x.1 x.2.1 x.2.2 ∧ x.1 ∈ first :: rest := by
      intro x hx
      obtain ⟨j, hj, rfl⟩ := List.mem_iff_getElem.1 hx
      simp only [List.length_zip] at hj
      simp only [List.getElem_zip]
      exact ⟨hget j _ _ _ (List.getElem?_eq_getElem _) (List.getElem?_eq_getElem _) (List.getElem?_eq_getElem _),
        List.getElem_mem _⟩
    refine C18_valid E cfg first rest ps' ts' (h.built first hfirst) ⟨by omega, by omega, ?_, ?_, ?_⟩
      ((h.size first hfirst).mono (by omega)) ?_ ?_ hf ?_
    · intro s hs; rw [hi s hs]
    · intro s hs; rw [hp s hs]
    · intro p hp'
      obtain ⟨j, hj, rfl⟩ := List.mem_iff_getElem.1 hp'
      have := hget j _ _ _ (List.getElem?_eq_getElem (by omega)) (List.getElem?_eq_getElem hj)
        (List.getElem?_eq_getElem (by omega))
      have h' := this.shape
      rwa [hp _ (List.getElem_mem _)] at h'
    · intro hz
      rw [challenges, List.mem_map] at hz
      obtain ⟨x, hx, he⟩ := hz
      exact (hzip x hx).1.challenge he
    · intro x hx
      rw [challenges] at hx
      obtain ⟨j, hj, rfl⟩ := List.mem_iff_getElem.1 hx
      simp only [List.length_zip, List.length_map] at hj
      simp only [List.getElem_zip, List.getElem_map]
      have := hget j _ _ _ (List.getElem?_eq_getElem (by omega)) (List.getElem?_eq_getElem (by omega))
        (List.getElem?_eq_getElem (by omega))
      have h' := this.responses
      rwa [hp _ (List.getElem_mem _)] at h'
    · intro x hx
      rw [challenges] at hx
      obtain ⟨j, hj, rfl⟩ := List.mem_iff_getElem.1 hx
      simp only [List.length_zip, List.length_map] at hj
      simp only [List.getElem_zip, List.getElem_map]
      have := hget j _ _ _ (List.getElem?_eq_getElem (by omega)) (List.getElem?_eq_getElem (by omega))
        (List.getElem?_eq_getElem (by omega))
      have h' := this.valid
      rwa [hp _ (List.getElem_mem _), hi _ (List.getElem_mem _)] at h'

/-- No part of a blame batch makes the verifier panic or loop. -/
theorem Spec.BlameBatch.part_returns {E : Env F P} {cfg : Config} {sts : List (Statement P)} {ps : List (Proof F P)}
    {ts : List Transcript} (h : BlameBatch E cfg sts ps ts) (a b : ℕ) (hab : a < b) (hb : b ≤ ps.length) :
    (Proof.verifyBatch E cfg (part sts a b) (part ps a b) (part ts a b)).1 ≠ .panic ∧
    (Proof.verifyBatch E cfg (part sts a b) (part ps a b) (part ts a b)).1 ≠ .diverge := by
  have hmem : ∀ s ∈ part sts a b, s ∈ sts := fun s hs => mem_take_drop hs
  have l2 : (part ps a b).length = b - a := take_drop_length ps a b hb
  obtain ⟨c1, c2⟩ := C16_no_panic E cfg (part sts a b) (part ps a b) (part ts a b)
    (fun s hs => h.built s (hmem s hs)) (by
      intro first hf hc
      have := hmem first (List.mem_of_mem_head? hf)
      exact ((h.size first this).mono (by omega)).2 hc)
  exact ⟨c1, fun hd => c2 hd (h.fuel a b hab hb)⟩

theorem Spec.BlameBatch.sub {E : Env F P} {cfg : Config} {sts : List (Statement P)} {ps : List (Proof F P)}
    {ts : List Transcript} (h : BlameBatch E cfg sts ps ts) (a b : ℕ) (hab : a < b) (hb : b ≤ ps.length) :
    Proof.subBatch E cfg sts ps ts a b = (Proof.verifyBatch E cfg (part sts a b) (part ps a b) (part ts a b)).1 :=
  Proof.subBatch_eq E cfg sts ps ts a b (by omega) (by have := h.proofs; omega) hb
    (by have := h.proofs; have := h.transcripts; omega)

theorem Spec.BlameBatch.whole {E : Env F P} {cfg : Config} {sts : List (Statement P)} {ps : List (Proof F P)}
    {ts : List Transcript} (h : BlameBatch E cfg sts ps ts) (hk : 0 < ps.length) :
    Proof.subBatch E cfg sts ps ts 0 ps.length = (Proof.verifyBatch E cfg sts ps ts).1 := by
  rw [h.sub 0 ps.length hk le_rfl, part_zero sts _ h.proofs, part_zero ps _ rfl,
    part_zero ts _ (by rw [← h.transcripts, h.proofs])]

theorem Spec.BlameBatch.pos {E : Env F P} {cfg : Config} {sts : List (Statement P)} {ps : List (Proof F P)}
    {ts : List Transcript} (h : BlameBatch E cfg sts ps ts) (hr : (Proof.verifyBatch E cfg sts ps ts).1 ≠ .ok ()) :
    0 < ps.length := by
  by_contra h0
  have h1 := h.proofs
  have h2 := h.transcripts
  have e1 : sts = [] := List.length_eq_zero_iff.1 (by omega)
  have e2 : ps = [] := List.length_eq_zero_iff.1 (by omega)
  have e3 : ts = [] := List.length_eq_zero_iff.1 (by omega)
  subst e1 e2 e3
  exact hr (by rw [Proof.verifyBatch_nil])

theorem Spec.BlameBatch.rejected {E : Env F P} {cfg : Config} {sts : List (Statement P)} {ps : List (Proof F P)}
    {ts : List Transcript} (h : BlameBatch E cfg sts ps ts) (hr : (Proof.verifyBatch E cfg sts ps ts).1 ≠ .ok ()) :
    Proof.verifyBatchWithSingleBlame E cfg sts ps ts =
      ((bisect cfg (Proof.subBatch E cfg sts ps ts) (ps.length + 1) 0 ps.length).1,
        (bisect cfg (Proof.subBatch E cfg sts ps ts) (ps.length + 1) 0 ps.length).2, ts) := by
  have hk := h.pos hr
  obtain ⟨p1, p2⟩ := h.part_returns 0 ps.length hk le_rfl
  rw [← h.sub 0 _ hk le_rfl, h.whole hk] at p1 p2
  rw [Proof.verifyBatchWithSingleBlame]
  cases hv : (Proof.verifyBatch E cfg sts ps ts).1 with
  | ok u => exact absurd hv hr
  | panic => exact absurd hv p1
  | diverge => exact absurd hv p2
  | err e => rfl

/-! ## C29 -/

/-- C29: single blame accepts exactly if `verify_batch` does; otherwise it blames the first proof that is not genuine, unless
one of the parts it verified on the way (`calls`) was accepted although it contains a proof that is not genuine. -/
theorem C29_blame (E : Env F P) (cfg : Config) (sts : List (Statement P)) (ps : List (Proof F P)) (ts : List Transcript)
    (h : BlameBatch E cfg sts ps ts) :
    ((Proof.verifyBatchWithSingleBlame E cfg sts ps ts).1 = .ok () ↔ (Proof.verifyBatch E cfg sts ps ts).1 = .ok ()) ∧
    ((Proof.verifyBatch E cfg sts ps ts).1 ≠ .ok () → ∃ i < ps.length,
      (Proof.verifyBatchWithSingleBlame E cfg sts ps ts).1 = .err (.FailedBatchVerificationWithSingleBlame (some i)) ∧
      ((¬ GenuineAt E sts ps ts i ∧ ∀ j < i, GenuineAt E sts ps ts j) ∨
        ∃ c ∈ (Proof.verifyBatchWithSingleBlame E cfg sts ps ts).2.1,
          (Proof.verifyBatch E cfg (part sts c.1 c.2) (part ps c.1 c.2) (part ts c.1 c.2)).1 = .ok () ∧
          ∃ j, c.1 ≤ j ∧ j < c.2 ∧ ¬ GenuineAt E sts ps ts j)) := by
  have key : (Proof.verifyBatch E cfg sts ps ts).1 ≠ .ok () → ∃ i < ps.length,
      (Proof.verifyBatchWithSingleBlame E cfg sts ps ts).1 = .err (.FailedBatchVerificationWithSingleBlame (some i)) ∧
      ((¬ GenuineAt E sts ps ts i ∧ ∀ j < i, GenuineAt E sts ps ts j) ∨
        ∃ c ∈ (Proof.verifyBatchWithSingleBlame E cfg sts ps ts).2.1,
          (Proof.verifyBatch E cfg (part sts c.1 c.2) (part ps c.1 c.2) (part ts c.1 c.2)).1 = .ok () ∧
          ∃ j, c.1 ≤ j ∧ j < c.2 ∧ ¬ GenuineAt E sts ps ts j) := by
    intro hr
    have hk := h.pos hr
    have hcalls := (bisect_calls cfg (Proof.subBatch E cfg sts ps ts) (ps.length + 1) 0 ps.length hk h.index
      (by omega)).2.1
    obtain ⟨i, hi, h1, h2⟩ := bisect_minimal cfg (Proof.subBatch E cfg sts ps ts) (ps.length + 1) ps.length hk h.index
      (by omega) (fun a b hab hb => by rw [h.sub a b hab hb]; exact h.part_returns a b hab hb)
      (by rw [h.whole hk]; exact hr) (GenuineAt E sts ps ts)
      (fun a b hab hb hg => by rw [h.sub a b hab hb]; exact h.part_ok a b hab hb hg)
    rw [h.rejected hr]
    refine ⟨i, hi, h1, ?_⟩
    rcases h2 with h2 | ⟨c, hc, e1, e2⟩
    · exact Or.inl h2
    · obtain ⟨-, c2, c3⟩ := hcalls c hc
      exact Or.inr ⟨c, hc, by rwa [h.sub _ _ c2 c3] at e1, e2⟩
  refine ⟨⟨fun hs => ?_, fun hb => ?_⟩, key⟩
  · by_contra hr
    obtain ⟨i, -, h1, -⟩ := key hr
    rw [h1] at hs
    simp at hs
  · rw [Proof.verifyBatchWithSingleBlame, hb]

/-- C29: what the blamed index rests on: either that proof alone was verified and rejected, or a part of the batch ending with
it (or the whole batch) was rejected; and every proof before it belongs to an accepted part of proofs before it. -/
theorem C29_evidence (E : Env F P) (cfg : Config) (sts : List (Statement P)) (ps : List (Proof F P))
    (ts : List Transcript) (h : BlameBatch E cfg sts ps ts)
    (hr : (Proof.verifyBatch E cfg sts ps ts).1 ≠ .ok ()) : ∃ i < ps.length,
      (Proof.verifyBatchWithSingleBlame E cfg sts ps ts).1 = .err (.FailedBatchVerificationWithSingleBlame (some i)) ∧
      (∃ a ≤ i, (Proof.verifyBatch E cfg (part sts a (i + 1)) (part ps a (i + 1)) (part ts a (i + 1))).1 ≠ .ok ()) ∧
      ∀ j < i, ∃ c ∈ (Proof.verifyBatchWithSingleBlame E cfg sts ps ts).2.1, c.1 ≤ j ∧ j < c.2 ∧ c.2 ≤ i ∧
        (Proof.verifyBatch E cfg (part sts c.1 c.2) (part ps c.1 c.2) (part ts c.1 c.2)).1 = .ok () := by
  have hk := h.pos hr
  have hcalls := (bisect_calls cfg (Proof.subBatch E cfg sts ps ts) (ps.length + 1) 0 ps.length hk h.index
    (by omega)).2.1
  obtain ⟨i, -, hi, h1, h2⟩ := bisect_evidence cfg (Proof.subBatch E cfg sts ps ts) (ps.length + 1) 0 ps.length hk h.index
    (by omega) (fun a b _ hab hb => by rw [h.sub a b hab hb]; exact h.part_returns a b hab hb)
    (fun _ => by rw [h.whole hk]; exact hr)
  rw [h.rejected hr]
  have conv : (∀ j, 0 ≤ j → j < i → ∃ c ∈ (bisect cfg (Proof.subBatch E cfg sts ps ts) (ps.length + 1) 0 ps.length).2,
      c.1 ≤ j ∧ j < c.2 ∧ c.2 ≤ i ∧ Proof.subBatch E cfg sts ps ts c.1 c.2 = .ok ()) →
      ∀ j < i, ∃ c ∈ (bisect cfg (Proof.subBatch E cfg sts ps ts) (ps.length + 1) 0 ps.length).2, c.1 ≤ j ∧ j < c.2 ∧
        c.2 ≤ i ∧ (Proof.verifyBatch E cfg (part sts c.1 c.2) (part ps c.1 c.2) (part ts c.1 c.2)).1 = .ok () := by
    intro hh j hj
    obtain ⟨c, hc, a1, a2, a3, a4⟩ := hh j (Nat.zero_le _) hj
    obtain ⟨-, c2, c3⟩ := hcalls c hc
    exact ⟨c, hc, a1, a2, a3, by rwa [h.sub _ _ c2 c3] at a4⟩
  refine ⟨i, hi, h1, ?_⟩
  rcases h2 with ⟨a1, a2, a3⟩ | ⟨a1, a2⟩
  · exact ⟨⟨i, le_rfl, by rwa [h.sub i (i + 1) (by omega) (by omega)] at a2⟩, conv a3⟩
  · refine ⟨?_, conv a2⟩
    rcases a1 with a1 | ⟨a, -, b2, -, b4⟩
    · refine ⟨0, Nat.zero_le _, ?_⟩
      rw [a1, ← h.sub 0 _ hk le_rfl, h.whole hk]
      exact hr
    · exact ⟨a, b2, by rwa [h.sub a (i + 1) (by omega) (by omega)] at b4⟩

/-- C29: if acceptance of every part of the batch coincides with acceptance of all its proofs one by one, the blamed index is
the smallest one whose proof, verified alone, is rejected. -/
theorem C29_minimal (E : Env F P) (cfg : Config) (sts : List (Statement P)) (ps : List (Proof F P)) (ts : List Transcript)
    (h : BlameBatch E cfg sts ps ts) (hr : (Proof.verifyBatch E cfg sts ps ts).1 ≠ .ok ())
    (hcons : ∀ a b, a < b → b ≤ ps.length →
      ((Proof.verifyBatch E cfg (part sts a b) (part ps a b) (part ts a b)).1 = .ok () ↔
        ∀ i, a ≤ i → i < b → AcceptedAt E cfg sts ps ts i)) :
    ∃ i < ps.length,
      (Proof.verifyBatchWithSingleBlame E cfg sts ps ts).1 = .err (.FailedBatchVerificationWithSingleBlame (some i)) ∧
      ¬ AcceptedAt E cfg sts ps ts i ∧ ∀ j < i, AcceptedAt E cfg sts ps ts j := by
  have hk := h.pos hr
  have hcalls := (bisect_calls cfg (Proof.subBatch E cfg sts ps ts) (ps.length + 1) 0 ps.length hk h.index
    (by omega)).2.1
  obtain ⟨i, hi, h1, h2⟩ := bisect_minimal cfg (Proof.subBatch E cfg sts ps ts) (ps.length + 1) ps.length hk h.index
    (by omega) (fun a b hab hb => by rw [h.sub a b hab hb]; exact h.part_returns a b hab hb)
    (by rw [h.whole hk]; exact hr) (AcceptedAt E cfg sts ps ts)
    (fun a b hab hb hg => by rw [h.sub a b hab hb]; exact (hcons a b hab hb).2 hg)
  rw [h.rejected hr]
  refine ⟨i, hi, h1, ?_⟩
  rcases h2 with h2 | ⟨c, hc, e1, j, e2, e3, e4⟩
  · exact h2
  · obtain ⟨-, c2, c3⟩ := hcalls c hc
    rw [h.sub _ _ c2 c3] at e1
    exact absurd ((hcons _ _ c2 c3).1 e1 j e2 e3) e4

/-! ## C30 -/

/-- C30: the cost. Whatever the statements, proofs and transcripts, besides the first verification of the whole batch at most
`max 1 ⌈log2 k⌉` parts are verified, each non-empty and within the batch; the function only fails to return if one of these
verifications does. -/
theorem C30_cost (E : Env F P) (cfg : Config) (sts : List (Statement P)) (ps : List (Proof F P)) (ts : List Transcript)
    (hmax : ps.length < cfg.usizeMax) :
    (Proof.verifyBatchWithSingleBlame E cfg sts ps ts).2.1.length ≤ max 1 (Nat.clog 2 ps.length) ∧
    (∀ c ∈ (Proof.verifyBatchWithSingleBlame E cfg sts ps ts).2.1, c.1 < c.2 ∧ c.2 ≤ ps.length) ∧
    ((Proof.verifyBatchWithSingleBlame E cfg sts ps ts).1 = .diverge →
      (Proof.verifyBatch E cfg sts ps ts).1 = .diverge ∨
      ∃ c ∈ (Proof.verifyBatchWithSingleBlame E cfg sts ps ts).2.1,
        (Proof.verifyBatch E cfg (part sts c.1 c.2) (part ps c.1 c.2) (part ts c.1 c.2)).1 = .diverge) := by
  rw [Proof.verifyBatchWithSingleBlame]
  cases hv : (Proof.verifyBatch E cfg sts ps ts).1 with
  | ok u => simp
  | panic => simp
  | diverge => simp
  | err e =>
    simp only
    by_cases hk : 0 < ps.length
    · obtain ⟨b1, b2, b3, -, -⟩ := bisect_calls cfg (Proof.subBatch E cfg sts ps ts) (ps.length + 1) 0 ps.length hk hmax
        (by omega)
      refine ⟨by simpa using b1, fun c hc => (b2 c hc).2, fun hd => Or.inr ?_⟩
      obtain ⟨c, hc, hs⟩ := b3 hd
      refine ⟨c, hc, ?_⟩
      obtain ⟨-, c2, c3⟩ := b2 c hc
      by_cases hl : sts.length < c.2 ∨ ts.length < c.2
      · rw [Proof.subBatch_panic E cfg sts ps ts c.1 c.2 hl] at hs
        simp at hs
      · rwa [Proof.subBatch_eq E cfg sts ps ts c.1 c.2 (by omega) (by omega) c3 (by omega)] at hs
    · have : ps.length = 0 := by omega
      rw [this, bisect, if_neg (by omega)]
      simp

/-- C30: for two or more proofs an index is always named (in particular no index computation overflows), whatever the
verifier answers; with equal lengths also for one. -/
theorem C30_named (E : Env F P) (cfg : Config) (sts : List (Statement P)) (ps : List (Proof F P)) (ts : List Transcript)
    (hmax : ps.length < cfg.usizeMax) (h : 2 ≤ ps.length ∨ (sts.length = ps.length ∧ sts.length = ts.length)) :
    (Proof.verifyBatchWithSingleBlame E cfg sts ps ts).1 ≠ .err (.FailedBatchVerificationWithSingleBlame none) := by
  rw [Proof.verifyBatchWithSingleBlame]
  cases hv : (Proof.verifyBatch E cfg sts ps ts).1 with
  | ok u => simp
  | panic => simp
  | diverge => simp
  | err e =>
    simp only
    by_cases h2 : 2 ≤ ps.length
    · exact (bisect_calls cfg (Proof.subBatch E cfg sts ps ts) (ps.length + 1) 0 ps.length (by omega) hmax
        (by omega)).2.2.2.2 (by omega)
    · obtain ⟨e1, e2⟩ := h.resolve_left h2
      have hk : ps.length = 1 := by
        by_contra hne
        have e3 : ps = [] := List.length_eq_zero_iff.1 (by omega)
        have e4 : sts = [] := List.length_eq_zero_iff.1 (by rw [e1, e3]; rfl)
        have e5 : ts = [] := List.length_eq_zero_iff.1 (by rw [← e2, e4]; rfl)
        subst e3 e4 e5
        rw [Proof.verifyBatch_nil] at hv
        simp at hv
      have hsub : Proof.subBatch E cfg sts ps ts 0 1 = .err e := by
        rw [Proof.subBatch_eq E cfg sts ps ts 0 1 (by omega) (by omega) (by omega) (by omega),
          part_zero sts 1 (by omega), part_zero ps 1 hk, part_zero ts 1 (by omega), hv]
      rw [hk, bisect_step cfg _ _ _ _ (by omega) (by omega)]
      simp only [show (0 + (1 - 0 + 1) / 2) = 1 from rfl, hsub]
      simp

/-! ## C31 -/

/-- C31: with equal lengths or with more statements and transcripts than proofs, single blame does not panic. -/
theorem C31_no_panic (E : Env F P) (cfg : Config) (sts : List (Statement P)) (ps : List (Proof F P))
    (ts : List Transcript) (hst : ∀ s ∈ sts, StatementBuilt E s) (h1 : ps.length ≤ sts.length)
    (h2 : ps.length ≤ ts.length) (hsz : ∀ s ∈ sts, cfg.overflowChecks = true → batchSize s.params ps.length ≤ u32Max)
    (hmax : ps.length < cfg.usizeMax) :
    (Proof.verifyBatchWithSingleBlame E cfg sts ps ts).1 ≠ .panic := by
  rw [Proof.verifyBatchWithSingleBlame]
  have hw := (C16_no_panic E cfg sts ps ts hst fun first hf hc => hsz first (List.mem_of_mem_head? hf) hc).1
  cases hv : (Proof.verifyBatch E cfg sts ps ts).1 with
  | ok u => simp
  | panic => exact absurd hv hw
  | diverge => simp
  | err e =>
    simp only
    by_cases hk : 0 < ps.length
    · obtain ⟨b1, b2, -, b4, -⟩ := bisect_calls cfg (Proof.subBatch E cfg sts ps ts) (ps.length + 1) 0 ps.length hk hmax
        (by omega)
      intro hp
      obtain ⟨c, hc, hs⟩ := b4 hp
      obtain ⟨-, c2, c3⟩ := b2 c hc
      rw [Proof.subBatch_eq E cfg sts ps ts c.1 c.2 (by omega) (by omega) c3 (by omega)] at hs
      have hmem : ∀ s ∈ part sts c.1 c.2, s ∈ sts := fun s hs => mem_take_drop hs
      refine (C16_no_panic E cfg _ _ _ (fun s hs => hst s (hmem s hs)) fun first hf hc => ?_).1 hs
      have hlen : (part ps c.1 c.2).length = c.2 - c.1 := take_drop_length ps _ _ c3
      exact le_trans (batchSize_mono _ _ _ (by omega)) (hsz first (hmem first (List.mem_of_mem_head? hf)) hc)
    · have : ps.length = 0 := by omega
      rw [this, bisect, if_neg (by omega)]
      simp

/-- C31: with fewer than half as many statements or transcripts as proofs, single blame panics, whatever they are (the
documentation promises an error). -/
theorem C31_panic (E : Env F P) (cfg : Config) (sts : List (Statement P)) (ps : List (Proof F P)) (ts : List Transcript)
    (hmax : ps.length < cfg.usizeMax)
    (h : sts.length < (ps.length + 1) / 2 ∨ ts.length < (ps.length + 1) / 2) :
    (Proof.verifyBatchWithSingleBlame E cfg sts ps ts).1 = .panic := by
  have hv : ∃ e, (Proof.verifyBatch E cfg sts ps ts).1 = .err e := by
    by_cases h1 : sts.length = ps.length
    · exact ⟨_, by rw [(C27_errors E cfg sts ps ts).2.1 h1 (by omega)]⟩
    · exact ⟨_, by rw [(C27_errors E cfg sts ps ts).1 h1]⟩
  obtain ⟨e, hv⟩ := hv
  rw [Proof.verifyBatchWithSingleBlame, hv]
  simp only
  rw [bisect_step cfg _ _ _ _ (by omega) hmax, Proof.subBatch_panic E cfg sts ps ts _ _ (by omega)]

/-- C31: with more statements (or transcripts) than proofs, although every part of the batch is accepted, single blame blames
the last proof, or, if there is only one, nothing. -/
theorem C31_wrong_blame (E : Env F P) (cfg : Config) (sts : List (Statement P)) (ps : List (Proof F P))
    (ts : List Transcript) (hmax : ps.length < cfg.usizeMax) (hk : 0 < ps.length) (h1 : ps.length ≤ sts.length)
    (h2 : ps.length ≤ ts.length) (hne : sts.length ≠ ps.length ∨ sts.length ≠ ts.length)
    (hok : ∀ a b, a < b → b ≤ ps.length →
      (Proof.verifyBatch E cfg (part sts a b) (part ps a b) (part ts a b)).1 = .ok ()) :
    (Proof.verifyBatchWithSingleBlame E cfg sts ps ts).1 = .err (.FailedBatchVerificationWithSingleBlame
      (if ps.length = 1 then none else some (ps.length - 1))) := by
  have hv : ∃ e, (Proof.verifyBatch E cfg sts ps ts).1 = .err e := by
    by_cases h1 : sts.length = ps.length
    · exact ⟨_, by rw [(C27_errors E cfg sts ps ts).2.1 h1 (by omega)]⟩
    · exact ⟨_, by rw [(C27_errors E cfg sts ps ts).1 h1]⟩
  obtain ⟨e, hv⟩ := hv
  rw [Proof.verifyBatchWithSingleBlame, hv]
  simp only
  rw [bisect_all_ok cfg _ _ 0 ps.length hk hmax (by omega) fun a b _ hab hb => by
    rw [Proof.subBatch_eq E cfg sts ps ts a b (by omega) (by omega) hb (by omega)]; exact hok a b hab hb]
  simp

/-! ## C32 and C33 -/

/-- C32: full blame accepts exactly if `verify_batch` does. Otherwise, also for mismatched lengths (C31), it returns an error
with, in increasing order, exactly the positions present in all three lists whose proof verified alone is rejected. -/
theorem C32_full (E : Env F P) (cfg : Config) (sts : List (Statement P)) (ps : List (Proof F P)) (ts : List Transcript)
    (hst : ∀ s ∈ sts, StatementBuilt E s) (hsz : ∀ s ∈ sts, SizeOK cfg s.params (max 1 ps.length))
    (hfuel : sts.length = ps.length → sts.length = ts.length → EnoughFuel E sts ps ts cfg.fuel)
    (hfuel1 : ∀ (j : ℕ) st p t, sts[j]? = some st → ps[j]? = some p → ts[j]? = some t →
      EnoughFuel E [st] [p] [t] cfg.fuel) :
    ((Proof.verifyBatchWithFullBlame E cfg sts ps ts).1 = .ok () ↔ (Proof.verifyBatch E cfg sts ps ts).1 = .ok ()) ∧
    ((Proof.verifyBatch E cfg sts ps ts).1 ≠ .ok () → ∃ is,
      (Proof.verifyBatchWithFullBlame E cfg sts ps ts).1 = .err (.FailedBatchVerificationWithFullBlame is) ∧
      is.Pairwise (· < ·) ∧
      ∀ i, i ∈ is ↔ ∃ st p t, sts[i]? = some st ∧ ps[i]? = some p ∧ ts[i]? = some t ∧
        (Proof.verify E cfg p st t).1 ≠ .ok ()) := by
  have hw := C16_no_panic E cfg sts ps ts hst fun first hf hc =>
    ((hsz first (List.mem_of_mem_head? hf)).mono (le_max_right _ _)).2 hc
  have hdiv : (Proof.verifyBatch E cfg sts ps ts).1 ≠ .diverge := by
    intro hd
    by_cases e1 : sts.length = ps.length
    · by_cases e2 : sts.length = ts.length
      · exact hw.2 hd (hfuel e1 e2)
      · rw [(C27_errors E cfg sts ps ts).2.1 e1 e2] at hd; simp at hd
    · rw [(C27_errors E cfg sts ps ts).1 e1] at hd; simp at hd
  have h1 : ∀ (j : ℕ) st p t, sts[j]? = some st → ps[j]? = some p → ts[j]? = some t →
      (Proof.verify E cfg p st t).1 ≠ .panic ∧ (Proof.verify E cfg p st t).1 ≠ .diverge := by
    intro j st p t e1 e2 e3
    have m1 := List.mem_of_getElem? e1
    have hc := C16_no_panic E cfg [st] [p] [t] (by simpa using hst st m1) fun first hf hc => by
      simp only [List.head?_cons, Option.some.injEq] at hf
      subst hf
      exact ((hsz _ m1).mono (le_max_left _ _)).2 hc
    exact ⟨hc.1, fun hd => hc.2 hd (hfuel1 j st p t e1 e2 e3)⟩
  obtain ⟨is, i1, i2, i3⟩ := blameLoop_indexes (fun st p t => Proof.verify E cfg p st t) 0 sts ps ts h1
  have key : (Proof.verifyBatch E cfg sts ps ts).1 ≠ .ok () → 
      (Proof.verifyBatchWithFullBlame E cfg sts ps ts).1 = .err (.FailedBatchVerificationWithFullBlame is) := by
    intro hr
    rw [Proof.verifyBatchWithFullBlame]
    cases hv : (Proof.verifyBatch E cfg sts ps ts).1 with
    | ok u => exact absurd hv hr
    | panic => exact absurd hv hw.1
    | diverge => exact absurd hv hdiv
    | err e => simp only [i1]; rfl
  refine ⟨⟨fun h => ?_, fun h => by rw [Proof.verifyBatchWithFullBlame, h]⟩, fun hr => ⟨is, key hr, i2, fun i => ?_⟩⟩
  · by_contra hr
    rw [key hr] at h
    simp at h
  · rw [i3 i]
    constructor
    · rintro ⟨j, st, p, t, rfl, r⟩; rw [Nat.zero_add]; exact ⟨st, p, t, r⟩
    · rintro ⟨st, p, t, r⟩; exact ⟨i, st, p, t, (Nat.zero_add i).symm, r⟩

/-- C31: mismatched lengths are always an error of full blame. -/
theorem C31_full (E : Env F P) (cfg : Config) (sts : List (Statement P)) (ps : List (Proof F P)) (ts : List Transcript)
    (hst : ∀ s ∈ sts, StatementBuilt E s) (hsz : ∀ s ∈ sts, SizeOK cfg s.params (max 1 ps.length))
    (hfuel : sts.length = ps.length → sts.length = ts.length → EnoughFuel E sts ps ts cfg.fuel)
    (hfuel1 : ∀ (j : ℕ) st p t, sts[j]? = some st → ps[j]? = some p → ts[j]? = some t →
      EnoughFuel E [st] [p] [t] cfg.fuel)
    (hne : sts.length ≠ ps.length ∨ sts.length ≠ ts.length) :
    ∃ is, (Proof.verifyBatchWithFullBlame E cfg sts ps ts).1 = .err (.FailedBatchVerificationWithFullBlame is) := by
  have hv : (Proof.verifyBatch E cfg sts ps ts).1 ≠ .ok () := by
    by_cases h1 : sts.length = ps.length
    · rw [(C27_errors E cfg sts ps ts).2.1 h1 (by omega)]; simp
    · rw [(C27_errors E cfg sts ps ts).1 h1]; simp
  obtain ⟨is, h, -⟩ := (C32_full E cfg sts ps ts hst hsz hfuel hfuel1).2 hv
  exact ⟨is, h⟩

/-- C33: single blame never changes the transcripts. -/
theorem C33_single (E : Env F P) (cfg : Config) (sts : List (Statement P)) (ps : List (Proof F P))
    (ts : List Transcript) : (Proof.verifyBatchWithSingleBlame E cfg sts ps ts).2.2 = ts := by
  rw [Proof.verifyBatchWithSingleBlame]
  split <;> rfl

/-- C33: full blame leaves the transcripts unchanged on success; otherwise every transcript whose proof was verified is left
as by that verification, and the others are unchanged. -/
theorem C33_full (E : Env F P) (cfg : Config) (sts : List (Statement P)) (ps : List (Proof F P)) (ts : List Transcript)
    (hst : ∀ s ∈ sts, StatementBuilt E s) (hsz : ∀ s ∈ sts, SizeOK cfg s.params (max 1 ps.length))
    (hfuel : sts.length = ps.length → sts.length = ts.length → EnoughFuel E sts ps ts cfg.fuel)
    (hfuel1 : ∀ (j : ℕ) st p t, sts[j]? = some st → ps[j]? = some p → ts[j]? = some t →
      EnoughFuel E [st] [p] [t] cfg.fuel) :
    ((Proof.verifyBatch E cfg sts ps ts).1 = .ok () → (Proof.verifyBatchWithFullBlame E cfg sts ps ts).2 = ts) ∧
    ((Proof.verifyBatch E cfg sts ps ts).1 ≠ .ok () →
      (Proof.verifyBatchWithFullBlame E cfg sts ps ts).2.length = ts.length ∧
      ∀ (j : ℕ) t, ts[j]? = some t →
        (∀ st p, sts[j]? = some st → ps[j]? = some p → ∃ t', (Proof.verify E cfg p st t).2 = [t'] ∧
          (Proof.verifyBatchWithFullBlame E cfg sts ps ts).2[j]? = some t') ∧
        ((sts.length ≤ j ∨ ps.length ≤ j) →
          (Proof.verifyBatchWithFullBlame E cfg sts ps ts).2[j]? = some t)) := by
  refine ⟨fun h => by rw [Proof.verifyBatchWithFullBlame, h], fun hr => ?_⟩
  have hw := C16_no_panic E cfg sts ps ts hst fun first hf hc =>
    ((hsz first (List.mem_of_mem_head? hf)).mono (le_max_right _ _)).2 hc
  have hdiv : (Proof.verifyBatch E cfg sts ps ts).1 ≠ .diverge := by
    intro hd
    by_cases e1 : sts.length = ps.length
    · by_cases e2 : sts.length = ts.length
      · exact hw.2 hd (hfuel e1 e2)
      · rw [(C27_errors E cfg sts ps ts).2.1 e1 e2] at hd; simp at hd
    · rw [(C27_errors E cfg sts ps ts).1 e1] at hd; simp at hd
  have h1 : ∀ (j : ℕ) st p t, sts[j]? = some st → ps[j]? = some p → ts[j]? = some t →
      (Proof.verify E cfg p st t).1 ≠ .panic ∧ (Proof.verify E cfg p st t).1 ≠ .diverge := by
    intro j st p t e1 e2 e3
    have m1 := List.mem_of_getElem? e1
    have hc := C16_no_panic E cfg [st] [p] [t] (by simpa using hst st m1) fun first hf hc => by
      simp only [List.head?_cons, Option.some.injEq] at hf
      subst hf
      exact ((hsz _ m1).mono (le_max_left _ _)).2 hc
    exact ⟨hc.1, fun hd => hc.2 hd (hfuel1 j st p t e1 e2 e3)⟩
  have h2 := blameLoop_transcripts (fun st p t => Proof.verify E cfg p st t) 0 sts ps ts h1
    (fun j st p t _ _ _ => Proof.verifyBatch_length E cfg [st] [p] [t])
  have key : (Proof.verifyBatchWithFullBlame E cfg sts ps ts).2
      = (blameLoop (fun st p t => Proof.verify E cfg p st t) 0 sts ps ts).2 := by
    rw [Proof.verifyBatchWithFullBlame]
    cases hv : (Proof.verifyBatch E cfg sts ps ts).1 with
    | ok u => exact absurd hv hr
    | panic => exact absurd hv hw.1
    | diverge => exact absurd hv hdiv
    | err e => rfl
  rw [key]
  exact h2

/-! ## Examples -/

namespace Toy
/-- A batch of three whose second proof is forged. -/
def sts3 : List (Statement (ZMod 101)) := [statement, statement', statement]
def bad : Proof (ZMod 101) (ZMod 101) := { proof' with z := proof'.z + 1 }
def ps3 : List (Proof (ZMod 101) (ZMod 101)) := [proof, bad, proof]
def ts3 : List Transcript := [transcript, transcript', transcript]

theorem blameBatch : BlameBatch (env 101) cfg sts3 ps3 ts3 := by
  have hb : ∀ s ∈ sts3, StatementBuilt (env 101) s := by
    intro s hs
    simp only [sts3, List.mem_cons, List.not_mem_nil, or_false] at hs
    rcases hs with rfl | rfl | rfl
    · exact statement_built
    · exact statement'_built
    · exact statement_built
  refine ⟨by simp [sts3, ps3], by simp [sts3, ts3], hb, by decide +kernel, by decide +kernel, ?_, by decide +kernel, ?_⟩
  · intro s hs
    refine ⟨show (3 : ℕ) ≤ _ by decide, fun _ => ?_⟩
    revert s
    decide +kernel
  · have key : ∀ b < 4, ∀ a < b, (part ps3 a b).length ≤ (usableQuads (env 101) (Spec.weightTranscript
        "Triptych verifier weights" (seeds (env 101) (part sts3 a b) (part ps3 a b) (part ts3 a b))) 4).length := by
      decide +kernel
    intro a b hab hb'
    have hb3 : b ≤ 3 := hb'
    exact le_trans (key b (by omega) a hab) (usableQuads_prefix _ _ 4 _ (by decide)).length_le

end Toy

/-- C29, C30, C33: the forged proof is blamed after two verifications besides the first. -/
example : BlameBatch (Toy.env 101) Toy.cfg Toy.sts3 Toy.ps3 Toy.ts3 ∧
    Proof.verifyBatchWithSingleBlame (Toy.env 101) Toy.cfg Toy.sts3 Toy.ps3 Toy.ts3 =
      (.err (.FailedBatchVerificationWithSingleBlame (some 1)), [(0, 2), (0, 1)], Toy.ts3) :=
  ⟨Toy.blameBatch, by decide +kernel⟩

/-- C29: the consistency hypothesis of `C29_minimal` is met by this batch. -/
example : (Proof.verifyBatch (Toy.env 101) Toy.cfg Toy.sts3 Toy.ps3 Toy.ts3).1 ≠ .ok () ∧
    ∀ a b, a < b → b ≤ Toy.ps3.length →
      ((Proof.verifyBatch (Toy.env 101) Toy.cfg (part Toy.sts3 a b) (part Toy.ps3 a b) (part Toy.ts3 a b)).1 = .ok () ↔
        ∀ i, a ≤ i → i < b → AcceptedAt (Toy.env 101) Toy.cfg Toy.sts3 Toy.ps3 Toy.ts3 i) := by
  have h0 : AcceptedAt (Toy.env 101) Toy.cfg Toy.sts3 Toy.ps3 Toy.ts3 0 :=
    ⟨Toy.statement, Toy.proof, Toy.transcript, rfl, rfl, rfl, Toy.verify_ok⟩
  have h2 : AcceptedAt (Toy.env 101) Toy.cfg Toy.sts3 Toy.ps3 Toy.ts3 2 :=
    ⟨Toy.statement, Toy.proof, Toy.transcript, rfl, rfl, rfl, Toy.verify_ok⟩
  have h1 : ¬ AcceptedAt (Toy.env 101) Toy.cfg Toy.sts3 Toy.ps3 Toy.ts3 1 := by
    rintro ⟨st, p, t, e1, e2, e3, e4⟩
    simp only [Toy.sts3, Toy.ps3, Toy.ts3, List.getElem?_cons_succ, List.getElem?_cons_zero, Option.some.injEq] at e1 e2 e3
    subst e1 e2 e3
    have : (Proof.verify (Toy.env 101) Toy.cfg Toy.bad Toy.statement' Toy.transcript').1 ≠ .ok () := by decide +kernel
    exact this e4
  refine ⟨by decide +kernel, ?_⟩
  intro a b hab hb
  have hb3 : b ≤ 3 := hb
  by_cases hc : a ≤ 1 ∧ 1 < b
  · have hno : ¬ ∀ i, a ≤ i → i < b → AcceptedAt (Toy.env 101) Toy.cfg Toy.sts3 Toy.ps3 Toy.ts3 i :=
      fun h => h1 (h 1 hc.1 hc.2)
    refine iff_of_false ?_ hno
    have ha : a ≤ 1 := hc.1
    have hb1 : 1 < b := hc.2
    interval_cases b <;> interval_cases a <;> decide +kernel
  · have hcase : (a = 0 ∧ b = 1) ∨ (a = 2 ∧ b = 3) := by omega
    rcases hcase with ⟨rfl, rfl⟩ | ⟨rfl, rfl⟩
    · refine iff_of_true (by decide +kernel) fun i _ hi => ?_
      rwa [show i = 0 by omega]
    · refine iff_of_true (by decide +kernel) fun i hi hi' => ?_
      rwa [show i = 2 by omega]

/-- C31: two statements and five proofs make single blame panic; a single valid proof with two statements is answered by an
error naming nothing, two valid proofs with three statements by one naming the valid second proof. -/
example :
    (Proof.verifyBatchWithSingleBlame (Toy.env 101) Toy.cfg [Toy.statement, Toy.statement']
      [Toy.proof, Toy.proof', Toy.proof, Toy.proof, Toy.proof] Toy.ts3).1 = .panic ∧
    (Proof.verifyBatchWithSingleBlame (Toy.env 101) Toy.cfg [Toy.statement, Toy.statement'] [Toy.proof]
      [Toy.transcript]).1 = .err (.FailedBatchVerificationWithSingleBlame none) ∧
    (Proof.verifyBatchWithSingleBlame (Toy.env 101) Toy.cfg Toy.sts3 [Toy.proof, Toy.proof'] Toy.ts3).1
      = .err (.FailedBatchVerificationWithSingleBlame (some 1)) ∧
    (Proof.verifyBatchWithFullBlame (Toy.env 101) Toy.cfg Toy.sts3 [Toy.proof, Toy.proof'] Toy.ts3).1
      = .err (.FailedBatchVerificationWithFullBlame []) := by
  refine ⟨C31_panic _ _ _ _ _ (by decide) (by decide), by decide +kernel, by decide +kernel, by decide +kernel⟩

/-- C31: the hypotheses of `C31_wrong_blame`. -/
example : ∀ a b, a < b → b ≤ [Toy.proof, Toy.proof'].length →
    (Proof.verifyBatch (Toy.env 101) Toy.cfg (part Toy.sts3 a b) (part [Toy.proof, Toy.proof'] a b)
      (part Toy.ts3 a b)).1 = .ok () := by
  intro a b hab hb
  have hb3 : b ≤ 2 := hb
  have ha : a ≤ 1 := by omega
  have key : ∀ b < 3, ∀ a < b, (Proof.verifyBatch (Toy.env 101) Toy.cfg (part Toy.sts3 a b)
      (part [Toy.proof, Toy.proof'] a b) (part Toy.ts3 a b)).1 = .ok () := by decide +kernel
  exact key b (by omega) a hab

/-- C32, C33: full blame of the batch with the forged proof, and the hypotheses of the theorems. -/
example : (∀ s ∈ Toy.sts3, SizeOK Toy.cfg s.params (max 1 Toy.ps3.length)) ∧
    (∀ (j : ℕ) st p t, Toy.sts3[j]? = some st → Toy.ps3[j]? = some p → Toy.ts3[j]? = some t →
      EnoughFuel (Toy.env 101) [st] [p] [t] Toy.cfg.fuel) ∧
    (Proof.verifyBatchWithFullBlame (Toy.env 101) Toy.cfg Toy.sts3 Toy.ps3 Toy.ts3).1 =
      .err (.FailedBatchVerificationWithFullBlame [1]) ∧
    (Proof.verifyBatchWithFullBlame (Toy.env 101) Toy.cfg Toy.sts3 Toy.ps3 Toy.ts3).2 ≠ Toy.ts3 := by
  refine ⟨fun s hs => (Toy.blameBatch.size s hs).mono (by decide), ?_, by decide +kernel, by decide +kernel⟩
  intro j st p t e1 e2 e3
  have := Toy.blameBatch.fuel j (j + 1) (by omega) (by
    have : j < Toy.ps3.length := (List.getElem?_eq_some_iff.1 e2).1
    omega)
  rwa [part_one _ _ _ e1, part_one _ _ _ e2, part_one _ _ _ e3] at this

end Triptych
