import Verif.Props.Soundness
import Verif.Props.Parallel.Weights
import Mathlib.Data.Set.Card

/-! # Special soundness, linkability, uniqueness of responses: C51 -/
set_option autoImplicit false
set_option linter.unusedSectionVars false

namespace Triptych.Parallel
open Finset
open Triptych.Parallel.Spec
open Triptych.Spec (Relation defect extractKey extractIndex SmallSums grayDigit digit commit fullF ringCoeff NonzeroF maskA selector ringPoly versionBytes points scalars
  weightTranscript weightScalar queryPoint drawn)

variable {F P : Type} [Field F] [AddCommGroup P] [Module F P] [DecidableEq F] [DecidableEq P]

/-- The commitments of two proofs are the same. -/
def Spec.SameCommitments (p q : Proof F P) : Prop :=
  p.A = q.A ∧ p.B = q.B ∧ p.C = q.C ∧ p.D = q.D ∧ p.X = q.X ∧ p.X1 = q.X1 ∧ p.Y = q.Y

/-- The relations the extractor computes from runs with challenges `ξ` and proofs `p`: one of them is a non-trivial linear
relation among the commitment generators. -/
def Spec.ExtractedRelation (params : Params P) (p : ℕ → Proof F P) (ξ : ℕ → F) : Prop :=
  (∃ e ≤ params.m, Relation params.n params.m params.CommitmentG params.CommitmentH
      (fun j i => defect ξ (fun e' => fullF (p e').f (ξ e') j i) e) (defect ξ (fun e' => (p e').zA) e)) ∨
  Relation params.n params.m params.CommitmentG params.CommitmentH
    (fun j i => defect ξ (fun e' => fullF (p e').f (ξ e') j i * (ξ e' - fullF (p e').f (ξ e') j i)) 2)
    (defect ξ (fun e' => (p e').zC) 2)

/-- C51: from `m + 1` proofs with the same commitments which satisfy the verification equations of one statement for pairwise
distinct challenges, the extractor computes one position and the two secrets of that position, with the linking tag of
the statement, or a relation among the commitment generators. -/
theorem C51_extract (E : Env F P) (st : Statement P) (hst : StatementBuilt E st) (hs : SmallSums F st.params.n)
    (p : ℕ → Proof F P) (ξ : ℕ → F) (hξ : Set.InjOn ξ (range (st.params.m + 1)))
    (hshape : ∀ e ≤ st.params.m, Shape st.params (p e))
    (hsame : ∀ e ≤ st.params.m, SameCommitments (p e) (p 0))
    (hvalid : ∀ e ≤ st.params.m, Valid st.params st.inputSet.M st.inputSet.M1 st.offset st.J (p e) (ξ e)) :
    Rel st.params.G st.params.G1 st.params.U st.inputSet.M st.inputSet.M1 st.offset st.J
      (extractIndex st.params.n st.params.m ξ fun e => fullF (p e).f (ξ e))
      (extractKey st.params.m ξ fun e => (p e).z) (extractKey st.params.m ξ fun e => (p e).z1) ∨
    ExtractedRelation st.params p ξ := by
  have hpar := hst.ok.params
  have hlen := hst.ok.length
  have hlen1 := hst.ok.length1
  have hn := hpar.n
  have hm := hpar.m
  have hrow : ∀ e ≤ st.params.m, ∀ j < st.params.m, ∑ i ∈ range st.params.n, fullF (p e).f (ξ e) j i = ξ e :=
    fun e he j hj => fullF_row_sum st.params.n st.params.m (by omega) (p e).f (ξ e) (hshape e he).f (hshape e he).row j hj
  have h1 : ∀ e ≤ st.params.m, commit st.params.n st.params.m st.params.CommitmentG st.params.CommitmentH
      (fullF (p e).f (ξ e)) (p e).zA = (p 0).A + ξ e • (p 0).B := by
    intro e he
    have := (hvalid e he).e1
    rw [E1, sub_eq_zero] at this
    rw [this, (hsame e he).1, (hsame e he).2.1]
  have h2 : ∀ e ≤ st.params.m, commit st.params.n st.params.m st.params.CommitmentG st.params.CommitmentH
      (fun j i => fullF (p e).f (ξ e) j i * (ξ e - fullF (p e).f (ξ e) j i)) (p e).zC = ξ e • (p 0).C + (p 0).D := by
    intro e he
    have := (hvalid e he).e2
    rw [E2, sub_eq_zero] at this
    rw [this, (hsame e he).2.2.1, (hsame e he).2.2.2.1]
  rcases extract_bits st.params.n st.params.m hn hm hs st.params.CommitmentG st.params.CommitmentH (p 0).A (p 0).B (p 0).C
    (p 0).D (fun e => fullF (p e).f (ξ e)) (fun e => (p e).zA) (fun e => (p e).zC) ξ hξ hrow h1 h2 with h | h | ⟨hl, a, ha⟩
  · exact Or.inr (Or.inl h)
  · exact Or.inr (Or.inr h)
  · left
    have h3 : st.inputSet.M.getD (extractIndex st.params.n st.params.m ξ fun e => fullF (p e).f (ξ e)) 0
        = extractKey st.params.m ξ (fun e => (p e).z) • st.params.G := by
      apply extract_ring st.params.n st.params.m hn _ hl a (fun e => fullF (p e).f (ξ e)) ξ (fun e => (p e).z) hξ ha
        (fun k => st.inputSet.M.getD k 0) (fun j => (p 0).X.getD j 0) st.params.G
      intro e he
      have := (hvalid e he).e3
      rw [E3, (hsame e he).2.2.2.2.1] at this
      exact this
    have h4 : st.params.U = extractKey st.params.m ξ (fun e => (p e).z) • st.J := by
      apply lagrange_group st.params.m ξ (fun e => (p e).z) hξ st.params.U (fun j => -(p 0).Y.getD j 0) st.J
      intro e he
      have := (hvalid e he).e4
      rw [E4, (hsame e he).2.2.2.2.2.2, sum_ringCoeff st.params.n st.params.m hn _ (ξ e) (hrow e he),
        sub_eq_zero] at this
      rw [← this]
      simp only [smul_neg, Finset.sum_neg_distrib]
      abel
    have h5 : st.inputSet.M1.getD (extractIndex st.params.n st.params.m ξ fun e => fullF (p e).f (ξ e)) 0 - st.offset
        = extractKey st.params.m ξ (fun e => (p e).z1) • st.params.G1 := by
      apply extract_ring st.params.n st.params.m hn _ hl a (fun e => fullF (p e).f (ξ e)) ξ (fun e => (p e).z1) hξ ha
        (fun k => st.inputSet.M1.getD k 0 - st.offset) (fun j => (p 0).X1.getD j 0) st.params.G1
      intro e he
      have := (hvalid e he).e5
      rw [E5, (hsame e he).2.2.2.2.2.1] at this
      exact this
    refine ⟨?_, ?_, h4.symm⟩
    · rw [← h3, List.getElem?_eq_getElem (by rw [hlen]; exact hl), List.getD_eq_getElem?_getD,
        List.getElem?_eq_getElem (by rw [hlen]; exact hl), Option.getD_some]
    · rw [← h5, sub_add_cancel, List.getElem?_eq_getElem (by rw [hlen1]; exact hl), List.getD_eq_getElem?_getD,
        List.getElem?_eq_getElem (by rw [hlen1]; exact hl), Option.getD_some]

/-- C51 for `verify`: `m + 1` accepting runs with the same commitments and distinct challenges, in environments that may
differ (as when a hash oracle is reprogrammed) or with different transcripts. The extractor succeeds, or finds a relation, or
some run accepted a proof that violates its equations, which happens only for exceptional weights: at most
`(q - 1) ^ 4` of `(q - 1) ^ 5`. -/
theorem C51_accepted [Fintype F] (E : ℕ → Env F P) (cfg : Config) (st : Statement P)
    (hst : ∀ e ≤ st.params.m, StatementBuilt (E e) st) (hs : SmallSums F st.params.n) (p : ℕ → Proof F P) (t : ℕ → Transcript)
    (hξ : Set.InjOn (fun e => challenge (E e) (t e) st (p e)) (range (st.params.m + 1)))
    (hsame : ∀ e ≤ st.params.m, SameCommitments (p e) (p 0))
    (hacc : ∀ e ≤ st.params.m, (Proof.verify (E e) cfg (p e) st (t e)).1 = .ok ()) :
    Rel st.params.G st.params.G1 st.params.U st.inputSet.M st.inputSet.M1 st.offset st.J
      (extractIndex st.params.n st.params.m (fun e => challenge (E e) (t e) st (p e)) fun e =>
        fullF (p e).f (challenge (E e) (t e) st (p e)))
      (extractKey st.params.m (fun e => challenge (E e) (t e) st (p e)) fun e => (p e).z)
      (extractKey st.params.m (fun e => challenge (E e) (t e) st (p e)) fun e => (p e).z1) ∨
    ExtractedRelation st.params p (fun e => challenge (E e) (t e) st (p e)) ∨
    ∃ e ≤ st.params.m, ¬ Valid st.params st.inputSet.M st.inputSet.M1 st.offset st.J (p e) (challenge (E e) (t e) st (p e)) ∧
      ∃ bad : Finset (Fin 1 × Fin 5 → F),
        bad = ({w | (∀ x, w x ≠ 0) ∧ batchSum st.params st.inputSet.M st.inputSet.M1 [st] [p e]
          [challenge (E e) (t e) st (p e)] (weightList w) = 0} : Finset _) ∧
        #bad ≤ (Fintype.card F - 1) ^ 4 ∧ ∃ w ∈ bad, IsWeights (E e) [st] [p e] [t e] (weightList w) := by
  by_cases hv : ∀ e ≤ st.params.m, Valid st.params st.inputSet.M st.inputSet.M1 st.offset st.J (p e) (challenge (E e) (t e) st (p e))
  · rcases C51_extract (E 0) st (hst 0 (Nat.zero_le _)) hs p (fun e => challenge (E e) (t e) st (p e)) hξ
      (fun e he => (C50_accepted (E e) cfg st [] [p e] [t e] (hst e he) (hacc e he)).1.shapes (p e) (by simp)) hsame hv
      with h | h
    · exact Or.inl h
    · exact Or.inr (Or.inl h)
  · push Not at hv
    obtain ⟨e, he, hne⟩ := hv
    refine Or.inr (Or.inr ⟨e, he, hne, ?_⟩)
    exact C50_exceptional (E e) cfg st [] [p e] [t e] (hst e he) (hacc e he) 0 st (p e) _ rfl rfl rfl hne

/-! ## Linkability -/

/-- C51: for rings, offsets and parameters sharing only a non-zero `U`, two satisfied statements have the same linking tag
exactly if they are satisfied by the same signing key, whatever the auxiliary keys. -/
theorem C51_linkable (G G1 G' G1' U : P) (hU : U ≠ 0) (M M1 M' M1' : List P) (offset offset' J J' : P) (l l' : ℕ)
    (r r1 r' r1' : F) (h : Rel G G1 U M M1 offset J l r r1) (h' : Rel G' G1' U M' M1' offset' J' l' r' r1') :
    J = J' ↔ r = r' :=
  C21_linkable G G' U hU M M' J J' l l' r r' ⟨h.1, h.2.2⟩ ⟨h'.1, h'.2.2⟩

/-- C51: a ring of `k` keys can be signed for with at most `k` different linking tags, over all offsets and all second
vectors. -/
theorem C51_tags (G G1 U : P) (hG : G ≠ 0) (hU : U ≠ 0) (M : List P) :
    {J | ∃ (M1 : List P) (offset : P) (l : ℕ) (r r1 : F), Rel G G1 U M M1 offset J l r r1}.encard ≤ M.length := by
  refine le_trans (Set.encard_le_encard ?_) (C21_tags (F := F) G U hG hU M)
  rintro J ⟨M1, offset, l, r, r1, h⟩
  exact ⟨l, r, h.1, h.2.2⟩

/-- C51: in any history of parallel proofs with pairwise different linking tags (and a common `G` and `U`), on rings of any sizes
and overlaps, with any second rings and offsets, there are at most as many proofs as different signing keys in all rings. -/
theorem C51_history (G G1 U : P) (hG : G ≠ 0) (hU : U ≠ 0) (history : List (List P × P))
    (h : ∀ x ∈ history, ∃ (M1 : List P) (offset : P) (l : ℕ) (r r1 : F), Rel G G1 U x.1 M1 offset x.2 l r r1)
    (hnd : (history.map Prod.snd).Nodup) : history.length ≤ (history.flatMap Prod.fst).toFinset.card :=
  C21_history (F := F) G U hG hU history
    (fun x hx => by obtain ⟨M1, offset, l, r, r1, h⟩ := h x hx; exact ⟨l, r, h.1, h.2.2⟩) hnd

/-- The hypotheses of `C51_history` and `C51_tags` are met. -/
example : ∃ history : List (List (ZMod 101) × ZMod 101), history.length = 2 ∧ (history.map Prod.snd).Nodup ∧
    ∀ x ∈ history, ∃ (M1 : List (ZMod 101)) (offset : ZMod 101) (l : ℕ) (r r1 : ZMod 101),
      Rel Toy.params.G Toy.params.G1 Toy.params.U x.1 M1 offset x.2 l r r1 :=
  ⟨[(Toy.statement.inputSet.M, Toy.statement.J), (Toy.statement'.inputSet.M, Toy.statement'.J)], rfl, by decide +kernel, by
    intro x hx
    rcases List.mem_cons.1 hx with rfl | hx
    · exact ⟨Toy.statement.inputSet.M1, Toy.statement.offset, 2, 7, 9, by decide +kernel, by decide +kernel, by decide +kernel⟩
    · rw [List.mem_singleton] at hx
      subst hx
      exact ⟨Toy.statement'.inputSet.M1, Toy.statement'.offset, 0, 3, 4, by decide +kernel, by decide +kernel,
        by decide +kernel⟩⟩

/-- C51: two families of valid proofs, for statements with a common `U`, yield equal signing keys exactly if the linking tags
are equal, or a relation among commitment generators. -/
theorem C51_extracted (E : Env F P) (st st' : Statement P) (hst : StatementBuilt E st) (hst' : StatementBuilt E st')
    (hUU : st.params.U = st'.params.U) (hU : st.params.U ≠ 0)
    (hs : SmallSums F st.params.n) (hs' : SmallSums F st'.params.n) (p p' : ℕ → Proof F P) (ξ ξ' : ℕ → F)
    (hξ : Set.InjOn ξ (range (st.params.m + 1))) (hξ' : Set.InjOn ξ' (range (st'.params.m + 1)))
    (hshape : ∀ e ≤ st.params.m, Shape st.params (p e)) (hshape' : ∀ e ≤ st'.params.m, Shape st'.params (p' e))
    (hsame : ∀ e ≤ st.params.m, SameCommitments (p e) (p 0))
    (hsame' : ∀ e ≤ st'.params.m, SameCommitments (p' e) (p' 0))
    (hvalid : ∀ e ≤ st.params.m, Valid st.params st.inputSet.M st.inputSet.M1 st.offset st.J (p e) (ξ e))
    (hvalid' : ∀ e ≤ st'.params.m, Valid st'.params st'.inputSet.M st'.inputSet.M1 st'.offset st'.J (p' e) (ξ' e)) :
    (st.J = st'.J ↔ extractKey st.params.m ξ (fun e => (p e).z) = extractKey st'.params.m ξ' (fun e => (p' e).z)) ∨
      ExtractedRelation st.params p ξ ∨ ExtractedRelation st'.params p' ξ' := by
  rcases C51_extract E st hst hs p ξ hξ hshape hsame hvalid with h | h
  · rcases C51_extract E st' hst' hs' p' ξ' hξ' hshape' hsame' hvalid' with h' | h'
    · rw [← hUU] at h'
      exact Or.inl (C51_linkable _ _ _ _ _ hU _ _ _ _ _ _ _ _ _ _ _ _ _ _ h h')
    · exact Or.inr (Or.inr h')
  · exact Or.inr (Or.inl h)

/-! ## Uniqueness of responses -/

/-- C51: two proofs with the same commitments that satisfy the equations for the same statement and challenge are equal, or
give a relation among the commitment generators. -/
theorem C51_unique (E : Env F P) (st : Statement P) (hst : StatementBuilt E st) (hG : st.params.G ≠ 0) (hG1 : st.params.G1 ≠ 0) (ξ : F)
    (p q : Proof F P) (hp : Shape st.params p) (hq : Shape st.params q) (hsame : SameCommitments p q)
    (hvp : Valid st.params st.inputSet.M st.inputSet.M1 st.offset st.J p ξ) (hvq : Valid st.params st.inputSet.M st.inputSet.M1 st.offset st.J q ξ) :
    p = q ∨
    Relation st.params.n st.params.m st.params.CommitmentG st.params.CommitmentH
      (fun j i => fullF p.f ξ j i - fullF q.f ξ j i) (p.zA - q.zA) ∨
    Relation st.params.n st.params.m st.params.CommitmentG st.params.CommitmentH (fun _ _ => 0) (p.zC - q.zC) := by
  obtain ⟨hA, hB, hC, hD, hX, hX1, hY⟩ := hsame
  have hpar := hst.ok.params
  have e1 : commit st.params.n st.params.m st.params.CommitmentG st.params.CommitmentH
      (fun j i => fullF p.f ξ j i - fullF q.f ξ j i) (p.zA - q.zA) = 0 := by
    have h := hvp.e1
    have h' := hvq.e1
    rw [E1, sub_eq_zero] at h h'
    rw [commit_sub, h, h', hA, hB, sub_self]
  by_cases hr : Relation st.params.n st.params.m st.params.CommitmentG st.params.CommitmentH
      (fun j i => fullF p.f ξ j i - fullF q.f ξ j i) (p.zA - q.zA)
  · exact Or.inr (Or.inl hr)
  have hf : ∀ j < st.params.m, ∀ i < st.params.n, fullF p.f ξ j i = fullF q.f ξ j i := by
    intro j hj i hi
    by_contra hne
    exact hr ⟨e1, Or.inl ⟨j, hj, i, hi, sub_ne_zero.2 hne⟩⟩
  have hzA : p.zA = q.zA := by
    by_contra hne
    exact hr ⟨e1, Or.inr (sub_ne_zero.2 hne)⟩
  have e2 : commit st.params.n st.params.m st.params.CommitmentG st.params.CommitmentH
      (fun _ _ => (0 : F)) (p.zC - q.zC) = 0 := by
    have h := hvp.e2
    have h' := hvq.e2
    rw [E2, sub_eq_zero] at h h'
    have h'' := commit_sub st.params.n st.params.m st.params.CommitmentG st.params.CommitmentH
      (fun j i => fullF p.f ξ j i * (ξ - fullF p.f ξ j i)) (fun j i => fullF q.f ξ j i * (ξ - fullF q.f ξ j i)) p.zC q.zC
    rw [h, h', hC, hD, sub_self] at h''
    rw [← h'']
    apply commit_congr
    intro j hj i hi
    rw [hf j hj i hi, sub_self]
  by_cases hr2 : Relation st.params.n st.params.m st.params.CommitmentG st.params.CommitmentH (fun _ _ => 0) (p.zC - q.zC)
  · exact Or.inr (Or.inr hr2)
  left
  have hzC : p.zC = q.zC := by
    by_contra hne
    exact hr2 ⟨e2, Or.inr (sub_ne_zero.2 hne)⟩
  have hff : p.f = q.f := by
    rw [matrix_eq_mat p.f 0 st.params.m (st.params.n - 1) hp.f hp.row,
      matrix_eq_mat q.f 0 st.params.m (st.params.n - 1) hq.f hq.row]
    apply mat_congr
    intro j hj i hi
    exact hf j hj (i + 1) (by omega)
  have hz : p.z = q.z := by
    have h := hvp.e3
    have h' := hvq.e3
    rw [E3, sub_eq_zero] at h h'
    rw [hff, hX] at h
    have : (p.z - q.z) • st.params.G = 0 := by rw [sub_smul, ← h, ← h', sub_self]
    rcases smul_zero_cases _ _ this with hz | hz
    · exact sub_eq_zero.1 hz
    · exact absurd hz hG
  have hz1 : p.z1 = q.z1 := by
    have h := hvp.e5
    have h' := hvq.e5
    rw [E5, sub_eq_zero] at h h'
    rw [hff, hX1] at h
    have : (p.z1 - q.z1) • st.params.G1 = 0 := by rw [sub_smul, ← h, ← h', sub_self]
    rcases smul_zero_cases _ _ this with hz | hz
    · exact sub_eq_zero.1 hz
    · exact absurd hz hG1
  cases p; cases q
  simp only at hA hB hC hD hX hX1 hY hzA hzC hff hz hz1
  subst hA hB hC hD hX hX1 hY hzA hzC hff hz hz1
  rfl

/-- C51 for `verify`: a second, different proof with the same commitments accepted for the same statement and transcript
gives a relation, or one of the two violates its equations. -/
theorem C51_unique_accepted (E : Env F P) (cfg : Config) (st : Statement P) (hst : StatementBuilt E st) (hG : st.params.G ≠ 0) (hG1 : st.params.G1 ≠ 0)
    (t : Transcript) (p q : Proof F P) (hsame : SameCommitments p q)
    (hp : (Proof.verify E cfg p st t).1 = .ok ()) (hq : (Proof.verify E cfg q st t).1 = .ok ()) :
    p = q ∨
    Relation st.params.n st.params.m st.params.CommitmentG st.params.CommitmentH
      (fun j i => fullF p.f (challenge E t st p) j i - fullF q.f (challenge E t st p) j i) (p.zA - q.zA) ∨
    Relation st.params.n st.params.m st.params.CommitmentG st.params.CommitmentH (fun _ _ => 0) (p.zC - q.zC) ∨
    ¬ Valid st.params st.inputSet.M st.inputSet.M1 st.offset st.J p (challenge E t st p) ∨
    ¬ Valid st.params st.inputSet.M st.inputSet.M1 st.offset st.J q (challenge E t st q) := by
  have hc : challenge E t st q = challenge E t st p := by
    obtain ⟨hA, hB, hC, hD, hX, hX1, hY⟩ := hsame
    simp only [challenge, hA, hB, hC, hD, hX, hX1, hY]
  by_cases h1 : Valid st.params st.inputSet.M st.inputSet.M1 st.offset st.J p (challenge E t st p)
  · by_cases h2 : Valid st.params st.inputSet.M st.inputSet.M1 st.offset st.J q (challenge E t st q)
    · rw [hc] at h2
      rcases C51_unique E st hst hG hG1 (challenge E t st p) p q
        ((C50_accepted E cfg st [] [p] [t] hst hp).1.shapes p (by simp))
        ((C50_accepted E cfg st [] [q] [t] hst hq).1.shapes q (by simp)) hsame h1 h2 with h | h | h
      · exact Or.inl h
      · exact Or.inr (Or.inl h)
      · exact Or.inr (Or.inr (Or.inl h))
    · exact Or.inr (Or.inr (Or.inr (Or.inr h2)))
  · exact Or.inr (Or.inr (Or.inr (Or.inl h1)))

/-! ## Concrete cases -/

namespace Toy
open Triptych.Toy (env cfg get fork transcript)

/-- The same prover run answered with challenge `e + 10`. -/
def forkProof (e : ℕ) : Proof (ZMod 101) (ZMod 101) :=
  get emptyProof (Proof.proveWithRng (fork (e + 10)) nullRng witness statement () transcript).1

theorem statement_fork (e : ℕ) (he : e ≤ statement.params.m) : StatementBuilt (fork (e + 10)) statement := by
  have hm : statement.params.m = 2 := by decide +kernel
  rw [hm] at he
  have h1 : ∀ e ≤ 2, Params.new (fork (e + 10)) 2 2 = .ok params := by decide +kernel
  have h2 : ∀ e ≤ 2, InputSet.new (fork (e + 10)) keys keys1 = .ok inputSet := by decide +kernel
  have h3 : ∀ e ≤ 2, Statement.new (fork (e + 10)) params inputSet offset witness.computeLinkingTag = .ok statement := by
    decide +kernel
  exact ⟨_, _, _, _, ⟨_, _, _, _, _, h1 e he⟩, Or.inl ⟨_, _, h2 e he⟩, h3 e he⟩

end Toy

/-- The hypotheses of `C51_accepted`, hence those of `C51_extract` and `C51_extracted`, are met: three accepting runs with the
same commitments and distinct challenges; the extractor returns position 2 and keys 7 and 9. -/
example : (∀ e ≤ Toy.statement.params.m, StatementBuilt (Toy.fork (e + 10)) Toy.statement) ∧
    SmallSums (ZMod 101) Toy.statement.params.n ∧
    Set.InjOn (fun e => challenge (Toy.fork (e + 10)) Toy.transcript Toy.statement (Toy.forkProof e))
      (range (Toy.statement.params.m + 1)) ∧
    (∀ e ≤ Toy.statement.params.m, SameCommitments (Toy.forkProof e) (Toy.forkProof 0)) ∧
    (∀ e ≤ Toy.statement.params.m,
      (Proof.verify (Toy.fork (e + 10)) Toy.cfg (Toy.forkProof e) Toy.statement Toy.transcript).1 = .ok ()) ∧
    extractIndex 2 2 (fun e => challenge (Toy.fork (e + 10)) Toy.transcript Toy.statement (Toy.forkProof e))
      (fun e => fullF (Toy.forkProof e).f (challenge (Toy.fork (e + 10)) Toy.transcript Toy.statement (Toy.forkProof e)))
      = 2 ∧
    extractKey 2 (fun e => challenge (Toy.fork (e + 10)) Toy.transcript Toy.statement (Toy.forkProof e))
      (fun e => (Toy.forkProof e).z) = 7 ∧
    extractKey 2 (fun e => challenge (Toy.fork (e + 10)) Toy.transcript Toy.statement (Toy.forkProof e))
      (fun e => (Toy.forkProof e).z1) = 9 := by
  have hm : Toy.statement.params.m = 2 := by decide +kernel
  refine ⟨Toy.statement_fork, smallSums_zmod 101 _ (by decide +kernel), ?_, ?_, ?_, by decide +kernel, ?_, ?_⟩
  · have : ∀ e ∈ range (Toy.statement.params.m + 1), ∀ e' ∈ range (Toy.statement.params.m + 1),
        challenge (Toy.fork (e + 10)) Toy.transcript Toy.statement (Toy.forkProof e) =
          challenge (Toy.fork (e' + 10)) Toy.transcript Toy.statement (Toy.forkProof e') → e = e' := by decide +kernel
    intro e he e' he' h
    exact this e (by simpa using he) e' (by simpa using he') h
  · rw [hm]
    simp only [SameCommitments]
    decide +kernel
  · rw [hm]; decide +kernel
  · decide +kernel
  · decide +kernel

/-- The hypotheses of `C51_linkable` are met: two signers of the same ring have different tags. -/
example : Rel Toy.params.G Toy.params.G1 Toy.params.U Toy.inputSet.M Toy.inputSet.M1 Toy.statement.offset
      Toy.statement.J 2 (7 : ZMod 101) 9 ∧
    Rel Toy.params.G Toy.params.G1 Toy.params.U Toy.inputSet.M Toy.inputSet.M1 Toy.statement'.offset
      Toy.statement'.J 0 (3 : ZMod 101) 4 ∧
    Toy.params.U ≠ 0 ∧ Toy.params.G ≠ 0 ∧ Toy.statement.J ≠ Toy.statement'.J := by
  simp only [Parallel.Spec.Rel]
  decide +kernel

/-- The hypotheses of `C51_unique` and `C51_unique_accepted` are met by a proof of the prover and itself. -/
example : StatementBuilt (Toy.env 101) Toy.statement ∧ Toy.statement.params.G ≠ 0 ∧ Toy.statement.params.G1 ≠ 0 ∧
    Shape Toy.statement.params Toy.proof ∧ SameCommitments Toy.proof Toy.proof ∧
    Valid Toy.statement.params Toy.statement.inputSet.M Toy.statement.inputSet.M1 Toy.statement.offset Toy.statement.J Toy.proof
      (challenge (Toy.env 101) Toy.transcript Toy.statement Toy.proof) := by
  refine ⟨Toy.statement_built, by decide +kernel, by decide +kernel, ⟨by decide +kernel, by decide +kernel, by decide +kernel,
    by decide +kernel, by decide +kernel⟩, ⟨rfl, rfl, rfl, rfl, rfl, rfl, rfl⟩, ?_⟩
  exact ⟨by decide +kernel, by decide +kernel, by decide +kernel, by decide +kernel, by decide +kernel⟩

/-- They are met by two different proofs too: the toy field is small enough for a second response that is accepted
with the same commitments, which then yields a relation between the generators. -/
example : let q : Proof (ZMod 101) (ZMod 101) :=
      { Toy.proof with f := [[1], [74]], zA := 36, zC := 44, z1 := 22 }
    StatementBuilt (Toy.env 101) Toy.statement ∧ Toy.statement.params.G ≠ 0 ∧ Toy.statement.params.G1 ≠ 0 ∧
    Shape Toy.statement.params q ∧ SameCommitments Toy.proof q ∧ q.f ≠ Toy.proof.f ∧
    (Proof.verify (Toy.env 101) Toy.cfg q Toy.statement Toy.transcript).1 = .ok () ∧
    Valid Toy.statement.params Toy.statement.inputSet.M Toy.statement.inputSet.M1 Toy.statement.offset Toy.statement.J q
      (challenge (Toy.env 101) Toy.transcript Toy.statement Toy.proof) := by
  intro q
  refine ⟨Toy.statement_built, by decide +kernel, by decide +kernel, ⟨by decide +kernel, by decide +kernel, by decide +kernel,
    by decide +kernel, by decide +kernel⟩, (by simp only [SameCommitments]; decide +kernel), by decide +kernel, by decide +kernel, ?_⟩
  exact ⟨by decide +kernel, by decide +kernel, by decide +kernel, by decide +kernel, by decide +kernel⟩

end Triptych.Parallel
