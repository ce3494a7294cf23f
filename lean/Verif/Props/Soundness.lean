import Verif.Props.Weights
import Verif.Lemmas.Soundness
import Mathlib.Data.Set.Card

/-! # Special soundness, linkability, uniqueness of responses: C20, C21, C22 -/
set_option autoImplicit false
set_option linter.unusedSectionVars false

namespace Triptych
open Spec Finset

variable {F P : Type} [Field F] [AddCommGroup P] [Module F P] [DecidableEq F] [DecidableEq P]

/-- The commitments of two proofs are the same. -/
def Spec.SameCommitments (p q : Proof F P) : Prop :=
  p.A = q.A ∧ p.B = q.B ∧ p.C = q.C ∧ p.D = q.D ∧ p.X = q.X ∧ p.Y = q.Y

/-- The relations the extractor computes from runs with challenges `ξ` and proofs `p`: one of them is a non-trivial linear
relation among the commitment generators. -/
def Spec.ExtractedRelation (params : Params P) (p : ℕ → Proof F P) (ξ : ℕ → F) : Prop :=
  (∃ e ≤ params.m, Relation params.n params.m params.CommitmentG params.CommitmentH
      (fun j i => defect ξ (fun e' => fullF (p e').f (ξ e') j i) e) (defect ξ (fun e' => (p e').zA) e)) ∨
  Relation params.n params.m params.CommitmentG params.CommitmentH
    (fun j i => defect ξ (fun e' => fullF (p e').f (ξ e') j i * (ξ e' - fullF (p e').f (ξ e') j i)) 2)
    (defect ξ (fun e' => (p e').zC) 2)

/-- C20: from `m + 1` proofs with the same commitments which satisfy the verification equations of one statement for pairwise
distinct challenges, the extractor computes the position and signing key of a ring member with the linking tag of the
statement, or a relation among the commitment generators. -/
theorem C20_extract (E : Env F P) (st : Statement P) (hst : StatementBuilt E st) (hs : SmallSums F st.params.n)
    (p : ℕ → Proof F P) (ξ : ℕ → F) (hξ : Set.InjOn ξ (range (st.params.m + 1)))
    (hshape : ∀ e ≤ st.params.m, Shape st.params (p e))
    (hsame : ∀ e ≤ st.params.m, SameCommitments (p e) (p 0))
    (hvalid : ∀ e ≤ st.params.m, Valid st.params st.inputSet.M st.J (p e) (ξ e)) :
    Rel st.params.G st.params.U st.inputSet.M st.J
      (extractIndex st.params.n st.params.m ξ fun e => fullF (p e).f (ξ e))
      (extractKey st.params.m ξ fun e => (p e).z) ∨
    ExtractedRelation st.params p ξ := by
  obtain ⟨hpar, hlen, -⟩ := hst.ok
  have hn := hpar.n
  have hm := hpar.m
  have hrow : ∀ e ≤ st.params.m, ∀ j < st.params.m, ∑ i ∈ range st.params.n, fullF (p e).f (ξ e) j i = ξ e :=
    fun e he j hj => fullF_row_sum st.params.n st.params.m (by omega) (p e).f (ξ e) (hshape e he).f (hshape e he).row j hj
  have h1 : ∀ e ≤ st.params.m, commit st.params.n st.params.m st.params.CommitmentG st.params.CommitmentH
      (fullF (p e).f (ξ e)) (p e).zA = (p 0).A + ξ e • (p 0).B := by
    intro e he
    have := (hvalid e he).e1
    rw [E1, sub_eq_zero] at this
    rw [this, (hsame e he).1, (hsame e he).2.1]
  have h2 : ∀ e ≤ st.params.m, commit st.params.n st.params.m st.params.CommitmentG st.params.CommitmentH
      (fun j i => fullF (p e).f (ξ e) j i * (ξ e - fullF (p e).f (ξ e) j i)) (p e).zC = ξ e • (p 0).C + (p 0).D := by
    intro e he
    have := (hvalid e he).e2
    rw [E2, sub_eq_zero] at this
    rw [this, (hsame e he).2.2.1, (hsame e he).2.2.2.1]
  rcases extract_bits st.params.n st.params.m hn hm hs st.params.CommitmentG st.params.CommitmentH (p 0).A (p 0).B (p 0).C
    (p 0).D (fun e => fullF (p e).f (ξ e)) (fun e => (p e).zA) (fun e => (p e).zC) ξ hξ hrow h1 h2 with h | h | ⟨hl, a, ha⟩
  · exact Or.inr (Or.inl h)
  · exact Or.inr (Or.inr h)
  · left
    have h3 : st.inputSet.M.getD (extractIndex st.params.n st.params.m ξ fun e => fullF (p e).f (ξ e)) 0
        = extractKey st.params.m ξ (fun e => (p e).z) • st.params.G := by
      apply extract_ring st.params.n st.params.m hn _ hl a (fun e => fullF (p e).f (ξ e)) ξ (fun e => (p e).z) hξ ha
        (fun k => st.inputSet.M.getD k 0) (fun j => (p 0).X.getD j 0) st.params.G
      intro e he
      have := (hvalid e he).e3
      rw [E3, (hsame e he).2.2.2.2.1] at this
      exact this
    have h4 : st.params.U = extractKey st.params.m ξ (fun e => (p e).z) • st.J := by
      apply lagrange_group st.params.m ξ (fun e => (p e).z) hξ st.params.U (fun j => -(p 0).Y.getD j 0) st.J
      intro e he
      have := (hvalid e he).e4
      rw [E4, (hsame e he).2.2.2.2.2, sum_ringCoeff st.params.n st.params.m hn _ (ξ e) (hrow e he),
        sub_eq_zero] at this
      rw [← this]
      simp only [smul_neg, Finset.sum_neg_distrib]
      abel
    refine ⟨?_, h4.symm⟩
    rw [← h3, List.getElem?_eq_getElem (by rw [hlen]; exact hl), List.getD_eq_getElem?_getD,
      List.getElem?_eq_getElem (by rw [hlen]; exact hl), Option.getD_some]

/-- C20 for `verify`: `m + 1` accepting runs with the same commitments and distinct challenges, in environments that may
differ (as when a hash oracle is reprogrammed) or with different transcripts. The extractor succeeds, or finds a relation, or
some run accepted a proof that violates its equations, which happens only for exceptional weights: at most
`(q - 1) ^ 3` of `(q - 1) ^ 4`. -/
theorem C20_accepted [Fintype F] (E : ℕ → Env F P) (cfg : Config) (st : Statement P)
    (hst : ∀ e ≤ st.params.m, StatementBuilt (E e) st) (hs : SmallSums F st.params.n) (p : ℕ → Proof F P) (t : ℕ → Transcript)
    (hξ : Set.InjOn (fun e => challenge (E e) (t e) st (p e)) (range (st.params.m + 1)))
    (hsame : ∀ e ≤ st.params.m, SameCommitments (p e) (p 0))
    (hacc : ∀ e ≤ st.params.m, (Proof.verify (E e) cfg (p e) st (t e)).1 = .ok ()) :
    Rel st.params.G st.params.U st.inputSet.M st.J
      (extractIndex st.params.n st.params.m (fun e => challenge (E e) (t e) st (p e)) fun e =>
        fullF (p e).f (challenge (E e) (t e) st (p e)))
      (extractKey st.params.m (fun e => challenge (E e) (t e) st (p e)) fun e => (p e).z) ∨
    ExtractedRelation st.params p (fun e => challenge (E e) (t e) st (p e)) ∨
    ∃ e ≤ st.params.m, ¬ Valid st.params st.inputSet.M st.J (p e) (challenge (E e) (t e) st (p e)) ∧
      ∃ bad : Finset (Fin 1 × Fin 4 → F),
        bad = ({w | (∀ x, w x ≠ 0) ∧ batchSum st.params st.inputSet.M [st] [p e]
          [challenge (E e) (t e) st (p e)] (weightList w) = 0} : Finset _) ∧
        #bad ≤ (Fintype.card F - 1) ^ 3 ∧ ∃ w ∈ bad, IsWeights (E e) [st] [p e] [t e] (weightList w) := by
  by_cases hv : ∀ e ≤ st.params.m, Valid st.params st.inputSet.M st.J (p e) (challenge (E e) (t e) st (p e))
  · rcases C20_extract (E 0) st (hst 0 (Nat.zero_le _)) hs p (fun e => challenge (E e) (t e) st (p e)) hξ
      (fun e he => (C18_accepted (E e) cfg st [] [p e] [t e] (hst e he) (hacc e he)).1.shapes (p e) (by simp)) hsame hv
      with h | h
    · exact Or.inl h
    · exact Or.inr (Or.inl h)
  · push Not at hv
    obtain ⟨e, he, hne⟩ := hv
    refine Or.inr (Or.inr ⟨e, he, hne, ?_⟩)
    exact C19_accepted (E e) cfg st [] [p e] [t e] (hst e he) (hacc e he) 0 st (p e) _ rfl rfl rfl hne

/-! ## Linkability -/

/-- C21: for rings and parameters sharing a non-zero `U`, two satisfied statements have the same linking tag exactly if they
are satisfied by the same signing key. -/
theorem C21_linkable (G G' U : P) (hU : U ≠ 0) (M M' : List P) (J J' : P) (l l' : ℕ) (r r' : F)
    (h : Rel G U M J l r) (h' : Rel G' U M' J' l' r') : J = J' ↔ r = r' := by
  have hr : r ≠ 0 := by
    intro hc; apply hU; rw [← h.2, hc, zero_smul]
  constructor
  · intro hJ
    subst hJ
    have h0 : (r - r') • J = 0 := by rw [sub_smul, h.2, h'.2, sub_self]
    rcases smul_zero_cases _ _ h0 with hz | hz
    · exact sub_eq_zero.1 hz
    · exfalso; apply hU; rw [← h.2, hz, smul_zero]
  · intro hrr
    subst hrr
    have h0 : r • (J - J') = 0 := by rw [smul_sub, h.2, h'.2, sub_self]
    rcases smul_zero_cases _ _ h0 with hz | hz
    · exact absurd hz hr
    · exact sub_eq_zero.1 hz

/-- C21: a ring of `k` keys can be signed for with at most `k` different linking tags. -/
theorem C21_tags (G U : P) (hG : G ≠ 0) (hU : U ≠ 0) (M : List P) :
    {J | ∃ (l : ℕ) (r : F), Rel G U M J l r}.encard ≤ M.length := by
  classical
  let f : P → ℕ := fun J => if h : ∃ (l : ℕ) (r : F), Rel G U M J l r then h.choose else 0
  have hf : ∀ J, (∃ (l : ℕ) (r : F), Rel G U M J l r) → ∃ r : F, Rel G U M J (f J) r := by
    intro J h
    simp only [f, dif_pos h]
    exact h.choose_spec
  have hmaps : Set.MapsTo f {J | ∃ (l : ℕ) (r : F), Rel G U M J l r} (Finset.range M.length : Finset ℕ) := by
    intro J h
    obtain ⟨r, hr⟩ := hf J h
    rw [Finset.mem_coe, Finset.mem_range]
    exact (List.getElem?_eq_some_iff.1 hr.1).1
  have hinj : Set.InjOn f {J | ∃ (l : ℕ) (r : F), Rel G U M J l r} := by
    intro J h J' h' he
    obtain ⟨r, hr⟩ := hf J h
    obtain ⟨r', hr'⟩ := hf J' h'
    rw [← he] at hr'
    refine (C21_linkable G G U hU M M J J' (f J) (f J) r r' hr hr').2 ?_
    have : r • G = r' • G := by
      have := hr.1.symm.trans hr'.1
      simpa using this
    rcases smul_zero_cases (r - r') G (by rw [sub_smul, this, sub_self]) with hz | hz
    · exact sub_eq_zero.1 hz
    · exact absurd hz hG
  have := Set.encard_le_encard_of_injOn hmaps hinj
  rw [Set.encard_coe_eq_coe_finsetCard, Finset.card_range] at this
  exact this

/-- C21: in any history of signatures on rings of any sizes and overlaps with pairwise different linking tags (and common
generators), there are at most as many signatures as different keys in all rings together. -/
theorem C21_history (G U : P) (hG : G ≠ 0) (hU : U ≠ 0) (history : List (List P × P))
    (h : ∀ x ∈ history, ∃ (l : ℕ) (r : F), Rel G U x.1 x.2 l r) (hnd : (history.map Prod.snd).Nodup) :
    history.length ≤ (history.flatMap Prod.fst).toFinset.card := by
  classical
  choose! l r hrel using h
  have hinj : ∀ x ∈ history, ∀ y ∈ history, r x • G = r y • G → x.2 = y.2 := by
    intro x hx y hy hxy
    refine (C21_linkable G G U hU _ _ _ _ _ _ _ _ (hrel x hx) (hrel y hy)).2 ?_
    rcases smul_zero_cases (r x - r y) G (by rw [sub_smul, hxy, sub_self]) with hz | hz
    · exact sub_eq_zero.1 hz
    · exact absurd hz hG
  have hnd' : (history.map fun x => r x • G).Nodup := by
    rw [List.nodup_map_iff_inj_on hnd.of_map]
    intro x hx y hy hxy
    exact List.inj_on_of_nodup_map hnd hx hy (hinj x hx y hy hxy)
  calc history.length = (history.map fun x => r x • G).toFinset.card := by
        rw [List.toFinset_card_of_nodup hnd', List.length_map]
    _ ≤ _ := by
        apply Finset.card_le_card
        intro Q hQ
        simp only [List.mem_toFinset, List.mem_map, List.mem_flatMap] at hQ ⊢
        obtain ⟨x, hx, rfl⟩ := hQ
        exact ⟨x, hx, List.mem_of_getElem? (hrel x hx).1⟩

/-- The hypotheses of `C21_history` and `C21_tags` are met. -/
example : ∃ history : List (List (ZMod 101) × ZMod 101), history.length = 2 ∧ (history.map Prod.snd).Nodup ∧
    ∀ x ∈ history, ∃ (l : ℕ) (r : ZMod 101), Rel Toy.params.G Toy.params.U x.1 x.2 l r :=
  ⟨[(Toy.statement.inputSet.M, Toy.statement.J), (Toy.statement'.inputSet.M, Toy.statement'.J)], rfl, by decide +kernel, by
    intro x hx
    rcases List.mem_cons.1 hx with rfl | hx
    · exact ⟨2, 7, by decide +kernel, by decide +kernel⟩
    · rw [List.mem_singleton] at hx
      subst hx
      exact ⟨0, 3, by decide +kernel, by decide +kernel⟩⟩

/-- C21: two families of valid proofs, for statements with a common `U`, yield equal signing keys exactly if the linking tags
are equal, or a relation among commitment generators. -/
theorem C21_extracted (E : Env F P) (st st' : Statement P) (hst : StatementBuilt E st) (hst' : StatementBuilt E st')
    (hUU : st.params.U = st'.params.U) (hU : st.params.U ≠ 0)
    (hs : SmallSums F st.params.n) (hs' : SmallSums F st'.params.n) (p p' : ℕ → Proof F P) (ξ ξ' : ℕ → F)
    (hξ : Set.InjOn ξ (range (st.params.m + 1))) (hξ' : Set.InjOn ξ' (range (st'.params.m + 1)))
    (hshape : ∀ e ≤ st.params.m, Shape st.params (p e)) (hshape' : ∀ e ≤ st'.params.m, Shape st'.params (p' e))
    (hsame : ∀ e ≤ st.params.m, SameCommitments (p e) (p 0))
    (hsame' : ∀ e ≤ st'.params.m, SameCommitments (p' e) (p' 0))
    (hvalid : ∀ e ≤ st.params.m, Valid st.params st.inputSet.M st.J (p e) (ξ e))
    (hvalid' : ∀ e ≤ st'.params.m, Valid st'.params st'.inputSet.M st'.J (p' e) (ξ' e)) :
    (st.J = st'.J ↔ extractKey st.params.m ξ (fun e => (p e).z) = extractKey st'.params.m ξ' (fun e => (p' e).z)) ∨
      ExtractedRelation st.params p ξ ∨ ExtractedRelation st'.params p' ξ' := by
  rcases C20_extract E st hst hs p ξ hξ hshape hsame hvalid with h | h
  · rcases C20_extract E st' hst' hs' p' ξ' hξ' hshape' hsame' hvalid' with h' | h'
    · rw [← hUU] at h'
      exact Or.inl (C21_linkable _ _ _ hU _ _ _ _ _ _ _ _ h h')
    · exact Or.inr (Or.inr h')
  · exact Or.inr (Or.inl h)

/-! ## Uniqueness of responses -/

/-- C22: two proofs with the same commitments that satisfy the equations for the same statement and challenge are equal, or
give a relation among the commitment generators. -/
theorem C22_unique (E : Env F P) (st : Statement P) (hst : StatementBuilt E st) (hG : st.params.G ≠ 0) (ξ : F)
    (p q : Proof F P) (hp : Shape st.params p) (hq : Shape st.params q) (hsame : SameCommitments p q)
    (hvp : Valid st.params st.inputSet.M st.J p ξ) (hvq : Valid st.params st.inputSet.M st.J q ξ) :
    p = q ∨
    Relation st.params.n st.params.m st.params.CommitmentG st.params.CommitmentH
      (fun j i => fullF p.f ξ j i - fullF q.f ξ j i) (p.zA - q.zA) ∨
    Relation st.params.n st.params.m st.params.CommitmentG st.params.CommitmentH (fun _ _ => 0) (p.zC - q.zC) := by
  obtain ⟨hA, hB, hC, hD, hX, hY⟩ := hsame
  have hpar := hst.ok.params
  have e1 : commit st.params.n st.params.m st.params.CommitmentG st.params.CommitmentH
      (fun j i => fullF p.f ξ j i - fullF q.f ξ j i) (p.zA - q.zA) = 0 := by
    have h := hvp.e1
    have h' := hvq.e1
    rw [E1, sub_eq_zero] at h h'
    rw [commit_sub, h, h', hA, hB, sub_self]
  by_cases hr : Relation st.params.n st.params.m st.params.CommitmentG st.params.CommitmentH
      (fun j i => fullF p.f ξ j i - fullF q.f ξ j i) (p.zA - q.zA)
  · exact Or.inr (Or.inl hr)
  have hf : ∀ j < st.params.m, ∀ i < st.params.n, fullF p.f ξ j i = fullF q.f ξ j i := by
    intro j hj i hi
    by_contra hne
    exact hr ⟨e1, Or.inl ⟨j, hj, i, hi, sub_ne_zero.2 hne⟩⟩
  have hzA : p.zA = q.zA := by
    by_contra hne
    exact hr ⟨e1, Or.inr (sub_ne_zero.2 hne)⟩
  have e2 : commit st.params.n st.params.m st.params.CommitmentG st.params.CommitmentH
      (fun _ _ => (0 : F)) (p.zC - q.zC) = 0 := by
    have h := hvp.e2
    have h' := hvq.e2
    rw [E2, sub_eq_zero] at h h'
    have h'' := commit_sub st.params.n st.params.m st.params.CommitmentG st.params.CommitmentH
      (fun j i => fullF p.f ξ j i * (ξ - fullF p.f ξ j i)) (fun j i => fullF q.f ξ j i * (ξ - fullF q.f ξ j i)) p.zC q.zC
    rw [h, h', hC, hD, sub_self] at h''
    rw [← h'']
    apply commit_congr
    intro j hj i hi
    rw [hf j hj i hi, sub_self]
  by_cases hr2 : Relation st.params.n st.params.m st.params.CommitmentG st.params.CommitmentH (fun _ _ => 0) (p.zC - q.zC)
  · exact Or.inr (Or.inr hr2)
  left
  have hzC : p.zC = q.zC := by
    by_contra hne
    exact hr2 ⟨e2, Or.inr (sub_ne_zero.2 hne)⟩
  have hff : p.f = q.f := by
    rw [matrix_eq_mat p.f 0 st.params.m (st.params.n - 1) hp.f hp.row,
      matrix_eq_mat q.f 0 st.params.m (st.params.n - 1) hq.f hq.row]
    apply mat_congr
    intro j hj i hi
    exact hf j hj (i + 1) (by omega)
  have hz : p.z = q.z := by
    have h := hvp.e3
    have h' := hvq.e3
    rw [E3, sub_eq_zero] at h h'
    rw [hff, hX] at h
    have : (p.z - q.z) • st.params.G = 0 := by rw [sub_smul, ← h, ← h', sub_self]
    rcases smul_zero_cases _ _ this with hz | hz
    · exact sub_eq_zero.1 hz
    · exact absurd hz hG
  cases p; cases q
  simp only at hA hB hC hD hX hY hzA hzC hff hz
  subst hA hB hC hD hX hY hzA hzC hff hz
  rfl

/-- C22 for `verify`: a second, different proof with the same commitments accepted for the same statement and transcript
gives a relation, or one of the two violates its equations. -/
theorem C22_accepted (E : Env F P) (cfg : Config) (st : Statement P) (hst : StatementBuilt E st) (hG : st.params.G ≠ 0)
    (t : Transcript) (p q : Proof F P) (hsame : SameCommitments p q)
    (hp : (Proof.verify E cfg p st t).1 = .ok ()) (hq : (Proof.verify E cfg q st t).1 = .ok ()) :
    p = q ∨
    Relation st.params.n st.params.m st.params.CommitmentG st.params.CommitmentH
      (fun j i => fullF p.f (challenge E t st p) j i - fullF q.f (challenge E t st p) j i) (p.zA - q.zA) ∨
    Relation st.params.n st.params.m st.params.CommitmentG st.params.CommitmentH (fun _ _ => 0) (p.zC - q.zC) ∨
    ¬ Valid st.params st.inputSet.M st.J p (challenge E t st p) ∨
    ¬ Valid st.params st.inputSet.M st.J q (challenge E t st q) := by
  have hc : challenge E t st q = challenge E t st p := by
    obtain ⟨hA, hB, hC, hD, hX, hY⟩ := hsame
    simp only [challenge, hA, hB, hC, hD, hX, hY]
  by_cases h1 : Valid st.params st.inputSet.M st.J p (challenge E t st p)
  · by_cases h2 : Valid st.params st.inputSet.M st.J q (challenge E t st q)
    · rw [hc] at h2
      rcases C22_unique E st hst hG (challenge E t st p) p q
        ((C18_accepted E cfg st [] [p] [t] hst hp).1.shapes p (by simp))
        ((C18_accepted E cfg st [] [q] [t] hst hq).1.shapes q (by simp)) hsame h1 h2 with h | h | h
      · exact Or.inl h
      · exact Or.inr (Or.inl h)
      · exact Or.inr (Or.inr (Or.inl h))
    · exact Or.inr (Or.inr (Or.inr (Or.inr h2)))
  · exact Or.inr (Or.inr (Or.inr (Or.inl h1)))

/-! ## Concrete cases -/

/-- The scalar field hypothesis holds modulo any prime larger than `n` (and `n` is a `u32`). -/
theorem smallSums_zmod (q n : ℕ) [Fact q.Prime] (h : n < q) : SmallSums (ZMod q) n := by
  intro k hk h1
  have h2 : ((k : ℕ) : ZMod q) = ((1 : ℕ) : ZMod q) := by simpa using h1
  rw [ZMod.natCast_eq_natCast_iff'] at h2
  have hq := (Fact.out : q.Prime).two_le
  rwa [Nat.mod_eq_of_lt (by omega), Nat.mod_eq_of_lt (by omega)] at h2

namespace Toy

/-- The environment after rewinding: the hash oracle answers challenge queries of proofs with `c`. -/
def fork (c : ℕ) : Env (ZMod 101) (ZMod 101) :=
  { env 101 with challenge := fun t =>
      if t.getLast? = some (.challenge "xi" 64) then leBytes 64 c else (env 101).challenge t }

/-- The same prover run answered with challenge `e + 10`. -/
def forkProof (e : ℕ) : Proof (ZMod 101) (ZMod 101) :=
  get emptyProof (Proof.proveWithRng (fork (e + 10)) nullRng witness statement () transcript).1

theorem statement_fork (e : ℕ) (he : e ≤ statement.params.m) : StatementBuilt (fork (e + 10)) statement := by
  have hm : statement.params.m = 2 := by decide +kernel
  rw [hm] at he
  have h1 : ∀ e ≤ 2, Params.new (fork (e + 10)) 2 2 = .ok params := by decide +kernel
  have h2 : ∀ e ≤ 2, InputSet.new (fork (e + 10)) keys = .ok inputSet := by decide +kernel
  have h3 : ∀ e ≤ 2, Statement.new (fork (e + 10)) params inputSet witness.computeLinkingTag = .ok statement := by
    decide +kernel
  exact ⟨_, _, _, ⟨_, _, _, _, h1 e he⟩, Or.inl ⟨_, h2 e he⟩, h3 e he⟩

end Toy

/-- The hypotheses of `C20_accepted`, hence those of `C20_extract` and `C21_extracted`, are met: three accepting runs with the
same commitments and distinct challenges; the extractor returns position 2 and key 7. -/
example : (∀ e ≤ Toy.statement.params.m, StatementBuilt (Toy.fork (e + 10)) Toy.statement) ∧
    SmallSums (ZMod 101) Toy.statement.params.n ∧
    Set.InjOn (fun e => challenge (Toy.fork (e + 10)) Toy.transcript Toy.statement (Toy.forkProof e))
      (range (Toy.statement.params.m + 1)) ∧
    (∀ e ≤ Toy.statement.params.m, SameCommitments (Toy.forkProof e) (Toy.forkProof 0)) ∧
    (∀ e ≤ Toy.statement.params.m,
      (Proof.verify (Toy.fork (e + 10)) Toy.cfg (Toy.forkProof e) Toy.statement Toy.transcript).1 = .ok ()) ∧
    extractIndex 2 2 (fun e => challenge (Toy.fork (e + 10)) Toy.transcript Toy.statement (Toy.forkProof e))
      (fun e => fullF (Toy.forkProof e).f (challenge (Toy.fork (e + 10)) Toy.transcript Toy.statement (Toy.forkProof e)))
      = 2 ∧
    extractKey 2 (fun e => challenge (Toy.fork (e + 10)) Toy.transcript Toy.statement (Toy.forkProof e))
      (fun e => (Toy.forkProof e).z) = 7 := by
  have hm : Toy.statement.params.m = 2 := by decide +kernel
  refine ⟨Toy.statement_fork, smallSums_zmod 101 _ (by decide +kernel), ?_, ?_, ?_, by decide +kernel, ?_⟩
  · have : ∀ e ∈ range (Toy.statement.params.m + 1), ∀ e' ∈ range (Toy.statement.params.m + 1),
        challenge (Toy.fork (e + 10)) Toy.transcript Toy.statement (Toy.forkProof e) =
          challenge (Toy.fork (e' + 10)) Toy.transcript Toy.statement (Toy.forkProof e') → e = e' := by decide +kernel
    intro e he e' he' h
    exact this e (by simpa using he) e' (by simpa using he') h
  · rw [hm]
    simp only [SameCommitments]
    decide +kernel
  · rw [hm]; decide +kernel
  · decide +kernel

/-- The hypotheses of `C21_linkable` are met: two signers of the same ring have different tags. -/
example : Rel Toy.params.G Toy.params.U Toy.inputSet.M Toy.statement.J 2 (7 : ZMod 101) ∧
    Rel Toy.params.G Toy.params.U Toy.inputSet.M Toy.statement'.J 0 (3 : ZMod 101) ∧
    Toy.params.U ≠ 0 ∧ Toy.params.G ≠ 0 ∧ Toy.statement.J ≠ Toy.statement'.J := by
  simp only [Spec.Rel]
  decide +kernel

/-- The hypotheses of `C22_unique` and `C22_accepted` are met by a proof of the prover and itself. -/
example : StatementBuilt (Toy.env 101) Toy.statement ∧ Toy.statement.params.G ≠ 0 ∧
    Shape Toy.statement.params Toy.proof ∧ SameCommitments Toy.proof Toy.proof ∧
    Valid Toy.statement.params Toy.statement.inputSet.M Toy.statement.J Toy.proof
      (challenge (Toy.env 101) Toy.transcript Toy.statement Toy.proof) := by
  refine ⟨Toy.statement_built, by decide +kernel, ⟨by decide +kernel, by decide +kernel, by decide +kernel,
    by decide +kernel⟩, ⟨rfl, rfl, rfl, rfl, rfl, rfl⟩, ?_⟩
  exact ⟨by decide +kernel, by decide +kernel, by decide +kernel, by decide +kernel⟩

/-- They are met by two different proofs too: the toy field is small enough for a second response that is accepted
with the same commitments, which then yields a relation between the generators. -/
example : let q : Proof (ZMod 101) (ZMod 101) := { Toy.proof with f := [[1], [16]], zA := 96, zC := 88 }
    StatementBuilt (Toy.env 101) Toy.statement ∧ Toy.statement.params.G ≠ 0 ∧
    Shape Toy.statement.params q ∧ SameCommitments Toy.proof q ∧ q.f ≠ Toy.proof.f ∧
    (Proof.verify (Toy.env 101) Toy.cfg q Toy.statement Toy.transcript).1 = .ok () ∧
    Valid Toy.statement.params Toy.statement.inputSet.M Toy.statement.J q
      (challenge (Toy.env 101) Toy.transcript Toy.statement Toy.proof) := by
  intro q
  refine ⟨Toy.statement_built, by decide +kernel, ⟨by decide +kernel, by decide +kernel, by decide +kernel,
    by decide +kernel⟩, (by simp only [SameCommitments]; decide +kernel), by decide +kernel, by decide +kernel, ?_⟩
  exact ⟨by decide +kernel, by decide +kernel, by decide +kernel, by decide +kernel⟩

end Triptych
