import Verif.Props.BatchChosen
import Verif.Lemmas.Rewind

/-! # Extracting the key by an efficient algorithm: C98

C60, C71, C90 and C92 compare the probability of a forgery with the number of points at which rewinding the forger yields a key. Here
the rewinding is an algorithm: it runs the forger once, and then `m τ` times more with random answers at the point of the forgery. -/
set_option autoImplicit false
set_option linter.unusedSectionVars false
set_option linter.unusedVariables false

namespace Triptych
open Spec Finset Function

variable {F P : Type} [Field F] [AddCommGroup P] [Module F P] [DecidableEq F] [DecidableEq P]

open Classical in
/-- The extractor: rewind the forger `c` with the answers `bs` at the point of its forgery, and keep the runs with a valid proof for
the challenge, one for each value of the challenge. -/
noncomputable def Spec.extractor {κ : Type} (E : Env F P) (S : Finset Transcript) (sts : κ → Statement P)
    (c : OracleProgram S Block (Forgery κ F P)) (O : S → Block) (bs : List Block) : List (Block × Forgery κ F P) :=
  c.rewind (Forgery.crit E S sts) (fun x b => Shape (sts x.k).params x.p ∧
    Valid (sts x.k).params (sts x.k).inputSet.M (sts x.k).J x.p (E.scalarOfWide b.bytes)) (fun b => E.scalarOfWide b.bytes) O bs

/-- The `e`-th run that was kept. -/
def Spec.nth {A : Type} (x : A) (L : List A) (e : ℕ) : A := (x :: L).getD e x

/-- The kept runs yield, by explicit formulas, a signing key satisfying `want` for the statement of the forgery, or a relation among
the commitment generators. -/
def Spec.Yields {κ : Type} (want : F → Prop) (E : Env F P) (sts : κ → Statement P) : List (Block × Forgery κ F P) → Prop
  | [] => False
  | x :: L =>
    (Rel (sts x.2.k).params.G (sts x.2.k).params.U (sts x.2.k).inputSet.M (sts x.2.k).J
      (extractIndex (sts x.2.k).params.n (sts x.2.k).params.m (fun e => E.scalarOfWide (nth x L e).1.bytes)
        fun e => fullF (nth x L e).2.p.f (E.scalarOfWide (nth x L e).1.bytes))
      (extractKey (sts x.2.k).params.m (fun e => E.scalarOfWide (nth x L e).1.bytes) fun e => (nth x L e).2.p.z) ∧
      want (extractKey (sts x.2.k).params.m (fun e => E.scalarOfWide (nth x L e).1.bytes) fun e => (nth x L e).2.p.z)) ∨
    ExtractedRelation (sts x.2.k).params (fun e => (nth x L e).2.p) fun e => E.scalarOfWide (nth x L e).1.bytes

/-- C98: the extractor runs the forger with the oracle, and once more for each of the answers: nothing else about the forger enters. -/
theorem C98_runs {κ : Type} (E : Env F P) (S : Finset Transcript) (sts : κ → Statement P)
    (c c' : OracleProgram S Block (Forgery κ F P)) (O : S → Block) (bs : List Block) (h : c'.run O = c.run O)
    (hb : ∀ s : S, (c.run O).point E sts = s.val → ∀ b ∈ bs, c'.run (update O s b) = c.run (update O s b)) :
    extractor E S sts c' O bs = extractor E S sts c O bs := by
  classical
  rw [extractor, extractor, OracleProgram.rewind, OracleProgram.rewind, h]
  cases hc : Forgery.crit E S sts (c.run O) with
  | none => rfl
  | some s =>
    dsimp only
    have hb' : ∀ b ∈ O s :: bs, c'.run (update O s b) = c.run (update O s b) := by
      intro b hm
      rcases List.mem_cons.1 hm with rfl | hm
      · rw [update_eq_self, h]
      · exact hb s (Forgery.crit_eq.1 hc) b hm
    generalize O s :: bs = l at hb'
    generalize ([] : List (Block × Forgery κ F P)) = kept
    induction l generalizing kept with
    | nil => rfl
    | cons b l ih =>
      rw [OracleProgram.collect, OracleProgram.collect, hb' b List.mem_cons_self]
      have ih' := ih fun b' hm => hb' b' (List.mem_cons_of_mem _ hm)
      split
      · exact ih' _
      · exact ih' _

/-- C98: the extractor is given `m τ` answers. -/
theorem C98_count {m τ : ℕ} (tape : Fin m → Fin τ → Block) : (tries tape).length = m * τ := tries_length tape

theorem nth_mem {A : Type} (x : A) (L : List A) (e : ℕ) : nth x L e ∈ x :: L := by
  rw [nth, List.getD_eq_getElem?_getD]
  cases h : (x :: L)[e]? with
  | none => exact List.mem_cons_self
  | some y => exact List.mem_of_getElem? h

/-- The runs kept by the extractor yield a key or a relation if there are enough of them. -/
theorem extractor_yields {κ : Type} (E : Env F P) (hE : E.Lawful) (S : Finset Transcript) (sts : κ → Statement P)
    (hst : ∀ k, StatementBuilt E (sts k)) (hinj : ∀ k k', (sts k).hash = (sts k').hash → k = k')
    (hs : ∀ k, SmallSums F (sts k).params.n) (m : ℕ) (hm : ∀ k, (sts k).params.m ≤ m) (want : F → Prop)
    (x : Forgery κ F P) (hwant : ∀ r, r • (sts x.k).params.G ∈ (sts x.k).inputSet.M → r • (sts x.k).J = (sts x.k).params.U → want r) (s : S) (hx : x.point E sts = s.val)
    (L : List (Block × Forgery κ F P))
    (hL : ∀ y ∈ L, y.2.point E sts = s.val ∧ Shape (sts y.2.k).params y.2.p ∧
      Valid (sts y.2.k).params (sts y.2.k).inputSet.M (sts y.2.k).J y.2.p (E.scalarOfWide y.1.bytes))
    (hnd : (L.map fun y => E.scalarOfWide y.1.bytes).Nodup) (hlen : m + 1 ≤ L.length) : Yields want E sts L := by
  cases L with
  | nil => simp at hlen
  | cons y L =>
    have hk : ∀ z ∈ y :: L, z.2.k = x.k ∧ SameCommitments z.2.p x.p := by
      intro z hz
      have h := (hL z hz).1.trans hx.symm
      rw [Forgery.point, Forgery.point] at h
      obtain ⟨-, h2, h3, h4, h5, h6, h7, h8⟩ := challengeTranscript_inj hE _ _ _ _ _ _ _ _ _ _ _ _ _ _ _ _ h
      exact ⟨hinj _ _ h2, h3, h4, h5, h6, h7, h8⟩
    have hy := (hk y List.mem_cons_self).1
    have hsame : ∀ z ∈ y :: L, ∀ z' ∈ y :: L, SameCommitments z.2.p z'.2.p := by
      intro z hz z' hz'
      obtain ⟨a1, a2, a3, a4, a5, a6⟩ := (hk z hz).2
      obtain ⟨b1, b2, b3, b4, b5, b6⟩ := (hk z' hz').2
      exact ⟨a1.trans b1.symm, a2.trans b2.symm, a3.trans b3.symm, a4.trans b4.symm, a5.trans b5.symm, a6.trans b6.symm⟩
    rw [Yields, hy]
    have key := C20_extract E (sts x.k) (hst x.k) (hs x.k) (fun e => (nth y L e).2.p)
      (fun e => E.scalarOfWide (nth y L e).1.bytes) ?_ ?_ ?_ ?_
    · rcases key with h | h
      · exact Or.inl ⟨h, hwant _ (List.mem_of_getElem? h.1) h.2⟩
      · exact Or.inr h
    · intro i hi j hj hij
      have hi' : i < (y :: L).length := by
        have := hm x.k
        simp only [coe_range, Set.mem_Iio] at hi
        omega
      have hj' : j < (y :: L).length := by
        have := hm x.k
        simp only [coe_range, Set.mem_Iio] at hj
        omega
      have e : ∀ i (h : i < (y :: L).length), nth y L i = (y :: L)[i] := fun i h => by
        rw [nth, List.getD_eq_getElem?_getD, List.getElem?_eq_getElem h, Option.getD_some]
      simp only [e i hi', e j hj'] at hij
      refine (List.Nodup.getElem_inj_iff hnd (i := i) (hi := by simpa using hi') (j := j) (hj := by simpa using hj')).1 ?_
      rw [List.getElem_map, List.getElem_map]
      exact hij
    · intro e _
      have h := (hL _ (nth_mem y L e)).2.1
      rw [(hk _ (nth_mem y L e)).1] at h
      exact h
    · intro e _
      exact hsame _ (nth_mem y L e) _ (nth_mem y L 0)
    · intro e _
      have h := (hL _ (nth_mem y L e)).2.2
      rw [(hk _ (nth_mem y L e)).1] at h
      exact h

theorem card_block : Fintype.card Block = 2 ^ 512 := by
  rw [Fintype.card_pi_const, Fintype.card_fin, show (256 : ℕ) = 2 ^ 8 by norm_num, ← pow_mul]

/-- `C98_forge` for forgeries of statements with the property `good`. -/
theorem extract_good {κ : Type} (E : Env F P) (hE : E.Lawful) (S : Finset Transcript) (sts : κ → Statement P)
    (hst : ∀ k, StatementBuilt E (sts k)) (hinj : ∀ k k', (sts k).hash = (sts k').hash → k = k')
    (good : κ → Prop) (want : F → Prop) (hgood : ∀ k, good k → ∀ r, r • (sts k).params.G ∈ (sts k).inputSet.M → r • (sts k).J = (sts k).params.U → want r)
    (hs : ∀ k, SmallSums F (sts k).params.n) (m : ℕ) (hm : ∀ k, (sts k).params.m ≤ m)
    (K : ℕ) (hK : ∀ x : F, #{b : Block | E.scalarOfWide b.bytes = x} ≤ K)
    (c : OracleProgram S Block (Forgery κ F P)) (Q : ℕ) (hQ : ∀ O, (c.asked O).length ≤ Q) (τ : ℕ) :
    (avg fun O : S → Block => ind (good (c.run O).k ∧ Forges E S sts c O)) ≤
      (Q + 1) * (m / (τ + 1) + m * m * K / 2 ^ 512) +
      avg fun O : S → Block => avg fun tape : Fin m → Fin τ → Block => ind (Yields want E sts (extractor E S sts c O (tries tape))) := by
  classical
  have h := rewind_bound c (Forgery.crit E S sts) (fun x b => good x.k ∧ Shape (sts x.k).params x.p ∧
      Valid (sts x.k).params (sts x.k).inputSet.M (sts x.k).J x.p (E.scalarOfWide b.bytes))
    (fun b => E.scalarOfWide b.bytes) Q K m τ hQ hK
  rw [card_block, Nat.cast_pow, Nat.cast_ofNat] at h
  refine le_trans (avg_mono _ _ fun O => ?_) (h.trans (add_le_add_right (avg_mono _ _ fun O => avg_mono _ _ fun tape => ?_) _))
  · refine ind_mono fun ⟨h0, h1, h2, h3⟩ => ⟨⟨_, h1⟩, Forgery.crit_eq.2 rfl, h0, h2, ?_⟩
    rw [challenge_withOracle E S O _ _ _ ⟨_, h1⟩ rfl] at h3
    exact h3
  · refine ind_mono fun ⟨s, ⟨h0, h1⟩, h2⟩ => ?_
    obtain ⟨a1, a2, a3⟩ := rewind_found c (Forgery.crit E S sts) (fun x b => Shape (sts x.k).params x.p ∧
      Valid (sts x.k).params (sts x.k).inputSet.M (sts x.k).J x.p (E.scalarOfWide b.bytes)) (fun b => E.scalarOfWide b.bytes) O s
      (fun x b => good x.k ∧ Shape (sts x.k).params x.p ∧
      Valid (sts x.k).params (sts x.k).inputSet.M (sts x.k).J x.p (E.scalarOfWide b.bytes)) (fun _ _ h => h.2) m τ h0 h1 tape h2
    have e : c.rewind (Forgery.crit E S sts) (fun x b => Shape (sts x.k).params x.p ∧
      Valid (sts x.k).params (sts x.k).inputSet.M (sts x.k).J x.p (E.scalarOfWide b.bytes)) (fun b => E.scalarOfWide b.bytes) O
      (tries tape) = extractor E S sts c O (tries tape) := by rw [extractor]
    rw [e] at a1 a2 a3
    exact extractor_yields E hE S sts hst hinj hs m hm want (c.run O) (hgood _ h1.1) s (Forgery.crit_eq.1 h0) _
      (fun y hy => ⟨Forgery.crit_eq.1 (a1 y hy).2.1, (a1 y hy).2.2⟩) a2 a3

/-- C98: run a forger, with at most `Q` questions, once, and `m τ` times more with random answers at the point of its forgery. This
yields a signing key or a relation with at least the success probability of the forger minus `(Q + 1) (m / (τ + 1) + m ^ 2 K / 2 ^ 512)`.
`K` bounds the number of 64-byte strings with the same value as scalar. -/
theorem C98_forge {κ : Type} (E : Env F P) (hE : E.Lawful) (S : Finset Transcript) (sts : κ → Statement P)
    (hst : ∀ k, StatementBuilt E (sts k)) (hinj : ∀ k k', (sts k).hash = (sts k').hash → k = k')
    (hs : ∀ k, SmallSums F (sts k).params.n) (m : ℕ) (hm : ∀ k, (sts k).params.m ≤ m)
    (K : ℕ) (hK : ∀ x : F, #{b : Block | E.scalarOfWide b.bytes = x} ≤ K)
    (c : OracleProgram S Block (Forgery κ F P)) (Q : ℕ) (hQ : ∀ O, (c.asked O).length ≤ Q) (τ : ℕ) :
    (avg fun O : S → Block => ind (Forges E S sts c O)) ≤
      (Q + 1) * (m / (τ + 1) + m * m * K / 2 ^ 512) +
      avg fun O : S → Block => avg fun tape : Fin m → Fin τ → Block =>
        ind (Yields (fun _ => True) E sts (extractor E S sts c O (tries tape))) := by
  have h := extract_good E hE S sts hst hinj (fun _ => True) (fun _ => True) (fun _ _ _ _ _ => trivial) hs m hm K hK c Q hQ τ
  simp only [true_and] at h
  exact h

local notation "ℓ" => (2 ^ 252 + 27742317777372353535851937790883648493 : ℕ)

theorem rewind_ratio (m Q t : ℚ) : (Q + 1) * (t + m * m * (2 ^ 260 : ℕ) / 2 ^ 512) = (Q + 1) * (t + m * m / 2 ^ 252) := by
  have e : (2 : ℚ) ^ 512 = 2 ^ 260 * 2 ^ 252 := by rw [← pow_add]
  rw [e, Nat.cast_pow, Nat.cast_ofNat]
  have h0 : (2 : ℚ) ^ 260 ≠ 0 := by positivity
  generalize (2 : ℚ) ^ 260 = z at *
  have h0 : (2 : ℚ) ^ 252 ≠ 0 := by positivity
  generalize (2 : ℚ) ^ 252 = y at *
  congr 2
  field_simp

/-- `C98_ristretto` for forgeries of statements with the property `good`. -/
theorem extract_good_ristretto {κ : Type} {P : Type} [AddCommGroup P] [Module (ZMod ℓ) P] [DecidableEq P]
    (E : Env (ZMod ℓ) P) (hE : E.Lawful)
    (hwide : ∀ b, E.scalarOfWide b = ((leNat b : ℕ) : ZMod ℓ)) (S : Finset Transcript) (sts : κ → Statement P)
    (hst : ∀ k, StatementBuilt E (sts k)) (hinj : ∀ k k', (sts k).hash = (sts k').hash → k = k')
    (good : κ → Prop) (want : ZMod ℓ → Prop) (hgood : ∀ k, good k → ∀ r : ZMod ℓ, r • (sts k).params.G ∈ (sts k).inputSet.M → r • (sts k).J = (sts k).params.U → want r)
    (m : ℕ) (hm : ∀ k, (sts k).params.m ≤ m)
    (c : OracleProgram S Block (Forgery κ (ZMod ℓ) P)) (Q : ℕ) (hQ : ∀ O, (c.asked O).length ≤ Q) (τ : ℕ) :
    (avg fun O : S → Block => ind (good (c.run O).k ∧ Forges E S sts c O)) ≤
      (Q + 1) * (m / (τ + 1) + m * m / 2 ^ 252) +
      avg fun O : S → Block => avg fun tape : Fin m → Fin τ → Block =>
        ind (Yields want E sts (extractor E S sts c O (tries tape))) := by
  have h := extract_good E hE S sts hst hinj good want hgood (fun k => C58_small_sums E _ (hst k).params_built) m hm (2 ^ 260)
    (fun x => by simp only [hwide]; exact blocks_ristretto x) c Q hQ τ
  rw [rewind_ratio] at h
  exact h

/-- C98 for Ristretto: the extractor succeeds with at least the forger's probability minus
`(Q + 1) (m / (τ + 1) + m ^ 2 / 2 ^ 252)`. -/
theorem C98_ristretto {κ : Type} {P : Type} [AddCommGroup P] [Module (ZMod ℓ) P] [DecidableEq P]
    (E : Env (ZMod ℓ) P) (hE : E.Lawful)
    (hwide : ∀ b, E.scalarOfWide b = ((leNat b : ℕ) : ZMod ℓ)) (S : Finset Transcript) (sts : κ → Statement P)
    (hst : ∀ k, StatementBuilt E (sts k)) (hinj : ∀ k k', (sts k).hash = (sts k').hash → k = k')
    (m : ℕ) (hm : ∀ k, (sts k).params.m ≤ m)
    (c : OracleProgram S Block (Forgery κ (ZMod ℓ) P)) (Q : ℕ) (hQ : ∀ O, (c.asked O).length ≤ Q) (τ : ℕ) :
    (avg fun O : S → Block => ind (Forges E S sts c O)) ≤
      (Q + 1) * (m / (τ + 1) + m * m / 2 ^ 252) +
      avg fun O : S → Block => avg fun tape : Fin m → Fin τ → Block =>
        ind (Yields (fun _ => True) E sts (extractor E S sts c O (tries tape))) := by
  have h := extract_good_ristretto E hE hwide S sts hst hinj (fun _ => True) (fun _ => True) (fun _ _ _ _ _ => trivial) m hm c Q hQ τ
  simp only [true_and] at h
  exact h

/-- C98: a forger that succeeds with probability `ε` need be run `1 + m τ` times, with `τ + 1 ≥ 2 m (Q + 1) / ε`, to get a key or a
relation with probability `ε / 2`, minus the negligible `(Q + 1) m ^ 2 / 2 ^ 252`. -/
theorem C98_choose {κ : Type} {P : Type} [AddCommGroup P] [Module (ZMod ℓ) P] [DecidableEq P]
    (E : Env (ZMod ℓ) P) (hE : E.Lawful)
    (hwide : ∀ b, E.scalarOfWide b = ((leNat b : ℕ) : ZMod ℓ)) (S : Finset Transcript) (sts : κ → Statement P)
    (hst : ∀ k, StatementBuilt E (sts k)) (hinj : ∀ k k', (sts k).hash = (sts k').hash → k = k')
    (m : ℕ) (hm : ∀ k, (sts k).params.m ≤ m)
    (c : OracleProgram S Block (Forgery κ (ZMod ℓ) P)) (Q : ℕ) (hQ : ∀ O, (c.asked O).length ≤ Q) (ε : ℚ) (hε : 0 < ε)
    (hc : ε ≤ avg fun O : S → Block => ind (Forges E S sts c O)) (τ : ℕ) (hτ : 2 * m * (Q + 1) / ε ≤ τ + 1) :
    ε / 2 - (Q + 1) * (m * m / 2 ^ 252) ≤
      avg fun O : S → Block => avg fun tape : Fin m → Fin τ → Block =>
        ind (Yields (fun _ => True) E sts (extractor E S sts c O (tries tape))) := by
  have h := C98_ristretto E hE hwide S sts hst hinj m hm c Q hQ τ
  have h1 : (Q + 1 : ℚ) * (m / (τ + 1)) ≤ ε / 2 := by
    have ht : (0 : ℚ) < τ + 1 := by positivity
    rw [div_le_iff₀ hε] at hτ
    rw [← mul_div_assoc, div_le_iff₀ ht]
    linarith
  generalize (m * m / 2 ^ 252 : ℚ) = z at *
  rw [mul_add] at h
  linarith

/-- The honest signer of a statement as a forger that succeeds with every oracle meets the hypotheses of `C98_forge`. -/
example (nn : Nonces (ZMod 101)) : ∃ (S : Finset Transcript) (c : OracleProgram S Block (Forgery Unit (ZMod 101) (ZMod 101))),
    (Toy.env 101).Lawful ∧ StatementBuilt (Toy.env 101) Toy.statement ∧ SmallSums (ZMod 101) Toy.statement.params.n ∧
    Toy.statement.params.m ≤ 2 ∧
    (∀ x : ZMod 101, #{b : Block | (Toy.env 101).scalarOfWide b.bytes = x} ≤ 256 ^ 64 / 101 + 1) ∧
    (∀ O, (c.asked O).length ≤ 1) ∧ ∀ O, Forges (Toy.env 101) S (fun _ => Toy.statement) c O := by
  have hrel : Rel Toy.statement.params.G Toy.statement.params.U Toy.statement.inputSet.M Toy.statement.J 2 (7 : ZMod 101) :=
    ⟨by decide +kernel, by decide +kernel⟩
  have h := C60_honest (Toy.env 101) Toy.transcript Toy.statement Toy.statement_built 2 7 hrel nn {_} (mem_singleton_self _)
  exact ⟨_, _, Toy.env_lawful 101 (by norm_num), Toy.statement_built, smallSums_zmod 101 _ (by decide +kernel), by decide +kernel,
    fun x => blocks_value 101 _ le_rfl x, fun O => (h O).1.le, fun O => (h O).2⟩

theorem avg_one {A : Type} [Fintype A] [Nonempty A] (p : A → Prop) (h : ∀ a, p a) : 1 ≤ avg fun a => ind (p a) := by
  have : ∀ a, ind (p a) = 1 := fun a => ind_pos (h a)
  simp only [this, avg_const, le_refl]

/-- The same for `C98_ristretto`, and for `C98_choose` with `ε = 1`: 8 answers for each of the two rounds. -/
example (nn : Nonces (ZMod ℓ)) : ∃ (S : Finset Transcript) (c : OracleProgram S Block (Forgery Unit (ZMod ℓ) (ZMod ℓ))),
    (Toy.env ℓ).Lawful ∧ (∀ b, (Toy.env ℓ).scalarOfWide b = ((leNat b : ℕ) : ZMod ℓ)) ∧
    StatementBuilt (Toy.env ℓ) Toy.Ristretto.statement ∧ Toy.Ristretto.statement.params.m ≤ 2 ∧
    (∀ O, (c.asked O).length ≤ 1) ∧ (1 : ℚ) ≤ (avg fun O => ind (Forges (Toy.env ℓ) S (fun _ => Toy.Ristretto.statement) c O)) ∧
    2 * (2 : ℕ) * ((1 : ℕ) + 1) / (1 : ℚ) ≤ (8 : ℕ) + 1 := by
  have hrel : Rel Toy.Ristretto.statement.params.G Toy.Ristretto.statement.params.U Toy.Ristretto.statement.inputSet.M
      Toy.Ristretto.statement.J 2 (7 : ZMod ℓ) := ⟨by decide +kernel, by decide +kernel⟩
  have h := C60_honest (Toy.env ℓ) Toy.transcript Toy.Ristretto.statement Toy.Ristretto.statement_built 2 7 hrel nn {_}
    (mem_singleton_self _)
  exact ⟨_, _, Toy.env_lawful ℓ (by norm_num), fun _ => rfl, Toy.Ristretto.statement_built, by decide +kernel,
    fun O => (h O).1.le, avg_one _ fun O => (h O).2, by norm_num⟩

end Triptych
