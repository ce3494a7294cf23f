import Verif.Props.RewindChosen
import Verif.Props.Parallel.BatchChosen

/-! # Extracting the secrets of parallel proofs by an efficient algorithm: C99

C61, C73, C91 and C93 compare the probability of a forgery with the number of points at which rewinding the forger yields a key. Here
the rewinding is an algorithm: it runs the forger once, and then `m τ` times more with random answers at the point of the forgery. -/
set_option autoImplicit false
set_option linter.unusedSectionVars false
set_option linter.unusedVariables false

namespace Triptych.Parallel
open Finset Function
open Triptych.Parallel.Spec
open Triptych.Spec (avg extend locate Block Block.bytes withSeeds withOracle Seed ChosenProgram SigningProgram OracleProgram fullF SmallSums extractIndex
  extractKey nth tries)

variable {F P : Type} [Field F] [AddCommGroup P] [Module F P] [DecidableEq F] [DecidableEq P]

open Classical in
/-- The extractor: rewind the forger `c` with the answers `bs` at the point of its forgery, and keep the runs with a valid proof for
the challenge, one for each value of the challenge. -/
noncomputable def Spec.extractor {κ : Type} (E : Env F P) (S : Finset Transcript) (sts : κ → Statement P)
    (c : OracleProgram S Block (Forgery κ F P)) (O : S → Block) (bs : List Block) : List (Block × Forgery κ F P) :=
  c.rewind (Forgery.crit E S sts) (fun x b => Shape (sts x.k).params x.p ∧
    Valid (sts x.k).params (sts x.k).inputSet.M (sts x.k).inputSet.M1 (sts x.k).offset (sts x.k).J x.p (E.scalarOfWide b.bytes)) (fun b => E.scalarOfWide b.bytes) O bs

/-- The kept runs yield, by explicit formulas, two secrets of a position, satisfying `want`, for the statement of the forgery, or a relation among
the commitment generators. -/
def Spec.Yields {κ : Type} (want : κ → F → F → Prop) (E : Env F P) (sts : κ → Statement P) : List (Block × Forgery κ F P) → Prop
  | [] => False
  | x :: L =>
    (Rel (sts x.2.k).params.G (sts x.2.k).params.G1 (sts x.2.k).params.U (sts x.2.k).inputSet.M (sts x.2.k).inputSet.M1 (sts x.2.k).offset (sts x.2.k).J
      (extractIndex (sts x.2.k).params.n (sts x.2.k).params.m (fun e => E.scalarOfWide (nth x L e).1.bytes)
        fun e => fullF (nth x L e).2.p.f (E.scalarOfWide (nth x L e).1.bytes))
      (extractKey (sts x.2.k).params.m (fun e => E.scalarOfWide (nth x L e).1.bytes) fun e => (nth x L e).2.p.z)
      (extractKey (sts x.2.k).params.m (fun e => E.scalarOfWide (nth x L e).1.bytes) fun e => (nth x L e).2.p.z1) ∧
      want x.2.k (extractKey (sts x.2.k).params.m (fun e => E.scalarOfWide (nth x L e).1.bytes) fun e => (nth x L e).2.p.z)
        (extractKey (sts x.2.k).params.m (fun e => E.scalarOfWide (nth x L e).1.bytes) fun e => (nth x L e).2.p.z1)) ∨
    ExtractedRelation (sts x.2.k).params (fun e => (nth x L e).2.p) fun e => E.scalarOfWide (nth x L e).1.bytes

/-- C99: the extractor runs the forger with the oracle, and once more for each of the answers: nothing else about the forger enters. -/
theorem C99_runs {κ : Type} (E : Env F P) (S : Finset Transcript) (sts : κ → Statement P)
    (c c' : OracleProgram S Block (Forgery κ F P)) (O : S → Block) (bs : List Block) (h : c'.run O = c.run O)
    (hb : ∀ s : S, (c.run O).point E sts = s.val → ∀ b ∈ bs, c'.run (update O s b) = c.run (update O s b)) :
    extractor E S sts c' O bs = extractor E S sts c O bs := by
  classical
  rw [extractor, extractor, OracleProgram.rewind, OracleProgram.rewind, h]
  cases hc : Forgery.crit E S sts (c.run O) with
  | none => rfl
  | some s =>
    dsimp only
    have hb' : ∀ b ∈ O s :: bs, c'.run (update O s b) = c.run (update O s b) := by
      intro b hm
      rcases List.mem_cons.1 hm with rfl | hm
      · rw [update_eq_self, h]
      · exact hb s (Forgery.crit_eq.1 hc) b hm
    generalize O s :: bs = l at hb'
    generalize ([] : List (Block × Forgery κ F P)) = kept
    induction l generalizing kept with
    | nil => rfl
    | cons b l ih =>
      rw [OracleProgram.collect, OracleProgram.collect, hb' b List.mem_cons_self]
      have ih' := ih fun b' hm => hb' b' (List.mem_cons_of_mem _ hm)
      split
      · exact ih' _
      · exact ih' _

/-- The runs kept by the extractor yield a key or a relation if there are enough of them. -/
theorem extractor_yields {κ : Type} (E : Env F P) (hE : E.Lawful) (S : Finset Transcript) (sts : κ → Statement P)
    (hst : ∀ k, StatementBuilt E (sts k)) (hinj : ∀ k k', (sts k).hash = (sts k').hash → k = k')
    (hs : ∀ k, SmallSums F (sts k).params.n) (m : ℕ) (hm : ∀ k, (sts k).params.m ≤ m) (want : κ → F → F → Prop)
    (x : Forgery κ F P) (hwant : ∀ l r r1, Rel (sts x.k).params.G (sts x.k).params.G1 (sts x.k).params.U (sts x.k).inputSet.M (sts x.k).inputSet.M1 (sts x.k).offset (sts x.k).J l r r1 → want x.k r r1) (s : S) (hx : x.point E sts = s.val)
    (L : List (Block × Forgery κ F P))
    (hL : ∀ y ∈ L, y.2.point E sts = s.val ∧ Shape (sts y.2.k).params y.2.p ∧
      Valid (sts y.2.k).params (sts y.2.k).inputSet.M (sts y.2.k).inputSet.M1 (sts y.2.k).offset (sts y.2.k).J y.2.p (E.scalarOfWide y.1.bytes))
    (hnd : (L.map fun y => E.scalarOfWide y.1.bytes).Nodup) (hlen : m + 1 ≤ L.length) : Yields want E sts L := by
  cases L with
  | nil => simp at hlen
  | cons y L =>
    have hk : ∀ z ∈ y :: L, z.2.k = x.k ∧ SameCommitments z.2.p x.p := by
      intro z hz
      have h := (hL z hz).1.trans hx.symm
      rw [Forgery.point, Forgery.point] at h
      obtain ⟨-, h2, h3, h4, h5, h6, h7, h8, h9⟩ := challengeTranscript_inj hE _ _ _ _ _ _ _ _ _ _ _ _ _ _ _ _ _ _ h
      exact ⟨hinj _ _ h2, h3, h4, h5, h6, h7, h8, h9⟩
    have hy := (hk y List.mem_cons_self).1
    have hsame : ∀ z ∈ y :: L, ∀ z' ∈ y :: L, SameCommitments z.2.p z'.2.p := by
      intro z hz z' hz'
      obtain ⟨a1, a2, a3, a4, a5, a6, a7⟩ := (hk z hz).2
      obtain ⟨b1, b2, b3, b4, b5, b6, b7⟩ := (hk z' hz').2
      exact ⟨a1.trans b1.symm, a2.trans b2.symm, a3.trans b3.symm, a4.trans b4.symm, a5.trans b5.symm, a6.trans b6.symm, a7.trans b7.symm⟩
    rw [Yields, hy]
    have key := C51_extract E (sts x.k) (hst x.k) (hs x.k) (fun e => (nth y L e).2.p)
      (fun e => E.scalarOfWide (nth y L e).1.bytes) ?_ ?_ ?_ ?_
    · rcases key with h | h
      · exact Or.inl ⟨h, hwant _ _ _ h⟩
      · exact Or.inr h
    · intro i hi j hj hij
      have hi' : i < (y :: L).length := by
        have := hm x.k
        simp only [coe_range, Set.mem_Iio] at hi
        omega
      have hj' : j < (y :: L).length := by
        have := hm x.k
        simp only [coe_range, Set.mem_Iio] at hj
        omega
      have e : ∀ i (h : i < (y :: L).length), nth y L i = (y :: L)[i] := fun i h => by
        rw [nth, List.getD_eq_getElem?_getD, List.getElem?_eq_getElem h, Option.getD_some]
      simp only [e i hi', e j hj'] at hij
      refine (List.Nodup.getElem_inj_iff hnd (i := i) (hi := by simpa using hi') (j := j) (hj := by simpa using hj')).1 ?_
      rw [List.getElem_map, List.getElem_map]
      exact hij
    · intro e _
      have h := (hL _ (nth_mem y L e)).2.1
      rw [(hk _ (nth_mem y L e)).1] at h
      exact h
    · intro e _
      exact hsame _ (nth_mem y L e) _ (nth_mem y L 0)
    · intro e _
      have h := (hL _ (nth_mem y L e)).2.2
      rw [(hk _ (nth_mem y L e)).1] at h
      exact h

/-- `C99_forge` for forgeries of statements with the property `good`. -/
theorem extract_good {κ : Type} (E : Env F P) (hE : E.Lawful) (S : Finset Transcript) (sts : κ → Statement P)
    (hst : ∀ k, StatementBuilt E (sts k)) (hinj : ∀ k k', (sts k).hash = (sts k').hash → k = k')
    (good : κ → Prop) (want : κ → F → F → Prop) (hgood : ∀ k, good k → ∀ l r r1, Rel (sts k).params.G (sts k).params.G1 (sts k).params.U (sts k).inputSet.M (sts k).inputSet.M1 (sts k).offset (sts k).J l r r1 → want k r r1)
    (hs : ∀ k, SmallSums F (sts k).params.n) (m : ℕ) (hm : ∀ k, (sts k).params.m ≤ m)
    (K : ℕ) (hK : ∀ x : F, #{b : Block | E.scalarOfWide b.bytes = x} ≤ K)
    (c : OracleProgram S Block (Forgery κ F P)) (Q : ℕ) (hQ : ∀ O, (c.asked O).length ≤ Q) (τ : ℕ) :
    (avg fun O : S → Block => ind (good (c.run O).k ∧ Forges E S sts c O)) ≤
      (Q + 1) * (m / (τ + 1) + m * m * K / 2 ^ 512) +
      avg fun O : S → Block => avg fun tape : Fin m → Fin τ → Block => ind (Yields want E sts (extractor E S sts c O (tries tape))) := by
  classical
  have h := rewind_bound c (Forgery.crit E S sts) (fun x b => good x.k ∧ Shape (sts x.k).params x.p ∧
      Valid (sts x.k).params (sts x.k).inputSet.M (sts x.k).inputSet.M1 (sts x.k).offset (sts x.k).J x.p (E.scalarOfWide b.bytes))
    (fun b => E.scalarOfWide b.bytes) Q K m τ hQ hK
  rw [card_block, Nat.cast_pow, Nat.cast_ofNat] at h
  refine le_trans (avg_mono _ _ fun O => ?_) (h.trans (add_le_add_right (avg_mono _ _ fun O => avg_mono _ _ fun tape => ?_) _))
  · refine ind_mono fun ⟨h0, h1, h2, h3⟩ => ⟨⟨_, h1⟩, Forgery.crit_eq.2 rfl, h0, h2, ?_⟩
    rw [challenge_withOracle E S O _ _ _ ⟨_, h1⟩ rfl] at h3
    exact h3
  · refine ind_mono fun ⟨s, ⟨h0, h1⟩, h2⟩ => ?_
    obtain ⟨a1, a2, a3⟩ := rewind_found c (Forgery.crit E S sts) (fun x b => Shape (sts x.k).params x.p ∧
      Valid (sts x.k).params (sts x.k).inputSet.M (sts x.k).inputSet.M1 (sts x.k).offset (sts x.k).J x.p (E.scalarOfWide b.bytes)) (fun b => E.scalarOfWide b.bytes) O s
      (fun x b => good x.k ∧ Shape (sts x.k).params x.p ∧
      Valid (sts x.k).params (sts x.k).inputSet.M (sts x.k).inputSet.M1 (sts x.k).offset (sts x.k).J x.p (E.scalarOfWide b.bytes)) (fun _ _ h => h.2) m τ h0 h1 tape h2
    have e : c.rewind (Forgery.crit E S sts) (fun x b => Shape (sts x.k).params x.p ∧
      Valid (sts x.k).params (sts x.k).inputSet.M (sts x.k).inputSet.M1 (sts x.k).offset (sts x.k).J x.p (E.scalarOfWide b.bytes)) (fun b => E.scalarOfWide b.bytes) O
      (tries tape) = extractor E S sts c O (tries tape) := by rw [extractor]
    rw [e] at a1 a2 a3
    exact extractor_yields E hE S sts hst hinj hs m hm want (c.run O) (hgood _ h1.1) s (Forgery.crit_eq.1 h0) _
      (fun y hy => ⟨Forgery.crit_eq.1 (a1 y hy).2.1, (a1 y hy).2.2⟩) a2 a3

/-- C99: run a forger, with at most `Q` questions, once, and `m τ` times more with random answers at the point of its forgery. This
yields the two secrets of a position or a relation with at least the success probability of the forger minus `(Q + 1) (m / (τ + 1) + m ^ 2 K / 2 ^ 512)`.
`K` bounds the number of 64-byte strings with the same value as scalar. -/
theorem C99_forge {κ : Type} (E : Env F P) (hE : E.Lawful) (S : Finset Transcript) (sts : κ → Statement P)
    (hst : ∀ k, StatementBuilt E (sts k)) (hinj : ∀ k k', (sts k).hash = (sts k').hash → k = k')
    (hs : ∀ k, SmallSums F (sts k).params.n) (m : ℕ) (hm : ∀ k, (sts k).params.m ≤ m)
    (K : ℕ) (hK : ∀ x : F, #{b : Block | E.scalarOfWide b.bytes = x} ≤ K)
    (c : OracleProgram S Block (Forgery κ F P)) (Q : ℕ) (hQ : ∀ O, (c.asked O).length ≤ Q) (τ : ℕ) :
    (avg fun O : S → Block => ind (Forges E S sts c O)) ≤
      (Q + 1) * (m / (τ + 1) + m * m * K / 2 ^ 512) +
      avg fun O : S → Block => avg fun tape : Fin m → Fin τ → Block =>
        ind (Yields (fun _ _ _ => True) E sts (extractor E S sts c O (tries tape))) := by
  have h := extract_good E hE S sts hst hinj (fun _ => True) (fun _ _ _ => True) (fun _ _ _ _ _ _ => trivial) hs m hm K hK c Q hQ τ
  simp only [true_and] at h
  exact h

local notation "ℓ" => (2 ^ 252 + 27742317777372353535851937790883648493 : ℕ)

/-- `C99_ristretto` for forgeries of statements with the property `good`. -/
theorem extract_good_ristretto {κ : Type} {P : Type} [AddCommGroup P] [Module (ZMod ℓ) P] [DecidableEq P]
    (E : Env (ZMod ℓ) P) (hE : E.Lawful)
    (hwide : ∀ b, E.scalarOfWide b = ((leNat b : ℕ) : ZMod ℓ)) (S : Finset Transcript) (sts : κ → Statement P)
    (hst : ∀ k, StatementBuilt E (sts k)) (hinj : ∀ k k', (sts k).hash = (sts k').hash → k = k')
    (good : κ → Prop) (want : κ → ZMod ℓ → ZMod ℓ → Prop) (hgood : ∀ k, good k → ∀ l r r1, Rel (sts k).params.G (sts k).params.G1 (sts k).params.U (sts k).inputSet.M (sts k).inputSet.M1 (sts k).offset (sts k).J l r r1 → want k r r1)
    (m : ℕ) (hm : ∀ k, (sts k).params.m ≤ m)
    (c : OracleProgram S Block (Forgery κ (ZMod ℓ) P)) (Q : ℕ) (hQ : ∀ O, (c.asked O).length ≤ Q) (τ : ℕ) :
    (avg fun O : S → Block => ind (good (c.run O).k ∧ Forges E S sts c O)) ≤
      (Q + 1) * (m / (τ + 1) + m * m / 2 ^ 252) +
      avg fun O : S → Block => avg fun tape : Fin m → Fin τ → Block =>
        ind (Yields want E sts (extractor E S sts c O (tries tape))) := by
  have h := extract_good E hE S sts hst hinj good want hgood (fun k => C58_small_sums_parallel E _ (hst k).params_built) m hm (2 ^ 260)
    (fun x => by simp only [hwide]; exact blocks_ristretto x) c Q hQ τ
  rw [rewind_ratio] at h
  exact h

/-- C99 for Ristretto: the extractor succeeds with at least the forger's probability minus
`(Q + 1) (m / (τ + 1) + m ^ 2 / 2 ^ 252)`. -/
theorem C99_ristretto {κ : Type} {P : Type} [AddCommGroup P] [Module (ZMod ℓ) P] [DecidableEq P]
    (E : Env (ZMod ℓ) P) (hE : E.Lawful)
    (hwide : ∀ b, E.scalarOfWide b = ((leNat b : ℕ) : ZMod ℓ)) (S : Finset Transcript) (sts : κ → Statement P)
    (hst : ∀ k, StatementBuilt E (sts k)) (hinj : ∀ k k', (sts k).hash = (sts k').hash → k = k')
    (m : ℕ) (hm : ∀ k, (sts k).params.m ≤ m)
    (c : OracleProgram S Block (Forgery κ (ZMod ℓ) P)) (Q : ℕ) (hQ : ∀ O, (c.asked O).length ≤ Q) (τ : ℕ) :
    (avg fun O : S → Block => ind (Forges E S sts c O)) ≤
      (Q + 1) * (m / (τ + 1) + m * m / 2 ^ 252) +
      avg fun O : S → Block => avg fun tape : Fin m → Fin τ → Block =>
        ind (Yields (fun _ _ _ => True) E sts (extractor E S sts c O (tries tape))) := by
  have h := extract_good_ristretto E hE hwide S sts hst hinj (fun _ => True) (fun _ _ _ => True) (fun _ _ _ _ _ _ => trivial) m hm c Q hQ τ
  simp only [true_and] at h
  exact h

/-- C99: a forger that succeeds with probability `ε` need be run `1 + m τ` times, with `τ + 1 ≥ 2 m (Q + 1) / ε`, to get a key or a
relation with probability `ε / 2`, minus the negligible `(Q + 1) m ^ 2 / 2 ^ 252`. -/
theorem C99_choose {κ : Type} {P : Type} [AddCommGroup P] [Module (ZMod ℓ) P] [DecidableEq P]
    (E : Env (ZMod ℓ) P) (hE : E.Lawful)
    (hwide : ∀ b, E.scalarOfWide b = ((leNat b : ℕ) : ZMod ℓ)) (S : Finset Transcript) (sts : κ → Statement P)
    (hst : ∀ k, StatementBuilt E (sts k)) (hinj : ∀ k k', (sts k).hash = (sts k').hash → k = k')
    (m : ℕ) (hm : ∀ k, (sts k).params.m ≤ m)
    (c : OracleProgram S Block (Forgery κ (ZMod ℓ) P)) (Q : ℕ) (hQ : ∀ O, (c.asked O).length ≤ Q) (ε : ℚ) (hε : 0 < ε)
    (hc : ε ≤ avg fun O : S → Block => ind (Forges E S sts c O)) (τ : ℕ) (hτ : 2 * m * (Q + 1) / ε ≤ τ + 1) :
    ε / 2 - (Q + 1) * (m * m / 2 ^ 252) ≤
      avg fun O : S → Block => avg fun tape : Fin m → Fin τ → Block =>
        ind (Yields (fun _ _ _ => True) E sts (extractor E S sts c O (tries tape))) := by
  have h := C99_ristretto E hE hwide S sts hst hinj m hm c Q hQ τ
  have h1 : (Q + 1 : ℚ) * (m / (τ + 1)) ≤ ε / 2 := by
    have ht : (0 : ℚ) < τ + 1 := by positivity
    rw [div_le_iff₀ hε] at hτ
    rw [← mul_div_assoc, div_le_iff₀ ht]
    linarith
  generalize (m * m / 2 ^ 252 : ℚ) = z at *
  rw [mul_add] at h
  linarith

/-- The honest signer of the toy statement as a forger meets the hypotheses of `C99_forge`. -/
example (nn : Nonces (ZMod 101)) : ∃ (S : Finset Transcript) (c : OracleProgram S Block (Forgery Unit (ZMod 101) (ZMod 101))),
    (Triptych.Toy.env 101).Lawful ∧ StatementBuilt (Triptych.Toy.env 101) Toy.statement ∧ SmallSums (ZMod 101) Toy.statement.params.n ∧
    Toy.statement.params.m ≤ 2 ∧
    (∀ x : ZMod 101, #{b : Block | (Triptych.Toy.env 101).scalarOfWide b.bytes = x} ≤ 256 ^ 64 / 101 + 1) ∧
    (∀ O, (c.asked O).length ≤ 1) ∧ ∀ O, Forges (Triptych.Toy.env 101) S (fun _ => Toy.statement) c O := by
  have hrel : Rel Toy.statement.params.G Toy.statement.params.G1 Toy.statement.params.U Toy.statement.inputSet.M
      Toy.statement.inputSet.M1 Toy.statement.offset Toy.statement.J 2 (7 : ZMod 101) 9 :=
    ⟨by decide +kernel, by decide +kernel, by decide +kernel⟩
  have hb := Toy.statement_built
  have hs : SmallSums (ZMod 101) Toy.statement.params.n := smallSums_zmod 101 _ (by decide +kernel)
  have hm : Toy.statement.params.m ≤ 2 := by decide +kernel
  generalize Toy.statement = st at *
  have h := C61_honest (Triptych.Toy.env 101) Triptych.Toy.transcript st hb 2 7 9 hrel nn {_} (mem_singleton_self _)
  exact ⟨_, _, Triptych.Toy.env_lawful 101 (by norm_num), hb, hs, hm,
    fun x => blocks_value 101 _ le_rfl x, fun O => (h O).1.le, fun O => (h O).2⟩

/-- The same for `C99_ristretto`, and for `C99_choose` with `ε = 1`: 8 answers for each of the two rounds. -/
example (nn : Nonces (ZMod ℓ)) : ∃ (S : Finset Transcript) (c : OracleProgram S Block (Forgery Unit (ZMod ℓ) (ZMod ℓ))),
    (Triptych.Toy.env ℓ).Lawful ∧ (∀ b, (Triptych.Toy.env ℓ).scalarOfWide b = ((leNat b : ℕ) : ZMod ℓ)) ∧
    StatementBuilt (Triptych.Toy.env ℓ) Toy.Ristretto.statement ∧ Toy.Ristretto.statement.params.m ≤ 2 ∧
    (∀ O, (c.asked O).length ≤ 1) ∧
    (1 : ℚ) ≤ (avg fun O => ind (Forges (Triptych.Toy.env ℓ) S (fun _ => Toy.Ristretto.statement) c O)) ∧
    2 * (2 : ℕ) * ((1 : ℕ) + 1) / (1 : ℚ) ≤ (8 : ℕ) + 1 := by
  have hrel : Rel Toy.Ristretto.statement.params.G Toy.Ristretto.statement.params.G1 Toy.Ristretto.statement.params.U
      Toy.Ristretto.statement.inputSet.M Toy.Ristretto.statement.inputSet.M1 Toy.Ristretto.statement.offset
      Toy.Ristretto.statement.J 2 (7 : ZMod ℓ) 9 := ⟨by decide +kernel, by decide +kernel, by decide +kernel⟩
  have hb := Toy.Ristretto.statement_built
  have hm : Toy.Ristretto.statement.params.m ≤ 2 := by decide +kernel
  generalize Toy.Ristretto.statement = st at *
  have h := C61_honest (Triptych.Toy.env ℓ) Triptych.Toy.transcript st hb 2 7 9 hrel nn {_} (mem_singleton_self _)
  exact ⟨_, _, Triptych.Toy.env_lawful ℓ (by norm_num), fun _ => rfl, hb, hm,
    fun O => (h O).1.le, avg_one _ fun O => (h O).2, by norm_num⟩

end Triptych.Parallel
