import Verif.Props.Forgery
import Verif.Props.Parallel.Soundness
import Verif.Lemmas.Parallel.Complete

/-! # Forgeries of parallel proofs with a random oracle: C61

A forger is a program that may ask for challenges. It outputs a proof for one of several statements and the transcript with
which it is to be verified. The challenges of a finite set `S` of transcripts (all the forger may ask for or output) are
random. However the forger works: up to a fraction of `m (Q + 1) / 2 ^ 252` of all oracles, each success is accounted for by a
point at which rewinding yields the two secrets of a position, or a relation among the commitment generators. -/
set_option autoImplicit false
set_option linter.unusedSectionVars false
set_option linter.constructorNameAsVariable false

namespace Triptych.Parallel
open Finset Function
open Triptych.Parallel.Spec
open Triptych.Spec (OracleProgram Block Block.bytes withOracle fullF SmallSums extractIndex extractKey)

variable {F P : Type} [Field F] [AddCommGroup P] [Module F P] [DecidableEq F] [DecidableEq P]

/-- What a forger outputs: for which statement, with which transcript to verify, and the proof. -/
structure Spec.Forgery (κ F P : Type) where
  k : κ
  t : Transcript
  p : Proof F P

/-- The transcript from which the verifier derives the challenge. -/
def Spec.Forgery.point {κ : Type} (E : Env F P) (sts : κ → Statement P) (x : Forgery κ F P) : Transcript :=
  challengeTranscript E x.t (sts x.k).hash x.p.A x.p.B x.p.C x.p.D x.p.X x.p.X1 x.p.Y

/-- As element of the oracle's domain. -/
def Spec.Forgery.crit {κ : Type} (E : Env F P) (S : Finset Transcript) (sts : κ → Statement P) (x : Forgery κ F P) :
    Option S :=
  if h : x.point E sts ∈ S then some ⟨_, h⟩ else none

/-- The forger succeeds with the oracle `O`: its proof satisfies all verification equations for the challenge it gets. -/
def Spec.Forges {κ : Type} (E : Env F P) (S : Finset Transcript) (sts : κ → Statement P)
    (c : OracleProgram S Block (Forgery κ F P)) (O : S → Block) : Prop :=
  (c.run O).point E sts ∈ S ∧ Shape (sts (c.run O).k).params (c.run O).p ∧
    Valid (sts (c.run O).k).params (sts (c.run O).k).inputSet.M (sts (c.run O).k).inputSet.M1 (sts (c.run O).k).offset (sts (c.run O).k).J (c.run O).p
      (challenge (withOracle E S O) (c.run O).t (sts (c.run O).k) (c.run O).p)

/-- Running the forger with `m + 1` distinct answers at `s` and otherwise the same oracle, it succeeds every time for the same
statement, and its outputs yield (by explicit formulas) the two secrets of one position with the statement's linking tag, or a relation among commitment generators. -/
def Spec.Rewinds {κ : Type} (E : Env F P) (S : Finset Transcript) (sts : κ → Statement P)
    (c : OracleProgram S Block (Forgery κ F P)) (O : S → Block) (s : S) : Prop :=
  ∃ (k : κ) (b : ℕ → Block), Set.InjOn (fun e => E.scalarOfWide (b e).bytes) (range ((sts k).params.m + 1)) ∧
    (∀ e ≤ (sts k).params.m, (c.run (update O s (b e))).k = k ∧ Forges E S sts c (update O s (b e))) ∧
    (Rel (sts k).params.G (sts k).params.G1 (sts k).params.U (sts k).inputSet.M (sts k).inputSet.M1 (sts k).offset (sts k).J
      (extractIndex (sts k).params.n (sts k).params.m (fun e => E.scalarOfWide (b e).bytes)
        fun e => fullF (c.run (update O s (b e))).p.f (E.scalarOfWide (b e).bytes))
      (extractKey (sts k).params.m (fun e => E.scalarOfWide (b e).bytes) fun e => (c.run (update O s (b e))).p.z)
      (extractKey (sts k).params.m (fun e => E.scalarOfWide (b e).bytes) fun e => (c.run (update O s (b e))).p.z1) ∨
    ExtractedRelation (sts k).params (fun e => (c.run (update O s (b e))).p) fun e => E.scalarOfWide (b e).bytes)

/-- The same, for a statement with the property `good`. -/
def Spec.RewindsFor {κ : Type} (good : κ → Prop) (E : Env F P) (S : Finset Transcript) (sts : κ → Statement P)
    (c : OracleProgram S Block (Forgery κ F P)) (O : S → Block) (s : S) : Prop :=
  ∃ (k : κ) (b : ℕ → Block), good k ∧ Set.InjOn (fun e => E.scalarOfWide (b e).bytes) (range ((sts k).params.m + 1)) ∧
    (∀ e ≤ (sts k).params.m, (c.run (update O s (b e))).k = k ∧ Forges E S sts c (update O s (b e))) ∧
    (Rel (sts k).params.G (sts k).params.G1 (sts k).params.U (sts k).inputSet.M (sts k).inputSet.M1 (sts k).offset (sts k).J
      (extractIndex (sts k).params.n (sts k).params.m (fun e => E.scalarOfWide (b e).bytes)
        fun e => fullF (c.run (update O s (b e))).p.f (E.scalarOfWide (b e).bytes))
      (extractKey (sts k).params.m (fun e => E.scalarOfWide (b e).bytes) fun e => (c.run (update O s (b e))).p.z)
      (extractKey (sts k).params.m (fun e => E.scalarOfWide (b e).bytes) fun e => (c.run (update O s (b e))).p.z1) ∨
    ExtractedRelation (sts k).params (fun e => (c.run (update O s (b e))).p) fun e => E.scalarOfWide (b e).bytes)

theorem Spec.Forgery.crit_eq {κ : Type} {E : Env F P} {S : Finset Transcript} {sts : κ → Statement P}
    {x : Forgery κ F P} {s : S} : x.crit E S sts = some s ↔ x.point E sts = s := by
  rw [Forgery.crit]
  split
  · rename_i h
    rw [Option.some.injEq, Subtype.ext_iff]
  · rename_i h
    constructor
    · intro h'; simp at h'
    · intro h'; exact absurd (h' ▸ s.2) h

theorem challenge_withOracle (E : Env F P) (S : Finset Transcript) (O : S → Block) (t : Transcript) (st : Statement P)
    (p : Proof F P) (s : S) (h : challengeTranscript E t st.hash p.A p.B p.C p.D p.X p.X1 p.Y = s) :
    challenge (withOracle E S O) t st p = E.scalarOfWide (O s).bytes := by
  obtain ⟨s, hs⟩ := s
  simp only at h
  subst h
  exact congrArg E.scalarOfWide (dif_pos hs)

open Classical in
/-- The same for forgeries of statements with the property `good`. -/
theorem forge_good {κ : Type} (E : Env F P) (hE : E.Lawful) (S : Finset Transcript) (sts : κ → Statement P)
    (hst : ∀ k, StatementBuilt E (sts k)) (hinj : ∀ k k', (sts k).hash = (sts k').hash → k = k')
    (good : κ → Prop) (hs : ∀ k, SmallSums F (sts k).params.n) (m : ℕ) (hm : ∀ k, (sts k).params.m ≤ m)
    (K : ℕ) (hK : ∀ x : F, #{b : Block | E.scalarOfWide b.bytes = x} ≤ K)
    (c : OracleProgram S Block (Forgery κ F P)) (Q : ℕ) (hQ : ∀ O, (c.asked O).length ≤ Q) :
    2 ^ 512 * #{O : S → Block | good (c.run O).k ∧ Forges E S sts c O} ≤
      m * K * (Q + 1) * Fintype.card (S → Block) +
        2 ^ 512 * ∑ O : S → Block, #{s ∈ c.touched (Forgery.crit E S sts) O | RewindsFor good E S sts c O s} := by
  have hcard : Fintype.card Block = 2 ^ 512 := by
    rw [Fintype.card_pi_const, Fintype.card_fin, show (256 : ℕ) = 2 ^ 8 by norm_num, ← pow_mul]
  have hset : ({O : S → Block | good (c.run O).k ∧ Forges E S sts c O} : Finset (S → Block)) =
      ({O : S → Block | ∃ s, (c.run O).crit E S sts = some s ∧ (good (c.run O).k ∧ Shape (sts (c.run O).k).params (c.run O).p ∧
        Valid (sts (c.run O).k).params (sts (c.run O).k).inputSet.M (sts (c.run O).k).inputSet.M1 (sts (c.run O).k).offset (sts (c.run O).k).J (c.run O).p
          (E.scalarOfWide (O s).bytes))} : Finset (S → Block)) := by
    refine filter_congr fun O _ => ?_
    simp only [Forgery.crit_eq]
    constructor
    · rintro ⟨h0, h1, h2, h3⟩
      refine ⟨⟨_, h1⟩, rfl, h0, h2, ?_⟩
      rw [challenge_withOracle E S O _ _ _ ⟨_, h1⟩ rfl] at h3
      exact h3
    · rintro ⟨s, h1, h0, h2, h3⟩
      refine ⟨h0, h1 ▸ s.2, h2, ?_⟩
      rw [challenge_withOracle E S O _ _ _ s h1]
      exact h3
  rw [hset, ← hcard]
  convert fork_extract c (Forgery.crit E S sts) (fun x b => good x.k ∧ Shape (sts x.k).params x.p ∧
        Valid (sts x.k).params (sts x.k).inputSet.M (sts x.k).inputSet.M1 (sts x.k).offset (sts x.k).J x.p (E.scalarOfWide b.bytes))
    (fun b => E.scalarOfWide b.bytes) Q K m hQ hK (RewindsFor good E S sts c) ?_
  intro O s b hb hall
  have hpoint : ∀ e ≤ m, (c.run (update O s (b e))).point E sts = s := fun e he => Forgery.crit_eq.1 (hall e he).1
  have hsame : ∀ e ≤ m, (c.run (update O s (b e))).k = (c.run (update O s (b 0))).k ∧
      SameCommitments (c.run (update O s (b e))).p (c.run (update O s (b 0))).p := by
    intro e he
    have h := (hpoint e he).trans (hpoint 0 (Nat.zero_le _)).symm
    rw [Forgery.point, Forgery.point] at h
    obtain ⟨-, h2, h3, h4, h5, h6, h7, h8, h9⟩ := challengeTranscript_inj hE _ _ _ _ _ _ _ _ _ _ _ _ _ _ _ _ _ _ h
    exact ⟨hinj _ _ h2, h3, h4, h5, h6, h7, h8, h9⟩
  generalize hk : (c.run (update O s (b 0))).k = k at hsame
  have hkm := hm k
  have hb' : Set.InjOn (fun e => E.scalarOfWide (b e).bytes) (range ((sts k).params.m + 1)) :=
    hb.mono (by intro i hi; simp only [coe_range, Set.mem_Iio] at hi ⊢; omega)
  refine ⟨k, b, hk ▸ (hall 0 (Nat.zero_le _)).2.1, hb', fun e he => ⟨(hsame e (by omega)).1, ?_, (hall e (by omega)).2.2.1, ?_⟩, ?_⟩
  · rw [hpoint e (by omega)]; exact s.2
  · rw [challenge_withOracle E S _ _ _ _ s (hpoint e (by omega)), update_self]
    exact (hall e (by omega)).2.2.2
  apply C51_extract E (sts k) (hst k) (hs k) (fun e => (c.run (update O s (b e))).p)
  · exact hb'
  · intro e he
    have h := (hall e (by omega)).2.2.1
    rw [(hsame e (by omega)).1] at h
    exact h
  · intro e he
    exact (hsame e (by omega)).2
  · intro e he
    have h := (hall e (by omega)).2.2.2
    rw [(hsame e (by omega)).1] at h
    exact h

open Classical in
/-- C61: the number of oracles for which a forger succeeds with at most `Q` questions, compared with the number of pairs of an
oracle and a point at which rewinding extracts a key or a relation. `K` bounds the number of 64-byte strings with the same
value as scalar. -/
theorem C61_forge {κ : Type} (E : Env F P) (hE : E.Lawful) (S : Finset Transcript) (sts : κ → Statement P)
    (hst : ∀ k, StatementBuilt E (sts k)) (hinj : ∀ k k', (sts k).hash = (sts k').hash → k = k')
    (hs : ∀ k, SmallSums F (sts k).params.n) (m : ℕ) (hm : ∀ k, (sts k).params.m ≤ m)
    (K : ℕ) (hK : ∀ x : F, #{b : Block | E.scalarOfWide b.bytes = x} ≤ K)
    (c : OracleProgram S Block (Forgery κ F P)) (Q : ℕ) (hQ : ∀ O, (c.asked O).length ≤ Q) :
    2 ^ 512 * #{O : S → Block | Forges E S sts c O} ≤
      m * K * (Q + 1) * Fintype.card (S → Block) +
        2 ^ 512 * ∑ O : S → Block, #{s ∈ c.touched (Forgery.crit E S sts) O | Rewinds E S sts c O s} := by
  have h := forge_good E hE S sts hst hinj (fun _ => True) hs m hm K hK c Q hQ
  simp only [true_and, RewindsFor] at h
  exact h

local notation "ℓ" => (2 ^ 252 + 27742317777372353535851937790883648493 : ℕ)

open Classical in
/-- `C61_ristretto` for forgeries of statements with the property `good`. -/
theorem forge_good_ristretto {κ : Type} {P : Type} [AddCommGroup P] [Module (ZMod ℓ) P] [DecidableEq P]
    (E : Env (ZMod ℓ) P) (hE : E.Lawful)
    (hwide : ∀ b, E.scalarOfWide b = ((leNat b : ℕ) : ZMod ℓ)) (S : Finset Transcript) (sts : κ → Statement P)
    (hst : ∀ k, StatementBuilt E (sts k)) (hinj : ∀ k k', (sts k).hash = (sts k').hash → k = k')
    (good : κ → Prop) (m : ℕ) (hm : ∀ k, (sts k).params.m ≤ m)
    (c : OracleProgram S Block (Forgery κ (ZMod ℓ) P)) (Q : ℕ) (hQ : ∀ O, (c.asked O).length ≤ Q) :
    (#{O : S → Block | good (c.run O).k ∧ Forges E S sts c O} : ℚ) / Fintype.card (S → Block) ≤ m * (Q + 1) / 2 ^ 252 +
      (∑ O : S → Block, #{s ∈ c.touched (Forgery.crit E S sts) O | RewindsFor good E S sts c O s} : ℕ)
        / Fintype.card (S → Block) := by
  have h := forge_good E hE S sts hst hinj good (fun k => C58_small_sums_parallel E _ (hst k).params_built) m hm (2 ^ 260)
    (fun x => by simp only [hwide]; exact blocks_ristretto x) c Q hQ
  apply ratio_bound _ _ _ _ _ (by exact_mod_cast Fintype.card_pos)
  have h' := (Nat.cast_le (α := ℚ)).2 h
  push_cast at h' ⊢
  exact h'

open Classical in
/-- C61 for Ristretto: the success probability of any forger with at most `Q` questions is at most `m (Q + 1) / 2 ^ 252` plus the
expected number of points, among those asked or output, at which rewinding it extracts a signing key or a relation. -/
theorem C61_ristretto {κ : Type} {P : Type} [AddCommGroup P] [Module (ZMod ℓ) P] [DecidableEq P]
    (E : Env (ZMod ℓ) P) (hE : E.Lawful)
    (hwide : ∀ b, E.scalarOfWide b = ((leNat b : ℕ) : ZMod ℓ)) (S : Finset Transcript) (sts : κ → Statement P)
    (hst : ∀ k, StatementBuilt E (sts k)) (hinj : ∀ k k', (sts k).hash = (sts k').hash → k = k')
    (m : ℕ) (hm : ∀ k, (sts k).params.m ≤ m)
    (c : OracleProgram S Block (Forgery κ (ZMod ℓ) P)) (Q : ℕ) (hQ : ∀ O, (c.asked O).length ≤ Q) :
    (#{O : S → Block | Forges E S sts c O} : ℚ) / Fintype.card (S → Block) ≤ m * (Q + 1) / 2 ^ 252 +
      (∑ O : S → Block, #{s ∈ c.touched (Forgery.crit E S sts) O | Rewinds E S sts c O s} : ℕ)
        / Fintype.card (S → Block) := by
  have h := forge_good_ristretto E hE hwide S sts hst hinj (fun _ => True) m hm c Q hQ
  simp only [true_and, RewindsFor] at h
  exact h

/-- Parameters do not depend on the answers to challenge queries of proofs. -/
theorem paramsBuilt_withOracle (E : Env F P) (S : Finset Transcript) (O : S → Block)
    (hS : ∀ t ∈ S, t.getLast? = some (.challenge "xi" 64)) (params : Params P) (h : ParamsBuilt E params) :
    ParamsBuilt (withOracle E S O) params := by
  have hash : ∀ t : Transcript, t.challengeBytes (withOracle E S O) "hash" TRANSCRIPT_HASH_BYTES =
      t.challengeBytes E "hash" TRANSCRIPT_HASH_BYTES := by
    intro t
    have hn : t ++ [Op.challenge "hash" TRANSCRIPT_HASH_BYTES] ∉ S := by
      intro ht
      have := hS _ ht
      simp at this
    exact congrArg (·, t ++ [Op.challenge "hash" TRANSCRIPT_HASH_BYTES]) (dif_neg hn)
  obtain ⟨n, m, G, G1, U, h⟩ := h
  refine ⟨n, m, G, G1, U, ?_⟩
  rw [← h]
  simp only [Params.newWithGenerators, hash]
  rfl

/-- Statements do not depend on the answers to challenge queries of proofs. -/
theorem statementBuilt_withOracle (E : Env F P) (S : Finset Transcript) (O : S → Block)
    (hS : ∀ t ∈ S, t.getLast? = some (.challenge "xi" 64)) (st : Statement P) (h : StatementBuilt E st) :
    StatementBuilt (withOracle E S O) st := by
  have hash : ∀ t : Transcript, t.challengeBytes (withOracle E S O) "hash" TRANSCRIPT_HASH_BYTES =
      t.challengeBytes E "hash" TRANSCRIPT_HASH_BYTES := by
    intro t
    have hn : t ++ [Op.challenge "hash" TRANSCRIPT_HASH_BYTES] ∉ S := by
      intro ht
      have := hS _ ht
      simp at this
    exact congrArg (·, t ++ [Op.challenge "hash" TRANSCRIPT_HASH_BYTES]) (dif_neg hn)
  have hparams : ∀ params, ParamsBuilt E params → ParamsBuilt (withOracle E S O) params :=
    fun params h => paramsBuilt_withOracle E S O hS params h
  have hint : ∀ M M1 k, InputSet.newInternal (withOracle E S O) M M1 k = InputSet.newInternal E M M1 k := by
    intro M M1 k
    simp only [InputSet.newInternal, hash]
    rfl
  have hinp : ∀ i, InputSetBuilt E i → InputSetBuilt (withOracle E S O) i := by
    rintro i (⟨M, M1, h⟩ | ⟨M, M1, params, hp, h⟩)
    · exact Or.inl ⟨M, M1, by rw [← h]; simp only [InputSet.new, hint]⟩
    · refine Or.inr ⟨M, M1, params, hparams _ hp, ?_⟩
      rw [← h]
      simp only [InputSet.newWithPadding, hint]
  obtain ⟨params, i, o, J, h1, h2, h3⟩ := h
  refine ⟨params, i, o, J, hparams _ h1, hinp _ h2, ?_⟩
  rw [← h3]
  simp only [Statement.new, hash]
  rfl

/-- C61: whenever the verifier accepts the output, the forger has succeeded, except if the equations do not all hold and the
verifier's weights, none of them zero, are in an exceptional set of at most `(q - 1) ^ 4` of the `(q - 1) ^ 5` weight vectors. -/
theorem C61_accepted [Fintype F] {κ : Type} (E : Env F P) (cfg : Config) (S : Finset Transcript)
    (hS : ∀ t ∈ S, t.getLast? = some (.challenge "xi" 64)) (sts : κ → Statement P) (hst : ∀ k, StatementBuilt E (sts k))
    (c : OracleProgram S Block (Forgery κ F P)) (O : S → Block) (hpoint : (c.run O).point E sts ∈ S)
    (h : (Proof.verify (withOracle E S O) cfg (c.run O).p (sts (c.run O).k) (c.run O).t).1 = .ok ()) :
    Forges E S sts c O ∨ ∃ bad : Finset (Fin 1 × Fin 5 → F),
      bad = ({w | (∀ x, w x ≠ 0) ∧ batchSum (sts (c.run O).k).params (sts (c.run O).k).inputSet.M
        (sts (c.run O).k).inputSet.M1 [sts (c.run O).k] [(c.run O).p]
        [challenge (withOracle E S O) (c.run O).t (sts (c.run O).k) (c.run O).p] (weightList w) = 0} : Finset _) ∧
      #bad ≤ (Fintype.card F - 1) ^ 4 ∧
      ∃ w ∈ bad, IsWeights (withOracle E S O) [sts (c.run O).k] [(c.run O).p] [(c.run O).t] (weightList w) := by
  have hb := statementBuilt_withOracle E S O hS _ (hst (c.run O).k)
  by_cases hv : Valid (sts (c.run O).k).params (sts (c.run O).k).inputSet.M (sts (c.run O).k).inputSet.M1 (sts (c.run O).k).offset (sts (c.run O).k).J (c.run O).p
      (challenge (withOracle E S O) (c.run O).t (sts (c.run O).k) (c.run O).p)
  · have hpre := (C50_accepted (withOracle E S O) cfg _ [] _ _ hb h).1
    exact Or.inl ⟨hpoint, hpre.shapes _ (by simp), hv⟩
  · exact Or.inr (C50_exceptional (withOracle E S O) cfg _ [] _ _ hb h 0 _ _ _ rfl rfl rfl hv)

/-- The honest signer of statement `st`, written as a forger: it asks for the one challenge it needs. -/
noncomputable def Spec.honestForger (E : Env F P) (t : Transcript) (st : Statement P) (l : ℕ) (r r1 : F) (nn : Nonces F)
    (S : Finset Transcript) (h : Forgery.point E (fun _ : Unit => st)
      ⟨(), t, honestProof st.params st.inputSet.M st.inputSet.M1 st.offset st.J l r r1 nn 0⟩ ∈ S) : OracleProgram S Block (Forgery Unit F P) :=
  .ask ⟨_, h⟩ fun b => .done ⟨(), t, honestProof st.params st.inputSet.M st.inputSet.M1 st.offset st.J l r r1 nn (E.scalarOfWide b.bytes)⟩

/-- C61: who knows a key succeeds with every oracle and one question. -/
theorem C61_honest (E : Env F P) (t : Transcript) (st : Statement P) (hst : StatementBuilt E st) (l : ℕ) (r r1 : F)
    (hrel : Rel st.params.G st.params.G1 st.params.U st.inputSet.M st.inputSet.M1 st.offset st.J l r r1) (nn : Nonces F) (S : Finset Transcript)
    (h : Forgery.point E (fun _ : Unit => st) ⟨(), t, honestProof st.params st.inputSet.M st.inputSet.M1 st.offset st.J l r r1 nn 0⟩ ∈ S)
    (O : S → Block) :
    ((honestForger E t st l r r1 nn S h).asked O).length = 1 ∧ Forges E S (fun _ => st) (honestForger E t st l r r1 nn S h) O := by
  refine ⟨rfl, h, ?_, ?_⟩
  · exact honest_shape st.params st.inputSet.M st.inputSet.M1 st.offset st.J l r r1 nn _
  · have e : challenge (withOracle E S O) ((honestForger E t st l r r1 nn S h).run O).t st
        ((honestForger E t st l r r1 nn S h).run O).p = E.scalarOfWide (O ⟨_, h⟩).bytes :=
      challenge_withOracle E S O _ _ _ ⟨_, h⟩ rfl
    show Valid _ _ _ _ _ _ (challenge (withOracle E S O) ((honestForger E t st l r r1 nn S h).run O).t st
      ((honestForger E t st l r r1 nn S h).run O).p)
    rw [e]
    have hl : l < st.params.n ^ st.params.m := by
      have h1 := (List.getElem?_eq_some_iff.1 hrel.1).1
      rw [hst.ok.length] at h1
      exact h1
    exact honest_valid st.params hst.ok.params st.inputSet.M st.inputSet.M1 st.offset st.J l r r1 nn hl hrel _

namespace Toy
open Triptych.Toy (env cfg get transcript)

/-- The transcript from which the challenge of `proof` is derived. -/
def point : Transcript := Forgery.point (env 101) (fun _ : Unit => statement) ⟨(), transcript, proof⟩

/-- An oracle answering like the toy environment. -/
def oracle : ({point} : Finset Transcript) → Block := fun _ i => ⟨(((env 101).challenge point).getD i 0).toNat, UInt8.toNat_lt _⟩

end Toy

/-- A forger that holds one proof: it is accepted with the oracle whose answer the proof was made for. -/
example : (∀ t ∈ ({Toy.point} : Finset Transcript), t.getLast? = some (.challenge "xi" 64)) ∧
    StatementBuilt (Triptych.Toy.env 101) Toy.statement ∧
    (Proof.verify (withOracle (Triptych.Toy.env 101) {Toy.point} Toy.oracle) Triptych.Toy.cfg Toy.proof Toy.statement Triptych.Toy.transcript).1 = .ok () ∧
    (Proof.verify (withOracle (Triptych.Toy.env 101) {Toy.point} fun _ _ => 2) Triptych.Toy.cfg Toy.proof Toy.statement Triptych.Toy.transcript).1 =
      .err .FailedVerification :=
  ⟨by decide +kernel, Toy.statement_built, by decide +kernel, by decide +kernel⟩

/-- The honest signer of the toy statement as a forger meets the hypotheses of `C61_forge` and `C61_honest`. -/
example (nn : Nonces (ZMod 101)) : ∃ (S : Finset Transcript) (c : OracleProgram S Block (Forgery Unit (ZMod 101) (ZMod 101))),
    (Triptych.Toy.env 101).Lawful ∧ StatementBuilt (Triptych.Toy.env 101) Toy.statement ∧ SmallSums (ZMod 101) Toy.statement.params.n ∧
    Toy.statement.params.m ≤ 2 ∧
    (∀ x : ZMod 101, #{b : Block | (Triptych.Toy.env 101).scalarOfWide b.bytes = x} ≤ 256 ^ 64 / 101 + 1) ∧
    (∀ O, (c.asked O).length ≤ 1) ∧ ∀ O, Forges (Triptych.Toy.env 101) S (fun _ => Toy.statement) c O := by
  have hrel : Rel Toy.statement.params.G Toy.statement.params.G1 Toy.statement.params.U Toy.statement.inputSet.M
      Toy.statement.inputSet.M1 Toy.statement.offset Toy.statement.J 2 (7 : ZMod 101) 9 :=
    ⟨by decide +kernel, by decide +kernel, by decide +kernel⟩
  have hb := Toy.statement_built
  have hs : SmallSums (ZMod 101) Toy.statement.params.n := smallSums_zmod 101 _ (by decide +kernel)
  have hm : Toy.statement.params.m ≤ 2 := by decide +kernel
  generalize Toy.statement = st at *
  have h := C61_honest (Triptych.Toy.env 101) Triptych.Toy.transcript st hb 2 7 9 hrel nn {_} (mem_singleton_self _)
  exact ⟨_, _, Triptych.Toy.env_lawful 101 (by norm_num), hb, hs, hm,
    fun x => blocks_value 101 _ le_rfl x, fun O => (h O).1.le, fun O => (h O).2⟩

end Triptych.Parallel
