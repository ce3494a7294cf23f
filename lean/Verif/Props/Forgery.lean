import Verif.Props.Soundness
import Verif.Props.Ristretto
import Verif.Props.Weights
import Verif.Lemmas.Complete
import Verif.Lemmas.Fork
import Verif.Lemmas.Suffix

/-! # Forgeries with a random oracle: C60

A forger is a program that may ask for challenges. It outputs a proof for one of several statements and the transcript with
which it is to be verified. The challenges of a finite set `S` of transcripts (all the forger may ask for or output) are
random. However the forger works: up to a fraction of `m (Q + 1) / 2 ^ 252` of all oracles, each success is accounted for by a
point at which rewinding yields a signing key for the statement, or a relation among the commitment generators. -/
set_option autoImplicit false
set_option linter.unusedSectionVars false
set_option linter.constructorNameAsVariable false

namespace Triptych
open Spec Finset Function

variable {F P : Type} [Field F] [AddCommGroup P] [Module F P] [DecidableEq F] [DecidableEq P]

/-- What a forger outputs: for which statement, with which transcript to verify, and the proof. -/
structure Spec.Forgery (κ F P : Type) where
  k : κ
  t : Transcript
  p : Proof F P

/-- The transcript from which the verifier derives the challenge. -/
def Spec.Forgery.point {κ : Type} (E : Env F P) (sts : κ → Statement P) (x : Forgery κ F P) : Transcript :=
  challengeTranscript E x.t (sts x.k).hash x.p.A x.p.B x.p.C x.p.D x.p.X x.p.Y

/-- As element of the oracle's domain. -/
def Spec.Forgery.crit {κ : Type} (E : Env F P) (S : Finset Transcript) (sts : κ → Statement P) (x : Forgery κ F P) :
    Option S :=
  if h : x.point E sts ∈ S then some ⟨_, h⟩ else none

/-- The forger succeeds with the oracle `O`: its proof satisfies all verification equations for the challenge it gets. -/
def Spec.Forges {κ : Type} (E : Env F P) (S : Finset Transcript) (sts : κ → Statement P)
    (c : OracleProgram S Block (Forgery κ F P)) (O : S → Block) : Prop :=
  (c.run O).point E sts ∈ S ∧ Shape (sts (c.run O).k).params (c.run O).p ∧
    Valid (sts (c.run O).k).params (sts (c.run O).k).inputSet.M (sts (c.run O).k).J (c.run O).p
      (challenge (withOracle E S O) (c.run O).t (sts (c.run O).k) (c.run O).p)

/-- Running the forger with `m + 1` distinct answers at `s` and otherwise the same oracle, it succeeds every time for the same
statement, and its outputs yield (by explicit formulas) a signing key of a member of the statement's ring with the statement's
linking tag, or a relation among commitment generators. -/
def Spec.Rewinds {κ : Type} (E : Env F P) (S : Finset Transcript) (sts : κ → Statement P)
    (c : OracleProgram S Block (Forgery κ F P)) (O : S → Block) (s : S) : Prop :=
  ∃ (k : κ) (b : ℕ → Block), Set.InjOn (fun e => E.scalarOfWide (b e).bytes) (range ((sts k).params.m + 1)) ∧
    (∀ e ≤ (sts k).params.m, (c.run (update O s (b e))).k = k ∧ Forges E S sts c (update O s (b e))) ∧
    (Rel (sts k).params.G (sts k).params.U (sts k).inputSet.M (sts k).J
      (extractIndex (sts k).params.n (sts k).params.m (fun e => E.scalarOfWide (b e).bytes)
        fun e => fullF (c.run (update O s (b e))).p.f (E.scalarOfWide (b e).bytes))
      (extractKey (sts k).params.m (fun e => E.scalarOfWide (b e).bytes) fun e => (c.run (update O s (b e))).p.z) ∨
    ExtractedRelation (sts k).params (fun e => (c.run (update O s (b e))).p) fun e => E.scalarOfWide (b e).bytes)

/-- The same, for a statement with the property `good`. -/
def Spec.RewindsFor {κ : Type} (good : κ → Prop) (E : Env F P) (S : Finset Transcript) (sts : κ → Statement P)
    (c : OracleProgram S Block (Forgery κ F P)) (O : S → Block) (s : S) : Prop :=
  ∃ (k : κ) (b : ℕ → Block), good k ∧ Set.InjOn (fun e => E.scalarOfWide (b e).bytes) (range ((sts k).params.m + 1)) ∧
    (∀ e ≤ (sts k).params.m, (c.run (update O s (b e))).k = k ∧ Forges E S sts c (update O s (b e))) ∧
    (Rel (sts k).params.G (sts k).params.U (sts k).inputSet.M (sts k).J
      (extractIndex (sts k).params.n (sts k).params.m (fun e => E.scalarOfWide (b e).bytes)
        fun e => fullF (c.run (update O s (b e))).p.f (E.scalarOfWide (b e).bytes))
      (extractKey (sts k).params.m (fun e => E.scalarOfWide (b e).bytes) fun e => (c.run (update O s (b e))).p.z) ∨
    ExtractedRelation (sts k).params (fun e => (c.run (update O s (b e))).p) fun e => E.scalarOfWide (b e).bytes)

theorem Spec.Forgery.crit_eq {κ : Type} {E : Env F P} {S : Finset Transcript} {sts : κ → Statement P}
    {x : Forgery κ F P} {s : S} : x.crit E S sts = some s ↔ x.point E sts = s := by
  rw [Forgery.crit]
  split
  · rename_i h
    rw [Option.some.injEq, Subtype.ext_iff]
  · rename_i h
    constructor
    · intro h'; simp at h'
    · intro h'; exact absurd (h' ▸ s.2) h

theorem challenge_withOracle (E : Env F P) (S : Finset Transcript) (O : S → Block) (t : Transcript) (st : Statement P)
    (p : Proof F P) (s : S) (h : challengeTranscript E t st.hash p.A p.B p.C p.D p.X p.Y = s) :
    challenge (withOracle E S O) t st p = E.scalarOfWide (O s).bytes := by
  obtain ⟨s, hs⟩ := s
  simp only at h
  subst h
  exact congrArg E.scalarOfWide (dif_pos hs)

open Classical in
/-- The same for forgeries of statements with the property `good`. -/
theorem forge_good {κ : Type} (E : Env F P) (hE : E.Lawful) (S : Finset Transcript) (sts : κ → Statement P)
    (hst : ∀ k, StatementBuilt E (sts k)) (hinj : ∀ k k', (sts k).hash = (sts k').hash → k = k')
    (good : κ → Prop) (hs : ∀ k, SmallSums F (sts k).params.n) (m : ℕ) (hm : ∀ k, (sts k).params.m ≤ m)
    (K : ℕ) (hK : ∀ x : F, #{b : Block | E.scalarOfWide b.bytes = x} ≤ K)
    (c : OracleProgram S Block (Forgery κ F P)) (Q : ℕ) (hQ : ∀ O, (c.asked O).length ≤ Q) :
    2 ^ 512 * #{O : S → Block | good (c.run O).k ∧ Forges E S sts c O} ≤
      m * K * (Q + 1) * Fintype.card (S → Block) +
        2 ^ 512 * ∑ O : S → Block, #{s ∈ c.touched (Forgery.crit E S sts) O | RewindsFor good E S sts c O s} := by
  have hcard : Fintype.card Block = 2 ^ 512 := by
    rw [Fintype.card_pi_const, Fintype.card_fin, show (256 : ℕ) = 2 ^ 8 by norm_num, ← pow_mul]
  have hset : ({O : S → Block | good (c.run O).k ∧ Forges E S sts c O} : Finset (S → Block)) =
      ({O : S → Block | ∃ s, (c.run O).crit E S sts = some s ∧ (good (c.run O).k ∧ Shape (sts (c.run O).k).params (c.run O).p ∧
        Valid (sts (c.run O).k).params (sts (c.run O).k).inputSet.M (sts (c.run O).k).J (c.run O).p
          (E.scalarOfWide (O s).bytes))} : Finset (S → Block)) := by
    refine filter_congr fun O _ => ?_
    simp only [Forgery.crit_eq]
    constructor
    · rintro ⟨h0, h1, h2, h3⟩
      refine ⟨⟨_, h1⟩, rfl, h0, h2, ?_⟩
      rw [challenge_withOracle E S O _ _ _ ⟨_, h1⟩ rfl] at h3
      exact h3
    · rintro ⟨s, h1, h0, h2, h3⟩
      refine ⟨h0, h1 ▸ s.2, h2, ?_⟩
      rw [challenge_withOracle E S O _ _ _ s h1]
      exact h3
  rw [hset, ← hcard]
  convert fork_extract c (Forgery.crit E S sts) (fun x b => good x.k ∧ Shape (sts x.k).params x.p ∧
        Valid (sts x.k).params (sts x.k).inputSet.M (sts x.k).J x.p (E.scalarOfWide b.bytes))
    (fun b => E.scalarOfWide b.bytes) Q K m hQ hK (RewindsFor good E S sts c) ?_
  intro O s b hb hall
  have hpoint : ∀ e ≤ m, (c.run (update O s (b e))).point E sts = s := fun e he => Forgery.crit_eq.1 (hall e he).1
  have hsame : ∀ e ≤ m, (c.run (update O s (b e))).k = (c.run (update O s (b 0))).k ∧
      SameCommitments (c.run (update O s (b e))).p (c.run (update O s (b 0))).p := by
    intro e he
    have h := (hpoint e he).trans (hpoint 0 (Nat.zero_le _)).symm
    rw [Forgery.point, Forgery.point] at h
    obtain ⟨-, h2, h3, h4, h5, h6, h7, h8⟩ := challengeTranscript_inj hE _ _ _ _ _ _ _ _ _ _ _ _ _ _ _ _ h
    exact ⟨hinj _ _ h2, h3, h4, h5, h6, h7, h8⟩
  generalize hk : (c.run (update O s (b 0))).k = k at hsame
  have hkm := hm k
  have hb' : Set.InjOn (fun e => E.scalarOfWide (b e).bytes) (range ((sts k).params.m + 1)) :=
    hb.mono (by intro i hi; simp only [coe_range, Set.mem_Iio] at hi ⊢; omega)
  refine ⟨k, b, hk ▸ (hall 0 (Nat.zero_le _)).2.1, hb', fun e he => ⟨(hsame e (by omega)).1, ?_, (hall e (by omega)).2.2.1, ?_⟩, ?_⟩
  · rw [hpoint e (by omega)]; exact s.2
  · rw [challenge_withOracle E S _ _ _ _ s (hpoint e (by omega)), update_self]
    exact (hall e (by omega)).2.2.2
  apply C20_extract E (sts k) (hst k) (hs k) (fun e => (c.run (update O s (b e))).p)
  · exact hb'
  · intro e he
    have h := (hall e (by omega)).2.2.1
    rw [(hsame e (by omega)).1] at h
    exact h
  · intro e he
    exact (hsame e (by omega)).2
  · intro e he
    have h := (hall e (by omega)).2.2.2
    rw [(hsame e (by omega)).1] at h
    exact h

open Classical in
/-- C60: the number of oracles for which a forger succeeds with at most `Q` questions, compared with the number of pairs of an
oracle and a point at which rewinding extracts a key or a relation. `K` bounds the number of 64-byte strings with the same
value as scalar. -/
theorem C60_forge {κ : Type} (E : Env F P) (hE : E.Lawful) (S : Finset Transcript) (sts : κ → Statement P)
    (hst : ∀ k, StatementBuilt E (sts k)) (hinj : ∀ k k', (sts k).hash = (sts k').hash → k = k')
    (hs : ∀ k, SmallSums F (sts k).params.n) (m : ℕ) (hm : ∀ k, (sts k).params.m ≤ m)
    (K : ℕ) (hK : ∀ x : F, #{b : Block | E.scalarOfWide b.bytes = x} ≤ K)
    (c : OracleProgram S Block (Forgery κ F P)) (Q : ℕ) (hQ : ∀ O, (c.asked O).length ≤ Q) :
    2 ^ 512 * #{O : S → Block | Forges E S sts c O} ≤
      m * K * (Q + 1) * Fintype.card (S → Block) +
        2 ^ 512 * ∑ O : S → Block, #{s ∈ c.touched (Forgery.crit E S sts) O | Rewinds E S sts c O s} := by
  have h := forge_good E hE S sts hst hinj (fun _ => True) hs m hm K hK c Q hQ
  simp only [true_and, RewindsFor] at h
  exact h

theorem block_bytes_inj (b b' : Block) (h : leNat b.bytes = leNat b'.bytes) : b = b' := by
  have hl : ∀ b : Block, b.bytes.length = 64 := fun b => by simp [Block.bytes]
  have h1 : b.bytes = b'.bytes := by
    rw [← leBytes_leNat b.bytes, ← leBytes_leNat b'.bytes, hl, hl, h]
  have h2 := List.ofFn_injective h1
  funext i
  have h3 := congrArg UInt8.toNat (congrFun h2 i)
  simp only [UInt8.toNat_ofNat'] at h3
  rw [Nat.mod_eq_of_lt (b i).2, Nat.mod_eq_of_lt (b' i).2] at h3
  exact Fin.ext h3

/-- The number of 64-byte strings with a given value modulo `q`. -/
theorem blocks_value (q N : ℕ) [NeZero q] (hN : 256 ^ 64 ≤ N) (x : ZMod q) :
    #{b : Block | ((leNat b.bytes : ℕ) : ZMod q) = x} ≤ N / q + 1 := by
  refine le_trans ?_ (residues q N x)
  apply card_le_card_of_injOn fun b => leNat b.bytes
  · intro b hb
    simp only [coe_filter, mem_univ, true_and, Set.mem_ofPred_eq] at hb
    simp only [coe_filter, mem_range, Set.mem_ofPred_eq]
    refine ⟨?_, hb⟩
    have := leNat_lt b.bytes
    rw [show b.bytes.length = 64 by simp [Block.bytes]] at this
    exact lt_of_lt_of_le this hN
  · intro b _ b' _ h
    exact block_bytes_inj b b' h

local notation "ℓ" => (2 ^ 252 + 27742317777372353535851937790883648493 : ℕ)

theorem blocks_ristretto (x : ZMod ℓ) : #{b : Block | ((leNat b.bytes : ℕ) : ZMod ℓ) = x} ≤ 2 ^ 255 * 2 ^ 5 := by
  refine (blocks_value ℓ (2 ^ 255 * 2 ^ 5 * 2 ^ 252) (by norm_num) x).trans ?_
  norm_num

theorem ratio_bound (a d N m Q : ℚ) (hN : 0 < N) (h : (2 : ℚ) ^ 512 * a ≤ m * 2 ^ 260 * (Q + 1) * N + 2 ^ 512 * d) :
    a / N ≤ m * (Q + 1) / 2 ^ 252 + d / N := by
  have e : (2 : ℚ) ^ 512 = 2 ^ 260 * 2 ^ 252 := by rw [← pow_add]
  rw [e] at h
  have h2 : (2 : ℚ) ^ 252 * a ≤ m * (Q + 1) * N + 2 ^ 252 * d := by
    have h3 : (2 : ℚ) ^ 260 * (2 ^ 252 * a) ≤ 2 ^ 260 * (m * (Q + 1) * N + 2 ^ 252 * d) := by
      calc (2 : ℚ) ^ 260 * (2 ^ 252 * a) = 2 ^ 260 * 2 ^ 252 * a := by ring
        _ ≤ _ := h
        _ = _ := by ring
    exact le_of_mul_le_mul_left h3 (by positivity)
  have hc : (0 : ℚ) < 2 ^ 252 := by positivity
  generalize (2 : ℚ) ^ 252 = c at *
  rw [div_add_div _ _ hc.ne' hN.ne', div_le_div_iff₀ hN (by positivity)]
  nlinarith [mul_le_mul_of_nonneg_right h2 hN.le]

open Classical in
/-- `C60_ristretto` for forgeries of statements with the property `good`. -/
theorem forge_good_ristretto {κ : Type} {P : Type} [AddCommGroup P] [Module (ZMod ℓ) P] [DecidableEq P]
    (E : Env (ZMod ℓ) P) (hE : E.Lawful)
    (hwide : ∀ b, E.scalarOfWide b = ((leNat b : ℕ) : ZMod ℓ)) (S : Finset Transcript) (sts : κ → Statement P)
    (hst : ∀ k, StatementBuilt E (sts k)) (hinj : ∀ k k', (sts k).hash = (sts k').hash → k = k')
    (good : κ → Prop) (m : ℕ) (hm : ∀ k, (sts k).params.m ≤ m)
    (c : OracleProgram S Block (Forgery κ (ZMod ℓ) P)) (Q : ℕ) (hQ : ∀ O, (c.asked O).length ≤ Q) :
    (#{O : S → Block | good (c.run O).k ∧ Forges E S sts c O} : ℚ) / Fintype.card (S → Block) ≤ m * (Q + 1) / 2 ^ 252 +
      (∑ O : S → Block, #{s ∈ c.touched (Forgery.crit E S sts) O | RewindsFor good E S sts c O s} : ℕ)
        / Fintype.card (S → Block) := by
  have h := forge_good E hE S sts hst hinj good (fun k => C58_small_sums E _ (hst k).params_built) m hm (2 ^ 260)
    (fun x => by simp only [hwide]; exact blocks_ristretto x) c Q hQ
  apply ratio_bound _ _ _ _ _ (by exact_mod_cast Fintype.card_pos)
  have h' := (Nat.cast_le (α := ℚ)).2 h
  push_cast at h' ⊢
  exact h'

open Classical in
/-- C60 for Ristretto: the success probability of any forger with at most `Q` questions is at most `m (Q + 1) / 2 ^ 252` plus the
expected number of points, among those asked or output, at which rewinding it extracts a signing key or a relation. -/
theorem C60_ristretto {κ : Type} {P : Type} [AddCommGroup P] [Module (ZMod ℓ) P] [DecidableEq P]
    (E : Env (ZMod ℓ) P) (hE : E.Lawful)
    (hwide : ∀ b, E.scalarOfWide b = ((leNat b : ℕ) : ZMod ℓ)) (S : Finset Transcript) (sts : κ → Statement P)
    (hst : ∀ k, StatementBuilt E (sts k)) (hinj : ∀ k k', (sts k).hash = (sts k').hash → k = k')
    (m : ℕ) (hm : ∀ k, (sts k).params.m ≤ m)
    (c : OracleProgram S Block (Forgery κ (ZMod ℓ) P)) (Q : ℕ) (hQ : ∀ O, (c.asked O).length ≤ Q) :
    (#{O : S → Block | Forges E S sts c O} : ℚ) / Fintype.card (S → Block) ≤ m * (Q + 1) / 2 ^ 252 +
      (∑ O : S → Block, #{s ∈ c.touched (Forgery.crit E S sts) O | Rewinds E S sts c O s} : ℕ)
        / Fintype.card (S → Block) := by
  have h := forge_good_ristretto E hE hwide S sts hst hinj (fun _ => True) m hm c Q hQ
  simp only [true_and, RewindsFor] at h
  exact h

/-- Parameters do not depend on the answers to challenge queries of proofs. -/
theorem paramsBuilt_withOracle (E : Env F P) (S : Finset Transcript) (O : S → Block)
    (hS : ∀ t ∈ S, t.getLast? = some (.challenge "xi" 64)) (params : Params P) (h : ParamsBuilt E params) :
    ParamsBuilt (withOracle E S O) params := by
  have hash : ∀ t : Transcript, t.challengeBytes (withOracle E S O) "hash" TRANSCRIPT_HASH_BYTES =
      t.challengeBytes E "hash" TRANSCRIPT_HASH_BYTES := by
    intro t
    have hn : t ++ [Op.challenge "hash" TRANSCRIPT_HASH_BYTES] ∉ S := by
      intro ht
      have := hS _ ht
      simp at this
    exact congrArg (·, t ++ [Op.challenge "hash" TRANSCRIPT_HASH_BYTES]) (dif_neg hn)
  obtain ⟨n, m, G, U, h⟩ := h
  refine ⟨n, m, G, U, ?_⟩
  rw [← h]
  simp only [Params.newWithGenerators, hash]
  rfl

/-- Statements do not depend on the answers to challenge queries of proofs. -/
theorem statementBuilt_withOracle (E : Env F P) (S : Finset Transcript) (O : S → Block)
    (hS : ∀ t ∈ S, t.getLast? = some (.challenge "xi" 64)) (st : Statement P) (h : StatementBuilt E st) :
    StatementBuilt (withOracle E S O) st := by
  have hash : ∀ t : Transcript, t.challengeBytes (withOracle E S O) "hash" TRANSCRIPT_HASH_BYTES =
      t.challengeBytes E "hash" TRANSCRIPT_HASH_BYTES := by
    intro t
    have hn : t ++ [Op.challenge "hash" TRANSCRIPT_HASH_BYTES] ∉ S := by
      intro ht
      have := hS _ ht
      simp at this
    exact congrArg (·, t ++ [Op.challenge "hash" TRANSCRIPT_HASH_BYTES]) (dif_neg hn)
  have hparams : ∀ params, ParamsBuilt E params → ParamsBuilt (withOracle E S O) params :=
    fun params h => paramsBuilt_withOracle E S O hS params h
  have hint : ∀ M k, InputSet.newInternal (withOracle E S O) M k = InputSet.newInternal E M k := by
    intro M k
    simp only [InputSet.newInternal, hash]
    rfl
  have hinp : ∀ i, InputSetBuilt E i → InputSetBuilt (withOracle E S O) i := by
    rintro i (⟨M, h⟩ | ⟨M, params, hp, h⟩)
    · exact Or.inl ⟨M, by rw [← h]; exact hint _ _⟩
    · refine Or.inr ⟨M, params, hparams _ hp, ?_⟩
      rw [← h]
      simp only [InputSet.newWithPadding, hint]
  obtain ⟨params, i, J, h1, h2, h3⟩ := h
  refine ⟨params, i, J, hparams _ h1, hinp _ h2, ?_⟩
  rw [← h3]
  simp only [Statement.new, hash]
  rfl

/-- C60: whenever the verifier accepts the output, the forger has succeeded, except if the equations do not all hold and the
verifier's weights, none of them zero, are in an exceptional set of at most `(q - 1) ^ 3` of the `(q - 1) ^ 4` weight vectors. -/
theorem C60_accepted [Fintype F] {κ : Type} (E : Env F P) (cfg : Config) (S : Finset Transcript)
    (hS : ∀ t ∈ S, t.getLast? = some (.challenge "xi" 64)) (sts : κ → Statement P) (hst : ∀ k, StatementBuilt E (sts k))
    (c : OracleProgram S Block (Forgery κ F P)) (O : S → Block) (hpoint : (c.run O).point E sts ∈ S)
    (h : (Proof.verify (withOracle E S O) cfg (c.run O).p (sts (c.run O).k) (c.run O).t).1 = .ok ()) :
    Forges E S sts c O ∨ ∃ bad : Finset (Fin 1 × Fin 4 → F),
      bad = ({w | (∀ x, w x ≠ 0) ∧ batchSum (sts (c.run O).k).params (sts (c.run O).k).inputSet.M [sts (c.run O).k] [(c.run O).p]
        [challenge (withOracle E S O) (c.run O).t (sts (c.run O).k) (c.run O).p] (weightList w) = 0} : Finset _) ∧
      #bad ≤ (Fintype.card F - 1) ^ 3 ∧
      ∃ w ∈ bad, IsWeights (withOracle E S O) [sts (c.run O).k] [(c.run O).p] [(c.run O).t] (weightList w) := by
  have hb := statementBuilt_withOracle E S O hS _ (hst (c.run O).k)
  by_cases hv : Valid (sts (c.run O).k).params (sts (c.run O).k).inputSet.M (sts (c.run O).k).J (c.run O).p
      (challenge (withOracle E S O) (c.run O).t (sts (c.run O).k) (c.run O).p)
  · have hpre := (C18_accepted (withOracle E S O) cfg _ [] _ _ hb h).1
    exact Or.inl ⟨hpoint, hpre.shapes _ (by simp), hv⟩
  · exact Or.inr (C19_accepted (withOracle E S O) cfg _ [] _ _ hb h 0 _ _ _ rfl rfl rfl hv)

/-- The honest signer of statement `st`, written as a forger: it asks for the one challenge it needs. -/
noncomputable def Spec.honestForger (E : Env F P) (t : Transcript) (st : Statement P) (l : ℕ) (r : F) (nn : Nonces F)
    (S : Finset Transcript) (h : Forgery.point E (fun _ : Unit => st)
      ⟨(), t, honestProof st.params st.inputSet.M st.J l r nn 0⟩ ∈ S) : OracleProgram S Block (Forgery Unit F P) :=
  .ask ⟨_, h⟩ fun b => .done ⟨(), t, honestProof st.params st.inputSet.M st.J l r nn (E.scalarOfWide b.bytes)⟩

/-- C60: who knows a key succeeds with every oracle and one question. -/
theorem C60_honest (E : Env F P) (t : Transcript) (st : Statement P) (hst : StatementBuilt E st) (l : ℕ) (r : F)
    (hrel : Rel st.params.G st.params.U st.inputSet.M st.J l r) (nn : Nonces F) (S : Finset Transcript)
    (h : Forgery.point E (fun _ : Unit => st) ⟨(), t, honestProof st.params st.inputSet.M st.J l r nn 0⟩ ∈ S)
    (O : S → Block) :
    ((honestForger E t st l r nn S h).asked O).length = 1 ∧ Forges E S (fun _ => st) (honestForger E t st l r nn S h) O := by
  refine ⟨rfl, h, ?_, ?_⟩
  · exact honest_shape st.params st.inputSet.M st.J l r nn _
  · have e : challenge (withOracle E S O) ((honestForger E t st l r nn S h).run O).t st
        ((honestForger E t st l r nn S h).run O).p = E.scalarOfWide (O ⟨_, h⟩).bytes :=
      challenge_withOracle E S O _ _ _ ⟨_, h⟩ rfl
    show Valid _ _ _ _ (challenge (withOracle E S O) ((honestForger E t st l r nn S h).run O).t st
      ((honestForger E t st l r nn S h).run O).p)
    rw [e]
    have hl : l < st.params.n ^ st.params.m := by
      have h1 := (List.getElem?_eq_some_iff.1 hrel.1).1
      rw [hst.ok.length] at h1
      exact h1
    exact honest_valid st.params hst.ok.params st.inputSet.M st.J l r nn hl hrel _

namespace Toy

/-- The transcript from which the challenge of `proof` is derived. -/
def point : Transcript := Forgery.point (env 101) (fun _ : Unit => statement) ⟨(), transcript, proof⟩

/-- An oracle answering like the toy environment. -/
def oracle : ({point} : Finset Transcript) → Block := fun _ i => ⟨(((env 101).challenge point).getD i 0).toNat, UInt8.toNat_lt _⟩

end Toy

/-- A forger that holds one proof: it is accepted with the oracle whose answer the proof was made for. -/
example : (∀ t ∈ ({Toy.point} : Finset Transcript), t.getLast? = some (.challenge "xi" 64)) ∧
    StatementBuilt (Toy.env 101) Toy.statement ∧
    (Proof.verify (withOracle (Toy.env 101) {Toy.point} Toy.oracle) Toy.cfg Toy.proof Toy.statement Toy.transcript).1 = .ok () ∧
    (Proof.verify (withOracle (Toy.env 101) {Toy.point} fun _ _ => 1) Toy.cfg Toy.proof Toy.statement Toy.transcript).1 =
      .err .FailedVerification :=
  ⟨by decide +kernel, Toy.statement_built, by decide +kernel, by decide +kernel⟩

/-- The honest signer of the toy statement as a forger meets the hypotheses of `C60_forge` and `C60_honest`. -/
example (nn : Nonces (ZMod 101)) : ∃ (S : Finset Transcript) (c : OracleProgram S Block (Forgery Unit (ZMod 101) (ZMod 101))),
    (Toy.env 101).Lawful ∧ StatementBuilt (Toy.env 101) Toy.statement ∧ SmallSums (ZMod 101) Toy.statement.params.n ∧
    Toy.statement.params.m ≤ 2 ∧
    (∀ x : ZMod 101, #{b : Block | (Toy.env 101).scalarOfWide b.bytes = x} ≤ 256 ^ 64 / 101 + 1) ∧
    (∀ O, (c.asked O).length ≤ 1) ∧ ∀ O, Forges (Toy.env 101) S (fun _ => Toy.statement) c O := by
  have hrel : Rel Toy.statement.params.G Toy.statement.params.U Toy.statement.inputSet.M Toy.statement.J 2 (7 : ZMod 101) :=
    ⟨by decide +kernel, by decide +kernel⟩
  have h := C60_honest (Toy.env 101) Toy.transcript Toy.statement Toy.statement_built 2 7 hrel nn {_} (mem_singleton_self _)
  exact ⟨_, _, Toy.env_lawful 101 (by norm_num), Toy.statement_built, smallSums_zmod 101 _ (by decide +kernel), by decide +kernel,
    fun x => blocks_value 101 _ le_rfl x, fun O => (h O).1.le, fun O => (h O).2⟩

/-- The same for `C60_ristretto`, over the real scalar field. -/
example (nn : Nonces (ZMod ℓ)) : ∃ (S : Finset Transcript) (c : OracleProgram S Block (Forgery Unit (ZMod ℓ) (ZMod ℓ))),
    (Toy.env ℓ).Lawful ∧ (∀ b, (Toy.env ℓ).scalarOfWide b = ((leNat b : ℕ) : ZMod ℓ)) ∧
    StatementBuilt (Toy.env ℓ) Toy.Ristretto.statement ∧ Toy.Ristretto.statement.params.m ≤ 2 ∧
    (∀ O, (c.asked O).length ≤ 1) ∧ ∀ O, Forges (Toy.env ℓ) S (fun _ => Toy.Ristretto.statement) c O := by
  have hrel : Rel Toy.Ristretto.statement.params.G Toy.Ristretto.statement.params.U Toy.Ristretto.statement.inputSet.M
      Toy.Ristretto.statement.J 2 (7 : ZMod ℓ) := ⟨by decide +kernel, by decide +kernel⟩
  have h := C60_honest (Toy.env ℓ) Toy.transcript Toy.Ristretto.statement Toy.Ristretto.statement_built 2 7 hrel nn {_}
    (mem_singleton_self _)
  exact ⟨_, _, Toy.env_lawful ℓ (by norm_num), fun _ => rfl, Toy.Ristretto.statement_built, by decide +kernel,
    fun O => (h O).1.le, fun O => (h O).2⟩

end Triptych
