import Verif.Props.Soundness
import Verif.Props.Batch
import Verif.Props.Parallel.Soundness
import Verif.Props.Parallel.Batch
import Verif.Spec.Api

/-! # Padded input sets in statements: C68 -/
set_option autoImplicit false
set_option linter.unusedSectionVars false
set_option linter.unusedVariables false

namespace Triptych
open Spec Finset

/-- In a list padded with its last element, position `k` holds what position `min k (length - 1)` of the original holds. -/
theorem getElem?_padded {α : Type} (M : List α) (last : α) (h : M.getLast? = some last) (N k : ℕ) (hk : k < N) (hM : M.length ≤ N) :
    (M ++ List.replicate (N - M.length) last)[k]? = M[min k (M.length - 1)]? := by
  have hpos : M ≠ [] := by rintro rfl; simp at h
  have hlen : 0 < M.length := List.length_pos_iff.2 hpos
  by_cases hc : k < M.length
  · rw [List.getElem?_append_left hc, Nat.min_eq_left (by omega)]
  · rw [List.getElem?_append_right (by omega), Nat.min_eq_right (by omega), List.getElem?_replicate,
      if_pos (by omega), ← h, List.getLast?_eq_getElem?]

section
variable {F P : Type} [Field F] [AddCommGroup P] [Module F P] [DecidableEq F] [DecidableEq P]

/-- What `new_with_padding` returned, if it returned anything. -/
theorem newWithPadding_ok (E : Env F P) (keys : List P) (params : Params P) (i : InputSet P) (hp : ParamsBuilt E params)
    (h : InputSet.newWithPadding E keys params = .ok i) :
    0 < keys.length ∧ keys.length ≤ params.n ^ params.m ∧ i.M.length = params.n ^ params.m ∧
      ∀ k < params.n ^ params.m, i.M[k]? = keys[min k (keys.length - 1)]? := by
  obtain ⟨a1, a2, a3⟩ := C04_padding E keys params hp
  by_cases h1 : params.n ^ params.m < keys.length
  · rw [a1 h1] at h; cases h
  by_cases h2 : keys = []
  · rw [a2 h2] at h; cases h
  obtain ⟨last, hl⟩ := (⟨_, List.getLast?_eq_some_getLast h2⟩ : ∃ x, keys.getLast? = some x)
  obtain ⟨j, b1, b2, b3⟩ := a3 last (by omega) hl
  rw [h] at b1
  cases b1
  refine ⟨List.length_pos_iff.2 h2, by omega, b3, fun k hk => ?_⟩
  rw [b2, getElem?_padded keys last hl _ k hk (by omega)]

/-- C68: padding adds no signers and removes none. With an input set padded from `keys`, a secret satisfies the relation at
position `k` of the ring exactly if it satisfies the relation for the caller's own keys, at position `k` or, for positions in
the padding, at the last. -/
theorem C68_relation (E : Env F P) (keys : List P) (params : Params P) (i : InputSet P) (hp : ParamsBuilt E params)
    (h : InputSet.newWithPadding E keys params = .ok i) (G U J : P) (k : ℕ) (hk : k < params.n ^ params.m) (r : F) :
    Rel G U i.M J k r ↔ Rel G U keys J (min k (keys.length - 1)) r := by
  rw [Spec.Rel, Spec.Rel, (newWithPadding_ok E keys params i hp h).2.2.2 k hk]

/-- C68: with a padded input set, signing works from every position that holds the own key, also in the padding: the prover
does not return an error other than for a zero challenge, and the proof verifies unless a response entry is zero. -/
theorem C68_complete {σ : Type} (E : Env F P) (cfg : Config) (R : Rng σ) (keys : List P) (i : InputSet P) (w : Witness F P)
    (st : Statement P) (s : σ) (t : Transcript) (timing : OperationTiming) (hw : WitnessBuilt E w) (hst : StatementBuilt E st)
    (h : InputSet.newWithPadding E keys st.params = .ok i) (hi : st.inputSet = i) (hp : w.params = st.params) (k : ℕ)
    (hk : w.l = k ∨ k = keys.length - 1 ∧ k ≤ w.l) (hkey : keys[k]? = some w.computeVerificationKey)
    (hJ : w.r • st.J = st.params.U) :
    (Proof.proveInternal E R w st s t timing).1 = .err .InvalidChallenge ∨
    ∃ p, (Proof.proveInternal E R w st s t timing).1 = .ok p ∧
      (SizeOK cfg st.params 1 → EnoughFuel E [st] [p] [t] cfg.fuel →
        NonzeroF st.params.n st.params.m p.f (challenge E t st p) → (Proof.verify E cfg p st t).1 = .ok ()) := by
  have hpb : ParamsBuilt E st.params := hst.params_built
  have hl : w.l < st.params.n ^ st.params.m := by rw [← hp]; exact hw.ok.2
  have hklen : k < keys.length := (List.getElem?_eq_some_iff.1 hkey).1
  have hrel : Rel st.params.G st.params.U st.inputSet.M st.J w.l w.r := by
    rw [hi, C68_relation E keys st.params i hpb h _ _ _ w.l hl]
    have e : min w.l (keys.length - 1) = k := by omega
    rw [e]
    refine ⟨?_, hJ⟩
    rw [hkey, Witness.computeVerificationKey, hp]
  obtain ⟨nn, ξ, -, -, b1, b2⟩ := C11_accept E R w st s t timing hw hst hp hrel
  by_cases hξ : ξ = 0
  · exact Or.inl (b1 hξ)
  · exact Or.inr ⟨_, b2 hξ, fun hsz hf => (C14_complete E cfg st t _ hst ⟨σ, R, w, s, timing, hw, b2 hξ⟩ hsz hf).1⟩

open Classical in
/-- C68: with a padded input set, `m + 1` accepted proofs with the same commitments and different challenges yield the secret
key of one of the caller's own keys, whose linking tag is the statement's; or a relation between generators, or weights that
were exceptional. -/
theorem C68_accepted [Fintype F] (E : ℕ → Env F P) (cfg : Config) (keys : List P) (st : Statement P)
    (h : InputSet.newWithPadding (E 0) keys st.params = .ok st.inputSet)
    (hst : ∀ e ≤ st.params.m, StatementBuilt (E e) st) (hs : SmallSums F st.params.n) (p : ℕ → Proof F P) (t : ℕ → Transcript)
    (hξ : Set.InjOn (fun e => challenge (E e) (t e) st (p e)) (range (st.params.m + 1)))
    (hsame : ∀ e ≤ st.params.m, SameCommitments (p e) (p 0))
    (hacc : ∀ e ≤ st.params.m, (Proof.verify (E e) cfg (p e) st (t e)).1 = .ok ()) :
    (∃ r, r = extractKey st.params.m (fun e => challenge (E e) (t e) st (p e)) (fun e => (p e).z) ∧
      r • st.params.G ∈ keys ∧ r • st.J = st.params.U) ∨
    ExtractedRelation st.params p (fun e => challenge (E e) (t e) st (p e)) ∨
    ∃ e ≤ st.params.m, LuckyWeights (E e) st (p e) (t e) := by
  rcases C20_accepted E cfg st hst hs p t hξ hsame hacc with h1 | h1 | ⟨e, he, h1, h2⟩
  · have hN := (List.getElem?_eq_some_iff.1 h1.1).1
    have hpb : ParamsBuilt (E 0) st.params := (hst 0 (Nat.zero_le _)).params_built
    rw [(newWithPadding_ok (E 0) keys st.params _ hpb h).2.2.1] at hN
    rw [C68_relation (E 0) keys st.params _ hpb h _ _ _ _ hN] at h1
    exact Or.inl ⟨_, rfl, List.mem_of_getElem? h1.1, h1.2⟩
  · exact Or.inr (Or.inl h1)
  · exact Or.inr (Or.inr ⟨e, he, h1, h2⟩)

end

namespace Toy

/-- Three keys for a ring of four, the last one padded. -/
def shortKeys : List (ZMod 101) := [(3 : ZMod 101), 5, 7].map fun r => r • params.G
def paddedSet : InputSet (ZMod 101) := get ⟨[], []⟩ (InputSet.newWithPadding (env 101) shortKeys params)
/-- The signer of the last key, at the position that was filled by padding. -/
def paddedWitness : Witness (ZMod 101) (ZMod 101) := get ⟨params, 0, 0⟩ (Witness.new params 3 7)
def paddedStatement : Statement (ZMod 101) := get ⟨params, paddedSet, 0, []⟩
  (Statement.new (env 101) params paddedSet paddedWitness.computeLinkingTag)
/-- The same prover run answered with challenge `e + 10`. -/
def paddedProof (e : ℕ) : Proof (ZMod 101) (ZMod 101) :=
  get emptyProof (Proof.proveWithRng (fork (e + 10)) nullRng paddedWitness paddedStatement () transcript).1

theorem paddedStatement_fork (e : ℕ) (he : e ≤ paddedStatement.params.m) : StatementBuilt (fork (e + 10)) paddedStatement := by
  have hm : paddedStatement.params.m = 2 := by decide +kernel
  rw [hm] at he
  have h1 : ∀ e ≤ 2, Params.new (fork (e + 10)) 2 2 = .ok params := by decide +kernel
  have h2 : ∀ e ≤ 2, InputSet.newWithPadding (fork (e + 10)) shortKeys params = .ok paddedSet := by decide +kernel
  have h3 : ∀ e ≤ 2, Statement.new (fork (e + 10)) params paddedSet paddedWitness.computeLinkingTag = .ok paddedStatement := by
    decide +kernel
  exact ⟨_, _, _, ⟨_, _, _, _, h1 e he⟩, Or.inr ⟨_, _, ⟨_, _, _, _, h1 e he⟩, h2 e he⟩, h3 e he⟩

end Toy

/-- Three accepting runs for a padded statement, made from a position in the padding: the hypotheses of `C68_accepted` and
`C68_complete` are met. -/
example : InputSet.newWithPadding (Toy.fork 10) Toy.shortKeys Toy.paddedStatement.params = .ok Toy.paddedStatement.inputSet ∧
    (∀ e ≤ Toy.paddedStatement.params.m, StatementBuilt (Toy.fork (e + 10)) Toy.paddedStatement) ∧
    WitnessBuilt (Toy.fork 10) Toy.paddedWitness ∧ Toy.paddedWitness.params = Toy.paddedStatement.params ∧
    Toy.paddedWitness.l = 3 ∧ Toy.shortKeys[2]? = some Toy.paddedWitness.computeVerificationKey ∧
    Toy.paddedWitness.r • Toy.paddedStatement.J = Toy.paddedStatement.params.U ∧
    SmallSums (ZMod 101) Toy.paddedStatement.params.n ∧
    Set.InjOn (fun e => challenge (Toy.fork (e + 10)) Toy.transcript Toy.paddedStatement (Toy.paddedProof e))
      (range (Toy.paddedStatement.params.m + 1)) ∧
    (∀ e ≤ Toy.paddedStatement.params.m, SameCommitments (Toy.paddedProof e) (Toy.paddedProof 0)) ∧
    (∀ e ≤ Toy.paddedStatement.params.m,
      (Proof.verify (Toy.fork (e + 10)) Toy.cfg (Toy.paddedProof e) Toy.paddedStatement Toy.transcript).1 = .ok ()) := by
  have hm : Toy.paddedStatement.params.m = 2 := by decide +kernel
  have h1 : Params.new (Toy.fork 10) 2 2 = .ok Toy.params := by decide +kernel
  have h2 : Witness.new Toy.params 3 (7 : ZMod 101) = .ok Toy.paddedWitness := by decide +kernel
  refine ⟨by decide +kernel, Toy.paddedStatement_fork, .new Toy.params 3 7 _ ⟨_, _, _, _, h1⟩ h2, by decide +kernel,
    by decide +kernel, by decide +kernel, by decide +kernel, smallSums_zmod 101 _ (by decide +kernel), ?_, ?_, ?_⟩
  · have : ∀ e ∈ range (Toy.paddedStatement.params.m + 1), ∀ e' ∈ range (Toy.paddedStatement.params.m + 1),
        challenge (Toy.fork (e + 10)) Toy.transcript Toy.paddedStatement (Toy.paddedProof e) =
          challenge (Toy.fork (e' + 10)) Toy.transcript Toy.paddedStatement (Toy.paddedProof e') → e = e' := by decide +kernel
    intro e he e' he' h
    exact this e (by simpa using he) e' (by simpa using he') h
  · rw [hm]
    simp only [SameCommitments]
    decide +kernel
  · rw [hm]; decide +kernel

end Triptych

namespace Triptych.Parallel
open Triptych.Parallel.Spec Finset
open Triptych.Spec (fullF NonzeroF SmallSums extractIndex extractKey)

variable {F P : Type} [Field F] [AddCommGroup P] [Module F P] [DecidableEq F] [DecidableEq P]

/-- What `new_with_padding` returned, if it returned anything. -/
theorem newWithPadding_ok (E : Env F P) (keys keys1 : List P) (params : Params P) (i : InputSet P) (hp : ParamsBuilt E params)
    (h : InputSet.newWithPadding E keys keys1 params = .ok i) :
    0 < keys.length ∧ keys.length ≤ params.n ^ params.m ∧ keys.length = keys1.length ∧ i.M.length = params.n ^ params.m ∧
      ∀ k < params.n ^ params.m, i.M[k]? = keys[min k (keys.length - 1)]? ∧ i.M1[k]? = keys1[min k (keys.length - 1)]? := by
  obtain ⟨a0, a1, a2, a3⟩ := C46_padding E keys keys1 params hp
  by_cases h0 : keys.length ≠ keys1.length
  · rw [a0 h0] at h; cases h
  rw [not_not] at h0
  by_cases h1 : params.n ^ params.m < keys.length
  · rw [a1 h0 h1] at h; cases h
  by_cases h2 : keys = []
  · have h3 : keys1 = [] := List.length_eq_zero_iff.1 (by rw [← h0, h2]; rfl)
    rw [a2 h2 h3] at h; cases h
  have h3 : keys1 ≠ [] := by
    intro h3
    exact h2 (List.length_eq_zero_iff.1 (by rw [h0, h3]; rfl))
  obtain ⟨last, hl⟩ := (⟨_, List.getLast?_eq_some_getLast h2⟩ : ∃ x, keys.getLast? = some x)
  obtain ⟨last1, hl1⟩ := (⟨_, List.getLast?_eq_some_getLast h3⟩ : ∃ x, keys1.getLast? = some x)
  obtain ⟨j, b1, b2, b21, b3, -⟩ := a3 last last1 h0 (by omega) hl hl1
  rw [h] at b1
  cases b1
  refine ⟨List.length_pos_iff.2 h2, by omega, h0, b3, fun k hk => ⟨?_, ?_⟩⟩
  · rw [b2, getElem?_padded keys last hl _ k hk (by omega)]
  · rw [b21, getElem?_padded keys1 last1 hl1 _ k hk (by omega), h0]

/-- C68 for parallel input sets: both vectors are padded alike, so the pairs of keys stay together. -/
theorem C68_relation_parallel (E : Env F P) (keys keys1 : List P) (params : Params P) (i : InputSet P) (hp : ParamsBuilt E params)
    (h : InputSet.newWithPadding E keys keys1 params = .ok i) (G G1 U offset J : P) (k : ℕ) (hk : k < params.n ^ params.m)
    (r r1 : F) :
    Rel G G1 U i.M i.M1 offset J k r r1 ↔ Rel G G1 U keys keys1 offset J (min k (keys.length - 1)) r r1 := by
  obtain ⟨e1, e2⟩ := (newWithPadding_ok E keys keys1 params i hp h).2.2.2.2 k hk
  rw [Spec.Rel, Spec.Rel, e1, e2]

/-- C68 for the parallel prover: signing works from every position that holds the own pair of keys, also in the padding. -/
theorem C68_complete_parallel {σ : Type} (E : Env F P) (cfg : Config) (R : Rng σ) (keys keys1 : List P) (i : InputSet P)
    (w : Witness F P) (st : Statement P) (s : σ) (t : Transcript) (timing : OperationTiming) (hw : WitnessBuilt E w)
    (hst : StatementBuilt E st) (h : InputSet.newWithPadding E keys keys1 st.params = .ok i) (hi : st.inputSet = i)
    (hp : w.params = st.params) (k : ℕ) (hk : w.l = k ∨ k = keys.length - 1 ∧ k ≤ w.l)
    (hkey : keys[k]? = some w.computeVerificationKey)
    (hkey1 : keys1[k]? = some (w.computeAuxiliaryVerificationKey + st.offset)) (hJ : w.r • st.J = st.params.U) :
    (Proof.proveInternal E R w st s t timing).1 = .err .InvalidChallenge ∨
    ∃ p, (Proof.proveInternal E R w st s t timing).1 = .ok p ∧
      (SizeOK cfg st.params 1 → EnoughFuel E [st] [p] [t] cfg.fuel →
        NonzeroF st.params.n st.params.m p.f (challenge E t st p) → (Proof.verify E cfg p st t).1 = .ok ()) := by
  have hpb : ParamsBuilt E st.params := hst.params_built
  have hl : w.l < st.params.n ^ st.params.m := by rw [← hp]; exact hw.ok.2
  have hklen : k < keys.length := (List.getElem?_eq_some_iff.1 hkey).1
  have hrel : Rel st.params.G st.params.G1 st.params.U st.inputSet.M st.inputSet.M1 st.offset st.J w.l w.r w.r1 := by
    rw [hi, C68_relation_parallel E keys keys1 st.params i hpb h _ _ _ _ _ w.l hl]
    have e : min w.l (keys.length - 1) = k := by omega
    rw [e]
    refine ⟨?_, ?_, hJ⟩
    · rw [hkey, Witness.computeVerificationKey, hp]
    · rw [hkey1, Witness.computeAuxiliaryVerificationKey, hp]
  obtain ⟨nn, ξ, -, -, b1, b2⟩ := C48_accept E R w st s t timing hw hst hp hrel
  by_cases hξ : ξ = 0
  · exact Or.inl (b1 hξ)
  · exact Or.inr ⟨_, b2 hξ, fun hsz hf => (C49_complete E cfg st t _ hst ⟨σ, R, w, s, timing, hw, b2 hξ⟩ hsz hf).1⟩

open Classical in
/-- C68 for parallel proofs: the extracted keys belong to one position of the caller's own vectors. -/
theorem C68_accepted_parallel [Fintype F] (E : ℕ → Env F P) (cfg : Config) (keys keys1 : List P) (st : Statement P)
    (h : InputSet.newWithPadding (E 0) keys keys1 st.params = .ok st.inputSet)
    (hst : ∀ e ≤ st.params.m, StatementBuilt (E e) st) (hs : SmallSums F st.params.n) (p : ℕ → Proof F P) (t : ℕ → Transcript)
    (hξ : Set.InjOn (fun e => challenge (E e) (t e) st (p e)) (range (st.params.m + 1)))
    (hsame : ∀ e ≤ st.params.m, SameCommitments (p e) (p 0))
    (hacc : ∀ e ≤ st.params.m, (Proof.verify (E e) cfg (p e) st (t e)).1 = .ok ()) :
    (∃ r r1, r = extractKey st.params.m (fun e => challenge (E e) (t e) st (p e)) (fun e => (p e).z) ∧
      r1 = extractKey st.params.m (fun e => challenge (E e) (t e) st (p e)) (fun e => (p e).z1) ∧
      (r • st.params.G, r1 • st.params.G1 + st.offset) ∈ keys.zip keys1 ∧ r • st.J = st.params.U) ∨
    ExtractedRelation st.params p (fun e => challenge (E e) (t e) st (p e)) ∨
    ∃ e ≤ st.params.m, LuckyWeights (E e) st (p e) (t e) := by
  rcases C51_accepted E cfg st hst hs p t hξ hsame hacc with h1 | h1 | ⟨e, he, h1, h2⟩
  · have hN := (List.getElem?_eq_some_iff.1 h1.1).1
    have hpb : ParamsBuilt (E 0) st.params := (hst 0 (Nat.zero_le _)).params_built
    rw [(newWithPadding_ok (E 0) keys keys1 st.params _ hpb h).2.2.2.1] at hN
    rw [C68_relation_parallel (E 0) keys keys1 st.params _ hpb h _ _ _ _ _ _ hN] at h1
    refine Or.inl ⟨_, _, rfl, rfl, ?_, h1.2.2⟩
    exact List.mem_of_getElem? (List.getElem?_zip_eq_some.2 ⟨h1.1, h1.2.1⟩)
  · exact Or.inr (Or.inl h1)
  · exact Or.inr (Or.inr ⟨e, he, h1, h2⟩)

namespace Toy
open Triptych.Toy (env cfg get transcript fork)

/-- Three pairs of keys for a ring of four. -/
def shortKeys : List (ZMod 101) := [(3 : ZMod 101), 5, 7].map fun r => r • params.G
def shortKeys1 : List (ZMod 101) := [(4 : ZMod 101), 6, 9].map fun r => r • params.G1 + offset
def paddedSet : InputSet (ZMod 101) := get inputSet (InputSet.newWithPadding (env 101) shortKeys shortKeys1 params)
/-- The signer of the last pair, at the position that was filled by padding. -/
def paddedWitness : Witness (ZMod 101) (ZMod 101) := get witness (Witness.new params 3 7 9)
def paddedStatement : Statement (ZMod 101) := get statement
  (Statement.new (env 101) params paddedSet offset paddedWitness.computeLinkingTag)
/-- The same prover run answered with challenge `e + 10`. -/
def paddedProof (e : ℕ) : Proof (ZMod 101) (ZMod 101) :=
  get emptyProof (Proof.proveWithRng (fork (e + 10)) nullRng paddedWitness paddedStatement () transcript).1

theorem paddedStatement_fork (e : ℕ) (he : e ≤ paddedStatement.params.m) : StatementBuilt (fork (e + 10)) paddedStatement := by
  have hm : paddedStatement.params.m = 2 := by decide +kernel
  rw [hm] at he
  have h1 : ∀ e ≤ 2, Params.new (fork (e + 10)) 2 2 = .ok params := by decide +kernel
  have h2 : ∀ e ≤ 2, InputSet.newWithPadding (fork (e + 10)) shortKeys shortKeys1 params = .ok paddedSet := by decide +kernel
  have h3 : ∀ e ≤ 2, Statement.new (fork (e + 10)) params paddedSet offset paddedWitness.computeLinkingTag = .ok paddedStatement := by
    decide +kernel
  exact ⟨_, _, _, _, ⟨_, _, _, _, _, h1 e he⟩, Or.inr ⟨_, _, _, ⟨_, _, _, _, _, h1 e he⟩, h2 e he⟩, h3 e he⟩

end Toy

/-- Three accepting runs for a padded statement, made from a position in the padding. -/
example : InputSet.newWithPadding (Triptych.Toy.fork 10) Toy.shortKeys Toy.shortKeys1 Toy.paddedStatement.params =
      .ok Toy.paddedStatement.inputSet ∧
    (∀ e ≤ Toy.paddedStatement.params.m, StatementBuilt (Triptych.Toy.fork (e + 10)) Toy.paddedStatement) ∧
    WitnessBuilt (Triptych.Toy.fork 10) Toy.paddedWitness ∧ Toy.paddedWitness.params = Toy.paddedStatement.params ∧
    Toy.paddedWitness.l = 3 ∧ Toy.shortKeys[2]? = some Toy.paddedWitness.computeVerificationKey ∧
    Toy.shortKeys1[2]? = some (Toy.paddedWitness.computeAuxiliaryVerificationKey + Toy.paddedStatement.offset) ∧
    Toy.paddedWitness.r • Toy.paddedStatement.J = Toy.paddedStatement.params.U ∧
    SmallSums (ZMod 101) Toy.paddedStatement.params.n ∧
    Set.InjOn (fun e => challenge (Triptych.Toy.fork (e + 10)) Triptych.Toy.transcript Toy.paddedStatement (Toy.paddedProof e))
      (range (Toy.paddedStatement.params.m + 1)) ∧
    (∀ e ≤ Toy.paddedStatement.params.m, SameCommitments (Toy.paddedProof e) (Toy.paddedProof 0)) ∧
    (∀ e ≤ Toy.paddedStatement.params.m, (Proof.verify (Triptych.Toy.fork (e + 10)) Triptych.Toy.cfg (Toy.paddedProof e)
      Toy.paddedStatement Triptych.Toy.transcript).1 = .ok ()) := by
  have hm : Toy.paddedStatement.params.m = 2 := by decide +kernel
  have h1 : Params.new (Triptych.Toy.fork 10) 2 2 = .ok Toy.params := by decide +kernel
  have h2 : Witness.new Toy.params 3 (7 : ZMod 101) 9 = .ok Toy.paddedWitness := by decide +kernel
  refine ⟨by decide +kernel, Toy.paddedStatement_fork, .new Toy.params 3 7 9 _ ⟨_, _, _, _, _, h1⟩ h2, by decide +kernel,
    by decide +kernel, by decide +kernel, by decide +kernel, by decide +kernel, smallSums_zmod 101 _ (by decide +kernel), ?_, ?_, ?_⟩
  · have : ∀ e ∈ range (Toy.paddedStatement.params.m + 1), ∀ e' ∈ range (Toy.paddedStatement.params.m + 1),
        challenge (Triptych.Toy.fork (e + 10)) Triptych.Toy.transcript Toy.paddedStatement (Toy.paddedProof e) =
          challenge (Triptych.Toy.fork (e' + 10)) Triptych.Toy.transcript Toy.paddedStatement (Toy.paddedProof e') → e = e' := by
      decide +kernel
    intro e he e' he' h
    exact this e (by simpa using he) e' (by simpa using he') h
  · rw [hm]
    simp only [SameCommitments]
    decide +kernel
  · rw [hm]; decide +kernel

end Triptych.Parallel
