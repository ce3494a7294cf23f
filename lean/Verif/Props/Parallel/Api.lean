import Verif.Props.Parallel.Transcripts
import Verif.Props.Parallel.Soundness
import Verif.Props.Parallel.RingCT
import Verif.Props.Api

/-! # Statements about several calls of the parallel API: C51, C54, C55, C58 -/
set_option autoImplicit false
set_option linter.unusedSectionVars false

namespace Triptych.Parallel
open Finset
open Triptych.Parallel.Spec
open Triptych.Spec (Relation extractKey extractIndex SmallSums fullF versionBytes points scalars)

variable {F P : Type} [Field F] [AddCommGroup P] [Module F P] [DecidableEq F] [DecidableEq P]

/-! ## Transcripts -/

/-- C54: after accepting, the verifier has appended the statement hash and the whole proof, with the challenge in between, to the
caller's transcript. -/
theorem C54_accepted (E : Env F P) (cfg : Config) (st : Statement P) (p : Proof F P) (t : Transcript)
    (hst : StatementBuilt E st) (h : (Proof.verify E cfg p st t).1 = .ok ()) :
    (Proof.verify E cfg p st t).2 = [t ++ [.append "dom-sep" (asciiBytes "Parallel Triptych proof"),
      .append "version" versionBytes, .append "statement" st.hash, .append "A" (E.compress p.A), .append "B" (E.compress p.B),
      .append "C" (E.compress p.C), .append "D" (E.compress p.D)] ++ points E "X" p.X ++ points E "X1" p.X1 ++
      points E "Y" p.Y ++ [.challenge "xi" 64] ++ scalars E "f" p.f.flatten ++ [.append "z_A" (E.scalarBytes p.zA),
        .append "z_C" (E.scalarBytes p.zC), .append "z" (E.scalarBytes p.z), .append "z1" (E.scalarBytes p.z1)]] := by
  obtain ⟨h1, h2, h3, -⟩ := C50_accepted E cfg st [] [p] [t] hst h
  exact (C54_extends E cfg st [] [p] [t] hst h1 h2 h3).1

/-- C54 for the prover: two successful calls that leave the caller's transcripts in the same state were made with the same
initial transcripts, parameters, rings, unpadded keys, offsets, tags and commitments, unless one of three explicit pairs of
different transcripts has the same Merlin challenge. -/
theorem C54_prover_binding {σ σ' : Type} (E : Env F P) (hE : E.Lawful) (R : Rng σ) (R' : Rng σ') (w w' : Witness F P)
    (st st' : Statement P) (s : σ) (s' : σ') (t t' : Transcript) (timing timing' : OperationTiming) (hw : WitnessBuilt E w)
    (hw' : WitnessBuilt E w') (hst : StatementBuilt E st) (hst' : StatementBuilt E st') (M M1 M' M1' : List P)
    (hM : BuiltFrom E st.inputSet M M1) (hM' : BuiltFrom E st'.inputSet M' M1') (p p' : Proof F P)
    (h : (Proof.proveInternal E R w st s t timing).1 = .ok p) (h' : (Proof.proveInternal E R' w' st' s' t' timing').1 = .ok p')
    (heq : (Proof.proveInternal E R w st s t timing).2.1 = (Proof.proveInternal E R' w' st' s' t' timing').2.1) :
    (t = t' ∧ st.hash = st'.hash ∧ p.A = p'.A ∧ p.B = p'.B ∧ p.C = p'.C ∧ p.D = p'.D ∧ p.X = p'.X ∧ p.X1 = p'.X1 ∧
      p.Y = p'.Y) ∧
    ((st.params = st'.params ∧ st.inputSet.M = st'.inputSet.M ∧ st.inputSet.M1 = st'.inputSet.M1 ∧ M = M' ∧ M1 = M1' ∧
        st.offset = st'.offset ∧ st.J = st'.J) ∨
      ∃ a b, a ≠ b ∧ E.challenge a = E.challenge b ∧
        ((a = statementTranscript E st.params.hash st.inputSet.hash st.offset st.J ∧
            b = statementTranscript E st'.params.hash st'.inputSet.hash st'.offset st'.J) ∨
          (a = paramsTranscript E st.params.n st.params.m st.params.G st.params.G1 st.params.U st.params.CommitmentG
              st.params.CommitmentH ∧
            b = paramsTranscript E st'.params.n st'.params.m st'.params.G st'.params.G1 st'.params.U st'.params.CommitmentG
              st'.params.CommitmentH) ∨
          (a = inputSetTranscript E st.inputSet.M st.inputSet.M1 M.length ∧
            b = inputSetTranscript E st'.inputSet.M st'.inputSet.M1 M'.length))) := by
  rw [C54_prover E R w st s t timing hw hst p h, C54_prover E R' w' st' s' t' timing' hw' hst' p' h'] at heq
  refine ⟨C54_binding E hE t t' st.hash st'.hash p.A p.B p.C p.D _ _ _ _ p.X p.X1 p.Y _ _ _ heq, ?_⟩
  rcases C54_statement E hE t t' st st' p p' hst hst' M M1 M' M1' hM hM' heq with h | h
  · exact Or.inl h.2
  · exact Or.inr h

/-- C54 for the verifier: two accepting calls that leave the caller's transcripts in the same state were made with the same
initial transcripts and proofs, and, up to hash collisions, for the same statements. -/
theorem C54_verifier_binding (E : Env F P) (hE : E.Lawful) (cfg cfg' : Config) (st st' : Statement P) (p p' : Proof F P)
    (t t' : Transcript) (hst : StatementBuilt E st) (hst' : StatementBuilt E st') (hn : st.params.n = st'.params.n)
    (M M1 M' M1' : List P) (hM : BuiltFrom E st.inputSet M M1) (hM' : BuiltFrom E st'.inputSet M' M1')
    (h : (Proof.verify E cfg p st t).1 = .ok ()) (h' : (Proof.verify E cfg' p' st' t').1 = .ok ())
    (heq : (Proof.verify E cfg p st t).2 = (Proof.verify E cfg' p' st' t').2) :
    (t = t' ∧ st.hash = st'.hash ∧ p = p') ∧
    ((st.params = st'.params ∧ st.inputSet.M = st'.inputSet.M ∧ st.inputSet.M1 = st'.inputSet.M1 ∧ M = M' ∧ M1 = M1' ∧
        st.offset = st'.offset ∧ st.J = st'.J) ∨
      ∃ a b, a ≠ b ∧ E.challenge a = E.challenge b ∧
        ((a = statementTranscript E st.params.hash st.inputSet.hash st.offset st.J ∧
            b = statementTranscript E st'.params.hash st'.inputSet.hash st'.offset st'.J) ∨
          (a = paramsTranscript E st.params.n st.params.m st.params.G st.params.G1 st.params.U st.params.CommitmentG
              st.params.CommitmentH ∧
            b = paramsTranscript E st'.params.n st'.params.m st'.params.G st'.params.G1 st'.params.U st'.params.CommitmentG
              st'.params.CommitmentH) ∨
          (a = inputSetTranscript E st.inputSet.M st.inputSet.M1 M.length ∧
            b = inputSetTranscript E st'.inputSet.M st'.inputSet.M1 M'.length))) := by
  have hs := (C50_accepted E cfg st [] [p] [t] hst h).1.shapes p (by simp)
  have hs' := (C50_accepted E cfg' st' [] [p'] [t'] hst' h').1.shapes p' (by simp)
  rw [C54_accepted E cfg st p t hst h, C54_accepted E cfg' st' p' t' hst' h', List.cons.injEq] at heq
  have h2 := hst.ok.params.n
  obtain ⟨c1, c2, c3⟩ := C54_response E hE t t' st st' p p' ⟨st.params.n - 1, by
    intro row hrow
    rcases List.mem_append.1 hrow with hr | hr
    · exact ⟨hs.row row hr, by omega⟩
    · exact ⟨by rw [hs'.row row hr, hn], by omega⟩⟩ heq.1
  subst c1 c3
  refine ⟨⟨rfl, c2, rfl⟩, ?_⟩
  rcases C46_statement_binding E hE st st' hst hst' M M1 M' M1' hM hM' c2 with h | h | h | h
  · exact Or.inl h
  · exact Or.inr ⟨_, _, h.1, h.2, Or.inl ⟨rfl, rfl⟩⟩
  · exact Or.inr ⟨_, _, h.1, h.2, Or.inr (Or.inl ⟨rfl, rfl⟩)⟩
  · exact Or.inr ⟨_, _, h.1, h.2, Or.inr (Or.inr ⟨rfl, rfl⟩)⟩

/-! ## Linkability -/

/-- C51 for the prover: two successful calls, for statements with a common `U` and any offsets, have the same linking tag exactly
if they were made with the same signing key. -/
theorem C51_prover {σ σ' : Type} (E : Env F P) (R : Rng σ) (R' : Rng σ') (w w' : Witness F P) (st st' : Statement P) (s : σ)
    (s' : σ') (t t' : Transcript) (timing timing' : OperationTiming) (hw : WitnessBuilt E w) (hw' : WitnessBuilt E w')
    (hst : StatementBuilt E st) (hst' : StatementBuilt E st') (p p' : Proof F P)
    (hUU : st.params.U = st'.params.U) (hU : st.params.U ≠ 0)
    (h : (Proof.proveInternal E R w st s t timing).1 = .ok p)
    (h' : (Proof.proveInternal E R' w' st' s' t' timing').1 = .ok p') : st.J = st'.J ↔ w.r = w'.r := by
  rcases C48_no_panic E R w st s t timing hw hst with ⟨-, -, -, -, hrel⟩ | hq | ⟨msg, hq⟩
  · rcases C48_no_panic E R' w' st' s' t' timing' hw' hst' with ⟨-, -, -, -, hrel'⟩ | hq | ⟨msg, hq⟩
    · rw [← hUU] at hrel'
      exact C51_linkable _ _ _ _ _ hU _ _ _ _ _ _ _ _ _ _ _ _ _ _ hrel hrel'
    · rw [h'] at hq; simp at hq
    · rw [h'] at hq; simp at hq
  · rw [h] at hq; simp at hq
  · rw [h] at hq; simp at hq

/-- C51 for any history of proofs made by the provers, with any witnesses, statements with common `G`, `G1` and `U`, transcripts
and generators: if the linking tags are pairwise different, there are at most as many proofs as different keys in all rings
together. -/
theorem C51_prover_history (E : Env F P) (G G1 U : P) (hG : G ≠ 0) (hU : U ≠ 0)
    (history : List (Statement P × Transcript × Proof F P))
    (hst : ∀ x ∈ history, StatementBuilt E x.1 ∧ x.1.params.G = G ∧ x.1.params.G1 = G1 ∧ x.1.params.U = U)
    (h : ∀ x ∈ history, Honest E x.1 x.2.1 x.2.2) (hnd : (history.map fun x => x.1.J).Nodup) :
    history.length ≤ (history.flatMap fun x => x.1.inputSet.M).toFinset.card := by
  have := C51_history (F := F) G G1 U hG hU (history.map fun x => (x.1.inputSet.M, x.1.J)) ?_ (by
    rw [List.map_map]; exact hnd)
  · rw [List.length_map, List.flatMap_map] at this
    exact this
  · intro y hy
    obtain ⟨x, hx, rfl⟩ := List.mem_map.1 hy
    obtain ⟨hb, rfl, rfl, rfl⟩ := hst x hx
    obtain ⟨σ, R, w, s, timing, hw, hp⟩ := h x hx
    rcases C48_no_panic E R w x.1 s x.2.1 timing hw hb with ⟨-, -, -, -, hrel⟩ | hq | ⟨msg, hq⟩
    · exact ⟨_, _, _, _, _, hrel⟩
    · rw [hp] at hq; simp at hq
    · rw [hp] at hq; simp at hq

/-- C51 for the verifier: two families of accepting calls, for statements with a common `U`, yield equal signing keys exactly if
the linking tags are equal; or a relation among commitment generators; or some call accepted because of its weights. -/
theorem C51_linkable_accepted [Fintype F] (E E' : ℕ → Env F P) (cfg cfg' : Config) (st st' : Statement P)
    (hst : ∀ e ≤ st.params.m, StatementBuilt (E e) st) (hst' : ∀ e ≤ st'.params.m, StatementBuilt (E' e) st')
    (hUU : st.params.U = st'.params.U) (hU : st.params.U ≠ 0)
    (hs : SmallSums F st.params.n) (hs' : SmallSums F st'.params.n) (p p' : ℕ → Proof F P) (t t' : ℕ → Transcript)
    (hξ : Set.InjOn (fun e => challenge (E e) (t e) st (p e)) (range (st.params.m + 1)))
    (hξ' : Set.InjOn (fun e => challenge (E' e) (t' e) st' (p' e)) (range (st'.params.m + 1)))
    (hsame : ∀ e ≤ st.params.m, SameCommitments (p e) (p 0))
    (hsame' : ∀ e ≤ st'.params.m, SameCommitments (p' e) (p' 0))
    (hacc : ∀ e ≤ st.params.m, (Proof.verify (E e) cfg (p e) st (t e)).1 = .ok ())
    (hacc' : ∀ e ≤ st'.params.m, (Proof.verify (E' e) cfg' (p' e) st' (t' e)).1 = .ok ()) :
    (st.J = st'.J ↔
      extractKey st.params.m (fun e => challenge (E e) (t e) st (p e)) (fun e => (p e).z) =
        extractKey st'.params.m (fun e => challenge (E' e) (t' e) st' (p' e)) (fun e => (p' e).z)) ∨
      ExtractedRelation st.params p (fun e => challenge (E e) (t e) st (p e)) ∨
      ExtractedRelation st'.params p' (fun e => challenge (E' e) (t' e) st' (p' e)) ∨
      (∃ e ≤ st.params.m, LuckyWeights (E e) st (p e) (t e)) ∨ ∃ e ≤ st'.params.m, LuckyWeights (E' e) st' (p' e) (t' e) := by
  rcases C51_accepted E cfg st hst hs p t hξ hsame hacc with h | h | ⟨e, he, hv, bad, b1, b2, b3⟩
  · rcases C51_accepted E' cfg' st' hst' hs' p' t' hξ' hsame' hacc' with h' | h' | ⟨e, he, hv, bad, b1, b2, b3⟩
    · rw [← hUU] at h'
      exact Or.inl (C51_linkable _ _ _ _ _ hU _ _ _ _ _ _ _ _ _ _ _ _ _ _ h h')
    · exact Or.inr (Or.inr (Or.inl h'))
    · exact Or.inr (Or.inr (Or.inr (Or.inr ⟨e, he, hv, bad, b1, b2, b3⟩)))
  · exact Or.inr (Or.inl h)
  · exact Or.inr (Or.inr (Or.inr (Or.inl ⟨e, he, hv, bad, b1, b2, b3⟩)))

/-! ## The RingCT example -/

/-- C55, balance for the verifier: accepting calls with the same commitments and different challenges, for a statement whose
offset commits to `v'` and whose ring commits to values all different from `v'`, yield `H` as an explicit multiple of `G1`, or a
relation among the commitment generators, or some call accepted because of its weights. -/
theorem C55_accepted [Fintype F] (E : ℕ → Env F P) (cfg : Config) (st : Statement P)
    (hst : ∀ e ≤ st.params.m, StatementBuilt (E e) st) (hs : SmallSums F st.params.n) (p : ℕ → Proof F P) (t : ℕ → Transcript)
    (hξ : Set.InjOn (fun e => challenge (E e) (t e) st (p e)) (range (st.params.m + 1)))
    (hsame : ∀ e ≤ st.params.m, SameCommitments (p e) (p 0))
    (hacc : ∀ e ≤ st.params.m, (Proof.verify (E e) cfg (p e) st (t e)).1 = .ok ())
    (H : P) (values masks : ℕ → F) (v' b : F) (hoff : st.offset = v' • H + b • st.params.G1)
    (hring : ∀ i < st.params.n ^ st.params.m, st.inputSet.M1[i]? = some (values i • H + masks i • st.params.G1))
    (hv : ∀ i < st.params.n ^ st.params.m, values i ≠ v') :
    (∃ l < st.params.n ^ st.params.m,
      H = ((extractKey st.params.m (fun e => challenge (E e) (t e) st (p e)) (fun e => (p e).z1) + b - masks l) /
        (values l - v')) • st.params.G1) ∨
    ExtractedRelation st.params p (fun e => challenge (E e) (t e) st (p e)) ∨
    ∃ e ≤ st.params.m, LuckyWeights (E e) st (p e) (t e) := by
  rcases C51_accepted E cfg st hst hs p t hξ hsame hacc with h | h | ⟨e, he, hv, bad, b1, b2, b3⟩
  · left
    have hl := (List.getElem?_eq_some_iff.1 h.1).1
    rw [(hst 0 (Nat.zero_le _)).ok.length] at hl
    refine ⟨_, hl, ?_⟩
    rw [hoff] at h
    exact C55_sound _ _ _ _ _ _ _ _ _ _ _ _ _ _ h (hring _ hl) (hv _ hl)
  · exact Or.inr (Or.inl h)
  · exact Or.inr (Or.inr ⟨e, he, hv, bad, b1, b2, b3⟩)

/-! ## Acceptance at the size of the Ristretto group -/

local notation "ℓ" => (2 ^ 252 + 27742317777372353535851937790883648493 : ℕ)

open Classical in
/-- C58 for the parallel verifier. -/
theorem C58_accepted_parallel {P : Type} [AddCommGroup P] [Module (ZMod ℓ) P] [DecidableEq P] (E : Env (ZMod ℓ) P)
    (cfg : Config) (first : Statement P) (rest : List (Statement P)) (ps : List (Proof (ZMod ℓ) P)) (ts : List Transcript)
    (hst : StatementBuilt E first) (h : (Proof.verifyBatch E cfg (first :: rest) ps ts).1 = .ok ())
    (i : ℕ) (st : Statement P) (p : Proof (ZMod ℓ) P) (ξ : ZMod ℓ) (hi : (first :: rest)[i]? = some st) (hp : ps[i]? = some p)
    (hξ : (challenges E (first :: rest) ps ts)[i]? = some ξ)
    (hv : ¬ Valid first.params first.inputSet.M first.inputSet.M1 st.offset st.J p ξ) :
    ∃ bad all : Finset (Fin ps.length × Fin 5 → ZMod ℓ),
      all = ({w | ∀ x, w x ≠ 0} : Finset _) ∧
      bad = ({w ∈ all | batchSum first.params first.inputSet.M first.inputSet.M1 (first :: rest) ps
        (challenges E (first :: rest) ps ts) (weightList w) = 0} : Finset _) ∧
      2 ^ 252 * #bad < #all ∧ ∃ w ∈ bad, IsWeights E (first :: rest) ps ts (weightList w) := by
  obtain ⟨bad, b1, b2, b3⟩ := C50_exceptional E cfg first rest ps ts hst h i st p ξ hi hp hξ hv
  have hall : ({w : Fin ps.length × Fin 5 → ZMod ℓ | ∀ x, w x ≠ 0} : Finset _) =
      Fintype.piFinset (fun _ => univ.erase (0 : ZMod ℓ)) := by
    ext w
    simp
  refine ⟨bad, _, rfl, by rw [b1, filter_filter], ?_, b3⟩
  have hc : #(univ.erase (0 : ZMod ℓ)) = ℓ - 1 := by
    rw [card_erase_of_mem (mem_univ _), card_univ, ZMod.card]
  have hcard : Fintype.card (Fin ps.length × Fin 5) = 5 * ps.length := by simp [mul_comm]
  rw [hall, Fintype.card_piFinset, Finset.prod_const, Finset.card_univ, hcard, hc]
  rw [ZMod.card] at b2
  have hpos : 0 < ps.length := by have := (List.getElem?_eq_some_iff.1 hp).1; omega
  exact fraction _ _ _ _ (by omega) (Nat.pow_pos (by norm_num)) (by norm_num) b2

/-! ## Concrete cases -/

namespace Toy
open Triptych.Toy (get)

/-- Objects over the scalar field of Ristretto, in an environment in which all weights are the same. -/
abbrev S := ZMod ℓ
def weak : Env S S := Triptych.Toy.Ristretto.weak
def wParams : Params S := get ⟨0, 0, 0, 0, 0, [], 0, []⟩ (Params.new weak 2 2)
theorem wParams_new : Params.new weak 2 2 = .ok wParams := by decide +kernel
def wKeys : List S := [(3 : S), 5, 7, 11].map fun r => r • wParams.G
def wKeys1 : List S := [(4 : S), 6, 9, 12].map fun r => r • wParams.G1 + 13
def wInputSet : InputSet S := get ⟨[], [], []⟩ (InputSet.new weak wKeys wKeys1)
theorem wInputSet_new : InputSet.new weak wKeys wKeys1 = .ok wInputSet := by decide +kernel
def wWitness : Witness S S := get ⟨wParams, 0, 0, 0⟩ (Witness.new wParams 2 7 9)
theorem wWitness_new : Witness.new wParams 2 (7 : S) 9 = .ok wWitness := by decide +kernel
def wStatement : Statement S := get ⟨wParams, wInputSet, 0, 0, []⟩
  (Statement.new weak wParams wInputSet 13 wWitness.computeLinkingTag)
theorem wStatement_new : Statement.new weak wParams wInputSet 13 wWitness.computeLinkingTag = .ok wStatement := by
  decide +kernel
def wProof : Proof S S := get ⟨0, 0, 0, 0, [], [], [], [], 0, 0, 0, 0⟩
  (Proof.proveWithRng weak nullRng wWitness wStatement () Triptych.Toy.transcript).1

/-- A proof with two responses changed so that the errors cancel for equal weights. -/
def wrong : Proof S S := { wProof with zA := wProof.zA + 1, zC := wProof.zC - 1 }

end Toy

/-- C58_accepted_parallel: an accepted proof that is not valid, with weights that are all equal. -/
example : StatementBuilt Toy.weak Toy.wStatement ∧
    (Proof.verifyBatch Toy.weak Triptych.Toy.cfg [Toy.wStatement] [Toy.wrong] [Triptych.Toy.transcript]).1 = .ok () ∧
    ∃ ξ, (challenges Toy.weak [Toy.wStatement] [Toy.wrong] [Triptych.Toy.transcript])[0]? = some ξ ∧
      ¬ Valid Toy.wStatement.params Toy.wStatement.inputSet.M Toy.wStatement.inputSet.M1 Toy.wStatement.offset Toy.wStatement.J
        Toy.wrong ξ := by
  refine ⟨⟨_, _, _, _, ⟨_, _, _, _, _, Toy.wParams_new⟩, Or.inl ⟨_, _, Toy.wInputSet_new⟩, Toy.wStatement_new⟩, by decide +kernel,
    challenge Toy.weak Triptych.Toy.transcript Toy.wStatement Toy.wrong, by decide +kernel, fun h => ?_⟩
  have := h.e1
  revert this
  decide +kernel

/-- C51_prover, C51_prover_history, C54_accepted and the binding theorems: two signers of one ring, with different keys and tags,
whose proofs are accepted. -/
example : WitnessBuilt (Triptych.Toy.env 101) Toy.witness ∧ WitnessBuilt (Triptych.Toy.env 101) Toy.witness' ∧
    StatementBuilt (Triptych.Toy.env 101) Toy.statement ∧ StatementBuilt (Triptych.Toy.env 101) Toy.statement' ∧
    Toy.statement.params.U = Toy.statement'.params.U ∧ Toy.statement.params.U ≠ 0 ∧ Toy.statement.params.G ≠ 0 ∧
    Toy.statement.params.G = Toy.statement'.params.G ∧ Toy.statement.params.G1 = Toy.statement'.params.G1 ∧
    BuiltFrom (Triptych.Toy.env 101) Toy.statement.inputSet Toy.keys Toy.keys1 ∧
    Honest (Triptych.Toy.env 101) Toy.statement Triptych.Toy.transcript Toy.proof ∧
    Honest (Triptych.Toy.env 101) Toy.statement' Triptych.Toy.transcript' Toy.proof' ∧
    [Toy.statement.J, Toy.statement'.J].Nodup ∧ (Triptych.Toy.env 101).Lawful ∧
    (Proof.verify (Triptych.Toy.env 101) Triptych.Toy.cfg Toy.proof Toy.statement Triptych.Toy.transcript).1 = .ok () :=
  ⟨Toy.witness_built, Toy.witness'_built, Toy.statement_built, Toy.statement'_built, by decide +kernel, by decide +kernel,
    by decide +kernel, by decide +kernel, by decide +kernel, Or.inl (by decide +kernel),
    ⟨Unit, nullRng, Toy.witness, (), .Constant, Toy.witness_built, Toy.proof_new⟩,
    ⟨Unit, nullRng, Toy.witness', (), .Constant, Toy.witness'_built, Toy.proof'_new⟩, by decide +kernel,
    Triptych.Toy.env_lawful 101 (by norm_num), Toy.verify_ok⟩

end Triptych.Parallel
