import Verif.Props.Transcripts
import Verif.Props.Soundness
import Verif.Props.Ristretto
import Verif.Props.Parallel.Transcripts
import Verif.Spec.Api

/-! # Statements about several calls of the API: C21, C23, C24, C26, C58 -/
set_option autoImplicit false
set_option linter.unusedSectionVars false

namespace Triptych
open Spec Finset

variable {F P : Type} [Field F] [AddCommGroup P] [Module F P] [DecidableEq F] [DecidableEq P]

/-! ## Transcripts -/

/-- C26: after accepting, the verifier has appended the statement hash and the whole proof, with the challenge in between, to the
caller's transcript. -/
theorem C26_accepted (E : Env F P) (cfg : Config) (st : Statement P) (p : Proof F P) (t : Transcript)
    (hst : StatementBuilt E st) (h : (Proof.verify E cfg p st t).1 = .ok ()) :
    (Proof.verify E cfg p st t).2 = [t ++ [.append "dom-sep" (asciiBytes "Triptych proof"), .append "version" versionBytes,
      .append "statement" st.hash, .append "A" (E.compress p.A), .append "B" (E.compress p.B), .append "C" (E.compress p.C),
      .append "D" (E.compress p.D)] ++ points E "X" p.X ++ points E "Y" p.Y ++ [.challenge "xi" 64] ++
      scalars E "f" p.f.flatten ++ [.append "z_A" (E.scalarBytes p.zA), .append "z_C" (E.scalarBytes p.zC),
        .append "z" (E.scalarBytes p.z)]] := by
  obtain ⟨h1, h2, h3, -⟩ := C18_accepted E cfg st [] [p] [t] hst h
  exact (C26_extends E cfg st [] [p] [t] hst h1 h2 h3).1

/-- C23 for the prover: two successful calls that leave the caller's transcripts in the same state were made with the same
initial transcripts, parameters, rings, unpadded keys, tags and commitments, unless one of three explicit pairs of different
transcripts has the same Merlin challenge. -/
theorem C23_prover {σ σ' : Type} (E : Env F P) (hE : E.Lawful) (R : Rng σ) (R' : Rng σ') (w w' : Witness F P)
    (st st' : Statement P) (s : σ) (s' : σ') (t t' : Transcript) (timing timing' : OperationTiming) (hw : WitnessBuilt E w)
    (hw' : WitnessBuilt E w') (hst : StatementBuilt E st) (hst' : StatementBuilt E st') (M M' : List P)
    (hM : BuiltFrom E st.inputSet M) (hM' : BuiltFrom E st'.inputSet M') (p p' : Proof F P)
    (h : (Proof.proveInternal E R w st s t timing).1 = .ok p) (h' : (Proof.proveInternal E R' w' st' s' t' timing').1 = .ok p')
    (heq : (Proof.proveInternal E R w st s t timing).2.1 = (Proof.proveInternal E R' w' st' s' t' timing').2.1) :
    (t = t' ∧ st.hash = st'.hash ∧ p.A = p'.A ∧ p.B = p'.B ∧ p.C = p'.C ∧ p.D = p'.D ∧ p.X = p'.X ∧ p.Y = p'.Y) ∧
    ((st.params = st'.params ∧ st.inputSet.M = st'.inputSet.M ∧ M = M' ∧ st.J = st'.J) ∨
      ∃ a b, a ≠ b ∧ E.challenge a = E.challenge b ∧
        ((a = statementTranscript E st.params.hash st.inputSet.hash st.J ∧
            b = statementTranscript E st'.params.hash st'.inputSet.hash st'.J) ∨
          (a = paramsTranscript E st.params.n st.params.m st.params.G st.params.U st.params.CommitmentG
              st.params.CommitmentH ∧
            b = paramsTranscript E st'.params.n st'.params.m st'.params.G st'.params.U st'.params.CommitmentG
              st'.params.CommitmentH) ∨
          (a = inputSetTranscript E st.inputSet.M M.length ∧ b = inputSetTranscript E st'.inputSet.M M'.length))) := by
  rw [C26_prover E R w st s t timing hw hst p h, C26_prover E R' w' st' s' t' timing' hw' hst' p' h'] at heq
  refine ⟨C23_binding E hE t t' st.hash st'.hash p.A p.B p.C p.D _ _ _ _ p.X p.Y _ _ heq, ?_⟩
  rcases C23_statement E hE t t' st st' p p' hst hst' M M' hM hM' heq with h | h
  · exact Or.inl h.2
  · exact Or.inr h

/-- C23 for the verifier: two accepting calls that leave the caller's transcripts in the same state were made with the same
initial transcripts and proofs, and, up to hash collisions, for the same statements. -/
theorem C23_verifier (E : Env F P) (hE : E.Lawful) (cfg cfg' : Config) (st st' : Statement P) (p p' : Proof F P)
    (t t' : Transcript) (hst : StatementBuilt E st) (hst' : StatementBuilt E st') (hn : st.params.n = st'.params.n)
    (M M' : List P) (hM : BuiltFrom E st.inputSet M) (hM' : BuiltFrom E st'.inputSet M')
    (h : (Proof.verify E cfg p st t).1 = .ok ()) (h' : (Proof.verify E cfg' p' st' t').1 = .ok ())
    (heq : (Proof.verify E cfg p st t).2 = (Proof.verify E cfg' p' st' t').2) :
    (t = t' ∧ st.hash = st'.hash ∧ p = p') ∧
    ((st.params = st'.params ∧ st.inputSet.M = st'.inputSet.M ∧ M = M' ∧ st.J = st'.J) ∨
      ∃ a b, a ≠ b ∧ E.challenge a = E.challenge b ∧
        ((a = statementTranscript E st.params.hash st.inputSet.hash st.J ∧
            b = statementTranscript E st'.params.hash st'.inputSet.hash st'.J) ∨
          (a = paramsTranscript E st.params.n st.params.m st.params.G st.params.U st.params.CommitmentG
              st.params.CommitmentH ∧
            b = paramsTranscript E st'.params.n st'.params.m st'.params.G st'.params.U st'.params.CommitmentG
              st'.params.CommitmentH) ∨
          (a = inputSetTranscript E st.inputSet.M M.length ∧ b = inputSetTranscript E st'.inputSet.M M'.length))) := by
  have hs := (C18_accepted E cfg st [] [p] [t] hst h).1.shapes p (by simp)
  have hs' := (C18_accepted E cfg' st' [] [p'] [t'] hst' h').1.shapes p' (by simp)
  rw [C26_accepted E cfg st p t hst h, C26_accepted E cfg' st' p' t' hst' h', List.cons.injEq] at heq
  have h2 := hst.ok.params.n
  obtain ⟨c1, c2, c3⟩ := C23_response E hE t t' st st' p p' ⟨st.params.n - 1, by
    intro row hrow
    rcases List.mem_append.1 hrow with hr | hr
    · exact ⟨hs.row row hr, by omega⟩
    · exact ⟨by rw [hs'.row row hr, hn], by omega⟩⟩ heq.1
  subst c1 c3
  refine ⟨⟨rfl, c2, rfl⟩, ?_⟩
  rcases C07_binding E hE st st' hst hst' M M' hM hM' c2 with h | h | h | h
  · exact Or.inl h
  · exact Or.inr ⟨_, _, h.1, h.2, Or.inl ⟨rfl, rfl⟩⟩
  · exact Or.inr ⟨_, _, h.1, h.2, Or.inr (Or.inl ⟨rfl, rfl⟩)⟩
  · exact Or.inr ⟨_, _, h.1, h.2, Or.inr (Or.inr ⟨rfl, rfl⟩)⟩

/-- C24 for the provers: a single and a parallel proof never leave transcripts in the same state, and their first message after
the caller's transcript tells them apart. -/
theorem C24_prover {σ σ' : Type} (E : Env F P) (hE : E.Lawful) (R : Rng σ) (R' : Rng σ') (w : Witness F P)
    (w' : Parallel.Witness F P) (st : Statement P) (st' : Parallel.Statement P) (s : σ) (s' : σ') (t t' : Transcript)
    (timing timing' : OperationTiming) (hw : WitnessBuilt E w) (hw' : Parallel.Spec.WitnessBuilt E w')
    (hst : StatementBuilt E st) (hst' : Parallel.Spec.StatementBuilt E st') (p : Proof F P) (p' : Parallel.Proof F P)
    (h : (Proof.proveInternal E R w st s t timing).1 = .ok p)
    (h' : (Parallel.Proof.proveInternal E R' w' st' s' t' timing').1 = .ok p') :
    (Proof.proveInternal E R w st s t timing).2.1 ≠ (Parallel.Proof.proveInternal E R' w' st' s' t' timing').2.1 ∧
    t ++ [.append "dom-sep" (asciiBytes "Triptych proof")] <+: (Proof.proveInternal E R w st s t timing).2.1 ∧
    t' ++ [.append "dom-sep" (asciiBytes "Parallel Triptych proof")] <+:
      (Parallel.Proof.proveInternal E R' w' st' s' t' timing').2.1 := by
  rw [C26_prover E R w st s t timing hw hst p h, Parallel.C54_prover E R' w' st' s' t' timing' hw' hst' p' h']
  refine ⟨C24_proof E hE t t' st.hash st'.hash p.A p.B p.C p.D p'.A p'.B p'.C p'.D p.X p.Y p'.X p'.X1 p'.Y, ?_, ?_⟩ <;>
  · simp only [List.append_assoc, List.prefix_append_right_inj, List.cons_append, List.nil_append]
    exact ⟨_, rfl⟩

/-- C24 for the verifiers. -/
theorem C24_verifier (E : Env F P) (cfg cfg' : Config) (st : Statement P) (st' : Parallel.Statement P)
    (p : Proof F P) (p' : Parallel.Proof F P) (t t' : Transcript) (hst : StatementBuilt E st)
    (hst' : Parallel.Spec.StatementBuilt E st') (h : (Proof.verify E cfg p st t).1 = .ok ())
    (h' : (Parallel.Proof.verify E cfg' p' st' t').1 = .ok ()) :
    (Proof.verify E cfg p st t).2 ≠ (Parallel.Proof.verify E cfg' p' st' t').2 ∧
    (∃ x, (Proof.verify E cfg p st t).2 = [x] ∧ t ++ [.append "dom-sep" (asciiBytes "Triptych proof")] <+: x) ∧
    ∃ x, (Parallel.Proof.verify E cfg' p' st' t').2 = [x] ∧
      t' ++ [.append "dom-sep" (asciiBytes "Parallel Triptych proof")] <+: x := by
  have e := C26_accepted E cfg st p t hst h
  obtain ⟨h1, h2, h3, -⟩ := Parallel.C50_accepted E cfg' st' [] [p'] [t'] hst' h'
  have e' := (Parallel.C54_extends E cfg' st' [] [p'] [t'] hst' h1 h2 h3).1
  rw [← Parallel.Proof.verify] at e'
  rw [e, e', show Parallel.Spec.responseTranscripts E [st'] [p'] [t'] = [Parallel.Spec.responseTranscript E t' st' p'] from rfl,
    Parallel.Spec.responseTranscript, Parallel.Spec.challengeTranscript]
  refine ⟨?_, ⟨_, rfl, ?_⟩, ⟨_, rfl, ?_⟩⟩
  · intro hc
    rw [List.cons.injEq] at hc
    have := congrArg List.getLast? hc.1
    rw [List.getLast?_append_of_ne_nil _ (by simp), List.getLast?_append_of_ne_nil _ (by simp)] at this
    have h4 : Op.append "z" (E.scalarBytes p.z) = Op.append "z1" (E.scalarBytes p'.z1) := Option.some.inj this
    rw [Op.append.injEq] at h4
    exact absurd h4.1 (by decide)
  all_goals
    simp only [List.append_assoc, List.prefix_append_right_inj, List.cons_append, List.nil_append]
    exact ⟨_, rfl⟩

/-- C24 for the objects: parameters, input sets and statements of the two protocols have the same hash only if two explicit
different transcripts have the same Merlin challenge. -/
theorem C24_objects (E : Env F P) :
    (∀ (a : Params P) (b : Parallel.Params P), ParamsBuilt E a → Parallel.Spec.ParamsBuilt E b →
      ∃ x y, x ≠ y ∧ a.hash = E.challenge x ∧ b.hash = E.challenge y ∧
        x = paramsTranscript E a.n a.m a.G a.U a.CommitmentG a.CommitmentH ∧
        y = Parallel.Spec.paramsTranscript E b.n b.m b.G b.G1 b.U b.CommitmentG b.CommitmentH) ∧
    (∀ (a : InputSet P) (b : Parallel.InputSet P) (M M' M1' : List P), BuiltFrom E a M →
      Parallel.BuiltFrom E b M' M1' →
      ∃ x y, x ≠ y ∧ a.hash = E.challenge x ∧ b.hash = E.challenge y ∧
        x = inputSetTranscript E a.M M.length ∧ y = Parallel.Spec.inputSetTranscript E b.M b.M1 M'.length) ∧
    ∀ (a : Statement P) (b : Parallel.Statement P), StatementBuilt E a → Parallel.Spec.StatementBuilt E b →
      ∃ x y, x ≠ y ∧ a.hash = E.challenge x ∧ b.hash = E.challenge y ∧
        x = statementTranscript E a.params.hash a.inputSet.hash a.J ∧
        y = Parallel.Spec.statementTranscript E b.params.hash b.inputSet.hash b.offset b.J := by
  obtain ⟨h1, h2, h3, -⟩ := C24_hashes E
  refine ⟨fun a b ha hb => ⟨_, _, h1 _ _ _ _ _ _ _ _ _ _ _ _ _, C03_hash E a ha, Parallel.C45_hash E b hb, rfl, rfl⟩,
    fun a b M M' M1' ha hb => ⟨_, _, h2 _ _ _ _ _, (C05_hash E a M ha).2.2, (Parallel.C46_input_set_hash E b M' M1' hb).2.2.2.2,
      rfl, rfl⟩,
    fun a b ha hb => ⟨_, _, h3 _ _ _ _ _ _ _, C07_hash E a ha, Parallel.C46_statement_hash E b hb, rfl, rfl⟩⟩

/-! ## Linkability -/

/-- C21 for the prover: two successful calls, for statements with a common `U`, have the same linking tag exactly if they were
made with the same signing key. -/
theorem C21_prover {σ σ' : Type} (E : Env F P) (R : Rng σ) (R' : Rng σ') (w w' : Witness F P) (st st' : Statement P) (s : σ)
    (s' : σ') (t t' : Transcript) (timing timing' : OperationTiming) (hw : WitnessBuilt E w) (hw' : WitnessBuilt E w')
    (hst : StatementBuilt E st) (hst' : StatementBuilt E st') (p p' : Proof F P)
    (hUU : st.params.U = st'.params.U) (hU : st.params.U ≠ 0)
    (h : (Proof.proveInternal E R w st s t timing).1 = .ok p)
    (h' : (Proof.proveInternal E R' w' st' s' t' timing').1 = .ok p') : st.J = st'.J ↔ w.r = w'.r := by
  rcases C11_no_panic E R w st s t timing hw hst with ⟨-, -, -, -, hrel⟩ | hq | ⟨msg, hq⟩
  · rcases C11_no_panic E R' w' st' s' t' timing' hw' hst' with ⟨-, -, -, -, hrel'⟩ | hq | ⟨msg, hq⟩
    · rw [← hUU] at hrel'
      exact C21_linkable _ _ _ hU _ _ _ _ _ _ _ _ hrel hrel'
    · rw [h'] at hq; simp at hq
    · rw [h'] at hq; simp at hq
  · rw [h] at hq; simp at hq
  · rw [h] at hq; simp at hq

/-- C21 for any history of proofs made by the provers, with any witnesses, statements with common `G` and `U`, transcripts and
generators: if the linking tags are pairwise different, there are at most as many proofs as different keys in all rings
together. -/
theorem C21_prover_history (E : Env F P) (G U : P) (hG : G ≠ 0) (hU : U ≠ 0)
    (history : List (Statement P × Transcript × Proof F P))
    (hst : ∀ x ∈ history, StatementBuilt E x.1 ∧ x.1.params.G = G ∧ x.1.params.U = U)
    (h : ∀ x ∈ history, Honest E x.1 x.2.1 x.2.2) (hnd : (history.map fun x => x.1.J).Nodup) :
    history.length ≤ (history.flatMap fun x => x.1.inputSet.M).toFinset.card := by
  have := C21_history (F := F) G U hG hU (history.map fun x => (x.1.inputSet.M, x.1.J)) ?_ (by
    rw [List.map_map]; exact hnd)
  · rw [List.length_map, List.flatMap_map] at this
    exact this
  · intro y hy
    obtain ⟨x, hx, rfl⟩ := List.mem_map.1 hy
    obtain ⟨hb, rfl, rfl⟩ := hst x hx
    obtain ⟨σ, R, w, s, timing, hw, hp⟩ := h x hx
    rcases C11_no_panic E R w x.1 s x.2.1 timing hw hb with ⟨-, -, -, -, hrel⟩ | hq | ⟨msg, hq⟩
    · exact ⟨_, _, hrel⟩
    · rw [hp] at hq; simp at hq
    · rw [hp] at hq; simp at hq

/-- C21 for the verifier: two families of accepting calls as in C20, for statements with a common `U`, yield equal signing keys
exactly if the linking tags are equal; or a relation among commitment generators; or some call accepted because of its
weights. -/
theorem C21_accepted [Fintype F] (E E' : ℕ → Env F P) (cfg cfg' : Config) (st st' : Statement P)
    (hst : ∀ e ≤ st.params.m, StatementBuilt (E e) st) (hst' : ∀ e ≤ st'.params.m, StatementBuilt (E' e) st')
    (hUU : st.params.U = st'.params.U) (hU : st.params.U ≠ 0)
    (hs : SmallSums F st.params.n) (hs' : SmallSums F st'.params.n) (p p' : ℕ → Proof F P) (t t' : ℕ → Transcript)
    (hξ : Set.InjOn (fun e => challenge (E e) (t e) st (p e)) (range (st.params.m + 1)))
    (hξ' : Set.InjOn (fun e => challenge (E' e) (t' e) st' (p' e)) (range (st'.params.m + 1)))
    (hsame : ∀ e ≤ st.params.m, SameCommitments (p e) (p 0))
    (hsame' : ∀ e ≤ st'.params.m, SameCommitments (p' e) (p' 0))
    (hacc : ∀ e ≤ st.params.m, (Proof.verify (E e) cfg (p e) st (t e)).1 = .ok ())
    (hacc' : ∀ e ≤ st'.params.m, (Proof.verify (E' e) cfg' (p' e) st' (t' e)).1 = .ok ()) :
    (st.J = st'.J ↔
      extractKey st.params.m (fun e => challenge (E e) (t e) st (p e)) (fun e => (p e).z) =
        extractKey st'.params.m (fun e => challenge (E' e) (t' e) st' (p' e)) (fun e => (p' e).z)) ∨
      ExtractedRelation st.params p (fun e => challenge (E e) (t e) st (p e)) ∨
      ExtractedRelation st'.params p' (fun e => challenge (E' e) (t' e) st' (p' e)) ∨
      (∃ e ≤ st.params.m, LuckyWeights (E e) st (p e) (t e)) ∨ ∃ e ≤ st'.params.m, LuckyWeights (E' e) st' (p' e) (t' e) := by
  rcases C20_accepted E cfg st hst hs p t hξ hsame hacc with h | h | ⟨e, he, hv, bad, b1, b2, b3⟩
  · rcases C20_accepted E' cfg' st' hst' hs' p' t' hξ' hsame' hacc' with h' | h' | ⟨e, he, hv, bad, b1, b2, b3⟩
    · rw [← hUU] at h'
      exact Or.inl (C21_linkable _ _ _ hU _ _ _ _ _ _ _ _ h h')
    · exact Or.inr (Or.inr (Or.inl h'))
    · exact Or.inr (Or.inr (Or.inr (Or.inr ⟨e, he, hv, bad, b1, b2, b3⟩)))
  · exact Or.inr (Or.inl h)
  · exact Or.inr (Or.inr (Or.inr (Or.inl ⟨e, he, hv, bad, b1, b2, b3⟩)))

/-! ## Acceptance at the size of the Ristretto group -/

local notation "ℓ" => (2 ^ 252 + 27742317777372353535851937790883648493 : ℕ)

open Classical in
/-- C58 for the verifier: if a batch containing an invalid proof is accepted, the weights derived from it are in an explicit set
which contains fewer than one in `2 ^ 252` of all vectors of non-zero weights. -/
theorem C58_accepted {P : Type} [AddCommGroup P] [Module (ZMod ℓ) P] [DecidableEq P] (E : Env (ZMod ℓ) P) (cfg : Config)
    (first : Statement P) (rest : List (Statement P)) (ps : List (Proof (ZMod ℓ) P)) (ts : List Transcript)
    (hst : StatementBuilt E first) (h : (Proof.verifyBatch E cfg (first :: rest) ps ts).1 = .ok ())
    (i : ℕ) (st : Statement P) (p : Proof (ZMod ℓ) P) (ξ : ZMod ℓ) (hi : (first :: rest)[i]? = some st) (hp : ps[i]? = some p)
    (hξ : (challenges E (first :: rest) ps ts)[i]? = some ξ) (hv : ¬ Valid first.params first.inputSet.M st.J p ξ) :
    ∃ bad all : Finset (Fin ps.length × Fin 4 → ZMod ℓ),
      all = ({w | ∀ x, w x ≠ 0} : Finset _) ∧
      bad = ({w ∈ all | batchSum first.params first.inputSet.M (first :: rest) ps
        (challenges E (first :: rest) ps ts) (weightList w) = 0} : Finset _) ∧
      2 ^ 252 * #bad < #all ∧ ∃ w ∈ bad, IsWeights E (first :: rest) ps ts (weightList w) := by
  obtain ⟨bad, b1, b2, b3⟩ := C19_accepted E cfg first rest ps ts hst h i st p ξ hi hp hξ hv
  have hall : ({w : Fin ps.length × Fin 4 → ZMod ℓ | ∀ x, w x ≠ 0} : Finset _) =
      Fintype.piFinset (fun _ => univ.erase (0 : ZMod ℓ)) := by
    ext w
    simp
  refine ⟨bad, _, rfl, by rw [b1, filter_filter], ?_, b3⟩
  have hc : #(univ.erase (0 : ZMod ℓ)) = ℓ - 1 := by
    rw [card_erase_of_mem (mem_univ _), card_univ, ZMod.card]
  have hcard : Fintype.card (Fin ps.length × Fin 4) = 4 * ps.length := by simp [mul_comm]
  rw [hall, Fintype.card_piFinset, Finset.prod_const, Finset.card_univ, hcard, hc]
  rw [ZMod.card] at b2
  have hpos : 0 < ps.length := by have := (List.getElem?_eq_some_iff.1 hp).1; omega
  exact fraction _ _ _ _ (by omega) (Nat.pow_pos (by norm_num)) (by norm_num) b2

/-! ## Concrete cases -/

namespace Toy.Ristretto
open Triptych.Toy (env get transcript cfg)

/-- An environment in which all pseudorandom bytes, hence all weights, are the same. -/
def weak : Env S S := { env ℓ with prf := fun _ len => List.replicate len 1 }

theorem weak_built : StatementBuilt weak statement :=
  ⟨_, _, _, ⟨_, _, _, _, (by decide +kernel : Params.new weak 2 2 = .ok params)⟩,
    Or.inl ⟨_, (by decide +kernel : InputSet.new weak keys = .ok inputSet)⟩,
    (by decide +kernel : Statement.new weak params inputSet witness.computeLinkingTag = .ok statement)⟩

/-- A proof with two responses changed so that the errors cancel for equal weights. -/
def wrong : Proof S S := { proof with zA := proof.zA + 1, zC := proof.zC - 1 }

end Toy.Ristretto

/-- C58_accepted: an accepted proof that is not valid, with weights that are all equal. -/
example : StatementBuilt Toy.Ristretto.weak Toy.Ristretto.statement ∧
    (Proof.verifyBatch Toy.Ristretto.weak Toy.cfg [Toy.Ristretto.statement] [Toy.Ristretto.wrong] [Toy.transcript]).1 = .ok () ∧
    ∃ ξ, (challenges Toy.Ristretto.weak [Toy.Ristretto.statement] [Toy.Ristretto.wrong] [Toy.transcript])[0]? = some ξ ∧
      ¬ Valid Toy.Ristretto.statement.params Toy.Ristretto.statement.inputSet.M Toy.Ristretto.statement.J Toy.Ristretto.wrong ξ := by
  refine ⟨Toy.Ristretto.weak_built, by decide +kernel,
    challenge Toy.Ristretto.weak Toy.transcript Toy.Ristretto.statement Toy.Ristretto.wrong, by decide +kernel, fun h => ?_⟩
  have := h.e1
  revert this
  decide +kernel

/-- C21_prover, C21_prover_history, C23_prover, C26_accepted: two signers of one ring, with different keys and tags, whose proofs
are accepted. -/
example : WitnessBuilt (Toy.env 101) Toy.witness ∧ WitnessBuilt (Toy.env 101) Toy.witness' ∧
    StatementBuilt (Toy.env 101) Toy.statement ∧ StatementBuilt (Toy.env 101) Toy.statement' ∧
    Toy.statement.params.U = Toy.statement'.params.U ∧ Toy.statement.params.U ≠ 0 ∧ Toy.statement.params.G ≠ 0 ∧
    Toy.statement.params.G = Toy.statement'.params.G ∧
    BuiltFrom (Toy.env 101) Toy.statement.inputSet Toy.keys ∧
    Honest (Toy.env 101) Toy.statement Toy.transcript Toy.proof ∧
    Honest (Toy.env 101) Toy.statement' Toy.transcript' Toy.proof' ∧
    [Toy.statement.J, Toy.statement'.J].Nodup ∧ (Toy.env 101).Lawful ∧
    (Proof.verify (Toy.env 101) Toy.cfg Toy.proof Toy.statement Toy.transcript).1 = .ok () :=
  ⟨Toy.witness_built, Toy.witness'_built, Toy.statement_built, Toy.statement'_built, by decide +kernel, by decide +kernel,
    by decide +kernel, by decide +kernel, Or.inl (by decide +kernel),
    ⟨Unit, nullRng, Toy.witness, (), .Constant, Toy.witness_built, Toy.proof_new⟩,
    ⟨Unit, nullRng, Toy.witness', (), .Constant, Toy.witness'_built, Toy.proof'_new⟩, by decide +kernel,
    Toy.env_lawful 101 (by norm_num), Toy.verify_ok⟩

/-- C24_prover, C24_verifier, C24_objects: proofs of both kinds, made and accepted in the same environment. -/
example : Honest (Toy.env 101) Toy.statement Toy.transcript Toy.proof ∧
    Parallel.Spec.Honest (Toy.env 101) Parallel.Toy.statement Toy.transcript Parallel.Toy.proof ∧
    (Proof.verify (Toy.env 101) Toy.cfg Toy.proof Toy.statement Toy.transcript).1 = .ok () ∧
    (Parallel.Proof.verify (Toy.env 101) Toy.cfg Parallel.Toy.proof Parallel.Toy.statement Toy.transcript).1 = .ok () ∧
    StatementBuilt (Toy.env 101) Toy.statement ∧ Parallel.Spec.StatementBuilt (Toy.env 101) Parallel.Toy.statement :=
  ⟨⟨Unit, nullRng, Toy.witness, (), .Constant, Toy.witness_built, Toy.proof_new⟩,
    ⟨Unit, nullRng, Parallel.Toy.witness, (), .Constant, Parallel.Toy.witness_built, Parallel.Toy.proof_new⟩, Toy.verify_ok,
    Parallel.Toy.verify_ok, Toy.statement_built, Parallel.Toy.statement_built⟩

end Triptych
