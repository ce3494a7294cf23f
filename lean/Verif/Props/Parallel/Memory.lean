import Verif.Props.Memory
import Verif.Props.Parallel.Signing
import Verif.Lemmas.Parallel.Memory

/-! # What the parallel prover leaves in memory: C97

The prover erases its masks `rho` and `rho1`, and nothing else: neither the other random scalars nor the position of the keys. This is
enough to protect the keys: whoever sees all the rest, together with the signatures, can neither compute the keys nor forge. With the
masks anybody can compute the keys. -/
set_option autoImplicit false
set_option linter.unusedSectionVars false
set_option linter.unusedVariables false

namespace Triptych.Parallel
open Finset Function
open Triptych.Parallel.Spec
open Triptych.Spec (OracleProgram SigningProgram avg extend locate Block Block.bytes withOracle SmallSums)

variable {F P : Type} [Field F] [AddCommGroup P] [Module F P] [DecidableEq F] [DecidableEq P]

/-- C97: the model with memory returns what the prover returns. -/
theorem C97_result {σ : Type} (E : Env F P) (R : Rng σ) (w : Witness F P) (st : Statement P) (s : σ) (t : Transcript) :
    (Proof.proveWithRngM E R w st s t).2 = Proof.proveWithRng E R w st s t ∧
    (Proof.proveWithRngVartimeM E R w st s t).2 = Proof.proveWithRngVartime E R w st s t :=
  ⟨Proof.proveInternalM_out _ _ _ _ _ _ _, Proof.proveInternalM_out _ _ _ _ _ _ _⟩

/-- The commitments of a proof as variables that have died. -/
def Spec.commitmentCells (p : Proof F P) : List (Cell F P) :=
  [.points "A" [p.A], .points "B" [p.B], .points "C" [p.C], .points "D" [p.D], .points "X" p.X, .points "X1" p.X1,
    .points "Y" p.Y]

/-- C97: what a prover with a valid witness leaves in memory is the position of its key, its verification key and the auxiliary key
at this position, and a function of the sizes, the position, the mask matrix `a`, `r_A`, …, `r_D` and the offset. If the challenge is zero, it also leaves its commitments. It leaves
nothing else: in particular nothing depending on the keys or on the masks `rho` and `rho1`. -/
theorem C97_memory : ∃ g : ℕ → ℕ → ℕ → List (List F) → F → F → F → F → P → List (Cell F P),
    ∀ {σ : Type} (E : Env F P) (R : Rng σ) (w : Witness F P) (st : Statement P) (s : σ) (t : Transcript) (timing : OperationTiming)
      (hw : WitnessBuilt E w) (hst : StatementBuilt E st) (hp : w.params = st.params)
      (hrel : Rel st.params.G st.params.G1 st.params.U st.inputSet.M st.inputSet.M1 st.offset st.J w.l w.r w.r1) (nn : Nonces F)
      (hnn : nn = proverNonces E st.params.n st.params.m (proverKey E t st.hash w.l w.r w.r1 (R.fill s 32).1)),
      (Proof.proveInternalM E R w st s t timing).1 =
        [.words "l" [w.l], .points "M_l" [w.r • st.params.G], .points "M1_l" [w.r1 • st.params.G1 + st.offset]] ++
        g st.params.n st.params.m w.l nn.a nn.rA nn.rB nn.rC nn.rD st.offset ++
        if E.scalarOfWide (E.challenge (proverTranscript E t st w.l w.r w.r1 nn)) = 0
        then commitmentCells (honestProof st.params st.inputSet.M st.inputSet.M1 st.offset st.J w.l w.r w.r1 nn 0) else [] := by
  refine ⟨phaseCells, fun {σ} E R w st s t timing hw hst hp hrel nn hnn => ?_⟩
  have hok := hst.ok
  have hl : w.l < st.params.n ^ st.params.m := by
    rw [← hok.length]
    exact (List.getElem?_eq_some_iff.1 hrel.1).1
  have hcheck : Proof.checkWitness w st timing = .ok () :=
    (Proof.checkWitness_ok_iff w st (fun _ => by rw [hok.length, hok.length1]; exact ⟨hl, hl⟩) timing).2 ⟨hp, hrel⟩
  have hout := Proof.proveInternalM_out E R w st s t timing
  have hval := Proof.proveInternal_valid E R w st hok hl s t timing hp hrel nn hnn _ rfl
  rw [hval] at hout
  have hrng : (ProofTranscript.new E R t st s (some w)).trng = proverKey E t st.hash w.l w.r w.r1 (R.fill s 32).1 := by
    simp only [ProofTranscript.new, ProofTranscript.buildTranscriptRng, TRng.finalize, version_append,
      Transcript.appendMessage, proverKey, TRANSCRIPT_PARALLEL_PROOF]
    simp
  have hdraw : (Proof.drawNonces E st.params.n st.params.m (ProofTranscript.new E R t st s (some w)).trng).1 = nn := by
    rw [hrng, drawNonces_eq _ _ _ _ rfl, hnn]
  have hcells := Proof.commitPhaseM_cells E st hok w.l hl timing (ProofTranscript.new E R t st s (some w)).trng nn hdraw
  have hphase := Proof.commitPhaseM_out E w.l st timing (ProofTranscript.new E R t st s (some w)).trng
  have hshape : NonceShape st.params.n st.params.m nn := by rw [← hdraw]; exact drawNonces_shape E _ _ _
  obtain ⟨c, hc, hA, hB, hC, hD, hX, hX1, hY, ha, hs⟩ := Proof.commitPhase_eq st hok w.l hl timing nn hshape w.r w.r1 0
  rw [hdraw, hc, Outcome.bind_ok] at hphase
  rw [Proof.proveInternalM, Proof.checkWitnessM_out, hcheck, Proof.checkWitnessM_cells w st hok hl timing hp hrel] at hout ⊢
  simp only [hphase, hcells] at hout ⊢
  generalize (do
      let xiPowers ← _
      Proof.respondPhase _ _ _ _ _ xiPowers : Outcome ProofError (Proof F P)) = result at hout ⊢
  split
  · rename_i p hres
    split
    · rename_i h0
      rw [if_pos h0] at hout
      simp at hout
    · simp
  · rename_i hres
    split
    · simp [Proof.dropCommitments, commitmentCells, hA, hB, hC, hD, hX, hX1, hY]
    · rename_i h0
      rw [if_neg h0] at hout
      simp at hout
      exact absurd hout.1 (hres _)

/-- C97: a prover that rejects its witness leaves at most the position and the keys at this position of the ring. -/
theorem C97_invalid {σ : Type} (E : Env F P) (R : Rng σ) (w : Witness F P) (st : Statement P) (s : σ) (t : Transcript)
    (timing : OperationTiming) (hw : WitnessBuilt E w) (hst : StatementBuilt E st)
    (hbad : w.params ≠ st.params ∨ ¬ Rel st.params.G st.params.G1 st.params.U st.inputSet.M st.inputSet.M1 st.offset st.J w.l w.r w.r1) :
    ∀ x ∈ (Proof.proveInternalM E R w st s t timing).1, x = .words "l" [w.l] ∨ x = .points "M_l" [st.inputSet.M.getD w.l 0] ∨
      x = .points "M1_l" [st.inputSet.M1.getD w.l 0] := by
  have hok := hst.ok
  by_cases hp : w.params = st.params
  · have hl : w.l < st.inputSet.M.length ∧ w.l < st.inputSet.M1.length := by
      rw [hok.length, hok.length1, ← hp]; exact ⟨hw.ok.2, hw.ok.2⟩
    have hcheck := Proof.checkWitness_ok_iff w st (fun _ => hl) timing
    have hne : Proof.checkWitness w st timing ≠ .ok () := fun h => hbad.elim (fun h' => h' hp) fun h' => h' (hcheck.1 h).2
    have hcells : ∀ x ∈ (Proof.checkWitnessM w st timing).cells,
        x = .words "l" [w.l] ∨ x = .points "M_l" [st.inputSet.M.getD w.l 0] ∨
      x = .points "M1_l" [st.inputSet.M1.getD w.l 0] := by
      rw [Proof.checkWitnessM, if_neg (not_not.2 hp), Kept.keep_bind, Kept.run_bind _ _ _ (selectKeys_eq _ _ _ hl.1 hl.2 timing), Kept.keep_bind,
        Kept.keep_bind]
      split
      · simp
      · split
        · simp
        · split <;> simp
    rw [Proof.proveInternalM, Proof.checkWitnessM_out]
    cases h : Proof.checkWitness w st timing with
    | ok u => exact absurd h hne
    | err e => exact hcells
    | panic => exact hcells
    | diverge => exact hcells
  · rw [Proof.proveInternalM, Proof.checkWitnessM, if_pos hp]
    simp

/-- C97: a witness leaves nothing but zeros, and computing the linking tag leaves nothing of the key. -/
theorem C97_witness (w w' : Witness F P) : w.drop = w'.drop ∧
    (w.computeLinkingTagM : Kept F P Unit P).cells = (w'.computeLinkingTagM : Kept F P Unit P).cells ∧
    (w.computeLinkingTagM : Kept F P Unit P).out = .ok w.computeLinkingTag := ⟨rfl, rfl, rfl⟩

/-- C97: the masks must be erased: with them anybody can compute both keys from the proof. -/
theorem C97_key {σ : Type} (E : Env F P) (R : Rng σ) (w : Witness F P) (st : Statement P) (s : σ) (t : Transcript)
    (timing : OperationTiming) (hw : WitnessBuilt E w) (hst : StatementBuilt E st) (p : Proof F P)
    (h : (Proof.proveInternal E R w st s t timing).1 = .ok p) :
    ∃ nn, nn = proverNonces E st.params.n st.params.m (proverKey E t st.hash w.l w.r w.r1 (R.fill s 32).1) ∧
      w.r = (p.z + ∑ j ∈ range st.params.m, nn.rho.getD j 0 * challenge E t st p ^ j) / challenge E t st p ^ st.params.m ∧
      w.r1 = (p.z1 + ∑ j ∈ range st.params.m, nn.rho1.getD j 0 * challenge E t st p ^ j) / challenge E t st p ^ st.params.m := by
  refine ⟨_, rfl, ?_⟩
  have hok := hst.ok
  have hval : w.params = st.params ∧ Rel st.params.G st.params.G1 st.params.U st.inputSet.M st.inputSet.M1 st.offset st.J w.l w.r w.r1 := by
    rcases C48_no_panic E R w st s t timing hw hst with h' | he | ⟨e, he⟩
    · obtain ⟨p', -, -, h1, h2⟩ := h'
      exact ⟨h1, h2⟩
    · rw [he] at h
      cases h
    · rw [he] at h
      cases h
  obtain ⟨hp, hrel⟩ := hval
  have hl : w.l < st.params.n ^ st.params.m := by
    rw [← hok.length]
    exact (List.getElem?_eq_some_iff.1 hrel.1).1
  have hv := Proof.proveInternal_valid E R w st hok hl s t timing hp hrel _ rfl _ rfl
  rw [hv] at h
  generalize hnn : proverNonces E st.params.n st.params.m (proverKey E t st.hash w.l w.r w.r1 (R.fill s 32).1) = nn at *
  split at h
  · cases h
  · rename_i h0
    simp only [Outcome.ok.injEq] at h
    have hch : challenge E t st p = E.scalarOfWide (E.challenge (proverTranscript E t st w.l w.r w.r1 nn)) := by
      rw [← h]
      rfl
    rw [← hch] at h0
    rw [← hch] at h
    have hz : p.z = w.r * challenge E t st p ^ st.params.m - ∑ j ∈ range st.params.m, nn.rho.getD j 0 * challenge E t st p ^ j := by
      conv_lhs => rw [← h]
      rfl
    have hz1 : p.z1 = w.r1 * challenge E t st p ^ st.params.m -
        ∑ j ∈ range st.params.m, nn.rho1.getD j 0 * challenge E t st p ^ j := by
      conv_lhs => rw [← h]
      rfl
    rw [hz, hz1, sub_add_cancel, sub_add_cancel, mul_div_assoc, mul_div_assoc, div_self (pow_ne_zero _ h0), mul_one, mul_one]
    exact ⟨rfl, rfl⟩

/-- A prover with a valid witness meets the hypotheses of `C97_memory` and `C97_key`. -/
example : WitnessBuilt (Triptych.Toy.env 101) Toy.witness ∧ StatementBuilt (Triptych.Toy.env 101) Toy.statement ∧
    Toy.witness.params = Toy.statement.params ∧
    Rel Toy.statement.params.G Toy.statement.params.G1 Toy.statement.params.U Toy.statement.inputSet.M Toy.statement.inputSet.M1
      Toy.statement.offset Toy.statement.J Toy.witness.l Toy.witness.r Toy.witness.r1 ∧
    (Proof.proveInternal (Triptych.Toy.env 101) nullRng Toy.witness Toy.statement () Triptych.Toy.transcript .Constant).1
      = .ok Toy.proof ∧
    Cell.erased "rho1" 2 ∈
      (Proof.proveWithRngM (Triptych.Toy.env 101) nullRng Toy.witness Toy.statement () Triptych.Toy.transcript).1 ∧
    Cell.words "l" [2] ∈
      (Proof.proveWithRngM (Triptych.Toy.env 101) nullRng Toy.witness Toy.statement () Triptych.Toy.transcript).1 :=
  ⟨Toy.witness_built, Toy.statement_built, by decide +kernel, ⟨by decide +kernel, by decide +kernel, by decide +kernel⟩, Toy.proof_new,
    by decide +kernel, by decide +kernel⟩

/-- A prover with an invalid witness meets the hypotheses of `C97_invalid`. -/
example : ∃ w, Witness.new Toy.params 1 (7 : ZMod 101) 9 = .ok w ∧ w.params = Toy.statement.params ∧
    ¬ Rel Toy.statement.params.G Toy.statement.params.G1 Toy.statement.params.U Toy.statement.inputSet.M Toy.statement.inputSet.M1
      Toy.statement.offset Toy.statement.J w.l w.r w.r1 ∧
    (Proof.proveWithRngM (Triptych.Toy.env 101) nullRng w Toy.statement () Triptych.Toy.transcript).1.length = 3 :=
  ⟨⟨Toy.params, 1, 7, 9⟩, by decide +kernel, by decide +kernel, fun h => absurd h.1 (by decide +kernel), by decide +kernel⟩

/-! ## Signatures with the unerased memory -/

/-- The random scalars a signer does not erase, and its commitments `X`, `X1` and `Y`. With the position of the key and the statement they
determine all that is left in memory (`C97_memory`). -/
structure Spec.Remains (F P : Type) (n m : ℕ) where
  a : Fin m → Fin n → F
  rA : F
  rB : F
  rC : F
  rD : F
  X : List P
  X1 : List P
  Y : List P

section defs
variable {κ : Type} (E : Env F P) (S : Finset Transcript) (params : Params P) (sts : κ → Statement P)

/-- The signer's answer together with what it does not erase. -/
noncomputable def Spec.leakyAnswer (x : Request κ F) (c : Coins F params.n params.m) (b : Block) :
    Option (Proof F P) × Remains F P params.n params.m :=
  (signAnswer E params sts x c b, ⟨c.a, c.rA, c.rB, c.rC, c.rD,
    (honestProof params (sts x.k).inputSet.M (sts x.k).inputSet.M1 (sts x.k).offset (sts x.k).J x.l x.r x.r1 c.nonces
      (E.scalarOfWide b.bytes)).X,
    (honestProof params (sts x.k).inputSet.M (sts x.k).inputSet.M1 (sts x.k).offset (sts x.k).J x.l x.r x.r1 c.nonces
      (E.scalarOfWide b.bytes)).X1,
    (honestProof params (sts x.k).inputSet.M (sts x.k).inputSet.M1 (sts x.k).offset (sts x.k).J x.l x.r x.r1 c.nonces
      (E.scalarOfWide b.bytes)).Y⟩)

/-- The simulator, which does not know the key. -/
noncomputable def Spec.simLeaky [Nonempty S] (x : Request κ F)
    (s : HybridCoins F params.n params.m × (Fin (params.m - 1) → F)) (b : Block) :
    S × (Option (Proof F P) × Remains F P params.n params.m) :=
  let p := hybrid params (sts x.k).inputSet.M (sts x.k).inputSet.M1 (sts x.k).offset (sts x.k).J x.l (E.scalarOfWide b.bytes) s.1
    (fun j => s.2 j • (sts x.k).J) (fun j => s.2 j • params.G)
  ((program E S sts x b p).1, (program E S sts x b p).2, ⟨s.1.a, s.1.rA, s.1.rB, s.1.rC, s.1.rD, p.X, p.X1, p.Y⟩)

end defs

variable [Fintype F]

/-- C97: signatures together with all that the signers do not erase, and simulations of both made without any key: no program with
at most `Q` questions and `q` requests can tell them apart, whatever event `win` it aims at, except with probability `q (Q + q)` over the
order of the group. -/
theorem C97_keyless {κ γ α : Type} (E : Env F P) (hE : E.Lawful) (S : Finset Transcript) [Nonempty S] (params : Params P)
    (hH : params.CommitmentH ≠ 0) (sts : κ → Statement P) (hst : ∀ k, StatementBuilt E (sts k))
    (hpar : ∀ k, (sts k).params = params) (req : γ → Request κ F)
    (hrel : ∀ g, Rel params.G params.G1 params.U (sts (req g).k).inputSet.M (sts (req g).k).inputSet.M1 (sts (req g).k).offset (sts (req g).k).J (req g).l (req g).r (req g).r1)
    (hS : ∀ g c, signTranscript E params sts (req g) c ∈ S)
    (win : α → List S → (S → Block) → Prop) (c : SigningProgram S Block γ (Option (Proof F P) × Remains F P params.n params.m) α) (Q q : ℕ) (hc : c.AtMost Q q) :
    |avg (fun O => c.withSigner (fun g => signPoint E S params sts (req g)) (fun g => leakyAnswer E params sts (req g)) win O []) -
      avg (fun O => c.withSimulator (fun g => simLeaky E S params sts (req g)) win [] O)| ≤
      q * (Q + q) / Fintype.card F := by
  have hF : (0 : ℚ) < Fintype.card F := by exact_mod_cast Fintype.card_pos
  have h := SigningProgram.simulate_bound (fun g => signPoint E S params sts (req g)) (fun g => leakyAnswer E params sts (req g))
    (fun g => simLeaky E S params sts (req g)) win (Fintype.card F) hF ?_ ?_ c Q q hc (Q + q) ∅ (by simp) (fun _ _ => 0) []
  · simpa using h
  · intro g b
    have hok := (hst (req g).k).ok
    have hpar' := hok.params
    rw [hpar] at hpar'
    have hm : 0 < params.m := by have := hpar'.m; omega
    have hl : (req g).l < params.n ^ params.m := by
      have := hok.length
      rw [hpar] at this
      rw [← this]
      exact (List.getElem?_eq_some_iff.1 (hrel g).1).1
    refine ⟨hybEquiv _ _ hm (req g).r (req g).r1 (E.scalarOfWide b.bytes), fun c => ?_⟩
    show simLeaky E S params sts (req g) (hybEquiv _ _ hm (req g).r (req g).r1 (E.scalarOfWide b.bytes) c) b =
      (signPoint E S params sts (req g) c, leakyAnswer E params sts (req g) c b)
    simp only [simLeaky]
    rw [← honest_hybrid params hpar' _ _ _ _ (req g).l (req g).r (req g).r1 hl (hrel g) (E.scalarOfWide b.bytes) c hm]
    rfl
  · intro g i
    exact signPoint_card E hE S params hH sts (req g) (hS g) i

open Classical in
/-- C97, unforgeability: even if the unerased memory of all signers is published with the signatures, a program that outputs a new
forgery with the property `good` reveals, when rewound, a signing key or a relation among the commitment generators: it is run with a
simulator that knows no key. `K` bounds the number of 64-byte strings with the same value as scalar. -/
theorem C97_forge {κ γ : Type} (E : Env F P) (hE : E.Lawful) (S : Finset Transcript) [Nonempty S] (params : Params P)
    (hH : params.CommitmentH ≠ 0) (hs : SmallSums F params.n) (sts : κ → Statement P) (hst : ∀ k, StatementBuilt E (sts k))
    (good : κ → Prop) (hpar : ∀ k, (sts k).params = params) (hinj : ∀ k k', (sts k).hash = (sts k').hash → k = k') (req : γ → Request κ F)
    (hrel : ∀ g, Rel params.G params.G1 params.U (sts (req g).k).inputSet.M (sts (req g).k).inputSet.M1 (sts (req g).k).offset (sts (req g).k).J (req g).l (req g).r (req g).r1)
    (hS : ∀ g c, signTranscript E params sts (req g) c ∈ S)
    (K : ℕ) (hK : ∀ x : F, #{b : Block | E.scalarOfWide b.bytes = x} ≤ K)
    (c : SigningProgram S Block γ (Option (Proof F P) × Remains F P params.n params.m) (Forgery κ F P)) (Q q : ℕ) (hc : c.AtMost Q q)
    (d : Block × (HybridCoins F params.n params.m × (Fin (params.m - 1) → F))) :
    avg (fun O => c.withSigner (fun g => signPoint E S params sts (req g)) (fun g => leakyAnswer E params sts (req g))
        (fun a used O => good a.k ∧ NewForgery E S sts a used O) O []) ≤
      q * (Q + q) / Fintype.card F + params.m * K * (Q + 1) / 2 ^ 512 +
      avg fun tape : Fin q → Block × (HybridCoins F params.n params.m × (Fin (params.m - 1) → F)) => avg fun O : S → Block =>
        (#{s ∈ (c.simulated (fun g => simLeaky E S params sts (req g)) (extend d tape) []).touched (Forgery.crit E S sts) O |
          RewindsFor good E S sts (c.simulated (fun g => simLeaky E S params sts (req g)) (extend d tape) []) O s} : ℚ) := by
  obtain ⟨win, hwin⟩ : ∃ win : Forgery κ F P → List S → (S → Block) → Prop,
      win = fun a used O => good a.k ∧ NewForgery E S sts a used O := ⟨_, rfl⟩
  rw [← hwin]
  have h1 := (abs_le.1 (C97_keyless E hE S params hH sts hst hpar req hrel hS win c Q q hc)).2
  have h2 : avg (fun O => c.withSimulator (fun g => simLeaky E S params sts (req g)) win [] O) ≤
      params.m * K * (Q + 1) / 2 ^ 512 +
      avg fun tape : Fin q → Block × (HybridCoins F params.n params.m × (Fin (params.m - 1) → F)) => avg fun O : S → Block =>
        (#{s ∈ (c.simulated (fun g => simLeaky E S params sts (req g)) (extend d tape) []).touched (Forgery.crit E S sts) O |
          RewindsFor good E S sts (c.simulated (fun g => simLeaky E S params sts (req g)) (extend d tape) []) O s} : ℚ) := by
    simp only [SigningProgram.withSimulator_tape _ _ d c Q q hc]
    rw [avg_comm]
    have key : ∀ tape : Fin q → Block × (HybridCoins F params.n params.m × (Fin (params.m - 1) → F)),
        (avg fun O : S → Block => if win
            (SigningProgram.simRun (fun g => simLeaky E S params sts (req g)) c (extend d tape) [] O).1
            (SigningProgram.simRun (fun g => simLeaky E S params sts (req g)) c (extend d tape) [] O).2.1
            (SigningProgram.simRun (fun g => simLeaky E S params sts (req g)) c (extend d tape) [] O).2.2 then (1 : ℚ) else 0) ≤
          params.m * K * (Q + 1) / 2 ^ 512 + avg fun O : S → Block =>
            (#{s ∈ (c.simulated (fun g => simLeaky E S params sts (req g)) (extend d tape) []).touched (Forgery.crit E S sts) O |
              RewindsFor good E S sts (c.simulated (fun g => simLeaky E S params sts (req g)) (extend d tape) []) O s} : ℚ) := by
      intro tape
      have hf := forge_good E hE S sts hst hinj good (fun k => by rw [hpar]; exact hs) params.m (fun k => by rw [hpar]) K hK
        (c.simulated (fun g => simLeaky E S params sts (req g)) (extend d tape) []) Q
        (fun O => SigningProgram.simulated_asked _ c Q q hc _ _ O)
      refine (avg_mono _ (fun O => if good ((c.simulated (fun g => simLeaky E S params sts (req g)) (extend d tape) []).run O).k ∧
        Forges E S sts (c.simulated (fun g => simLeaky E S params sts (req g)) (extend d tape) []) O
        then (1 : ℚ) else 0) fun O => ?_).trans ?_
      · have hrun := SigningProgram.simRun_simulated (fun g => simLeaky E S params sts (req g)) c (extend d tape) [] [] O
        simp only [List.lookup_nil, Option.getD_none] at hrun
        have hused := (SigningProgram.simRun_used (fun g => simLeaky E S params sts (req g)) c (extend d tape) [] O).2
        by_cases hw : win
            (SigningProgram.simRun (fun g => simLeaky E S params sts (req g)) c (extend d tape) [] O).1
            (SigningProgram.simRun (fun g => simLeaky E S params sts (req g)) c (extend d tape) [] O).2.1
            (SigningProgram.simRun (fun g => simLeaky E S params sts (req g)) c (extend d tape) [] O).2.2
        · rw [if_pos hw, if_pos]
          rw [hwin] at hw
          obtain ⟨hs0, ⟨s, hs1, hs2⟩, hs3, hs4⟩ := hw
          rw [Forges, hrun]
          refine ⟨hs0, hs2 ▸ s.2, hs3, ?_⟩
          rw [challenge_withOracle E S _ _ _ _ s hs2] at hs4 ⊢
          rw [hused s hs1] at hs4
          exact hs4
        · rw [if_neg hw]
          split <;> norm_num
      · have hN : (0 : ℚ) < Fintype.card (S → Block) := by exact_mod_cast Fintype.card_pos
        rw [avg, avg, ← sum_filter, sum_const, nsmul_eq_mul, mul_one, div_add_div _ _ (by positivity) hN.ne',
          div_le_div_iff₀ hN (by positivity)]
        have hf' := (Nat.cast_le (α := ℚ)).2 hf
        push_cast at hf' ⊢
        nlinarith [mul_le_mul_of_nonneg_right hf' hN.le]
    refine (avg_mono _ _ key).trans ?_
    rw [avg_add, avg_const]
  linarith

/-- The toy statement, its signer and a program that uses what the signer leaves in memory meet the hypotheses of `C97_keyless` and
`C97_forge`. -/
example : ∃ (S : Finset Transcript) (_ : Nonempty S)
    (c : SigningProgram S Block Unit (Option (Proof (ZMod 101) (ZMod 101)) × Remains (ZMod 101) (ZMod 101) Toy.statement.params.n
      Toy.statement.params.m) (Forgery Unit (ZMod 101) (ZMod 101))),
    (Triptych.Toy.env 101).Lawful ∧ Toy.statement.params.CommitmentH ≠ 0 ∧ Toy.statement.params.G ≠ 0 ∧
    Toy.statement.params.G1 ≠ 0 ∧
    MaskGenerates (ZMod 101) Toy.statement.params ∧ Generates (ZMod 101) Toy.statement.params.G1 ∧
    SmallSums (ZMod 101) Toy.statement.params.n ∧ StatementBuilt (Triptych.Toy.env 101) Toy.statement ∧
    Rel Toy.statement.params.G Toy.statement.params.G1 Toy.statement.params.U Toy.statement.inputSet.M
      Toy.statement.inputSet.M1 Toy.statement.offset Toy.statement.J 2 (7 : ZMod 101) 9 ∧
    (∀ c, signTranscript (Triptych.Toy.env 101) Toy.statement.params (fun _ : Unit => Toy.statement)
      ⟨(), Triptych.Toy.transcript, 2, 7, 9⟩ c ∈ S) ∧
    (∀ t ∈ S, t.getLast? = some (.challenge "xi" 64)) ∧
    (∀ x : ZMod 101, #{b : Block | (Triptych.Toy.env 101).scalarOfWide b.bytes = x} ≤ 256 ^ 64 / 101 + 1) ∧ c.AtMost 1 1 := by
  have hrel : Rel Toy.statement.params.G Toy.statement.params.G1 Toy.statement.params.U Toy.statement.inputSet.M
      Toy.statement.inputSet.M1 Toy.statement.offset Toy.statement.J 2 (7 : ZMod 101) 9 :=
    ⟨by decide +kernel, by decide +kernel, by decide +kernel⟩
  have hb := Toy.statement_built
  have hs : SmallSums (ZMod 101) Toy.statement.params.n := smallSums_zmod 101 _ (by decide +kernel)
  have hg := Toy.maskGenerates
  have h0 : Toy.statement.params.CommitmentH ≠ 0 ∧ Toy.statement.params.G ≠ 0 ∧ Toy.statement.params.G1 ≠ 0 := by decide +kernel
  generalize Toy.statement = st at *
  exact ⟨signDomain (Triptych.Toy.env 101) st.params (fun _ : Unit => st) ⟨(), Triptych.Toy.transcript, 2, 7, 9⟩, inferInstance,
    .sign () fun x => .ask (Classical.arbitrary _) fun _ => .done ⟨(), [], { x.1.getD Toy.proof with zA := x.2.rA }⟩,
    Triptych.Toy.env_lawful 101 (by norm_num), h0.1, h0.2.1, h0.2.2, hg.1, hg.2, hs, hb, hrel,
    signDomain_mem _ _ _ _, signDomain_last _ _ _ _, fun x => blocks_value 101 _ le_rfl x,
    ⟨by decide, fun _ => ⟨by decide, fun _ => trivial⟩⟩⟩

/-- C97: the simulator does not use the keys. -/
theorem C97_no_key {κ : Type} (E : Env F P) (S : Finset Transcript) [Nonempty S] (params : Params P) (sts : κ → Statement P)
    (x : Request κ F) (r' r1' : F) (s : HybridCoins F params.n params.m × (Fin (params.m - 1) → F)) (b : Block) :
    simLeaky E S params sts { x with r := r', r1 := r1' } s b = simLeaky E S params sts x s b := rfl

local notation "ℓ" => (2 ^ 252 + 27742317777372353535851937790883648493 : ℕ)

open Classical in
/-- C97 for Ristretto, with the numbers: a program that gets all unerased memory with the signatures outputs a new forgery with
probability at most `(q (Q + q) + m (Q + 1)) / 2 ^ 252` plus the expected number of points at which rewinding it, without any key,
yields a signing key or a relation. -/
theorem C97_ristretto {κ γ : Type} {P : Type} [AddCommGroup P] [Module (ZMod ℓ) P] [DecidableEq P]
    (E : Env (ZMod ℓ) P) (hE : E.Lawful) (hwide : ∀ b, E.scalarOfWide b = ((leNat b : ℕ) : ZMod ℓ))
    (S : Finset Transcript) [Nonempty S] (params : Params P) (hparams : ParamsBuilt E params)
    (hH : params.CommitmentH ≠ 0) (sts : κ → Statement P) (hst : ∀ k, StatementBuilt E (sts k))
    (good : κ → Prop) (hpar : ∀ k, (sts k).params = params) (hinj : ∀ k k', (sts k).hash = (sts k').hash → k = k') (req : γ → Request κ (ZMod ℓ))
    (hrel : ∀ g, Rel params.G params.G1 params.U (sts (req g).k).inputSet.M (sts (req g).k).inputSet.M1 (sts (req g).k).offset (sts (req g).k).J (req g).l (req g).r (req g).r1)
    (hS : ∀ g c, signTranscript E params sts (req g) c ∈ S)
    (c : SigningProgram S Block γ (Option (Proof (ZMod ℓ) P) × Remains (ZMod ℓ) P params.n params.m) (Forgery κ (ZMod ℓ) P)) (Q q : ℕ) (hc : c.AtMost Q q)
    (d : Block × (HybridCoins (ZMod ℓ) params.n params.m × (Fin (params.m - 1) → ZMod ℓ))) :
    avg (fun O => c.withSigner (fun g => signPoint E S params sts (req g)) (fun g => leakyAnswer E params sts (req g))
        (fun a used O => good a.k ∧ NewForgery E S sts a used O) O []) ≤
      (q * (Q + q) + params.m * (Q + 1)) / 2 ^ 252 +
      avg fun tape : Fin q → Block × (HybridCoins (ZMod ℓ) params.n params.m × (Fin (params.m - 1) → ZMod ℓ)) =>
        avg fun O : S → Block =>
        (#{s ∈ (c.simulated (fun g => simLeaky E S params sts (req g)) (extend d tape) []).touched (Forgery.crit E S sts) O |
          RewindsFor good E S sts (c.simulated (fun g => simLeaky E S params sts (req g)) (extend d tape) []) O s} : ℚ) := by
  have h := C97_forge E hE S params hH (C58_small_sums_parallel E _ hparams) sts hst good hpar hinj req hrel hS (2 ^ 260)
    (fun x => by simp only [hwide]; exact blocks_ristretto x) c Q q hc d
  rw [ZMod.card] at h
  exact signing_ratio _ _ Q q params.m h

/-- The same over the real scalar field, for `C97_ristretto`. -/
example : ∃ (S : Finset Transcript) (_ : Nonempty S)
    (c : SigningProgram S Block Unit (Option (Proof (ZMod ℓ) (ZMod ℓ)) × Remains (ZMod ℓ) (ZMod ℓ)
      Toy.Ristretto.statement.params.n Toy.Ristretto.statement.params.m) (Forgery Unit (ZMod ℓ) (ZMod ℓ))),
    (Triptych.Toy.env ℓ).Lawful ∧ (∀ b, (Triptych.Toy.env ℓ).scalarOfWide b = ((leNat b : ℕ) : ZMod ℓ)) ∧
    ParamsBuilt (Triptych.Toy.env ℓ) Toy.Ristretto.statement.params ∧ Toy.Ristretto.statement.params.CommitmentH ≠ 0 ∧
    StatementBuilt (Triptych.Toy.env ℓ) Toy.Ristretto.statement ∧
    Rel Toy.Ristretto.statement.params.G Toy.Ristretto.statement.params.G1 Toy.Ristretto.statement.params.U
      Toy.Ristretto.statement.inputSet.M Toy.Ristretto.statement.inputSet.M1 Toy.Ristretto.statement.offset
      Toy.Ristretto.statement.J 2 (7 : ZMod ℓ) 9 ∧
    (∀ c, signTranscript (Triptych.Toy.env ℓ) Toy.Ristretto.statement.params (fun _ : Unit => Toy.Ristretto.statement)
      ⟨(), Triptych.Toy.transcript, 2, 7, 9⟩ c ∈ S) ∧ c.AtMost 1 1 := by
  have hrel : Rel Toy.Ristretto.statement.params.G Toy.Ristretto.statement.params.G1 Toy.Ristretto.statement.params.U
      Toy.Ristretto.statement.inputSet.M Toy.Ristretto.statement.inputSet.M1 Toy.Ristretto.statement.offset
      Toy.Ristretto.statement.J 2 (7 : ZMod ℓ) 9 := ⟨by decide +kernel, by decide +kernel, by decide +kernel⟩
  have hb := Toy.Ristretto.statement_built
  have h0 : Toy.Ristretto.statement.params.CommitmentH ≠ 0 := by decide +kernel
  generalize Toy.Ristretto.statement = st at *
  exact ⟨signDomain (Triptych.Toy.env ℓ) st.params (fun _ : Unit => st) ⟨(), Triptych.Toy.transcript, 2, 7, 9⟩, inferInstance,
    .sign () fun x => .ask (Classical.arbitrary _) fun _ => .done ⟨(), [], ⟨0, 0, 0, 0, [], [], [], [], x.2.rA, 0, 0, 0⟩⟩,
    Triptych.Toy.env_lawful ℓ (by norm_num), fun _ => rfl, hb.params_built, h0, hb, hrel, signDomain_mem _ _ _ _,
    ⟨by decide, fun _ => ⟨by decide, fun _ => trivial⟩⟩⟩

end Triptych.Parallel
