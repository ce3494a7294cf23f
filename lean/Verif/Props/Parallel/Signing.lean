import Verif.Props.Signing
import Verif.Props.Parallel.Forgery
import Verif.Props.Parallel.ZeroKnowledge

/-! # Parallel signatures on request, with a random oracle: C72, C73

A program may ask for challenges and request signatures from honest signers: for each request there is a statement, a transcript
and a signer, given by position and keys. All statements share the parameters. The challenges of a finite set `S` of transcripts
are random; the signers' randomness is uniform. -/
set_option autoImplicit false
set_option linter.unusedSectionVars false
set_option linter.unusedVariables false

namespace Triptych.Parallel
open Finset Function
open Triptych.Parallel.Spec
open Triptych.Spec (OracleProgram SigningProgram avg extend locate Block Block.bytes withOracle fullF SmallSums extractIndex
  extractKey selector commit Relation)

variable {F P : Type} [Field F] [AddCommGroup P] [Module F P] [DecidableEq F] [DecidableEq P]

/-- A request: which statement, with which transcript to verify, and index and key of the signer. -/
structure Spec.Request (κ F : Type) where
  k : κ
  t : Transcript
  l : ℕ
  r : F
  r1 : F

section defs
variable {κ : Type} (E : Env F P) (S : Finset Transcript) (params : Params P) (sts : κ → Statement P)

/-- The transcript from which the challenge of a signature is derived. -/
noncomputable def Spec.signTranscript (x : Request κ F) (c : Coins F params.n params.m) : Transcript :=
  Forgery.point E sts ⟨x.k, x.t, honestProof params (sts x.k).inputSet.M (sts x.k).inputSet.M1 (sts x.k).offset (sts x.k).J x.l x.r x.r1 c.nonces 0⟩

/-- As element of the oracle's domain. -/
noncomputable def Spec.signPoint [Nonempty S] (x : Request κ F) (c : Coins F params.n params.m) : S :=
  locate S (signTranscript E params sts x c)

/-- The signer's answer for the challenge bytes `b`: nothing if the challenge is zero. -/
noncomputable def Spec.signAnswer (x : Request κ F) (c : Coins F params.n params.m) (b : Block) : Option (Proof F P) :=
  if E.scalarOfWide b.bytes = 0 then none
  else some (honestProof params (sts x.k).inputSet.M (sts x.k).inputSet.M1 (sts x.k).offset (sts x.k).J x.l x.r x.r1 c.nonces (E.scalarOfWide b.bytes))

/-- What a simulator does with a proof `p` it has made for the challenge bytes `b`. -/
noncomputable def Spec.program [Nonempty S] (x : Request κ F) (b : Block) (p : Proof F P) : S × Option (Proof F P) :=
  (locate S (Forgery.point E sts ⟨x.k, x.t, p⟩), if E.scalarOfWide b.bytes = 0 then none else some p)

/-- The simulator that knows the signer's index but not the key: the hybrid on Diffie-Hellman elements it makes itself. -/
noncomputable def Spec.simKeyless [Nonempty S] (x : Request κ F)
    (s : HybridCoins F params.n params.m × (Fin (params.m - 1) → F)) (b : Block) : S × Option (Proof F P) :=
  program E S sts x b (hybrid params (sts x.k).inputSet.M (sts x.k).inputSet.M1 (sts x.k).offset (sts x.k).J x.l (E.scalarOfWide b.bytes) s.1
    (fun j => s.2 j • (sts x.k).J) (fun j => s.2 j • params.G))

/-- The same with independent random elements instead of Diffie-Hellman elements. -/
noncomputable def Spec.simRandom [Nonempty S] (x : Request κ F)
    (s : (HybridCoins F params.n params.m × (Fin (params.m - 1) → F)) × (Fin (params.m - 1) → P)) (b : Block) :
    S × Option (Proof F P) :=
  program E S sts x b (hybrid params (sts x.k).inputSet.M (sts x.k).inputSet.M1 (sts x.k).offset (sts x.k).J x.l (E.scalarOfWide b.bytes) s.1.1
    (fun j => s.1.2 j • (sts x.k).J) s.2)

/-- The simulator that knows neither index nor key. -/
noncomputable def Spec.simNothing [Nonempty S] (x : Request κ F)
    (s : SimCoins F params.n params.m × (Fin (params.m - 1) → P)) (b : Block) : S × Option (Proof F P) :=
  program E S sts x b (simulate params (sts x.k).inputSet.M (sts x.k).inputSet.M1 (sts x.k).offset (sts x.k).J (E.scalarOfWide b.bytes) s.1 s.2)

/-- A new forgery: the proof satisfies all verification equations for the challenge it gets, and no signer has used the
transcript from which its challenge is derived. -/
def Spec.NewForgery (a : Forgery κ F P) (used : List S) (O : S → Block) : Prop :=
  (∃ s ∉ used, a.point E sts = s.val) ∧ Shape (sts a.k).params a.p ∧
    Valid (sts a.k).params (sts a.k).inputSet.M (sts a.k).inputSet.M1 (sts a.k).offset (sts a.k).J a.p (challenge (withOracle E S O) a.t (sts a.k) a.p)

end defs

/-- C72: what the code's prover returns with the oracle `O` is what the signer of this model returns, for the randomness drawn
from the transcript generator. -/
theorem C72_code {σ κ : Type} (E : Env F P) (S : Finset Transcript) [Nonempty S] (O : S → Block) (R : Rng σ) (w : Witness F P)
    (sts : κ → Statement P) (x : Request κ F) (s : σ) (timing : OperationTiming)
    (hw : WitnessBuilt (withOracle E S O) w) (hst : StatementBuilt (withOracle E S O) (sts x.k)) (hp : w.params = (sts x.k).params)
    (hl : w.l = x.l) (hr : w.r = x.r) (hr1 : w.r1 = x.r1)
    (hrel : Rel (sts x.k).params.G (sts x.k).params.G1 (sts x.k).params.U (sts x.k).inputSet.M (sts x.k).inputSet.M1 (sts x.k).offset (sts x.k).J x.l x.r x.r1) :
    ∃ c : Coins F (sts x.k).params.n (sts x.k).params.m,
      c.nonces = proverNonces E (sts x.k).params.n (sts x.k).params.m
        (proverKey E x.t (sts x.k).hash w.l w.r w.r1 (R.fill s 32).1) ∧
      (signTranscript E (sts x.k).params sts x c ∈ S →
        (Proof.proveInternal (withOracle E S O) R w (sts x.k) s x.t timing).1 =
          match signAnswer E (sts x.k).params sts x c (O (signPoint E S (sts x.k).params sts x c)) with
          | some p => .ok p
          | none => .err .InvalidChallenge) := by
  obtain ⟨nn, ξ, hnn, hξ, a1, a2⟩ := C48_accept (withOracle E S O) R w (sts x.k) s x.t timing hw hst hp
    (by rw [hl, hr, hr1]; exact hrel)
  have hs : NonceShape (sts x.k).params.n (sts x.k).params.m nn := by
    rw [hnn]
    constructor
    · simp [proverNonces]
    · intro row hrow
      simp only [proverNonces, List.mem_map] at hrow
      obtain ⟨j, -, rfl⟩ := hrow
      simp
    · simp [proverNonces]
    · simp [proverNonces]
  obtain ⟨c, hc, -⟩ := C59_nonces _ _ _ hs
  refine ⟨c, by rw [hc, hnn]; rfl, fun hS => ?_⟩
  have hval : E.scalarOfWide (O (signPoint E S (sts x.k).params sts x c)).bytes = ξ := by
    rw [hξ, signPoint, locate_eq S _ hS]
    have e : proverTranscript (withOracle E S O) x.t (sts x.k) w.l w.r w.r1 nn = signTranscript E (sts x.k).params sts x c := by
      rw [signTranscript, hc, hl, hr, hr1]
      rfl
    show _ = E.scalarOfWide _
    rw [e]
    have e' : (withOracle E S O).challenge (signTranscript E (sts x.k).params sts x c) = (O ⟨_, hS⟩).bytes := dif_pos hS
    rw [e']
  by_cases h0 : ξ = 0
  · rw [a1 h0, signAnswer, hval, if_pos h0]
  · rw [a2 h0, signAnswer, hval, if_neg h0, hc, hl, hr, hr1]

variable [Fintype F]

/-- The mask of `A` makes the signer's point unpredictable. -/
theorem signPoint_card {κ : Type} (E : Env F P) (hE : E.Lawful) (S : Finset Transcript) [Nonempty S] (params : Params P)
    (hH : params.CommitmentH ≠ 0) (sts : κ → Statement P) (x : Request κ F)
    (hS : ∀ c, signTranscript E params sts x c ∈ S) (i : S) :
    (#{c : Coins F params.n params.m | signPoint E S params sts x c = i} : ℚ) * Fintype.card F
      ≤ Fintype.card (Coins F params.n params.m) := by
  have hcard : #{c : Coins F params.n params.m | signPoint E S params sts x c = i} * Fintype.card F
      ≤ Fintype.card (Coins F params.n params.m) := by
    rw [← card_univ (α := F), ← card_product]
    refine card_le_card_of_injOn (fun y => { y.1 with rA := y.1.rA + y.2 }) (fun _ _ => mem_univ _) ?_
    rintro ⟨⟨a, rA, rB, rC, rD, rho, rho1⟩, y⟩ h ⟨⟨a', rA', rB', rC', rD', rho', rho1'⟩, y'⟩ h' heq
    simp only [Coins.mk.injEq] at heq
    obtain ⟨rfl, h1, rfl, rfl, rfl, rfl, rfl⟩ := heq
    simp only [coe_product, coe_filter, mem_univ, true_and, Set.mem_prod, Set.mem_ofPred_eq] at h h'
    have h2 := h.1.trans h'.1.symm
    have h3 := congrArg Subtype.val h2
    rw [signPoint, signPoint, locate_val S _ (hS _), locate_val S _ (hS _), signTranscript, signTranscript] at h3
    obtain ⟨-, -, hA, -⟩ := challengeTranscript_inj hE _ _ _ _ _ _ _ _ _ _ _ _ _ _ _ _ _ _ h3
    simp only [honestProof, commit, Coins.nonces, add_right_inj] at hA
    have hr : rA = rA' := by
      rcases smul_zero_cases (rA - rA') params.CommitmentH (by rw [sub_smul, hA, sub_self]) with hz | hz
      · exact sub_eq_zero.1 hz
      · exact absurd hz hH
    subst hr
    simpa using h1
  exact_mod_cast hcard

/-- C72: signatures by signers who know the keys, and simulated signatures made without any key: no program with at most `Q`
questions and `q` requests can tell them apart, whatever event `win` it aims at, except with probability `q (Q + q)` over the
order of the group. -/
theorem C72_keyless {κ γ α : Type} (E : Env F P) (hE : E.Lawful) (S : Finset Transcript) [Nonempty S] (params : Params P)
    (hH : params.CommitmentH ≠ 0) (sts : κ → Statement P) (hst : ∀ k, StatementBuilt E (sts k))
    (hpar : ∀ k, (sts k).params = params) (req : γ → Request κ F)
    (hrel : ∀ g, Rel params.G params.G1 params.U (sts (req g).k).inputSet.M (sts (req g).k).inputSet.M1 (sts (req g).k).offset (sts (req g).k).J (req g).l (req g).r (req g).r1)
    (hS : ∀ g c, signTranscript E params sts (req g) c ∈ S)
    (win : α → List S → (S → Block) → Prop) (c : SigningProgram S Block γ (Option (Proof F P)) α) (Q q : ℕ) (hc : c.AtMost Q q) :
    |avg (fun O => c.withSigner (fun g => signPoint E S params sts (req g)) (fun g => signAnswer E params sts (req g)) win O []) -
      avg (fun O => c.withSimulator (fun g => simKeyless E S params sts (req g)) win [] O)| ≤
      q * (Q + q) / Fintype.card F := by
  have hF : (0 : ℚ) < Fintype.card F := by exact_mod_cast Fintype.card_pos
  have h := SigningProgram.simulate_bound (fun g => signPoint E S params sts (req g)) (fun g => signAnswer E params sts (req g))
    (fun g => simKeyless E S params sts (req g)) win (Fintype.card F) hF ?_ ?_ c Q q hc (Q + q) ∅ (by simp) (fun _ _ => 0) []
  · simpa using h
  · intro g b
    have hok := (hst (req g).k).ok
    have hpar' := hok.params
    rw [hpar] at hpar'
    have hm : 0 < params.m := by have := hpar'.m; omega
    have hl : (req g).l < params.n ^ params.m := by
      have := hok.length
      rw [hpar] at this
      rw [← this]
      exact (List.getElem?_eq_some_iff.1 (hrel g).1).1
    refine ⟨hybEquiv _ _ hm (req g).r (req g).r1 (E.scalarOfWide b.bytes), fun c => ?_⟩
    show simKeyless E S params sts (req g) (hybEquiv _ _ hm (req g).r (req g).r1 (E.scalarOfWide b.bytes) c) b =
      (signPoint E S params sts (req g) c, signAnswer E params sts (req g) c b)
    rw [simKeyless, ← honest_hybrid params hpar' _ _ _ _ (req g).l (req g).r (req g).r1 hl (hrel g) (E.scalarOfWide b.bytes) c hm]
    rfl
  · intro g i
    exact signPoint_card E hE S params hH sts (req g) (hS g) i

/-- C72: with random elements in place of the Diffie-Hellman elements, no program can tell the simulator that knows the
signer's index from the one that knows nothing. -/
theorem C72_random {κ γ α : Type} [Fintype P] (E : Env F P) (S : Finset Transcript) [Nonempty S] (params : Params P)
    (hH : MaskGenerates F params) (hG1 : Generates F params.G1) (sts : κ → Statement P) (hst : ∀ k, StatementBuilt E (sts k))
    (hpar : ∀ k, (sts k).params = params) (req : γ → Request κ F) (hl : ∀ g, (req g).l < params.n ^ params.m)
    (win : α → List S → (S → Block) → Prop) (c : SigningProgram S Block γ (Option (Proof F P)) α) (used : List S)
    (O : S → Block) :
    c.withSimulator (fun g => simRandom E S params sts (req g)) win used O =
      c.withSimulator (fun g => simNothing E S params sts (req g)) win used O := by
  obtain ⟨g, hg⟩ := hH.logs
  refine withSimulator_congr (X := Fin params.m → F) _ _ win (fun x b => ?_) c used O
  have hpar' := (hst (req x).k).ok.params
  rw [hpar] at hpar'
  have hn : 0 < params.n := by have := hpar'.n; omega
  choose x1 hx1 using fun (a : ℕ → ℕ → F) (j : Fin (params.m - 1)) =>
    hG1 (ringPart params (fun k => (sts (req x).k).inputSet.M1.getD k 0 - (sts (req x).k).offset) (req x).l a j)
  refine ⟨simEquiv params hn (req x).l (E.scalarOfWide b.bytes) g
    (ringPart params (fun k => (sts (req x).k).inputSet.M.getD k 0) (req x).l) x1, fun s => ?_⟩
  show simRandom E S params sts (req x) s b = simNothing E S params sts (req x) _ b
  rw [simRandom, simNothing, hybrid_simulate params hpar' _ _ _ _ (req x).l (hl x) (E.scalarOfWide b.bytes) g hg x1 hx1 s hn]

/-- C72, zero knowledge for any number of signatures: what a program can do with real signatures it can do as well with
simulated ones, made with neither index nor key, up to `q (Q + q)` over the order of the group and its advantage, run with the
hybrid, in telling Diffie-Hellman elements from random ones. -/
theorem C72_zero_knowledge {κ γ α : Type} [Fintype P] (E : Env F P) (hE : E.Lawful) (S : Finset Transcript) [Nonempty S]
    (params : Params P) (hH : params.CommitmentH ≠ 0) (hG : MaskGenerates F params) (hG1 : Generates F params.G1) (sts : κ → Statement P)
    (hst : ∀ k, StatementBuilt E (sts k)) (hpar : ∀ k, (sts k).params = params) (req : γ → Request κ F)
    (hrel : ∀ g, Rel params.G params.G1 params.U (sts (req g).k).inputSet.M (sts (req g).k).inputSet.M1 (sts (req g).k).offset (sts (req g).k).J (req g).l (req g).r (req g).r1)
    (hS : ∀ g c, signTranscript E params sts (req g) c ∈ S)
    (win : α → List S → (S → Block) → Prop) (c : SigningProgram S Block γ (Option (Proof F P)) α) (Q q : ℕ) (hc : c.AtMost Q q) :
    |avg (fun O => c.withSigner (fun g => signPoint E S params sts (req g)) (fun g => signAnswer E params sts (req g)) win O []) -
      avg (fun O => c.withSimulator (fun g => simNothing E S params sts (req g)) win [] O)| ≤
      q * (Q + q) / Fintype.card F +
      |avg (fun O => c.withSimulator (fun g => simKeyless E S params sts (req g)) win [] O) -
        avg (fun O => c.withSimulator (fun g => simRandom E S params sts (req g)) win [] O)| := by
  have h := C72_keyless E hE S params hH sts hst hpar req hrel hS win c Q q hc
  have hl : ∀ g, (req g).l < params.n ^ params.m := by
    intro g
    have := (hst (req g).k).ok.length
    rw [hpar] at this
    rw [← this]
    exact (List.getElem?_eq_some_iff.1 (hrel g).1).1
  simp only [C72_random E S params hG hG1 sts hst hpar req hl win c]
  refine (abs_sub_le _ (avg fun O => c.withSimulator (fun g => simKeyless E S params sts (req g)) win [] O) _).trans ?_
  gcongr

open Classical in
/-- `C73_forge` for new forgeries of statements with the property `good`. -/
theorem signing_good {κ γ : Type} (E : Env F P) (hE : E.Lawful) (S : Finset Transcript) [Nonempty S] (params : Params P)
    (hH : params.CommitmentH ≠ 0) (hs : SmallSums F params.n) (sts : κ → Statement P) (hst : ∀ k, StatementBuilt E (sts k))
    (good : κ → Prop) (hpar : ∀ k, (sts k).params = params) (hinj : ∀ k k', (sts k).hash = (sts k').hash → k = k') (req : γ → Request κ F)
    (hrel : ∀ g, Rel params.G params.G1 params.U (sts (req g).k).inputSet.M (sts (req g).k).inputSet.M1 (sts (req g).k).offset (sts (req g).k).J (req g).l (req g).r (req g).r1)
    (hS : ∀ g c, signTranscript E params sts (req g) c ∈ S)
    (K : ℕ) (hK : ∀ x : F, #{b : Block | E.scalarOfWide b.bytes = x} ≤ K)
    (c : SigningProgram S Block γ (Option (Proof F P)) (Forgery κ F P)) (Q q : ℕ) (hc : c.AtMost Q q)
    (d : Block × (HybridCoins F params.n params.m × (Fin (params.m - 1) → F))) :
    avg (fun O => c.withSigner (fun g => signPoint E S params sts (req g)) (fun g => signAnswer E params sts (req g))
        (fun a used O => good a.k ∧ NewForgery E S sts a used O) O []) ≤
      q * (Q + q) / Fintype.card F + params.m * K * (Q + 1) / 2 ^ 512 +
      avg fun tape : Fin q → Block × (HybridCoins F params.n params.m × (Fin (params.m - 1) → F)) => avg fun O : S → Block =>
        (#{s ∈ (c.simulated (fun g => simKeyless E S params sts (req g)) (extend d tape) []).touched (Forgery.crit E S sts) O |
          RewindsFor good E S sts (c.simulated (fun g => simKeyless E S params sts (req g)) (extend d tape) []) O s} : ℚ) := by
  obtain ⟨win, hwin⟩ : ∃ win : Forgery κ F P → List S → (S → Block) → Prop,
      win = fun a used O => good a.k ∧ NewForgery E S sts a used O := ⟨_, rfl⟩
  rw [← hwin]
  have h1 := (abs_le.1 (C72_keyless E hE S params hH sts hst hpar req hrel hS win c Q q hc)).2
  have h2 : avg (fun O => c.withSimulator (fun g => simKeyless E S params sts (req g)) win [] O) ≤
      params.m * K * (Q + 1) / 2 ^ 512 +
      avg fun tape : Fin q → Block × (HybridCoins F params.n params.m × (Fin (params.m - 1) → F)) => avg fun O : S → Block =>
        (#{s ∈ (c.simulated (fun g => simKeyless E S params sts (req g)) (extend d tape) []).touched (Forgery.crit E S sts) O |
          RewindsFor good E S sts (c.simulated (fun g => simKeyless E S params sts (req g)) (extend d tape) []) O s} : ℚ) := by
    simp only [SigningProgram.withSimulator_tape _ _ d c Q q hc]
    rw [avg_comm]
    have key : ∀ tape : Fin q → Block × (HybridCoins F params.n params.m × (Fin (params.m - 1) → F)),
        (avg fun O : S → Block => if win
            (SigningProgram.simRun (fun g => simKeyless E S params sts (req g)) c (extend d tape) [] O).1
            (SigningProgram.simRun (fun g => simKeyless E S params sts (req g)) c (extend d tape) [] O).2.1
            (SigningProgram.simRun (fun g => simKeyless E S params sts (req g)) c (extend d tape) [] O).2.2 then (1 : ℚ) else 0) ≤
          params.m * K * (Q + 1) / 2 ^ 512 + avg fun O : S → Block =>
            (#{s ∈ (c.simulated (fun g => simKeyless E S params sts (req g)) (extend d tape) []).touched (Forgery.crit E S sts) O |
              RewindsFor good E S sts (c.simulated (fun g => simKeyless E S params sts (req g)) (extend d tape) []) O s} : ℚ) := by
      intro tape
      have hf := forge_good E hE S sts hst hinj good (fun k => by rw [hpar]; exact hs) params.m (fun k => by rw [hpar]) K hK
        (c.simulated (fun g => simKeyless E S params sts (req g)) (extend d tape) []) Q
        (fun O => SigningProgram.simulated_asked _ c Q q hc _ _ O)
      refine (avg_mono _ (fun O => if good ((c.simulated (fun g => simKeyless E S params sts (req g)) (extend d tape) []).run O).k ∧
        Forges E S sts (c.simulated (fun g => simKeyless E S params sts (req g)) (extend d tape) []) O
        then (1 : ℚ) else 0) fun O => ?_).trans ?_
      · have hrun := SigningProgram.simRun_simulated (fun g => simKeyless E S params sts (req g)) c (extend d tape) [] [] O
        simp only [List.lookup_nil, Option.getD_none] at hrun
        have hused := (SigningProgram.simRun_used (fun g => simKeyless E S params sts (req g)) c (extend d tape) [] O).2
        by_cases hw : win
            (SigningProgram.simRun (fun g => simKeyless E S params sts (req g)) c (extend d tape) [] O).1
            (SigningProgram.simRun (fun g => simKeyless E S params sts (req g)) c (extend d tape) [] O).2.1
            (SigningProgram.simRun (fun g => simKeyless E S params sts (req g)) c (extend d tape) [] O).2.2
        · rw [if_pos hw, if_pos]
          rw [hwin] at hw
          obtain ⟨hs0, ⟨s, hs1, hs2⟩, hs3, hs4⟩ := hw
          rw [Forges, hrun]
          refine ⟨hs0, hs2 ▸ s.2, hs3, ?_⟩
          rw [challenge_withOracle E S _ _ _ _ s hs2] at hs4 ⊢
          rw [hused s hs1] at hs4
          exact hs4
        · rw [if_neg hw]
          split <;> norm_num
      · have hN : (0 : ℚ) < Fintype.card (S → Block) := by exact_mod_cast Fintype.card_pos
        rw [avg, avg, ← sum_filter, sum_const, nsmul_eq_mul, mul_one, div_add_div _ _ (by positivity) hN.ne',
          div_le_div_iff₀ hN (by positivity)]
        have hf' := (Nat.cast_le (α := ℚ)).2 hf
        push_cast at hf' ⊢
        nlinarith [mul_le_mul_of_nonneg_right hf' hN.le]
    refine (avg_mono _ _ key).trans ?_
    rw [avg_add, avg_const]
  linarith

open Classical in
/-- C73, unforgeability under chosen-message attack: the probability that a program with at most `Q` questions and `q` requests
outputs a new forgery is at most `q (Q + q)` over the order of the group, plus `m K (Q + 1) / 2 ^ 512` (`K` bounds the number of
64-byte strings with the same value as scalar), plus the expected number of points at which rewinding the program, run
together with the simulator that knows no key, yields a signing key or a relation among the commitment generators. -/
theorem C73_forge {κ γ : Type} (E : Env F P) (hE : E.Lawful) (S : Finset Transcript) [Nonempty S] (params : Params P)
    (hH : params.CommitmentH ≠ 0) (hs : SmallSums F params.n) (sts : κ → Statement P) (hst : ∀ k, StatementBuilt E (sts k))
    (hpar : ∀ k, (sts k).params = params) (hinj : ∀ k k', (sts k).hash = (sts k').hash → k = k') (req : γ → Request κ F)
    (hrel : ∀ g, Rel params.G params.G1 params.U (sts (req g).k).inputSet.M (sts (req g).k).inputSet.M1 (sts (req g).k).offset (sts (req g).k).J (req g).l (req g).r (req g).r1)
    (hS : ∀ g c, signTranscript E params sts (req g) c ∈ S)
    (K : ℕ) (hK : ∀ x : F, #{b : Block | E.scalarOfWide b.bytes = x} ≤ K)
    (c : SigningProgram S Block γ (Option (Proof F P)) (Forgery κ F P)) (Q q : ℕ) (hc : c.AtMost Q q)
    (d : Block × (HybridCoins F params.n params.m × (Fin (params.m - 1) → F))) :
    avg (fun O => c.withSigner (fun g => signPoint E S params sts (req g)) (fun g => signAnswer E params sts (req g))
        (NewForgery E S sts) O []) ≤
      q * (Q + q) / Fintype.card F + params.m * K * (Q + 1) / 2 ^ 512 +
      avg fun tape : Fin q → Block × (HybridCoins F params.n params.m × (Fin (params.m - 1) → F)) => avg fun O : S → Block =>
        (#{s ∈ (c.simulated (fun g => simKeyless E S params sts (req g)) (extend d tape) []).touched (Forgery.crit E S sts) O |
          Rewinds E S sts (c.simulated (fun g => simKeyless E S params sts (req g)) (extend d tape) []) O s} : ℚ) := by
  have h := signing_good E hE S params hH hs sts hst (fun _ => True) hpar hinj req hrel hS K hK c Q q hc d
  simp only [true_and, RewindsFor] at h
  exact h

/-- The simulator of `C72_keyless` and `C73_forge` does not use the key. -/
theorem C73_no_key {κ : Type} (E : Env F P) (S : Finset Transcript) [Nonempty S] (params : Params P) (sts : κ → Statement P)
    (x : Request κ F) (r' r1' : F) (s : HybridCoins F params.n params.m × (Fin (params.m - 1) → F)) (b : Block) :
    simKeyless E S params sts { x with r := r', r1 := r1' } s b = simKeyless E S params sts x s b := rfl

/-- C73: if the verifier accepts a proof whose challenge comes from a transcript no signer has used, it is a new forgery, except
if the verifier's weights are in an exceptional set of at most `(q - 1) ^ 4` of the `(q - 1) ^ 5` weight vectors. -/
theorem C73_accepted {κ : Type} (E : Env F P) (cfg : Config) (S : Finset Transcript)
    (hS : ∀ t ∈ S, t.getLast? = some (.challenge "xi" 64)) (sts : κ → Statement P) (hst : ∀ k, StatementBuilt E (sts k))
    (a : Forgery κ F P) (used : List S) (O : S → Block) (hpoint : ∃ s ∉ used, a.point E sts = s.val)
    (h : (Proof.verify (withOracle E S O) cfg a.p (sts a.k) a.t).1 = .ok ()) :
    NewForgery E S sts a used O ∨ ∃ bad : Finset (Fin 1 × Fin 5 → F),
      bad = ({w | (∀ x, w x ≠ 0) ∧ batchSum (sts a.k).params (sts a.k).inputSet.M (sts a.k).inputSet.M1 [sts a.k] [a.p]
        [challenge (withOracle E S O) a.t (sts a.k) a.p] (weightList w) = 0} : Finset _) ∧
      #bad ≤ (Fintype.card F - 1) ^ 4 ∧
      ∃ w ∈ bad, IsWeights (withOracle E S O) [sts a.k] [a.p] [a.t] (weightList w) := by
  obtain ⟨s, hs, hs'⟩ := hpoint
  rcases C61_accepted E cfg S hS sts hst (.done a) O (by show a.point E sts ∈ S; rw [hs']; exact s.2) h with h' | h'
  · exact Or.inl ⟨⟨s, hs, hs'⟩, h'.2⟩
  · exact Or.inr h'

/-- C73: if the verifier accepts a proof whose challenge comes from a transcript a signer has used, the statement and the
transcript are those of that signature, and the proof is the signature, or the two yield a relation among the commitment
generators; again except for the exceptional weights. -/
theorem C73_same {κ : Type} (E : Env F P) (hE : E.Lawful) (cfg : Config) (S : Finset Transcript) [Nonempty S]
    (hS : ∀ t ∈ S, t.getLast? = some (.challenge "xi" 64)) (sts : κ → Statement P) (hst : ∀ k, StatementBuilt E (sts k))
    (hinj : ∀ k k', (sts k).hash = (sts k').hash → k = k') (hG : ∀ k, (sts k).params.G ≠ 0) (hG1 : ∀ k, (sts k).params.G1 ≠ 0)
    (x : Request κ F) (c : Coins F (sts x.k).params.n (sts x.k).params.m)
    (hrel : Rel (sts x.k).params.G (sts x.k).params.G1 (sts x.k).params.U (sts x.k).inputSet.M (sts x.k).inputSet.M1 (sts x.k).offset (sts x.k).J x.l x.r x.r1)
    (hx : signTranscript E (sts x.k).params sts x c ∈ S)
    (a : Forgery κ F P) (O : S → Block) (hpoint : a.point E sts = signTranscript E (sts x.k).params sts x c)
    (h : (Proof.verify (withOracle E S O) cfg a.p (sts a.k) a.t).1 = .ok ()) :
    (a.k = x.k ∧ a.t = x.t ∧
      ∃ p, signAnswer E (sts x.k).params sts x c (O (signPoint E S (sts x.k).params sts x c)) = some p ∧
        (a.p = p ∨ Relation (sts x.k).params.n (sts x.k).params.m (sts x.k).params.CommitmentG (sts x.k).params.CommitmentH
            (fun j i => fullF a.p.f (challenge (withOracle E S O) a.t (sts a.k) a.p) j i -
              fullF p.f (challenge (withOracle E S O) a.t (sts a.k) a.p) j i) (a.p.zA - p.zA) ∨
          Relation (sts x.k).params.n (sts x.k).params.m (sts x.k).params.CommitmentG (sts x.k).params.CommitmentH
            (fun _ _ => 0) (a.p.zC - p.zC))) ∨
    ∃ bad : Finset (Fin 1 × Fin 5 → F),
      bad = ({w | (∀ x, w x ≠ 0) ∧ batchSum (sts a.k).params (sts a.k).inputSet.M (sts a.k).inputSet.M1 [sts a.k] [a.p]
        [challenge (withOracle E S O) a.t (sts a.k) a.p] (weightList w) = 0} : Finset _) ∧
      #bad ≤ (Fintype.card F - 1) ^ 4 ∧
      ∃ w ∈ bad, IsWeights (withOracle E S O) [sts a.k] [a.p] [a.t] (weightList w) := by
  rcases C61_accepted E cfg S hS sts hst (.done a) O (by show a.point E sts ∈ S; rw [hpoint]; exact hx) h with h' | h'
  swap
  · exact Or.inr h'
  refine Or.inl ?_
  obtain ⟨-, hsh, hv⟩ : a.point E sts ∈ S ∧ Shape (sts a.k).params a.p ∧ Valid (sts a.k).params (sts a.k).inputSet.M (sts a.k).inputSet.M1 (sts a.k).offset (sts a.k).J
    a.p (challenge (withOracle E S O) a.t (sts a.k) a.p) := h'
  have hne := (C50_accepted (withOracle E S O) cfg _ [] _ _ (statementBuilt_withOracle E S O hS _ (hst a.k)) h).2.2.1
  obtain ⟨ht, hh, hA, hB, hC, hD, hX, hX1, hY⟩ := challengeTranscript_inj hE _ _ _ _ _ _ _ _ _ _ _ _ _ _ _ _ _ _ hpoint
  have hk := hinj _ _ hh
  obtain ⟨k, t, p⟩ := a
  simp only at *
  subst hk
  subst ht
  refine ⟨rfl, rfl, ?_⟩
  have hch : challenge (withOracle E S O) x.t (sts x.k) p =
      E.scalarOfWide (O (signPoint E S (sts x.k).params sts x c)).bytes := by
    rw [signPoint, locate_eq S _ hx]
    exact challenge_withOracle E S O _ _ _ ⟨_, hx⟩ hpoint
  rw [hch] at hv ⊢
  have hne0 : E.scalarOfWide (O (signPoint E S (sts x.k).params sts x c)).bytes ≠ 0 := by
    intro h0
    apply hne
    show (0 : F) ∈ [challenge (withOracle E S O) x.t (sts x.k) p]
    rw [hch, h0, List.mem_singleton]
  refine ⟨_, if_neg hne0, ?_⟩
  have hl : x.l < (sts x.k).params.n ^ (sts x.k).params.m := by
    rw [← (hst x.k).ok.length]
    exact (List.getElem?_eq_some_iff.1 hrel.1).1
  exact C51_unique E (sts x.k) (hst x.k) (hG x.k) (hG1 x.k) _ _ _ hsh (honest_shape _ _ _ _ _ _ _ _ _ _) ⟨hA, hB, hC, hD, hX, hX1, hY⟩ hv
    (honest_valid _ (hst x.k).ok.params _ _ _ _ _ _ _ _ hl hrel _)

/-- C73: a key extracted for a statement with an honest signer's linking tag (in whatever ring) is that signer's key: to frame a
signer is to learn the key. -/
theorem C73_frame {κ : Type} (E : Env F P) (S : Finset Transcript) (sts : κ → Statement P)
    (c : OracleProgram S Block (Forgery κ F P)) (O : S → Block) (s : S) (h : Rewinds E S sts c O s) :
    ∃ (k : κ) (b : ℕ → Block), (∀ e ≤ (sts k).params.m, (c.run (update O s (b e))).k = k) ∧
      (ExtractedRelation (sts k).params (fun e => (c.run (update O s (b e))).p) (fun e => E.scalarOfWide (b e).bytes) ∨
      ∀ (G G1 : P) (M M1 : List P) (offset : P) (l : ℕ) (r r1 : F), (sts k).params.U ≠ 0 →
        Rel G G1 (sts k).params.U M M1 offset (sts k).J l r r1 →
        extractKey (sts k).params.m (fun e => E.scalarOfWide (b e).bytes) (fun e => (c.run (update O s (b e))).p.z) = r) := by
  obtain ⟨k, b, -, h1, h2⟩ := h
  refine ⟨k, b, fun e he => (h1 e he).1, ?_⟩
  rcases h2 with h2 | h2
  · exact Or.inr fun G G1 M M1 offset l r r1 hU hrel =>
      (C51_linkable _ _ _ _ _ hU _ _ _ _ _ _ _ _ _ _ _ _ _ _ h2 hrel).1 rfl
  · exact Or.inl h2

local notation "ℓ" => (2 ^ 252 + 27742317777372353535851937790883648493 : ℕ)

open Classical in
/-- `C73_ristretto` for new forgeries of statements with the property `good`. -/
theorem signing_good_ristretto {κ γ : Type} {P : Type} [AddCommGroup P] [Module (ZMod ℓ) P] [DecidableEq P]
    (E : Env (ZMod ℓ) P) (hE : E.Lawful) (hwide : ∀ b, E.scalarOfWide b = ((leNat b : ℕ) : ZMod ℓ))
    (S : Finset Transcript) [Nonempty S] (params : Params P) (hparams : ParamsBuilt E params)
    (hH : params.CommitmentH ≠ 0) (sts : κ → Statement P) (hst : ∀ k, StatementBuilt E (sts k))
    (good : κ → Prop) (hpar : ∀ k, (sts k).params = params) (hinj : ∀ k k', (sts k).hash = (sts k').hash → k = k') (req : γ → Request κ (ZMod ℓ))
    (hrel : ∀ g, Rel params.G params.G1 params.U (sts (req g).k).inputSet.M (sts (req g).k).inputSet.M1 (sts (req g).k).offset (sts (req g).k).J (req g).l (req g).r (req g).r1)
    (hS : ∀ g c, signTranscript E params sts (req g) c ∈ S)
    (c : SigningProgram S Block γ (Option (Proof (ZMod ℓ) P)) (Forgery κ (ZMod ℓ) P)) (Q q : ℕ) (hc : c.AtMost Q q)
    (d : Block × (HybridCoins (ZMod ℓ) params.n params.m × (Fin (params.m - 1) → ZMod ℓ))) :
    avg (fun O => c.withSigner (fun g => signPoint E S params sts (req g)) (fun g => signAnswer E params sts (req g))
        (fun a used O => good a.k ∧ NewForgery E S sts a used O) O []) ≤
      (q * (Q + q) + params.m * (Q + 1)) / 2 ^ 252 +
      avg fun tape : Fin q → Block × (HybridCoins (ZMod ℓ) params.n params.m × (Fin (params.m - 1) → ZMod ℓ)) =>
        avg fun O : S → Block =>
        (#{s ∈ (c.simulated (fun g => simKeyless E S params sts (req g)) (extend d tape) []).touched (Forgery.crit E S sts) O |
          RewindsFor good E S sts (c.simulated (fun g => simKeyless E S params sts (req g)) (extend d tape) []) O s} : ℚ) := by
  have h := signing_good E hE S params hH (C58_small_sums_parallel E _ hparams) sts hst good hpar hinj req hrel hS (2 ^ 260)
    (fun x => by simp only [hwide]; exact blocks_ristretto x) c Q q hc d
  rw [ZMod.card] at h
  exact signing_ratio _ _ Q q params.m h

open Classical in
/-- C73 for Ristretto, with the numbers: a program with at most `Q` questions and `q` requests outputs a new forgery with
probability at most `(q (Q + q) + m (Q + 1)) / 2 ^ 252` plus the expected number of points at which rewinding it, without any
key, yields a signing key or a relation. -/
theorem C73_ristretto {κ γ : Type} {P : Type} [AddCommGroup P] [Module (ZMod ℓ) P] [DecidableEq P]
    (E : Env (ZMod ℓ) P) (hE : E.Lawful) (hwide : ∀ b, E.scalarOfWide b = ((leNat b : ℕ) : ZMod ℓ))
    (S : Finset Transcript) [Nonempty S] (params : Params P) (hparams : ParamsBuilt E params)
    (hH : params.CommitmentH ≠ 0) (sts : κ → Statement P) (hst : ∀ k, StatementBuilt E (sts k))
    (hpar : ∀ k, (sts k).params = params) (hinj : ∀ k k', (sts k).hash = (sts k').hash → k = k') (req : γ → Request κ (ZMod ℓ))
    (hrel : ∀ g, Rel params.G params.G1 params.U (sts (req g).k).inputSet.M (sts (req g).k).inputSet.M1 (sts (req g).k).offset (sts (req g).k).J (req g).l (req g).r (req g).r1)
    (hS : ∀ g c, signTranscript E params sts (req g) c ∈ S)
    (c : SigningProgram S Block γ (Option (Proof (ZMod ℓ) P)) (Forgery κ (ZMod ℓ) P)) (Q q : ℕ) (hc : c.AtMost Q q)
    (d : Block × (HybridCoins (ZMod ℓ) params.n params.m × (Fin (params.m - 1) → ZMod ℓ))) :
    avg (fun O => c.withSigner (fun g => signPoint E S params sts (req g)) (fun g => signAnswer E params sts (req g))
        (NewForgery E S sts) O []) ≤
      (q * (Q + q) + params.m * (Q + 1)) / 2 ^ 252 +
      avg fun tape : Fin q → Block × (HybridCoins (ZMod ℓ) params.n params.m × (Fin (params.m - 1) → ZMod ℓ)) =>
        avg fun O : S → Block =>
        (#{s ∈ (c.simulated (fun g => simKeyless E S params sts (req g)) (extend d tape) []).touched (Forgery.crit E S sts) O |
          Rewinds E S sts (c.simulated (fun g => simKeyless E S params sts (req g)) (extend d tape) []) O s} : ℚ) := by
  have h := signing_good_ristretto E hE hwide S params hparams hH sts hst (fun _ => True) hpar hinj req hrel hS c Q q hc d
  simp only [true_and, RewindsFor] at h
  exact h

/-- The set of transcripts from which the signer may derive challenges, as domain of the oracle. -/
noncomputable def Spec.signDomain {κ : Type} (E : Env F P) (params : Params P) (sts : κ → Statement P) (x : Request κ F) :
    Finset Transcript := univ.image (signTranscript E params sts x)

instance {κ : Type} (E : Env F P) (params : Params P) (sts : κ → Statement P) (x : Request κ F) :
    Nonempty (signDomain E params sts x) :=
  ⟨⟨_, mem_image_of_mem _ (mem_univ (⟨0, 0, 0, 0, 0, 0, 0⟩ : Coins F params.n params.m))⟩⟩

theorem signDomain_mem {κ : Type} (E : Env F P) (params : Params P) (sts : κ → Statement P) (x : Request κ F)
    (c : Coins F params.n params.m) : signTranscript E params sts x c ∈ signDomain E params sts x :=
  mem_image_of_mem _ (mem_univ c)

theorem signDomain_last {κ : Type} (E : Env F P) (params : Params P) (sts : κ → Statement P) (x : Request κ F)
    (t : Transcript) (ht : t ∈ signDomain E params sts x) : t.getLast? = some (.challenge "xi" 64) := by
  obtain ⟨c, -, rfl⟩ := mem_image.1 ht
  rw [signTranscript, Forgery.point, challengeTranscript]
  exact List.getLast?_concat

/-- The toy statement, its signer and a program that requests a signature, asks the oracle once and outputs the signature for a
different message meet the hypotheses of `C72_keyless`, `C72_random`, `C72_zero_knowledge`, `C73_forge`, `C73_accepted` and
`C73_same`. -/
example : ∃ (S : Finset Transcript) (_ : Nonempty S)
    (c : SigningProgram S Block Unit (Option (Proof (ZMod 101) (ZMod 101))) (Forgery Unit (ZMod 101) (ZMod 101))),
    (Triptych.Toy.env 101).Lawful ∧ Toy.statement.params.CommitmentH ≠ 0 ∧ Toy.statement.params.G ≠ 0 ∧
    Toy.statement.params.G1 ≠ 0 ∧
    MaskGenerates (ZMod 101) Toy.statement.params ∧ Generates (ZMod 101) Toy.statement.params.G1 ∧
    SmallSums (ZMod 101) Toy.statement.params.n ∧ StatementBuilt (Triptych.Toy.env 101) Toy.statement ∧
    Rel Toy.statement.params.G Toy.statement.params.G1 Toy.statement.params.U Toy.statement.inputSet.M
      Toy.statement.inputSet.M1 Toy.statement.offset Toy.statement.J 2 (7 : ZMod 101) 9 ∧
    (∀ c, signTranscript (Triptych.Toy.env 101) Toy.statement.params (fun _ : Unit => Toy.statement)
      ⟨(), Triptych.Toy.transcript, 2, 7, 9⟩ c ∈ S) ∧
    (∀ t ∈ S, t.getLast? = some (.challenge "xi" 64)) ∧
    (∀ x : ZMod 101, #{b : Block | (Triptych.Toy.env 101).scalarOfWide b.bytes = x} ≤ 256 ^ 64 / 101 + 1) ∧ c.AtMost 1 1 := by
  have hrel : Rel Toy.statement.params.G Toy.statement.params.G1 Toy.statement.params.U Toy.statement.inputSet.M
      Toy.statement.inputSet.M1 Toy.statement.offset Toy.statement.J 2 (7 : ZMod 101) 9 :=
    ⟨by decide +kernel, by decide +kernel, by decide +kernel⟩
  have hb := Toy.statement_built
  have hs : SmallSums (ZMod 101) Toy.statement.params.n := smallSums_zmod 101 _ (by decide +kernel)
  have hg := Toy.maskGenerates
  have h0 : Toy.statement.params.CommitmentH ≠ 0 ∧ Toy.statement.params.G ≠ 0 ∧ Toy.statement.params.G1 ≠ 0 := by decide +kernel
  generalize Toy.statement = st at *
  exact ⟨signDomain (Triptych.Toy.env 101) st.params (fun _ : Unit => st) ⟨(), Triptych.Toy.transcript, 2, 7, 9⟩, inferInstance,
    .sign () fun x => .ask (Classical.arbitrary _) fun _ => .done ⟨(), [], x.getD Toy.proof⟩,
    Triptych.Toy.env_lawful 101 (by norm_num), h0.1, h0.2.1, h0.2.2, hg.1, hg.2, hs, hb, hrel,
    signDomain_mem _ _ _ _, signDomain_last _ _ _ _, fun x => blocks_value 101 _ le_rfl x,
    ⟨by decide, fun _ => ⟨by decide, fun _ => trivial⟩⟩⟩

/-- The toy witness and statement meet the hypotheses of `C72_code` with every oracle on this domain. -/
example (O : signDomain (Triptych.Toy.env 101) Toy.statement.params (fun _ : Unit => Toy.statement)
      ⟨(), Triptych.Toy.transcript, 2, 7, 9⟩ → Block) :
    StatementBuilt (withOracle (Triptych.Toy.env 101) _ O) Toy.statement ∧
    WitnessBuilt (withOracle (Triptych.Toy.env 101) _ O) Toy.witness ∧
    Toy.witness.params = Toy.statement.params ∧ Toy.witness.l = 2 ∧ Toy.witness.r = 7 ∧ Toy.witness.r1 = 9 := by
  have h := statementBuilt_withOracle (Triptych.Toy.env 101) _ O (signDomain_last _ _ _ _) _ Toy.statement_built
  have hp : Toy.statement.params = Toy.params := by decide +kernel
  have cast : ∀ (E : Env (ZMod 101) (ZMod 101)) (p q : Params (ZMod 101)), p = q → ParamsBuilt E p → ParamsBuilt E q :=
    fun _ _ _ h h' => h ▸ h'
  exact ⟨h, .new _ _ _ _ _ (cast _ _ _ hp h.params_built) Toy.witness_new, by decide +kernel, by decide +kernel, by decide +kernel,
    by decide +kernel⟩

namespace Toy.Ristretto
open Triptych.Toy (env get)

abbrev S := ZMod ℓ

/-- The example of `ToyParallel.lean` over the real scalar field. -/
def params : Params S := get ⟨0, 0, 0, 0, 0, [], 0, []⟩ (Params.new (env ℓ) 2 2)
theorem params_new : Params.new (env ℓ) 2 2 = .ok params := by decide +kernel
def keys : List S := [(3 : S), 5, 7, 11].map fun r => r • params.G
def keys1 : List S := [33, 44, (9 : S) • params.G1 + 17, 55]
def inputSet : InputSet S := get ⟨[], [], []⟩ (InputSet.new (env ℓ) keys keys1)
theorem inputSet_new : InputSet.new (env ℓ) keys keys1 = .ok inputSet := by decide +kernel
def witness : Witness S S := get ⟨params, 0, 0, 0⟩ (Witness.new params 2 7 9)
theorem witness_new : Witness.new params 2 (7 : S) 9 = .ok witness := by decide +kernel
def statement : Statement S := get ⟨params, inputSet, 0, 0, []⟩ (Statement.new (env ℓ) params inputSet 17 witness.computeLinkingTag)
theorem statement_new : Statement.new (env ℓ) params inputSet 17 witness.computeLinkingTag = .ok statement := by decide +kernel
theorem statement_built : StatementBuilt (env ℓ) statement :=
  ⟨_, _, _, _, ⟨_, _, _, _, _, params_new⟩, Or.inl ⟨_, _, inputSet_new⟩, statement_new⟩

end Toy.Ristretto

/-- The same over the real scalar field, for `C73_ristretto` and `C61_ristretto`. -/
example : ∃ (S : Finset Transcript) (_ : Nonempty S)
    (c : SigningProgram S Block Unit (Option (Proof (ZMod ℓ) (ZMod ℓ))) (Forgery Unit (ZMod ℓ) (ZMod ℓ))),
    (Triptych.Toy.env ℓ).Lawful ∧ (∀ b, (Triptych.Toy.env ℓ).scalarOfWide b = ((leNat b : ℕ) : ZMod ℓ)) ∧
    ParamsBuilt (Triptych.Toy.env ℓ) Toy.Ristretto.statement.params ∧ Toy.Ristretto.statement.params.CommitmentH ≠ 0 ∧
    StatementBuilt (Triptych.Toy.env ℓ) Toy.Ristretto.statement ∧
    Rel Toy.Ristretto.statement.params.G Toy.Ristretto.statement.params.G1 Toy.Ristretto.statement.params.U
      Toy.Ristretto.statement.inputSet.M Toy.Ristretto.statement.inputSet.M1 Toy.Ristretto.statement.offset
      Toy.Ristretto.statement.J 2 (7 : ZMod ℓ) 9 ∧
    (∀ c, signTranscript (Triptych.Toy.env ℓ) Toy.Ristretto.statement.params (fun _ : Unit => Toy.Ristretto.statement)
      ⟨(), Triptych.Toy.transcript, 2, 7, 9⟩ c ∈ S) ∧ c.AtMost 1 1 := by
  have hrel : Rel Toy.Ristretto.statement.params.G Toy.Ristretto.statement.params.G1 Toy.Ristretto.statement.params.U
      Toy.Ristretto.statement.inputSet.M Toy.Ristretto.statement.inputSet.M1 Toy.Ristretto.statement.offset
      Toy.Ristretto.statement.J 2 (7 : ZMod ℓ) 9 := ⟨by decide +kernel, by decide +kernel, by decide +kernel⟩
  have hb := Toy.Ristretto.statement_built
  have h0 : Toy.Ristretto.statement.params.CommitmentH ≠ 0 := by decide +kernel
  generalize Toy.Ristretto.statement = st at *
  exact ⟨signDomain (Triptych.Toy.env ℓ) st.params (fun _ : Unit => st) ⟨(), Triptych.Toy.transcript, 2, 7, 9⟩, inferInstance,
    .sign () fun _ => .ask (Classical.arbitrary _) fun _ => .done ⟨(), [], ⟨0, 0, 0, 0, [], [], [], [], 0, 0, 0, 0⟩⟩,
    Triptych.Toy.env_lawful ℓ (by norm_num), fun _ => rfl, hb.params_built, h0, hb, hrel, signDomain_mem _ _ _ _,
    ⟨by decide, fun _ => ⟨by decide, fun _ => trivial⟩⟩⟩

end Triptych.Parallel
