import Verif.Props.Linkable
import Verif.Props.Signing
import Verif.Lemmas.ChosenMessage

/-! # Chosen-message attacks against the complete verifier: C90

A program may ask for challenges, weight seeds and weights, all of which are random, and request signatures from honest signers. It
wins if the verifier accepts proofs that no signer made. -/
set_option autoImplicit false
set_option linter.unusedSectionVars false
set_option linter.unusedVariables false

namespace Triptych
open Spec Finset Function

variable {F P : Type} [Field F] [AddCommGroup P] [Module F P] [DecidableEq F] [DecidableEq P]

/-- With challenges `O`, seeds `H` and weights `W`, the verifier accepts the output, deriving the challenge from a transcript in
`S` that no signer has used, and the seed from one in `A`. -/
def Spec.AcceptedNew {κ : Type} (E : Env F P) (cfg : Config) (S A : Finset Transcript) (sts : κ → Statement P) {N : ℕ}
    (x : Forgery κ F P) (used : List S) (O : S → Block) (H : A → Seed) (W : Seed → Fin N → Block) : Prop :=
  (∃ s ∉ used, x.point E sts = s.val) ∧ responseTranscript E x.t (sts x.k) x.p ∈ A ∧
    (Proof.verify (withSeeds (withOracle E S O) "Triptych verifier weights" A H (fun s : Seed => [s.val]) W) cfg x.p (sts x.k)
      x.t).1 = .ok ()

/-- All outputs are accepted and new, and no two of them have the same linking tag. -/
def Spec.AcceptedNewUnlinkable {κ : Type} (E : Env F P) (cfg : Config) (S A : Finset Transcript) (sts : κ → Statement P) {N j : ℕ}
    (x : Fin j → Forgery κ F P) (used : List S) (O : S → Block) (H : A → Seed) (W : Seed → Fin N → Block) : Prop :=
  (∀ i, AcceptedNew E cfg S A sts (x i) used O H W) ∧ ∀ i i', (sts (x i).k).J = (sts (x i').k).J → i = i'

theorem accepted_new_cases {κ : Type} (E : Env F P) (cfg : Config) (S A : Finset Transcript)
    (hS : ∀ t ∈ S, t.getLast? = some (.challenge "xi" 64)) (sts : κ → Statement P) (hst : ∀ k, StatementBuilt E (sts k)) {N : ℕ}
    (x : Forgery κ F P) (used : List S) (O : S → Block) (H : A → Seed)
    (W : Seed → Fin N → Block) (h : AcceptedNew E cfg S A sts x used O H W) :
    NewForgery E S sts x used O ∨ AcceptedInvalid (withOracle E S O) cfg A sts x H W := by
  obtain ⟨h1, h2, h3⟩ := h
  by_cases hv : Valid (sts x.k).params (sts x.k).inputSet.M (sts x.k).J x.p (challenge (withOracle E S O) x.t (sts x.k) x.p)
  · have hb : StatementBuilt (withSeeds (withOracle E S O) "Triptych verifier weights" A H (fun s : Seed => [s.val]) W) (sts x.k) :=
      statementBuilt_withSeeds _ _ _ _ _ _ _ (statementBuilt_withOracle E S O hS _ (hst x.k))
    exact Or.inl ⟨h1, (C18_accepted _ cfg _ [] _ _ hb h3).1.shapes _ (by simp), hv⟩
  · exact Or.inr ⟨h2, hv, h3⟩

local notation "ℓ" => (2 ^ 252 + 27742317777372353535851937790883648493 : ℕ)

theorem withSigner_le_add {ι β γ δ α T : Type} [Fintype T] [Nonempty T] (point : γ → T → ι) (answer : γ → T → β → δ)
    (win win1 win2 : α → List ι → (ι → β) → Prop) (O : ι → β) (h : ∀ a used, win a used O → win1 a used O ∨ win2 a used O)
    (c : SigningProgram ι β γ δ α) (Q q : ℕ) (hc : c.AtMost Q q) :
    c.withSigner point answer win O [] ≤ c.withSigner point answer win1 O [] + c.withSigner point answer win2 O [] := by
  have d := Classical.arbitrary T
  rw [SigningProgram.withSigner_tape point answer d win c Q q hc, SigningProgram.withSigner_tape point answer d win1 c Q q hc,
    SigningProgram.withSigner_tape point answer d win2 c Q q hc, ← avg_add]
  refine avg_mono _ _ fun tape => ?_
  generalize (c.signRun point answer O (extend d tape) []).1 = a
  generalize (c.signRun point answer O (extend d tape) []).2 = used
  by_cases hw : win a used O
  · rw [ind_pos hw]
    rcases h _ _ hw with h' | h'
    · rw [ind_pos h']
      linarith [ind_nonneg (win2 a used O)]
    · rw [ind_pos h']
      linarith [ind_nonneg (win1 a used O)]
  · rw [ind_neg hw]
    exact add_nonneg (ind_nonneg _) (ind_nonneg _)

/-- Fixing the signers' random choices turns the program into one that only asks for seeds and weights. -/
theorem signer_grind {S B A X V Y γ δ α T : Type} [Fintype T] [Nonempty T] [Fintype S] [DecidableEq S] [Fintype B] [Fintype A]
    [DecidableEq A] [Fintype X] [Fintype V] [DecidableEq V] [Fintype Y] (point : γ → T → S) (answer : γ → T → B → δ)
    (bad : α → (A → X) → (V → Y) → (S → B) → Prop) (c : ChosenProgram S B A X V Y γ δ α) (Q R N q : ℕ)
    (hc : c.AtMost Q R N q) (ε : ℚ) (hε : 0 ≤ ε)
    (h : ∀ (O : S → B) (g : GrindProgram A X V Y α), g.AtMost R N →
      (avg fun H : A → X => avg fun W : V → Y => ind (bad (g.run H W) H W O)) ≤ ε) :
    (avg fun O : S → B => avg fun H : A → X => avg fun W : V → Y =>
      (c.signingOnly H W).withSigner point answer (fun a _ O => bad a H W O) O []) ≤ ε := by
  have d := Classical.arbitrary T
  have h1 : ∀ (O : S → B) (H : A → X) (W : V → Y),
      (c.signingOnly H W).withSigner point answer (fun a _ O => bad a H W O) O [] =
      avg fun tape : Fin q → T => ind (bad ((c.weightsOnly point answer O (extend d tape)).run H W) H W O) := by
    intro O H W
    rw [SigningProgram.withSigner_tape point answer d _ _ Q q (ChosenProgram.atMost_signingOnly H W c hc)]
    congr 1
    funext tape
    rw [ChosenProgram.run_weightsOnly point answer O H W c _ []]
  simp only [h1]
  have h2 : ∀ O : S → B, (avg fun H : A → X => avg fun W : V → Y => avg fun tape : Fin q → T =>
      ind (bad ((c.weightsOnly point answer O (extend d tape)).run H W) H W O)) ≤ ε := by
    intro O
    rw [avg_swap, avg_swap]
    refine (avg_mono _ (fun _ => ε) fun tape => h O _ (ChosenProgram.atMost_weightsOnly point answer O c _ hc)).trans ?_
    rw [avg_const]
  rcases isEmpty_or_nonempty (S → B) with he | he
  · rw [avg, Fintype.sum_empty, zero_div]
    exact hε
  · refine (avg_mono _ (fun _ => ε) h2).trans ?_
    rw [avg_const]

open Classical in
/-- `C90_ristretto` for forgeries of statements with the property `good`. -/
theorem chosen_good {κ γ : Type} {P : Type} [AddCommGroup P] [Module (ZMod ℓ) P] [DecidableEq P]
    (E : Env (ZMod ℓ) P) (hE : E.Lawful) (hwide : ∀ b, E.scalarOfWide b = ((leNat b : ℕ) : ZMod ℓ)) (cfg : Config)
    (S A : Finset Transcript) [Nonempty S] (hS : ∀ t ∈ S, t.getLast? = some (.challenge "xi" 64))
    (params : Params P) (hparams : ParamsBuilt E params) (hH : params.CommitmentH ≠ 0)
    (sts : κ → Statement P) (hst : ∀ k, StatementBuilt E (sts k)) (good : κ → Prop)
    (hpar : ∀ k, (sts k).params = params) (hinj : ∀ k k', (sts k).hash = (sts k').hash → k = k') (req : γ → Request κ (ZMod ℓ))
    (hrel : ∀ g, Rel params.G params.U (sts (req g).k).inputSet.M (sts (req g).k).J (req g).l (req g).r)
    (hreq : ∀ g c, signTranscript E params sts (req g) c ∈ S)
    (c : ChosenProgram S Block A Seed Seed (Fin (1 * 2 * 4) → Block) γ (Option (Proof (ZMod ℓ) P)) (Forgery κ (ZMod ℓ) P))
    (Q R T q : ℕ) (hc : c.AtMost Q R T q)
    (d : Block × (HybridCoins (ZMod ℓ) params.n params.m × (Fin (params.m - 1) → ZMod ℓ))) :
    (avg fun O : S → Block => avg fun H : A → Seed => avg fun W : Seed → Fin (1 * 2 * 4) → Block =>
      (c.signingOnly H W).withSigner (fun g => signPoint E S params sts (req g)) (fun g => signAnswer E params sts (req g))
        (fun a used O => good a.k ∧ AcceptedNew E cfg S A sts a used O H W) O []) ≤
      (q * (Q + q) + params.m * (Q + 1)) / 2 ^ 252 + ((R + 1) * (4 / 2 ^ 64) + 1 / 2 ^ 174) +
      avg fun H : A → Seed => avg fun W : Seed → Fin (1 * 2 * 4) → Block =>
      avg fun tape : Fin q → Block × (HybridCoins (ZMod ℓ) params.n params.m × (Fin (params.m - 1) → ZMod ℓ)) =>
        avg fun O : S → Block =>
        (#{s ∈ ((c.signingOnly H W).simulated (fun g => simKeyless E S params sts (req g)) (extend d tape) []).touched
            (Forgery.crit E S sts) O |
          RewindsFor good E S sts
            ((c.signingOnly H W).simulated (fun g => simKeyless E S params sts (req g)) (extend d tape) []) O s} : ℚ) := by
  have hne : Nonempty (Coins (ZMod ℓ) params.n params.m) := ⟨⟨fun _ _ => 0, 0, 0, 0, 0, fun _ => 0⟩⟩
  have h1 := fun (O : S → Block) (H : A → Seed) (W : Seed → Fin (1 * 2 * 4) → Block) =>
    withSigner_le_add (fun g => signPoint E S params sts (req g)) (fun g => signAnswer E params sts (req g))
      (fun a used O => good a.k ∧ AcceptedNew E cfg S A sts a used O H W)
      (fun a used O => good a.k ∧ NewForgery E S sts a used O)
      (fun a _ O => AcceptedInvalid (withOracle E S O) cfg A sts a H W) O
      (fun a used h => (accepted_new_cases E cfg S A hS sts hst a used O H W h.2).imp_left fun h' => ⟨h.1, h'⟩)
      (c.signingOnly H W) Q q (ChosenProgram.atMost_signingOnly H W c hc)
  refine (avg_mono _ _ fun O => avg_mono _ _ fun H => avg_mono _ _ fun W => h1 O H W).trans ?_
  rw [avg_add₃]
  have h2 := signer_grind (fun g => signPoint E S params sts (req g)) (fun g => signAnswer E params sts (req g))
    (fun a H W O => AcceptedInvalid (withOracle E S O) cfg A sts a H W) c Q R T q hc (((R + 1) * (4 / 2 ^ 64) + 1 / 2 ^ 174))
    (by positivity) fun O g hg => C78_known_ristretto (withOracle E S O) (lawful_withOracle E hE S O) hwide cfg A sts
      (fun k => statementBuilt_withOracle E S O hS _ (hst k)) hinj g R T hg
  have h3 := fun (H : A → Seed) (W : Seed → Fin (1 * 2 * 4) → Block) => signing_good_ristretto E hE hwide S params hparams hH sts hst
    good hpar hinj req hrel hreq (c.signingOnly H W) Q q (ChosenProgram.atMost_signingOnly H W c hc) d
  rw [avg_swap]
  have h4 := avg_mono _ _ fun H => avg_mono _ _ fun W => h3 H W
  generalize ((q * (Q + q) + params.m * (Q + 1)) / 2 ^ 252 : ℚ) = ε at h4 ⊢
  generalize (((R + 1) * (4 / 2 ^ 64) + 1 / 2 ^ 174) : ℚ) = ε' at h2 ⊢
  simp only [avg_add, avg_const] at h4
  linarith

open Classical in
/-- C90: the probability that the verifier accepts a proof, not made by a signer, which is output by a program asking for at most `Q`
challenges, `R` seeds, the weights of `T` seeds, and `q` signatures, is at most `(q (Q + q) + m (Q + 1)) / 2 ^ 252 +
(R + 1) 4 / 2 ^ 64 + 1 / 2 ^ 174`, plus the expected number of questions at which rewinding the program, run together with the
simulator that knows no key, yields a signing key or a relation among the commitment generators. -/
theorem C90_ristretto {κ γ : Type} {P : Type} [AddCommGroup P] [Module (ZMod ℓ) P] [DecidableEq P]
    (E : Env (ZMod ℓ) P) (hE : E.Lawful) (hwide : ∀ b, E.scalarOfWide b = ((leNat b : ℕ) : ZMod ℓ)) (cfg : Config)
    (S A : Finset Transcript) [Nonempty S] (hS : ∀ t ∈ S, t.getLast? = some (.challenge "xi" 64))
    (params : Params P) (hparams : ParamsBuilt E params) (hH : params.CommitmentH ≠ 0)
    (sts : κ → Statement P) (hst : ∀ k, StatementBuilt E (sts k))
    (hpar : ∀ k, (sts k).params = params) (hinj : ∀ k k', (sts k).hash = (sts k').hash → k = k') (req : γ → Request κ (ZMod ℓ))
    (hrel : ∀ g, Rel params.G params.U (sts (req g).k).inputSet.M (sts (req g).k).J (req g).l (req g).r)
    (hreq : ∀ g c, signTranscript E params sts (req g) c ∈ S)
    (c : ChosenProgram S Block A Seed Seed (Fin (1 * 2 * 4) → Block) γ (Option (Proof (ZMod ℓ) P)) (Forgery κ (ZMod ℓ) P))
    (Q R T q : ℕ) (hc : c.AtMost Q R T q)
    (d : Block × (HybridCoins (ZMod ℓ) params.n params.m × (Fin (params.m - 1) → ZMod ℓ))) :
    (avg fun O : S → Block => avg fun H : A → Seed => avg fun W : Seed → Fin (1 * 2 * 4) → Block =>
      (c.signingOnly H W).withSigner (fun g => signPoint E S params sts (req g)) (fun g => signAnswer E params sts (req g))
        (fun a used O => AcceptedNew E cfg S A sts a used O H W) O []) ≤
      (q * (Q + q) + params.m * (Q + 1)) / 2 ^ 252 + ((R + 1) * (4 / 2 ^ 64) + 1 / 2 ^ 174) +
      avg fun H : A → Seed => avg fun W : Seed → Fin (1 * 2 * 4) → Block =>
      avg fun tape : Fin q → Block × (HybridCoins (ZMod ℓ) params.n params.m × (Fin (params.m - 1) → ZMod ℓ)) =>
        avg fun O : S → Block =>
        (#{s ∈ ((c.signingOnly H W).simulated (fun g => simKeyless E S params sts (req g)) (extend d tape) []).touched
            (Forgery.crit E S sts) O |
          Rewinds E S sts
            ((c.signingOnly H W).simulated (fun g => simKeyless E S params sts (req g)) (extend d tape) []) O s} : ℚ) := by
  have h := chosen_good E hE hwide cfg S A hS params hparams hH sts hst (fun _ => True) hpar hinj req hrel hreq c Q R T q hc d
  simp only [true_and, RewindsFor] at h
  exact h

/-- Some output is good whenever the program wins. -/
theorem withSigner_parts {S B A X V Y γ δ α T ι : Type} [Fintype T] [Nonempty T] [Fintype ι] (point : γ → T → S)
    (answer : γ → T → B → δ) (win : (ι → α) → List S → (S → B) → Prop) (win' : α → List S → (S → B) → Prop) (O : S → B)
    (h : ∀ a used, win a used O → ∃ i, win' (a i) used O) (c : ChosenProgram S B A X V Y γ δ (ι → α)) (Q R N q : ℕ)
    (hc : c.AtMost Q R N q) (H : A → X) (W : V → Y) :
    (c.signingOnly H W).withSigner point answer win O [] ≤
      ∑ i, ((c.part i).signingOnly H W).withSigner point answer win' O [] := by
  have d := Classical.arbitrary T
  rw [SigningProgram.withSigner_tape point answer d _ _ Q q (ChosenProgram.atMost_signingOnly H W c hc)]
  have h1 : ∀ i, ((c.part i).signingOnly H W).withSigner point answer win' O [] = avg fun tape : Fin q → T =>
      ind (win' (((c.signingOnly H W).signRun point answer O (extend d tape) []).1 i)
        ((c.signingOnly H W).signRun point answer O (extend d tape) []).2 O) := by
    intro i
    rw [ChosenProgram.part, SigningProgram.withSigner_tape point answer d _ _ Q q
      (ChosenProgram.atMost_signingOnly H W _ (ChosenProgram.atMost_map _ c hc))]
    simp only [ChosenProgram.signRun_map]
  simp only [h1]
  rw [← avg_sum]
  refine avg_mono _ _ fun tape => ind_le_sum _ _ _ fun hw => ?_
  obtain ⟨i, hi⟩ := h _ _ hw
  exact ⟨i, mem_univ i, hi⟩

open Classical in
/-- C90 for several proofs: the program outputs `j + 1` proofs; `K` are at most `j` keys. The probability that the verifier accepts
them all, that no signer made any of them and that they have different linking tags is at most `j + 1` times the bound of
`C90_ristretto`, plus the expected number of questions at which rewinding yields a signing key that is not in `K`, or a relation. -/
theorem C90_unlinkable {κ γ : Type} {P : Type} [AddCommGroup P] [Module (ZMod ℓ) P] [DecidableEq P]
    (E : Env (ZMod ℓ) P) (hE : E.Lawful) (hwide : ∀ b, E.scalarOfWide b = ((leNat b : ℕ) : ZMod ℓ)) (cfg : Config)
    (S A : Finset Transcript) [Nonempty S] (hS : ∀ t ∈ S, t.getLast? = some (.challenge "xi" 64))
    (params : Params P) (hparams : ParamsBuilt E params) (hH : params.CommitmentH ≠ 0)
    (sts : κ → Statement P) (hst : ∀ k, StatementBuilt E (sts k))
    (hpar : ∀ k, (sts k).params = params) (hinj : ∀ k k', (sts k).hash = (sts k').hash → k = k') (req : γ → Request κ (ZMod ℓ))
    (hrel : ∀ g, Rel params.G params.U (sts (req g).k).inputSet.M (sts (req g).k).J (req g).l (req g).r)
    (hreq : ∀ g c, signTranscript E params sts (req g) c ∈ S)
    (hU : params.U ≠ 0) (j : ℕ) (K : Finset (ZMod ℓ)) (hK : #K ≤ j)
    (c : ChosenProgram S Block A Seed Seed (Fin (1 * 2 * 4) → Block) γ (Option (Proof (ZMod ℓ) P))
      (Fin (j + 1) → Forgery κ (ZMod ℓ) P)) (Q R T q : ℕ) (hc : c.AtMost Q R T q)
    (d : Block × (HybridCoins (ZMod ℓ) params.n params.m × (Fin (params.m - 1) → ZMod ℓ))) :
    (avg fun O : S → Block => avg fun H : A → Seed => avg fun W : Seed → Fin (1 * 2 * 4) → Block =>
      (c.signingOnly H W).withSigner (fun g => signPoint E S params sts (req g)) (fun g => signAnswer E params sts (req g))
        (fun a used O => AcceptedNewUnlinkable E cfg S A sts a used O H W) O []) ≤
      (j + 1) * ((q * (Q + q) + params.m * (Q + 1)) / 2 ^ 252 + ((R + 1) * (4 / 2 ^ 64) + 1 / 2 ^ 174)) +
      ∑ i, avg fun H : A → Seed => avg fun W : Seed → Fin (1 * 2 * 4) → Block =>
      avg fun tape : Fin q → Block × (HybridCoins (ZMod ℓ) params.n params.m × (Fin (params.m - 1) → ZMod ℓ)) =>
        avg fun O : S → Block =>
        (#{s ∈ (((c.part i).signingOnly H W).simulated (fun g => simKeyless E S params sts (req g)) (extend d tape) []).touched
            (Forgery.crit E S sts) O |
          RewindsOutside K E S sts
            (((c.part i).signingOnly H W).simulated (fun g => simKeyless E S params sts (req g)) (extend d tape) []) O s} : ℚ) := by
  have hne : Nonempty (Coins (ZMod ℓ) params.n params.m) := ⟨⟨fun _ _ => 0, 0, 0, 0, 0, fun _ => 0⟩⟩
  have hUU : ∀ k, (sts k).params.U = params.U := fun k => by rw [hpar]
  have key := fun i : Fin (j + 1) => chosen_good E hE hwide cfg S A hS params hparams hH sts hst
    (fun k => ∀ r ∈ K, r • (sts k).J ≠ params.U) hpar hinj req hrel hreq (c.part i) Q R T q (ChosenProgram.atMost_map _ c hc) d
  generalize ((q * (Q + q) + params.m * (Q + 1)) / 2 ^ 252 + ((R + 1) * (4 / 2 ^ 64) + 1 / 2 ^ 174) : ℚ) = ε at key ⊢
  have h1 := fun (O : S → Block) (H : A → Seed) (W : Seed → Fin (1 * 2 * 4) → Block) =>
    withSigner_parts (fun g => signPoint E S params sts (req g)) (fun g => signAnswer E params sts (req g))
      (fun a used O => AcceptedNewUnlinkable E cfg S A sts a used O H W)
      (fun a used O => (∀ r ∈ K, r • (sts a.k).J ≠ params.U) ∧ AcceptedNew E cfg S A sts a used O H W) O
      (fun a used h => by
        obtain ⟨i, hi⟩ := tag_outside params.U hU K hK (fun i => (sts (a i).k).J) h.2
        exact ⟨i, hi, h.1 i⟩) c Q R T q hc H W
  refine (avg_mono _ _ fun O => avg_mono _ _ fun H => avg_mono _ _ fun W => h1 O H W).trans ?_
  rw [avg_sum₃]
  refine (sum_le_sum fun i _ => key i).trans ?_
  rw [sum_add_distrib, sum_const, card_univ, Fintype.card_fin, nsmul_eq_mul, Nat.cast_add, Nat.cast_one]
  refine add_le_add_right (sum_le_sum fun i _ => avg_mono _ _ fun H => avg_mono _ _ fun W => avg_mono _ _ fun tape =>
    avg_mono _ _ fun O => ?_) _
  rw [Nat.cast_le]
  refine card_le_card fun s hs => ?_
  rw [mem_filter] at hs ⊢
  exact ⟨hs.1, rewinds_outside K E S sts params.U hUU _ O s hs.2⟩

/-- Points for different statements are different. -/
theorem point_ne {κ : Type} (E : Env F P) (hE : E.Lawful) (sts : κ → Statement P)
    (hinj : ∀ k k', (sts k).hash = (sts k').hash → k = k') (x y : Forgery κ F P) (h : x.k ≠ y.k) :
    x.point E sts ≠ y.point E sts := by
  intro he
  rw [Forgery.point, Forgery.point] at he
  exact h (hinj _ _ (challengeTranscript_inj hE _ _ _ _ _ _ _ _ _ _ _ _ _ _ _ _ he).2.1)

/-- There is a program that requests a signature, looks at a seed and at weights, and makes a proof with its own key `r` of the
statement `k`. -/
theorem attacker_exists [Fintype F] {κ : Type} (E : Env F P) (hE : E.Lawful) (params : Params P) (sts : κ → Statement P)
    (hst : ∀ k, StatementBuilt E (sts k)) (hinj : ∀ k k', (sts k).hash = (sts k').hash → k = k') (x : Request κ F)
    (k : κ) (hk : k ≠ x.k) (t : Transcript) (l : ℕ) (r : F)
    (hrel : Rel (sts k).params.G (sts k).params.U (sts k).inputSet.M (sts k).J l r) (nn : Nonces F) (A : Finset Transcript) (a : A)
    (V Y : Type) (v : V) :
    ∃ (S : Finset Transcript) (_ : Nonempty S)
      (c : ChosenProgram S Block A Seed V Y Unit (Option (Proof F P)) (Forgery κ F P)),
      (∀ t ∈ S, t.getLast? = some (.challenge "xi" 64)) ∧ (∀ c, signTranscript E params sts x c ∈ S) ∧ c.AtMost 1 1 1 1 ∧
      ∀ O H W tape, NewForgery E S sts
        ((c.signingOnly H W).signRun (fun _ => signPoint E S params sts x) (fun _ => signAnswer E params sts x) O tape []).1
        ((c.signingOnly H W).signRun (fun _ => signPoint E S params sts x) (fun _ => signAnswer E params sts x) O tape []).2 O := by
  let out (ξ : F) : Forgery κ F P := ⟨k, t, honestProof (sts k).params (sts k).inputSet.M (sts k).J l r nn ξ⟩
  let S : Finset Transcript := insert ((out 0).point E sts) (signDomain E params sts x)
  have hm : (out 0).point E sts ∈ S := mem_insert_self _ _
  have hS : Nonempty S := ⟨⟨_, hm⟩⟩
  have hreq : ∀ c, signTranscript E params sts x c ∈ S := fun c => mem_insert_of_mem (signDomain_mem _ _ _ _ c)
  refine ⟨S, hS, .sign () fun _ => .seed a fun y => .weights v fun _ => .challenge ⟨_, hm⟩ fun b =>
    .done (out (E.scalarOfWide b.bytes)), fun t ht => ?_, hreq,
    ⟨by norm_num, fun _ => ⟨by norm_num, fun _ => ⟨by norm_num, fun _ => ⟨by norm_num, fun _ => trivial⟩⟩⟩⟩, fun O H W tape => ?_⟩
  · rcases mem_insert.1 ht with rfl | ht
    · exact challengeTranscript_getLast _ _ _ _ _ _ _ _ _
    · exact signDomain_last _ _ _ _ _ ht
  · refine ⟨⟨⟨_, hm⟩, fun h => ?_, rfl⟩, (honest_forges E S sts hst k t l r hrel nn hm O).2⟩
    have h1 : (out 0).point E sts = (signPoint E S params sts x (tape 0)).val := congrArg Subtype.val (List.mem_singleton.1 h)
    rw [signPoint, locate_val _ _ (hreq _)] at h1
    exact point_ne E hE sts hinj (out 0) ⟨x.k, _, _⟩ hk h1

namespace Toy.Ristretto

theorem sts_params : ∀ k, (sts k).params = params := by decide +kernel

end Toy.Ristretto

/-- A program meeting the hypotheses of `C90_ristretto` (and of `C90_unlinkable` with `j = 0`): it requests a signature by the holder
of the key 7, and always outputs a valid proof with the key 11, with a point the signer has not used. -/
example (nn : Nonces (ZMod ℓ)) (A : Finset Transcript) (a : A) (v : Seed) :
    ParamsBuilt (Toy.env ℓ) Toy.Ristretto.params ∧ Toy.Ristretto.params.CommitmentH ≠ 0 ∧ Toy.Ristretto.params.U ≠ 0 ∧
    (∀ k, StatementBuilt (Toy.env ℓ) (Toy.Ristretto.sts k)) ∧ (∀ k, (Toy.Ristretto.sts k).params = Toy.Ristretto.params) ∧
    (∀ k k', (Toy.Ristretto.sts k).hash = (Toy.Ristretto.sts k').hash → k = k') ∧
    Rel Toy.Ristretto.params.G Toy.Ristretto.params.U (Toy.Ristretto.sts false).inputSet.M (Toy.Ristretto.sts false).J 2
      (7 : ZMod ℓ) ∧
    ∃ (S : Finset Transcript) (_ : Nonempty S) (c : ChosenProgram S Block A Seed Seed (Fin (1 * 2 * 4) → Block) Unit
        (Option (Proof (ZMod ℓ) (ZMod ℓ))) (Forgery Bool (ZMod ℓ) (ZMod ℓ))),
      (∀ t ∈ S, t.getLast? = some (.challenge "xi" 64)) ∧
      (∀ c, signTranscript (Toy.env ℓ) Toy.Ristretto.params Toy.Ristretto.sts ⟨false, Toy.transcript, 2, 7⟩ c ∈ S) ∧
      c.AtMost 1 1 1 1 ∧
      ∀ O H W tape, NewForgery (Toy.env ℓ) S Toy.Ristretto.sts
        ((c.signingOnly H W).signRun
          (fun _ => signPoint (Toy.env ℓ) S Toy.Ristretto.params Toy.Ristretto.sts ⟨false, Toy.transcript, 2, 7⟩)
          (fun _ => signAnswer (Toy.env ℓ) Toy.Ristretto.params Toy.Ristretto.sts ⟨false, Toy.transcript, 2, 7⟩) O tape []).1
        ((c.signingOnly H W).signRun
          (fun _ => signPoint (Toy.env ℓ) S Toy.Ristretto.params Toy.Ristretto.sts ⟨false, Toy.transcript, 2, 7⟩)
          (fun _ => signAnswer (Toy.env ℓ) Toy.Ristretto.params Toy.Ristretto.sts ⟨false, Toy.transcript, 2, 7⟩) O tape []).2 O := by
  refine ⟨Toy.Ristretto.params_built, by decide +kernel, by decide +kernel, Toy.Ristretto.sts_built, Toy.Ristretto.sts_params,
    Toy.Ristretto.sts_hash, ⟨by decide +kernel, by decide +kernel⟩, ?_⟩
  exact attacker_exists (Toy.env ℓ) (Toy.env_lawful ℓ (by norm_num)) Toy.Ristretto.params Toy.Ristretto.sts Toy.Ristretto.sts_built
    Toy.Ristretto.sts_hash ⟨false, Toy.transcript, 2, 7⟩ true (by decide) Toy.transcript (Toy.Ristretto.index true)
    (Toy.Ristretto.key true) (Toy.Ristretto.sts_rel true) nn A a Seed _ v

end Triptych
