import Verif.Props.Rewind

/-! # Extracting the key from a chosen-message attack by an efficient algorithm: C98

As C71, C90 and C92, with the extractor in place of the number of points at which rewinding succeeds. -/
set_option autoImplicit false
set_option linter.unusedSectionVars false
set_option linter.unusedVariables false

namespace Triptych
open Spec Finset Function

variable {F P : Type} [Field F] [AddCommGroup P] [Module F P] [DecidableEq F] [DecidableEq P] [Fintype F]

/-- `C98_signing` for new forgeries of statements with the property `good`. -/
theorem signing_extract_good {κ γ : Type} (E : Env F P) (hE : E.Lawful) (S : Finset Transcript) [Nonempty S] (params : Params P)
    (hH : params.CommitmentH ≠ 0) (hs : SmallSums F params.n) (sts : κ → Statement P) (hst : ∀ k, StatementBuilt E (sts k))
    (good : κ → Prop) (want : F → Prop) (hgood : ∀ k, good k → ∀ r : F, r • (sts k).params.G ∈ (sts k).inputSet.M → r • (sts k).J = (sts k).params.U → want r)
    (hpar : ∀ k, (sts k).params = params) (hinj : ∀ k k', (sts k).hash = (sts k').hash → k = k') (req : γ → Request κ F)
    (hrel : ∀ g, Rel params.G params.U (sts (req g).k).inputSet.M (sts (req g).k).J (req g).l (req g).r)
    (hS : ∀ g c, signTranscript E params sts (req g) c ∈ S)
    (K : ℕ) (hK : ∀ x : F, #{b : Block | E.scalarOfWide b.bytes = x} ≤ K)
    (c : SigningProgram S Block γ (Option (Proof F P)) (Forgery κ F P)) (Q q : ℕ) (hc : c.AtMost Q q)
    (d : Block × (HybridCoins F params.n params.m × (Fin (params.m - 1) → F))) (τ : ℕ) :
    avg (fun O => c.withSigner (fun g => signPoint E S params sts (req g)) (fun g => signAnswer E params sts (req g))
        (fun a used O => good a.k ∧ NewForgery E S sts a used O) O []) ≤
      q * (Q + q) / Fintype.card F + (Q + 1) * (params.m / (τ + 1) + params.m * params.m * K / 2 ^ 512) +
      avg fun coins : Fin q → Block × (HybridCoins F params.n params.m × (Fin (params.m - 1) → F)) => avg fun O : S → Block =>
        avg fun tape : Fin params.m → Fin τ → Block => ind (Yields want E sts (extractor E S sts
          (c.simulated (fun g => simKeyless E S params sts (req g)) (extend d coins) []) O (tries tape))) := by
  obtain ⟨win, hwin⟩ : ∃ win : Forgery κ F P → List S → (S → Block) → Prop,
      win = fun a used O => good a.k ∧ NewForgery E S sts a used O := ⟨_, rfl⟩
  rw [← hwin]
  have h1 := (abs_le.1 (C70_keyless E hE S params hH sts hst hpar req hrel hS win c Q q hc)).2
  obtain ⟨δ, hδ⟩ : ∃ δ : ℚ, δ = (Q + 1) * (params.m / (τ + 1) + params.m * params.m * K / 2 ^ 512) := ⟨_, rfl⟩
  rw [← hδ]
  have h2 : avg (fun O => c.withSimulator (fun g => simKeyless E S params sts (req g)) win [] O) ≤ δ +
      avg fun coins : Fin q → Block × (HybridCoins F params.n params.m × (Fin (params.m - 1) → F)) => avg fun O : S → Block =>
        avg fun tape : Fin params.m → Fin τ → Block => ind (Yields want E sts (extractor E S sts
          (c.simulated (fun g => simKeyless E S params sts (req g)) (extend d coins) []) O (tries tape))) := by
    simp only [SigningProgram.withSimulator_tape _ _ d c Q q hc]
    rw [avg_comm]
    rw [← avg_const (α := Fin q → Block × (HybridCoins F params.n params.m × (Fin (params.m - 1) → F))) δ, ← avg_add]
    refine avg_mono _ _ fun coins => ?_
    have hf := extract_good E hE S sts hst hinj good want hgood (fun k => by rw [hpar]; exact hs) params.m (fun k => by rw [hpar]) K hK
      (c.simulated (fun g => simKeyless E S params sts (req g)) (extend d coins) []) Q
      (fun O => SigningProgram.simulated_asked _ c Q q hc _ _ O) τ
    rw [← hδ] at hf
    refine (avg_mono _ _ fun O => ?_).trans hf
    have hrun := SigningProgram.simRun_simulated (fun g => simKeyless E S params sts (req g)) c (extend d coins) [] [] O
    simp only [List.lookup_nil, Option.getD_none] at hrun
    have hused := (SigningProgram.simRun_used (fun g => simKeyless E S params sts (req g)) c (extend d coins) [] O).2
    by_cases hw : win
        (SigningProgram.simRun (fun g => simKeyless E S params sts (req g)) c (extend d coins) [] O).1
        (SigningProgram.simRun (fun g => simKeyless E S params sts (req g)) c (extend d coins) [] O).2.1
        (SigningProgram.simRun (fun g => simKeyless E S params sts (req g)) c (extend d coins) [] O).2.2
    · rw [if_pos hw, ind_pos]
      rw [hwin] at hw
      obtain ⟨hs0, ⟨s, hs1, hs2⟩, hs3, hs4⟩ := hw
      rw [Forges, hrun]
      refine ⟨hs0, hs2 ▸ s.2, hs3, ?_⟩
      rw [challenge_withOracle E S _ _ _ _ s hs2] at hs4 ⊢
      rw [hused s hs1] at hs4
      exact hs4
    · rw [if_neg hw]
      exact ind_nonneg _
  linarith

/-- C98 for programs that request signatures: run the program together with the simulator that knows no key, once, and `m τ` times more
with random answers at the point of its forgery. This yields a signing key or a relation with at least the probability that the program
outputs a new forgery when it gets the real signatures, minus `q (Q + q)` over the order of the group and minus
`(Q + 1) (m / (τ + 1) + m ^ 2 K / 2 ^ 512)`. -/
theorem C98_signing {κ γ : Type} (E : Env F P) (hE : E.Lawful) (S : Finset Transcript) [Nonempty S] (params : Params P)
    (hH : params.CommitmentH ≠ 0) (hs : SmallSums F params.n) (sts : κ → Statement P) (hst : ∀ k, StatementBuilt E (sts k))
    (hpar : ∀ k, (sts k).params = params) (hinj : ∀ k k', (sts k).hash = (sts k').hash → k = k') (req : γ → Request κ F)
    (hrel : ∀ g, Rel params.G params.U (sts (req g).k).inputSet.M (sts (req g).k).J (req g).l (req g).r)
    (hS : ∀ g c, signTranscript E params sts (req g) c ∈ S)
    (K : ℕ) (hK : ∀ x : F, #{b : Block | E.scalarOfWide b.bytes = x} ≤ K)
    (c : SigningProgram S Block γ (Option (Proof F P)) (Forgery κ F P)) (Q q : ℕ) (hc : c.AtMost Q q)
    (d : Block × (HybridCoins F params.n params.m × (Fin (params.m - 1) → F))) (τ : ℕ) :
    avg (fun O => c.withSigner (fun g => signPoint E S params sts (req g)) (fun g => signAnswer E params sts (req g))
        (NewForgery E S sts) O []) ≤
      q * (Q + q) / Fintype.card F + (Q + 1) * (params.m / (τ + 1) + params.m * params.m * K / 2 ^ 512) +
      avg fun coins : Fin q → Block × (HybridCoins F params.n params.m × (Fin (params.m - 1) → F)) => avg fun O : S → Block =>
        avg fun tape : Fin params.m → Fin τ → Block => ind (Yields (fun _ => True) E sts (extractor E S sts
          (c.simulated (fun g => simKeyless E S params sts (req g)) (extend d coins) []) O (tries tape))) := by
  have h := signing_extract_good E hE S params hH hs sts hst (fun _ => True) (fun _ => True) (fun _ _ _ _ _ => trivial) hpar hinj req
    hrel hS K hK c Q q hc d τ
  simp only [true_and] at h
  exact h

local notation "ℓ" => (2 ^ 252 + 27742317777372353535851937790883648493 : ℕ)

theorem rewind_signing_ratio (a D t : ℚ) (Q q m : ℕ)
    (h : a ≤ q * (Q + q) / ((ℓ : ℕ) : ℚ) + (Q + 1) * (t + m * m * (2 ^ 260 : ℕ) / 2 ^ 512) + D) :
    a ≤ q * (Q + q) / 2 ^ 252 + (Q + 1) * (t + m * m / 2 ^ 252) + D := by
  rw [rewind_ratio] at h
  have h1 : (q * (Q + q) : ℚ) / ((ℓ : ℕ) : ℚ) ≤ q * (Q + q) / 2 ^ 252 := by
    clear h
    have h2 : (0 : ℚ) < 2 ^ 252 := by positivity
    have h3 : (2 ^ 252 : ℚ) ≤ ((ℓ : ℕ) : ℚ) := by
      push_cast
      norm_num
    exact div_le_div_of_nonneg_left (by positivity) h2 h3
  linarith

/-- Over the scalars of Ristretto. -/
theorem signing_extract_ristretto {κ γ : Type} {P : Type} [AddCommGroup P] [Module (ZMod ℓ) P] [DecidableEq P]
    (E : Env (ZMod ℓ) P) (hE : E.Lawful) (hwide : ∀ b, E.scalarOfWide b = ((leNat b : ℕ) : ZMod ℓ))
    (S : Finset Transcript) [Nonempty S] (params : Params P) (hparams : ParamsBuilt E params)
    (hH : params.CommitmentH ≠ 0) (sts : κ → Statement P) (hst : ∀ k, StatementBuilt E (sts k))
    (good : κ → Prop) (want : ZMod ℓ → Prop) (hgood : ∀ k, good k → ∀ r : ZMod ℓ, r • (sts k).params.G ∈ (sts k).inputSet.M → r • (sts k).J = (sts k).params.U → want r)
    (hpar : ∀ k, (sts k).params = params) (hinj : ∀ k k', (sts k).hash = (sts k').hash → k = k') (req : γ → Request κ (ZMod ℓ))
    (hrel : ∀ g, Rel params.G params.U (sts (req g).k).inputSet.M (sts (req g).k).J (req g).l (req g).r)
    (hS : ∀ g c, signTranscript E params sts (req g) c ∈ S)
    (c : SigningProgram S Block γ (Option (Proof (ZMod ℓ) P)) (Forgery κ (ZMod ℓ) P)) (Q q : ℕ) (hc : c.AtMost Q q)
    (d : Block × (HybridCoins (ZMod ℓ) params.n params.m × (Fin (params.m - 1) → ZMod ℓ))) (τ : ℕ) :
    avg (fun O => c.withSigner (fun g => signPoint E S params sts (req g)) (fun g => signAnswer E params sts (req g))
        (fun a used O => good a.k ∧ NewForgery E S sts a used O) O []) ≤
      q * (Q + q) / 2 ^ 252 + (Q + 1) * (params.m / (τ + 1) + params.m * params.m / 2 ^ 252) +
      avg fun coins : Fin q → Block × (HybridCoins (ZMod ℓ) params.n params.m × (Fin (params.m - 1) → ZMod ℓ)) =>
        avg fun O : S → Block =>
        avg fun tape : Fin params.m → Fin τ → Block => ind (Yields want E sts (extractor E S sts
          (c.simulated (fun g => simKeyless E S params sts (req g)) (extend d coins) []) O (tries tape))) := by
  have h := signing_extract_good E hE S params hH (C58_small_sums E _ hparams) sts hst good want hgood hpar hinj req hrel hS (2 ^ 260)
    (fun x => by simp only [hwide]; exact blocks_ristretto x) c Q q hc d τ
  rw [ZMod.card] at h
  exact rewind_signing_ratio _ _ _ Q q params.m h

/-- `C98_accepted` for forgeries of statements with the property `good`. -/
theorem chosen_extract_good {κ γ : Type} {P : Type} [AddCommGroup P] [Module (ZMod ℓ) P] [DecidableEq P]
    (E : Env (ZMod ℓ) P) (hE : E.Lawful) (hwide : ∀ b, E.scalarOfWide b = ((leNat b : ℕ) : ZMod ℓ)) (cfg : Config)
    (S A : Finset Transcript) [Nonempty S] (hS : ∀ t ∈ S, t.getLast? = some (.challenge "xi" 64))
    (params : Params P) (hparams : ParamsBuilt E params) (hH : params.CommitmentH ≠ 0)
    (sts : κ → Statement P) (hst : ∀ k, StatementBuilt E (sts k))
    (good : κ → Prop) (want : ZMod ℓ → Prop) (hgood : ∀ k, good k → ∀ r : ZMod ℓ, r • (sts k).params.G ∈ (sts k).inputSet.M → r • (sts k).J = (sts k).params.U → want r)
    (hpar : ∀ k, (sts k).params = params) (hinj : ∀ k k', (sts k).hash = (sts k').hash → k = k') (req : γ → Request κ (ZMod ℓ))
    (hrel : ∀ g, Rel params.G params.U (sts (req g).k).inputSet.M (sts (req g).k).J (req g).l (req g).r)
    (hreq : ∀ g c, signTranscript E params sts (req g) c ∈ S)
    (c : ChosenProgram S Block A Seed Seed (Fin (1 * 2 * 4) → Block) γ (Option (Proof (ZMod ℓ) P)) (Forgery κ (ZMod ℓ) P))
    (Q R T q : ℕ) (hc : c.AtMost Q R T q)
    (d : Block × (HybridCoins (ZMod ℓ) params.n params.m × (Fin (params.m - 1) → ZMod ℓ))) (τ : ℕ) :
    (avg fun O : S → Block => avg fun H : A → Seed => avg fun W : Seed → Fin (1 * 2 * 4) → Block =>
      (c.signingOnly H W).withSigner (fun g => signPoint E S params sts (req g)) (fun g => signAnswer E params sts (req g))
        (fun a used O => good a.k ∧ AcceptedNew E cfg S A sts a used O H W) O []) ≤
      q * (Q + q) / 2 ^ 252 + (Q + 1) * (params.m / (τ + 1) + params.m * params.m / 2 ^ 252) +
      ((R + 1) * (4 / 2 ^ 64) + 1 / 2 ^ 174) +
      avg fun H : A → Seed => avg fun W : Seed → Fin (1 * 2 * 4) → Block =>
      avg fun coins : Fin q → Block × (HybridCoins (ZMod ℓ) params.n params.m × (Fin (params.m - 1) → ZMod ℓ)) =>
        avg fun O : S → Block =>
        avg fun tape : Fin params.m → Fin τ → Block => ind (Yields want E sts (extractor E S sts
          ((c.signingOnly H W).simulated (fun g => simKeyless E S params sts (req g)) (extend d coins) []) O (tries tape))) := by
  have hne : Nonempty (Coins (ZMod ℓ) params.n params.m) := ⟨⟨fun _ _ => 0, 0, 0, 0, 0, fun _ => 0⟩⟩
  have h1 := fun (O : S → Block) (H : A → Seed) (W : Seed → Fin (1 * 2 * 4) → Block) =>
    withSigner_le_add (fun g => signPoint E S params sts (req g)) (fun g => signAnswer E params sts (req g))
      (fun a used O => good a.k ∧ AcceptedNew E cfg S A sts a used O H W)
      (fun a used O => good a.k ∧ NewForgery E S sts a used O)
      (fun a _ O => AcceptedInvalid (withOracle E S O) cfg A sts a H W) O
      (fun a used h => (accepted_new_cases E cfg S A hS sts hst a used O H W h.2).imp_left fun h' => ⟨h.1, h'⟩)
      (c.signingOnly H W) Q q (ChosenProgram.atMost_signingOnly H W c hc)
  refine (avg_mono _ _ fun O => avg_mono _ _ fun H => avg_mono _ _ fun W => h1 O H W).trans ?_
  rw [avg_add₃]
  have h2 := signer_grind (fun g => signPoint E S params sts (req g)) (fun g => signAnswer E params sts (req g))
    (fun a H W O => AcceptedInvalid (withOracle E S O) cfg A sts a H W) c Q R T q hc (((R + 1) * (4 / 2 ^ 64) + 1 / 2 ^ 174))
    (by positivity) fun O g hg => C78_known_ristretto (withOracle E S O) (lawful_withOracle E hE S O) hwide cfg A sts
      (fun k => statementBuilt_withOracle E S O hS _ (hst k)) hinj g R T hg
  have h3 := fun (H : A → Seed) (W : Seed → Fin (1 * 2 * 4) → Block) => signing_extract_ristretto E hE hwide S params hparams hH sts hst
    good want hgood hpar hinj req hrel hreq (c.signingOnly H W) Q q (ChosenProgram.atMost_signingOnly H W c hc) d τ
  rw [avg_swap]
  have h4 := avg_mono _ _ fun H => avg_mono _ _ fun W => h3 H W
  generalize (q * (Q + q) / 2 ^ 252 + (Q + 1) * (params.m / (τ + 1) + params.m * params.m / 2 ^ 252) : ℚ) = ε at h4 ⊢
  generalize (((R + 1) * (4 / 2 ^ 64) + 1 / 2 ^ 174) : ℚ) = ε' at h2 ⊢
  have h5 : ∀ f : (A → Seed) → (Seed → Fin (1 * 2 * 4) → Block) → ℚ, (avg fun H => avg fun W => ε + f H W) =
      ε + avg fun H => avg fun W => f H W := fun f => by simp only [avg_add, avg_const]
  rw [h5] at h4
  linarith

/-- C98 against the complete verifier: the program asks for at most `Q` challenges, `R` seeds and the weights of `T` seeds, and requests
`q` signatures. With the probability that the verifier accepts its output although no signer made it, minus the error terms, the
extractor, which knows no key, yields a signing key or a relation. -/
theorem C98_accepted {κ γ : Type} {P : Type} [AddCommGroup P] [Module (ZMod ℓ) P] [DecidableEq P]
    (E : Env (ZMod ℓ) P) (hE : E.Lawful) (hwide : ∀ b, E.scalarOfWide b = ((leNat b : ℕ) : ZMod ℓ)) (cfg : Config)
    (S A : Finset Transcript) [Nonempty S] (hS : ∀ t ∈ S, t.getLast? = some (.challenge "xi" 64))
    (params : Params P) (hparams : ParamsBuilt E params) (hH : params.CommitmentH ≠ 0)
    (sts : κ → Statement P) (hst : ∀ k, StatementBuilt E (sts k))
    (hpar : ∀ k, (sts k).params = params) (hinj : ∀ k k', (sts k).hash = (sts k').hash → k = k') (req : γ → Request κ (ZMod ℓ))
    (hrel : ∀ g, Rel params.G params.U (sts (req g).k).inputSet.M (sts (req g).k).J (req g).l (req g).r)
    (hreq : ∀ g c, signTranscript E params sts (req g) c ∈ S)
    (c : ChosenProgram S Block A Seed Seed (Fin (1 * 2 * 4) → Block) γ (Option (Proof (ZMod ℓ) P)) (Forgery κ (ZMod ℓ) P))
    (Q R T q : ℕ) (hc : c.AtMost Q R T q)
    (d : Block × (HybridCoins (ZMod ℓ) params.n params.m × (Fin (params.m - 1) → ZMod ℓ))) (τ : ℕ) :
    (avg fun O : S → Block => avg fun H : A → Seed => avg fun W : Seed → Fin (1 * 2 * 4) → Block =>
      (c.signingOnly H W).withSigner (fun g => signPoint E S params sts (req g)) (fun g => signAnswer E params sts (req g))
        (fun a used O => AcceptedNew E cfg S A sts a used O H W) O []) ≤
      q * (Q + q) / 2 ^ 252 + (Q + 1) * (params.m / (τ + 1) + params.m * params.m / 2 ^ 252) +
      ((R + 1) * (4 / 2 ^ 64) + 1 / 2 ^ 174) +
      avg fun H : A → Seed => avg fun W : Seed → Fin (1 * 2 * 4) → Block =>
      avg fun coins : Fin q → Block × (HybridCoins (ZMod ℓ) params.n params.m × (Fin (params.m - 1) → ZMod ℓ)) =>
        avg fun O : S → Block =>
        avg fun tape : Fin params.m → Fin τ → Block => ind (Yields (fun _ => True) E sts (extractor E S sts
          ((c.signingOnly H W).simulated (fun g => simKeyless E S params sts (req g)) (extend d coins) []) O (tries tape))) := by
  have h := chosen_extract_good E hE hwide cfg S A hS params hparams hH sts hst (fun _ => True) (fun _ => True) (fun _ _ _ _ _ => trivial)
    hpar hinj req hrel hreq c Q R T q hc d τ
  simp only [true_and] at h
  exact h

/-- C98 for several proofs with different linking tags: `K` are at most `j` keys. With the probability that the verifier accepts the
`j + 1` outputs, that no signer made any of them and that they have different linking tags, minus the error terms, one of the
extractors yields a signing key not in `K`, or a relation. -/
theorem C98_unlinkable {κ γ : Type} {P : Type} [AddCommGroup P] [Module (ZMod ℓ) P] [DecidableEq P]
    (E : Env (ZMod ℓ) P) (hE : E.Lawful) (hwide : ∀ b, E.scalarOfWide b = ((leNat b : ℕ) : ZMod ℓ)) (cfg : Config)
    (S A : Finset Transcript) [Nonempty S] (hS : ∀ t ∈ S, t.getLast? = some (.challenge "xi" 64))
    (params : Params P) (hparams : ParamsBuilt E params) (hH : params.CommitmentH ≠ 0)
    (sts : κ → Statement P) (hst : ∀ k, StatementBuilt E (sts k))
    (hpar : ∀ k, (sts k).params = params) (hinj : ∀ k k', (sts k).hash = (sts k').hash → k = k') (req : γ → Request κ (ZMod ℓ))
    (hrel : ∀ g, Rel params.G params.U (sts (req g).k).inputSet.M (sts (req g).k).J (req g).l (req g).r)
    (hreq : ∀ g c, signTranscript E params sts (req g) c ∈ S)
    (hU : params.U ≠ 0) (j : ℕ) (K : Finset (ZMod ℓ)) (hK : #K ≤ j)
    (c : ChosenProgram S Block A Seed Seed (Fin (1 * 2 * 4) → Block) γ (Option (Proof (ZMod ℓ) P))
      (Fin (j + 1) → Forgery κ (ZMod ℓ) P)) (Q R T q : ℕ) (hc : c.AtMost Q R T q)
    (d : Block × (HybridCoins (ZMod ℓ) params.n params.m × (Fin (params.m - 1) → ZMod ℓ))) (τ : ℕ) :
    (avg fun O : S → Block => avg fun H : A → Seed => avg fun W : Seed → Fin (1 * 2 * 4) → Block =>
      (c.signingOnly H W).withSigner (fun g => signPoint E S params sts (req g)) (fun g => signAnswer E params sts (req g))
        (fun a used O => AcceptedNewUnlinkable E cfg S A sts a used O H W) O []) ≤
      (j + 1) * (q * (Q + q) / 2 ^ 252 + (Q + 1) * (params.m / (τ + 1) + params.m * params.m / 2 ^ 252) +
        ((R + 1) * (4 / 2 ^ 64) + 1 / 2 ^ 174)) +
      ∑ i, avg fun H : A → Seed => avg fun W : Seed → Fin (1 * 2 * 4) → Block =>
      avg fun coins : Fin q → Block × (HybridCoins (ZMod ℓ) params.n params.m × (Fin (params.m - 1) → ZMod ℓ)) =>
        avg fun O : S → Block =>
        avg fun tape : Fin params.m → Fin τ → Block => ind (Yields (· ∉ K) E sts (extractor E S sts
          (((c.part i).signingOnly H W).simulated (fun g => simKeyless E S params sts (req g)) (extend d coins) []) O (tries tape))) := by
  have hne : Nonempty (Coins (ZMod ℓ) params.n params.m) := ⟨⟨fun _ _ => 0, 0, 0, 0, 0, fun _ => 0⟩⟩
  have key := fun i : Fin (j + 1) => chosen_extract_good E hE hwide cfg S A hS params hparams hH sts hst
    (fun k => ∀ r ∈ K, r • (sts k).J ≠ params.U) (· ∉ K) (fun k hk r _ hr hr' => hk r hr' (by rw [hr, hpar])) hpar hinj req hrel hreq
    (c.part i) Q R T q (ChosenProgram.atMost_map _ c hc) d τ
  generalize (q * (Q + q) / 2 ^ 252 + (Q + 1) * (params.m / (τ + 1) + params.m * params.m / 2 ^ 252) +
        ((R + 1) * (4 / 2 ^ 64) + 1 / 2 ^ 174) : ℚ) = ε at key ⊢
  have h1 := fun (O : S → Block) (H : A → Seed) (W : Seed → Fin (1 * 2 * 4) → Block) =>
    withSigner_parts (fun g => signPoint E S params sts (req g)) (fun g => signAnswer E params sts (req g))
      (fun a used O => AcceptedNewUnlinkable E cfg S A sts a used O H W)
      (fun a used O => (∀ r ∈ K, r • (sts a.k).J ≠ params.U) ∧ AcceptedNew E cfg S A sts a used O H W) O
      (fun a used h => by
        obtain ⟨i, hi⟩ := tag_outside params.U hU K hK (fun i => (sts (a i).k).J) h.2
        exact ⟨i, hi, h.1 i⟩) c Q R T q hc H W
  refine (avg_mono _ _ fun O => avg_mono _ _ fun H => avg_mono _ _ fun W => h1 O H W).trans ?_
  rw [avg_sum₃]
  refine (sum_le_sum fun i _ => key i).trans ?_
  rw [sum_add_distrib, sum_const, card_univ, Fintype.card_fin, nsmul_eq_mul, Nat.cast_add, Nat.cast_one]

/-- C98 for batches: the program outputs a batch of `k + 1` proofs. With the probability that `verify_batch` accepts it although one of
the proofs was not made by a signer, minus the error terms, one of the extractors yields a signing key or a relation. -/
theorem C98_batch {κ γ : Type} {P : Type} [AddCommGroup P] [Module (ZMod ℓ) P] [DecidableEq P]
    (E : Env (ZMod ℓ) P) (hE : E.Lawful) (hwide : ∀ b, E.scalarOfWide b = ((leNat b : ℕ) : ZMod ℓ)) (cfg : Config)
    (S A : Finset Transcript) [Nonempty S] (hS : ∀ t ∈ S, t.getLast? = some (.challenge "xi" 64))
    (params : Params P) (hparams : ParamsBuilt E params) (hH : params.CommitmentH ≠ 0)
    (sts : κ → Statement P) (hst : ∀ k, StatementBuilt E (sts k))
    (hpar : ∀ k, (sts k).params = params) (hinj : ∀ k k', (sts k).hash = (sts k').hash → k = k')
    (hM : ∀ k k', (sts k).inputSet.hash = (sts k').inputSet.hash → (sts k).inputSet.M = (sts k').inputSet.M)
    (req : γ → Request κ (ZMod ℓ))
    (hrel : ∀ g, Rel params.G params.U (sts (req g).k).inputSet.M (sts (req g).k).J (req g).l (req g).r)
    (hreq : ∀ g c, signTranscript E params sts (req g) c ∈ S) (k : ℕ)
    (c : ChosenProgram S Block A Seed (Fin (k + 1) → Seed) (Fin ((k + 1) * 2 * 4) → Block) γ (Option (Proof (ZMod ℓ) P))
      (Fin (k + 1) → Forgery κ (ZMod ℓ) P))
    (Q R T q : ℕ) (hc : c.AtMost Q R T q)
    (d : Block × (HybridCoins (ZMod ℓ) params.n params.m × (Fin (params.m - 1) → ZMod ℓ))) (τ : ℕ) :
    (avg fun O : S → Block => avg fun H : A → Seed => avg fun W : (Fin (k + 1) → Seed) → Fin ((k + 1) * 2 * 4) → Block =>
      (c.signingOnly H W).withSigner (fun g => signPoint E S params sts (req g)) (fun g => signAnswer E params sts (req g))
        (fun a used O => (∃ i, NewPoint E S sts (a i) used) ∧ AcceptedBatch E cfg S A sts a O H W) O []) ≤
      (k + 1) * (q * (Q + q) / 2 ^ 252 + (Q + 1) * (params.m / (τ + 1) + params.m * params.m / 2 ^ 252)) +
      ((R + (k + 1 : ℕ)) * ((R + (k + 1 : ℕ) + (k + 1 : ℕ) * (T + 1)) / 2 ^ 64) + (T + 1) * (1 / 2 ^ 251)) +
      ∑ i, avg fun H : A → Seed => avg fun W : (Fin (k + 1) → Seed) → Fin ((k + 1) * 2 * 4) → Block =>
      avg fun coins : Fin q → Block × (HybridCoins (ZMod ℓ) params.n params.m × (Fin (params.m - 1) → ZMod ℓ)) =>
        avg fun O : S → Block =>
        avg fun tape : Fin params.m → Fin τ → Block => ind (Yields (fun _ => True) E sts (extractor E S sts
          (((c.part i).signingOnly H W).simulated (fun g => simKeyless E S params sts (req g)) (extend d coins) []) O (tries tape))) := by
  have hne : Nonempty (Coins (ZMod ℓ) params.n params.m) := ⟨⟨fun _ _ => 0, 0, 0, 0, 0, fun _ => 0⟩⟩
  have h1 := fun (O : S → Block) (H : A → Seed) (W : (Fin (k + 1) → Seed) → Fin ((k + 1) * 2 * 4) → Block) =>
    withSigner_le_add (fun g => signPoint E S params sts (req g)) (fun g => signAnswer E params sts (req g))
      (fun a used O => (∃ i, NewPoint E S sts (a i) used) ∧ AcceptedBatch E cfg S A sts a O H W)
      (fun a used O => ∃ i, NewForgery E S sts (a i) used O)
      (fun a _ O => AcceptedInvalidBatch (withOracle E S O) cfg A sts a H W) O
      (fun a used h => (accepted_batch_cases E cfg S A hS params sts hst hpar hM a O H W h.2).imp_left fun h' => by
        obtain ⟨i, hn⟩ := h.1
        exact ⟨i, hn, h' i⟩)
      (c.signingOnly H W) Q q (ChosenProgram.atMost_signingOnly H W c hc)
  have h1' := fun (O : S → Block) (H : A → Seed) (W : (Fin (k + 1) → Seed) → Fin ((k + 1) * 2 * 4) → Block) =>
    (h1 O H W).trans (add_le_add_left (withSigner_parts (fun g => signPoint E S params sts (req g))
      (fun g => signAnswer E params sts (req g)) _
      (fun a used O => True ∧ NewForgery E S sts a used O) O (fun a used ⟨i, h⟩ => ⟨i, trivial, h⟩) c Q R T q hc H W) _)
  refine (avg_mono _ _ fun O => avg_mono _ _ fun H => avg_mono _ _ fun W => h1' O H W).trans ?_
  rw [avg_add₃, avg_sum₃]
  have h2 := signer_grind (fun g => signPoint E S params sts (req g)) (fun g => signAnswer E params sts (req g))
    (fun a H W O => AcceptedInvalidBatch (withOracle E S O) cfg A sts a H W) c Q R T q hc
    ((R + (k + 1 : ℕ)) * ((R + (k + 1 : ℕ) + (k + 1 : ℕ) * (T + 1)) / 2 ^ 64) + (T + 1) * (1 / 2 ^ 251))
    (by positivity) fun O g hg => C79_ristretto (withOracle E S O) (lawful_withOracle E hE S O) hwide cfg A sts
      (fun k => statementBuilt_withOracle E S O hS _ (hst k)) hinj k g R T hg
  have h3 := fun i (H : A → Seed) (W : (Fin (k + 1) → Seed) → Fin ((k + 1) * 2 * 4) → Block) =>
    signing_extract_ristretto E hE hwide S params hparams hH sts hst
    (fun _ => True) (fun _ => True) (fun _ _ _ _ _ => trivial) hpar hinj req hrel hreq ((c.part i).signingOnly H W) Q q
      (ChosenProgram.atMost_signingOnly H W _ (ChosenProgram.atMost_map _ c hc)) d τ
  generalize (q * (Q + q) / 2 ^ 252 + (Q + 1) * (params.m / (τ + 1) + params.m * params.m / 2 ^ 252) : ℚ) = ε at h3 ⊢
  generalize ((R + (k + 1 : ℕ)) * ((R + (k + 1 : ℕ) + (k + 1 : ℕ) * (T + 1)) / 2 ^ 64) + (T + 1) * (1 / 2 ^ 251) : ℚ) = ε' at h2 ⊢
  have h4 := fun i => avg_mono _ _ fun H => avg_mono _ _ fun W => h3 i H W
  have h5 : ∀ f : (A → Seed) → ((Fin (k + 1) → Seed) → Fin ((k + 1) * 2 * 4) → Block) → ℚ, (avg fun H => avg fun W => ε + f H W) =
      ε + avg fun H => avg fun W => f H W := fun f => by simp only [avg_add, avg_const]
  simp only [h5] at h4
  refine (add_le_add (sum_le_sum fun i _ => (le_of_eq (avg_swap _)).trans (h4 i)) h2).trans ?_
  rw [sum_add_distrib, sum_const, card_univ, Fintype.card_fin, nsmul_eq_mul, Nat.cast_add, Nat.cast_one]
  linarith

/-- The toy statement, its signer and the program `replayer` meet the hypotheses of `C98_signing`. -/
example : ∃ (S : Finset Transcript) (_ : Nonempty S)
    (c : SigningProgram S Block Unit (Option (Proof (ZMod 101) (ZMod 101))) (Forgery Unit (ZMod 101) (ZMod 101))),
    (Toy.env 101).Lawful ∧ Toy.statement.params.CommitmentH ≠ 0 ∧ Toy.statement.params.G ≠ 0 ∧
    MaskGenerates (ZMod 101) Toy.statement.params ∧ SmallSums (ZMod 101) Toy.statement.params.n ∧
    StatementBuilt (Toy.env 101) Toy.statement ∧
    Rel Toy.statement.params.G Toy.statement.params.U Toy.statement.inputSet.M Toy.statement.J 2 (7 : ZMod 101) ∧
    (∀ c, signTranscript (Toy.env 101) Toy.statement.params (fun _ : Unit => Toy.statement) ⟨(), Toy.transcript, 2, 7⟩ c ∈ S) ∧
    (∀ t ∈ S, t.getLast? = some (.challenge "xi" 64)) ∧
    (∀ x : ZMod 101, #{b : Block | (Toy.env 101).scalarOfWide b.bytes = x} ≤ 256 ^ 64 / 101 + 1) ∧ c.AtMost 1 1 := by
  refine ⟨signDomain (Toy.env 101) Toy.statement.params (fun _ : Unit => Toy.statement) ⟨(), Toy.transcript, 2, 7⟩, inferInstance,
    replayer (Classical.arbitrary _) [] Toy.proof, Toy.env_lawful 101 (by norm_num), by decide +kernel, by decide +kernel, ?_,
    smallSums_zmod 101 _ (by decide +kernel), Toy.statement_built, ⟨by decide +kernel, by decide +kernel⟩,
    signDomain_mem _ _ _ _, signDomain_last _ _ _ _, fun x => blocks_value 101 _ le_rfl x, ⟨by decide, fun _ => ⟨by decide, fun _ => trivial⟩⟩⟩
  intro g _
  refine ⟨g * Toy.statement.params.CommitmentH⁻¹, ?_⟩
  have h : Toy.statement.params.CommitmentH ≠ 0 := by decide +kernel
  rw [smul_eq_mul, mul_assoc, inv_mul_cancel₀ h, mul_one]

/-- A program meeting the hypotheses of `C98_accepted` (and of `C98_unlinkable` with `j = 0`): it requests a signature by the holder
of the key 7, and always outputs a valid proof with the key 11, with a point the signer has not used. -/
example (nn : Nonces (ZMod ℓ)) (A : Finset Transcript) (a : A) (v : Seed) :
    ParamsBuilt (Toy.env ℓ) Toy.Ristretto.params ∧ Toy.Ristretto.params.CommitmentH ≠ 0 ∧ Toy.Ristretto.params.U ≠ 0 ∧
    (∀ k, StatementBuilt (Toy.env ℓ) (Toy.Ristretto.sts k)) ∧ (∀ k, (Toy.Ristretto.sts k).params = Toy.Ristretto.params) ∧
    (∀ k k', (Toy.Ristretto.sts k).hash = (Toy.Ristretto.sts k').hash → k = k') ∧
    Rel Toy.Ristretto.params.G Toy.Ristretto.params.U (Toy.Ristretto.sts false).inputSet.M (Toy.Ristretto.sts false).J 2
      (7 : ZMod ℓ) ∧
    ∃ (S : Finset Transcript) (_ : Nonempty S) (c : ChosenProgram S Block A Seed Seed (Fin (1 * 2 * 4) → Block) Unit
        (Option (Proof (ZMod ℓ) (ZMod ℓ))) (Forgery Bool (ZMod ℓ) (ZMod ℓ))),
      (∀ t ∈ S, t.getLast? = some (.challenge "xi" 64)) ∧
      (∀ c, signTranscript (Toy.env ℓ) Toy.Ristretto.params Toy.Ristretto.sts ⟨false, Toy.transcript, 2, 7⟩ c ∈ S) ∧
      c.AtMost 1 1 1 1 ∧
      ∀ O H W tape, NewForgery (Toy.env ℓ) S Toy.Ristretto.sts
        ((c.signingOnly H W).signRun
          (fun _ => signPoint (Toy.env ℓ) S Toy.Ristretto.params Toy.Ristretto.sts ⟨false, Toy.transcript, 2, 7⟩)
          (fun _ => signAnswer (Toy.env ℓ) Toy.Ristretto.params Toy.Ristretto.sts ⟨false, Toy.transcript, 2, 7⟩) O tape []).1
        ((c.signingOnly H W).signRun
          (fun _ => signPoint (Toy.env ℓ) S Toy.Ristretto.params Toy.Ristretto.sts ⟨false, Toy.transcript, 2, 7⟩)
          (fun _ => signAnswer (Toy.env ℓ) Toy.Ristretto.params Toy.Ristretto.sts ⟨false, Toy.transcript, 2, 7⟩) O tape []).2 O := by
  refine ⟨Toy.Ristretto.params_built, by decide +kernel, by decide +kernel, Toy.Ristretto.sts_built, Toy.Ristretto.sts_params,
    Toy.Ristretto.sts_hash, ⟨by decide +kernel, by decide +kernel⟩, ?_⟩
  exact attacker_exists (Toy.env ℓ) (Toy.env_lawful ℓ (by norm_num)) Toy.Ristretto.params Toy.Ristretto.sts Toy.Ristretto.sts_built
    Toy.Ristretto.sts_hash ⟨false, Toy.transcript, 2, 7⟩ true (by decide) Toy.transcript (Toy.Ristretto.index true)
    (Toy.Ristretto.key true) (Toy.Ristretto.sts_rel true) nn A a Seed _ v

/-- A program meeting the hypotheses of `C98_batch`: it requests a signature by the holder
of the key 7, and outputs a batch of copies of a valid proof with the key 11 that no signer made. -/
example (nn : Nonces (ZMod ℓ)) (A : Finset Transcript) (a : A) (k : ℕ) (v : Fin (k + 1) → Seed) :
    ParamsBuilt (Toy.env ℓ) Toy.Ristretto.params ∧ Toy.Ristretto.params.CommitmentH ≠ 0 ∧ Toy.Ristretto.params.U ≠ 0 ∧
    (∀ k, StatementBuilt (Toy.env ℓ) (Toy.Ristretto.sts k)) ∧ (∀ k, (Toy.Ristretto.sts k).params = Toy.Ristretto.params) ∧
    (∀ k k', (Toy.Ristretto.sts k).hash = (Toy.Ristretto.sts k').hash → k = k') ∧
    (∀ k k', (Toy.Ristretto.sts k).inputSet.hash = (Toy.Ristretto.sts k').inputSet.hash →
      (Toy.Ristretto.sts k).inputSet.M = (Toy.Ristretto.sts k').inputSet.M) ∧
    Rel Toy.Ristretto.params.G Toy.Ristretto.params.U (Toy.Ristretto.sts false).inputSet.M (Toy.Ristretto.sts false).J 2
      (7 : ZMod ℓ) ∧
    ∃ (S : Finset Transcript) (_ : Nonempty S) (c : ChosenProgram S Block A Seed (Fin (k + 1) → Seed) (Fin ((k + 1) * 2 * 4) → Block) Unit
        (Option (Proof (ZMod ℓ) (ZMod ℓ))) (Fin (k + 1) → Forgery Bool (ZMod ℓ) (ZMod ℓ))),
      (∀ t ∈ S, t.getLast? = some (.challenge "xi" 64)) ∧
      (∀ c, signTranscript (Toy.env ℓ) Toy.Ristretto.params Toy.Ristretto.sts ⟨false, Toy.transcript, 2, 7⟩ c ∈ S) ∧
      c.AtMost 1 1 1 1 ∧
      ∀ O H W tape i, NewForgery (Toy.env ℓ) S Toy.Ristretto.sts
        (((c.signingOnly H W).signRun
          (fun _ => signPoint (Toy.env ℓ) S Toy.Ristretto.params Toy.Ristretto.sts ⟨false, Toy.transcript, 2, 7⟩)
          (fun _ => signAnswer (Toy.env ℓ) Toy.Ristretto.params Toy.Ristretto.sts ⟨false, Toy.transcript, 2, 7⟩) O tape []).1 i)
        ((c.signingOnly H W).signRun
          (fun _ => signPoint (Toy.env ℓ) S Toy.Ristretto.params Toy.Ristretto.sts ⟨false, Toy.transcript, 2, 7⟩)
          (fun _ => signAnswer (Toy.env ℓ) Toy.Ristretto.params Toy.Ristretto.sts ⟨false, Toy.transcript, 2, 7⟩) O tape []).2 O := by
  have hM : ∀ k k', (Toy.Ristretto.sts k).inputSet.hash = (Toy.Ristretto.sts k').inputSet.hash →
      (Toy.Ristretto.sts k).inputSet.M = (Toy.Ristretto.sts k').inputSet.M := by decide +kernel
  refine ⟨Toy.Ristretto.params_built, by decide +kernel, by decide +kernel, Toy.Ristretto.sts_built, Toy.Ristretto.sts_params,
    Toy.Ristretto.sts_hash, hM, ⟨by decide +kernel, by decide +kernel⟩, ?_⟩
  have hs := Toy.Ristretto.sts_rel true
  generalize Toy.Ristretto.index true = l at hs
  generalize Toy.Ristretto.key true = r at hs
  have hb := Toy.Ristretto.sts_built
  have hh := Toy.Ristretto.sts_hash
  generalize Toy.Ristretto.sts = sts at *
  generalize Toy.Ristretto.params = params at *
  exact copies_exist (Toy.env ℓ) params sts ⟨false, Toy.transcript, 2, 7⟩ (k + 1)
    (attacker_exists (Toy.env ℓ) (Toy.env_lawful ℓ (by norm_num)) params sts
    hb hh ⟨false, Toy.transcript, 2, 7⟩ true (by decide) Toy.transcript
    l r hs nn A a _ (Fin ((k + 1) * 2 * 4) → Block) v)

end Triptych
