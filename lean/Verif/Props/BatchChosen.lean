import Verif.Props.ChosenMessage

/-! # Chosen-message attacks against batch verification: C92

As C90, for a program that outputs a batch. It wins if `verify_batch` accepts the batch and no signer made one of its proofs. -/
set_option autoImplicit false
set_option linter.unusedSectionVars false
set_option linter.unusedVariables false

namespace Triptych
open Spec Finset Function

variable {F P : Type} [Field F] [AddCommGroup P] [Module F P] [DecidableEq F] [DecidableEq P]

/-- With challenges `O`, seeds `H` and weights `W`, the batch is accepted, the seeds being derived from transcripts in `A`. -/
def Spec.AcceptedBatch {κ : Type} (E : Env F P) (cfg : Config) (S A : Finset Transcript) (sts : κ → Statement P) {k N : ℕ}
    (x : Fin (k + 1) → Forgery κ F P) (O : S → Block) (H : A → Seed) (W : (Fin (k + 1) → Seed) → Fin N → Block) : Prop :=
  (∀ i, responseTranscript E (x i).t (sts (x i).k) (x i).p ∈ A) ∧
    (Proof.verifyBatch (withSeeds (withOracle E S O) "Triptych verifier weights" A H (fun s => List.ofFn fun i => (s i).val) W) cfg
      (List.ofFn fun i => sts (x i).k) (List.ofFn fun i => (x i).p) (List.ofFn fun i => (x i).t)).1 = .ok ()

/-- The challenge of the proof is derived from a transcript in `S` that no signer has used. -/
def Spec.NewPoint {κ : Type} (E : Env F P) (S : Finset Transcript) (sts : κ → Statement P) (x : Forgery κ F P) (used : List S) :
    Prop := ∃ s ∉ used, x.point E sts = s.val

/-- An accepted batch consists of valid proofs, or it is a batch with an invalid proof. -/
theorem accepted_batch_cases {κ : Type} (E : Env F P) (cfg : Config) (S A : Finset Transcript)
    (hS : ∀ t ∈ S, t.getLast? = some (.challenge "xi" 64)) (params : Params P) (sts : κ → Statement P)
    (hst : ∀ k, StatementBuilt E (sts k)) (hpar : ∀ k, (sts k).params = params)
    (hM : ∀ k k', (sts k).inputSet.hash = (sts k').inputSet.hash → (sts k).inputSet.M = (sts k').inputSet.M) {k N : ℕ}
    (x : Fin (k + 1) → Forgery κ F P) (O : S → Block) (H : A → Seed) (W : (Fin (k + 1) → Seed) → Fin N → Block)
    (h : AcceptedBatch E cfg S A sts x O H W) :
    (∀ i, Shape (sts (x i).k).params (x i).p ∧ Valid (sts (x i).k).params (sts (x i).k).inputSet.M (sts (x i).k).J (x i).p
      (challenge (withOracle E S O) (x i).t (sts (x i).k) (x i).p)) ∨
      AcceptedInvalidBatch (withOracle E S O) cfg A sts x H W := by
  obtain ⟨h1, h2⟩ := h
  by_cases hv : ∃ i, ¬ Valid (sts (x 0).k).params (sts (x 0).k).inputSet.M (sts (x i).k).J (x i).p
      (challenge (withOracle E S O) (x i).t (sts (x i).k) (x i).p)
  · exact Or.inr ⟨h1, hv, h2⟩
  · push Not at hv
    have hb : StatementBuilt (withSeeds (withOracle E S O) "Triptych verifier weights" A H
        (fun s => List.ofFn fun i => (s i).val) W) (sts (x 0).k) :=
      statementBuilt_withSeeds _ _ _ _ _ _ _ (statementBuilt_withOracle E S O hS _ (hst (x 0).k))
    rw [List.ofFn_succ (f := fun i => sts (x i).k)] at h2
    have hp := (C18_accepted _ cfg _ _ _ _ hb h2).1
    rw [← List.ofFn_succ (f := fun i => sts (x i).k)] at hp
    refine Or.inl fun i => ?_
    have e := hM _ _ (hp.inputSets (sts (x i).k) (List.mem_ofFn.2 ⟨i, rfl⟩))
    have hs := hp.shapes (x i).p (List.mem_ofFn.2 ⟨i, rfl⟩)
    have hvi := hv i
    rw [hpar] at hs hvi
    rw [hpar, e]
    exact ⟨hs, hvi⟩

theorem withSigner_le {ι β γ δ α T : Type} [Fintype T] [Nonempty T] (point : γ → T → ι) (answer : γ → T → β → δ)
    (win win1 : α → List ι → (ι → β) → Prop) (O : ι → β) (h : ∀ a used, win a used O → win1 a used O)
    (c : SigningProgram ι β γ δ α) (Q q : ℕ) (hc : c.AtMost Q q) :
    c.withSigner point answer win O [] ≤ c.withSigner point answer win1 O [] := by
  have d := Classical.arbitrary T
  rw [SigningProgram.withSigner_tape point answer d win c Q q hc, SigningProgram.withSigner_tape point answer d win1 c Q q hc]
  refine avg_mono _ _ fun tape => ?_
  generalize (c.signRun point answer O (extend d tape) []).1 = a
  generalize (c.signRun point answer O (extend d tape) []).2 = used
  by_cases hw : win a used O
  · rw [ind_pos hw, ind_pos (h _ _ hw)]
  · rw [ind_neg hw]
    exact ind_nonneg _

/-- Output copies. -/
theorem copies_exist {κ : Type} (E : Env F P) (params : Params P) (sts : κ → Statement P) (x : Request κ F) (k : ℕ)
    {A : Finset Transcript} {V Y : Type}
    (h : ∃ (S : Finset Transcript) (_ : Nonempty S)
      (c : ChosenProgram S Block A Seed V Y Unit (Option (Proof F P)) (Forgery κ F P)),
      (∀ t ∈ S, t.getLast? = some (.challenge "xi" 64)) ∧ (∀ c, signTranscript E params sts x c ∈ S) ∧ c.AtMost 1 1 1 1 ∧
      ∀ O H W tape, NewForgery E S sts
        ((c.signingOnly H W).signRun (fun _ => signPoint E S params sts x) (fun _ => signAnswer E params sts x) O tape []).1
        ((c.signingOnly H W).signRun (fun _ => signPoint E S params sts x) (fun _ => signAnswer E params sts x) O tape []).2 O) :
    ∃ (S : Finset Transcript) (_ : Nonempty S)
      (c : ChosenProgram S Block A Seed V Y Unit (Option (Proof F P)) (Fin k → Forgery κ F P)),
      (∀ t ∈ S, t.getLast? = some (.challenge "xi" 64)) ∧ (∀ c, signTranscript E params sts x c ∈ S) ∧ c.AtMost 1 1 1 1 ∧
      ∀ O H W tape i, NewForgery E S sts
        (((c.signingOnly H W).signRun (fun _ => signPoint E S params sts x) (fun _ => signAnswer E params sts x) O tape []).1 i)
        ((c.signingOnly H W).signRun (fun _ => signPoint E S params sts x) (fun _ => signAnswer E params sts x) O tape []).2 O := by
  obtain ⟨S, hS, c, h1, h2, h3, h4⟩ := h
  refine ⟨S, hS, c.map fun y _ => y, h1, h2, ChosenProgram.atMost_map _ c h3, fun O H W tape i => ?_⟩
  rw [ChosenProgram.signRun_map]
  exact h4 O H W tape

local notation "ℓ" => (2 ^ 252 + 27742317777372353535851937790883648493 : ℕ)

open Classical in
/-- `C92_ristretto` for forgeries of statements with the property `good`. -/
theorem batch_chosen_good {κ γ : Type} {P : Type} [AddCommGroup P] [Module (ZMod ℓ) P] [DecidableEq P]
    (E : Env (ZMod ℓ) P) (hE : E.Lawful) (hwide : ∀ b, E.scalarOfWide b = ((leNat b : ℕ) : ZMod ℓ)) (cfg : Config)
    (S A : Finset Transcript) [Nonempty S] (hS : ∀ t ∈ S, t.getLast? = some (.challenge "xi" 64))
    (params : Params P) (hparams : ParamsBuilt E params) (hH : params.CommitmentH ≠ 0)
    (sts : κ → Statement P) (hst : ∀ k, StatementBuilt E (sts k)) (good : κ → Prop)
    (hpar : ∀ k, (sts k).params = params) (hinj : ∀ k k', (sts k).hash = (sts k').hash → k = k')
    (hM : ∀ k k', (sts k).inputSet.hash = (sts k').inputSet.hash → (sts k).inputSet.M = (sts k').inputSet.M)
    (req : γ → Request κ (ZMod ℓ))
    (hrel : ∀ g, Rel params.G params.U (sts (req g).k).inputSet.M (sts (req g).k).J (req g).l (req g).r)
    (hreq : ∀ g c, signTranscript E params sts (req g) c ∈ S) (k : ℕ)
    (c : ChosenProgram S Block A Seed (Fin (k + 1) → Seed) (Fin ((k + 1) * 2 * 4) → Block) γ (Option (Proof (ZMod ℓ) P))
      (Fin (k + 1) → Forgery κ (ZMod ℓ) P))
    (Q R T q : ℕ) (hc : c.AtMost Q R T q)
    (d : Block × (HybridCoins (ZMod ℓ) params.n params.m × (Fin (params.m - 1) → ZMod ℓ))) :
    (avg fun O : S → Block => avg fun H : A → Seed => avg fun W : (Fin (k + 1) → Seed) → Fin ((k + 1) * 2 * 4) → Block =>
      (c.signingOnly H W).withSigner (fun g => signPoint E S params sts (req g)) (fun g => signAnswer E params sts (req g))
        (fun a used O => (∃ i, good (a i).k ∧ NewPoint E S sts (a i) used) ∧ AcceptedBatch E cfg S A sts a O H W) O []) ≤
      (k + 1) * ((q * (Q + q) + params.m * (Q + 1)) / 2 ^ 252) +
      ((R + (k + 1 : ℕ)) * ((R + (k + 1 : ℕ) + (k + 1 : ℕ) * (T + 1)) / 2 ^ 64) + (T + 1) * (1 / 2 ^ 251)) +
      ∑ i, avg fun H : A → Seed => avg fun W : (Fin (k + 1) → Seed) → Fin ((k + 1) * 2 * 4) → Block =>
      avg fun tape : Fin q → Block × (HybridCoins (ZMod ℓ) params.n params.m × (Fin (params.m - 1) → ZMod ℓ)) =>
        avg fun O : S → Block =>
        (#{s ∈ (((c.part i).signingOnly H W).simulated (fun g => simKeyless E S params sts (req g)) (extend d tape) []).touched
            (Forgery.crit E S sts) O |
          RewindsFor good E S sts
            (((c.part i).signingOnly H W).simulated (fun g => simKeyless E S params sts (req g)) (extend d tape) []) O s} : ℚ) := by
  have hne : Nonempty (Coins (ZMod ℓ) params.n params.m) := ⟨⟨fun _ _ => 0, 0, 0, 0, 0, fun _ => 0⟩⟩
  have h1 := fun (O : S → Block) (H : A → Seed) (W : (Fin (k + 1) → Seed) → Fin ((k + 1) * 2 * 4) → Block) =>
    withSigner_le_add (fun g => signPoint E S params sts (req g)) (fun g => signAnswer E params sts (req g))
      (fun a used O => (∃ i, good (a i).k ∧ NewPoint E S sts (a i) used) ∧ AcceptedBatch E cfg S A sts a O H W)
      (fun a used O => ∃ i, good (a i).k ∧ NewForgery E S sts (a i) used O)
      (fun a _ O => AcceptedInvalidBatch (withOracle E S O) cfg A sts a H W) O
      (fun a used h => (accepted_batch_cases E cfg S A hS params sts hst hpar hM a O H W h.2).imp_left fun h' => by
        obtain ⟨i, hi, hn⟩ := h.1
        exact ⟨i, hi, hn, h' i⟩)
      (c.signingOnly H W) Q q (ChosenProgram.atMost_signingOnly H W c hc)
  have h1' := fun (O : S → Block) (H : A → Seed) (W : (Fin (k + 1) → Seed) → Fin ((k + 1) * 2 * 4) → Block) =>
    (h1 O H W).trans (add_le_add_left (withSigner_parts (fun g => signPoint E S params sts (req g))
      (fun g => signAnswer E params sts (req g)) _
      (fun a used O => good a.k ∧ NewForgery E S sts a used O) O (fun a used h => h) c Q R T q hc H W) _)
  refine (avg_mono _ _ fun O => avg_mono _ _ fun H => avg_mono _ _ fun W => h1' O H W).trans ?_
  rw [avg_add₃, avg_sum₃]
  have h2 := signer_grind (fun g => signPoint E S params sts (req g)) (fun g => signAnswer E params sts (req g))
    (fun a H W O => AcceptedInvalidBatch (withOracle E S O) cfg A sts a H W) c Q R T q hc
    ((R + (k + 1 : ℕ)) * ((R + (k + 1 : ℕ) + (k + 1 : ℕ) * (T + 1)) / 2 ^ 64) + (T + 1) * (1 / 2 ^ 251))
    (by positivity) fun O g hg => C79_ristretto (withOracle E S O) (lawful_withOracle E hE S O) hwide cfg A sts
      (fun k => statementBuilt_withOracle E S O hS _ (hst k)) hinj k g R T hg
  have h3 := fun i (H : A → Seed) (W : (Fin (k + 1) → Seed) → Fin ((k + 1) * 2 * 4) → Block) =>
    signing_good_ristretto E hE hwide S params hparams hH sts hst
    good hpar hinj req hrel hreq ((c.part i).signingOnly H W) Q q
      (ChosenProgram.atMost_signingOnly H W _ (ChosenProgram.atMost_map _ c hc)) d
  generalize ((q * (Q + q) + params.m * (Q + 1)) / 2 ^ 252 : ℚ) = ε at h3 ⊢
  generalize ((R + (k + 1 : ℕ)) * ((R + (k + 1 : ℕ) + (k + 1 : ℕ) * (T + 1)) / 2 ^ 64) + (T + 1) * (1 / 2 ^ 251) : ℚ) = ε' at h2 ⊢
  have h4 := fun i => avg_mono _ _ fun H => avg_mono _ _ fun W => h3 i H W
  simp only [avg_add, avg_const] at h4
  refine (add_le_add (sum_le_sum fun i _ => (le_of_eq (avg_swap _)).trans (h4 i)) h2).trans ?_
  rw [sum_add_distrib, sum_const, card_univ, Fintype.card_fin, nsmul_eq_mul, Nat.cast_add, Nat.cast_one]
  linarith

open Classical in
/-- C92: a program asks for at most `Q` challenges, `R` seeds and `T` times for the weights of `k + 1` seeds, and requests at most `q`
signatures. The probability that `verify_batch` accepts the batch it outputs, although one of the `k + 1` proofs was not made by a
signer, is at most `(k + 1) (q (Q + q) + m (Q + 1)) / 2 ^ 252` plus the bound of C79, plus the expected number of questions at which
rewinding the program, run together with the simulator that knows no key, yields a signing key or a relation among the commitment
generators. -/
theorem C92_ristretto {κ γ : Type} {P : Type} [AddCommGroup P] [Module (ZMod ℓ) P] [DecidableEq P]
    (E : Env (ZMod ℓ) P) (hE : E.Lawful) (hwide : ∀ b, E.scalarOfWide b = ((leNat b : ℕ) : ZMod ℓ)) (cfg : Config)
    (S A : Finset Transcript) [Nonempty S] (hS : ∀ t ∈ S, t.getLast? = some (.challenge "xi" 64))
    (params : Params P) (hparams : ParamsBuilt E params) (hH : params.CommitmentH ≠ 0)
    (sts : κ → Statement P) (hst : ∀ k, StatementBuilt E (sts k))
    (hpar : ∀ k, (sts k).params = params) (hinj : ∀ k k', (sts k).hash = (sts k').hash → k = k')
    (hM : ∀ k k', (sts k).inputSet.hash = (sts k').inputSet.hash → (sts k).inputSet.M = (sts k').inputSet.M)
    (req : γ → Request κ (ZMod ℓ))
    (hrel : ∀ g, Rel params.G params.U (sts (req g).k).inputSet.M (sts (req g).k).J (req g).l (req g).r)
    (hreq : ∀ g c, signTranscript E params sts (req g) c ∈ S) (k : ℕ)
    (c : ChosenProgram S Block A Seed (Fin (k + 1) → Seed) (Fin ((k + 1) * 2 * 4) → Block) γ (Option (Proof (ZMod ℓ) P))
      (Fin (k + 1) → Forgery κ (ZMod ℓ) P))
    (Q R T q : ℕ) (hc : c.AtMost Q R T q)
    (d : Block × (HybridCoins (ZMod ℓ) params.n params.m × (Fin (params.m - 1) → ZMod ℓ))) :
    (avg fun O : S → Block => avg fun H : A → Seed => avg fun W : (Fin (k + 1) → Seed) → Fin ((k + 1) * 2 * 4) → Block =>
      (c.signingOnly H W).withSigner (fun g => signPoint E S params sts (req g)) (fun g => signAnswer E params sts (req g))
        (fun a used O => (∃ i, NewPoint E S sts (a i) used) ∧ AcceptedBatch E cfg S A sts a O H W) O []) ≤
      (k + 1) * ((q * (Q + q) + params.m * (Q + 1)) / 2 ^ 252) +
      ((R + (k + 1 : ℕ)) * ((R + (k + 1 : ℕ) + (k + 1 : ℕ) * (T + 1)) / 2 ^ 64) + (T + 1) * (1 / 2 ^ 251)) +
      ∑ i, avg fun H : A → Seed => avg fun W : (Fin (k + 1) → Seed) → Fin ((k + 1) * 2 * 4) → Block =>
      avg fun tape : Fin q → Block × (HybridCoins (ZMod ℓ) params.n params.m × (Fin (params.m - 1) → ZMod ℓ)) =>
        avg fun O : S → Block =>
        (#{s ∈ (((c.part i).signingOnly H W).simulated (fun g => simKeyless E S params sts (req g)) (extend d tape) []).touched
            (Forgery.crit E S sts) O |
          Rewinds E S sts
            (((c.part i).signingOnly H W).simulated (fun g => simKeyless E S params sts (req g)) (extend d tape) []) O s} : ℚ) := by
  have h := batch_chosen_good E hE hwide cfg S A hS params hparams hH sts hst (fun _ => True) hpar hinj hM req hrel hreq k c Q R T q hc d
  simp only [true_and, RewindsFor] at h
  exact h

open Classical in
/-- C92 for several proofs with different linking tags: `K` are at most `k` keys. If the batch is accepted, no signer made any of its
`k + 1` proofs and no two of them have the same linking tag, rewinding yields a signing key that is not in `K`, or a relation; the
bound is the same. -/
theorem C92_unlinkable {κ γ : Type} {P : Type} [AddCommGroup P] [Module (ZMod ℓ) P] [DecidableEq P]
    (E : Env (ZMod ℓ) P) (hE : E.Lawful) (hwide : ∀ b, E.scalarOfWide b = ((leNat b : ℕ) : ZMod ℓ)) (cfg : Config)
    (S A : Finset Transcript) [Nonempty S] (hS : ∀ t ∈ S, t.getLast? = some (.challenge "xi" 64))
    (params : Params P) (hparams : ParamsBuilt E params) (hH : params.CommitmentH ≠ 0)
    (sts : κ → Statement P) (hst : ∀ k, StatementBuilt E (sts k))
    (hpar : ∀ k, (sts k).params = params) (hinj : ∀ k k', (sts k).hash = (sts k').hash → k = k')
    (hM : ∀ k k', (sts k).inputSet.hash = (sts k').inputSet.hash → (sts k).inputSet.M = (sts k').inputSet.M)
    (req : γ → Request κ (ZMod ℓ))
    (hrel : ∀ g, Rel params.G params.U (sts (req g).k).inputSet.M (sts (req g).k).J (req g).l (req g).r)
    (hreq : ∀ g c, signTranscript E params sts (req g) c ∈ S)
    (hU : params.U ≠ 0) (k : ℕ) (K : Finset (ZMod ℓ)) (hK : #K ≤ k)
    (c : ChosenProgram S Block A Seed (Fin (k + 1) → Seed) (Fin ((k + 1) * 2 * 4) → Block) γ (Option (Proof (ZMod ℓ) P))
      (Fin (k + 1) → Forgery κ (ZMod ℓ) P))
    (Q R T q : ℕ) (hc : c.AtMost Q R T q)
    (d : Block × (HybridCoins (ZMod ℓ) params.n params.m × (Fin (params.m - 1) → ZMod ℓ))) :
    (avg fun O : S → Block => avg fun H : A → Seed => avg fun W : (Fin (k + 1) → Seed) → Fin ((k + 1) * 2 * 4) → Block =>
      (c.signingOnly H W).withSigner (fun g => signPoint E S params sts (req g)) (fun g => signAnswer E params sts (req g))
        (fun a used O => (∀ i, NewPoint E S sts (a i) used) ∧ (∀ i i', (sts (a i).k).J = (sts (a i').k).J → i = i') ∧ AcceptedBatch E cfg S A sts a O H W) O []) ≤
      (k + 1) * ((q * (Q + q) + params.m * (Q + 1)) / 2 ^ 252) +
      ((R + (k + 1 : ℕ)) * ((R + (k + 1 : ℕ) + (k + 1 : ℕ) * (T + 1)) / 2 ^ 64) + (T + 1) * (1 / 2 ^ 251)) +
      ∑ i, avg fun H : A → Seed => avg fun W : (Fin (k + 1) → Seed) → Fin ((k + 1) * 2 * 4) → Block =>
      avg fun tape : Fin q → Block × (HybridCoins (ZMod ℓ) params.n params.m × (Fin (params.m - 1) → ZMod ℓ)) =>
        avg fun O : S → Block =>
        (#{s ∈ (((c.part i).signingOnly H W).simulated (fun g => simKeyless E S params sts (req g)) (extend d tape) []).touched
            (Forgery.crit E S sts) O |
          RewindsOutside K E S sts
            (((c.part i).signingOnly H W).simulated (fun g => simKeyless E S params sts (req g)) (extend d tape) []) O s} : ℚ) := by
  have hne : Nonempty (Coins (ZMod ℓ) params.n params.m) := ⟨⟨fun _ _ => 0, 0, 0, 0, 0, fun _ => 0⟩⟩
  have hUU : ∀ k, (sts k).params.U = params.U := fun k => by rw [hpar]
  have h := batch_chosen_good E hE hwide cfg S A hS params hparams hH sts hst (fun k => ∀ r ∈ K, r • (sts k).J ≠ params.U) hpar hinj hM
    req hrel hreq k c Q R T q hc d
  have h1 := fun (O : S → Block) (H : A → Seed) (W : (Fin (k + 1) → Seed) → Fin ((k + 1) * 2 * 4) → Block) =>
    withSigner_le (fun g => signPoint E S params sts (req g)) (fun g => signAnswer E params sts (req g))
      (fun a used O => (∀ i, NewPoint E S sts (a i) used) ∧ (∀ i i', (sts (a i).k).J = (sts (a i').k).J → i = i') ∧
        AcceptedBatch E cfg S A sts a O H W)
      (fun a used O => (∃ i, (∀ r ∈ K, r • (sts (a i).k).J ≠ params.U) ∧ NewPoint E S sts (a i) used) ∧
        AcceptedBatch E cfg S A sts a O H W) O
      (fun a used h => by
        obtain ⟨i, hi⟩ := tag_outside params.U hU K hK (fun i => (sts (a i).k).J) h.2.1
        exact ⟨⟨i, hi, h.1 i⟩, h.2.2⟩) (c.signingOnly H W) Q q (ChosenProgram.atMost_signingOnly H W c hc)
  refine (avg_mono _ _ fun O => avg_mono _ _ fun H => avg_mono _ _ fun W => h1 O H W).trans (h.trans ?_)
  refine add_le_add_right (sum_le_sum fun i _ => avg_mono _ _ fun H => avg_mono _ _ fun W => avg_mono _ _ fun tape =>
    avg_mono _ _ fun O => ?_) _
  rw [Nat.cast_le]
  refine card_le_card fun s hs => ?_
  rw [mem_filter] at hs ⊢
  exact ⟨hs.1, rewinds_outside K E S sts params.U hUU _ O s hs.2⟩

/-- A program meeting the hypotheses of `C92_ristretto` and, with `k = 0`, of `C92_unlinkable`: it requests a signature by the holder
of the key 7, and outputs a batch of copies of a valid proof with the key 11 that no signer made. -/
example (nn : Nonces (ZMod ℓ)) (A : Finset Transcript) (a : A) (k : ℕ) (v : Fin (k + 1) → Seed) :
    ParamsBuilt (Toy.env ℓ) Toy.Ristretto.params ∧ Toy.Ristretto.params.CommitmentH ≠ 0 ∧ Toy.Ristretto.params.U ≠ 0 ∧
    (∀ k, StatementBuilt (Toy.env ℓ) (Toy.Ristretto.sts k)) ∧ (∀ k, (Toy.Ristretto.sts k).params = Toy.Ristretto.params) ∧
    (∀ k k', (Toy.Ristretto.sts k).hash = (Toy.Ristretto.sts k').hash → k = k') ∧
    (∀ k k', (Toy.Ristretto.sts k).inputSet.hash = (Toy.Ristretto.sts k').inputSet.hash →
      (Toy.Ristretto.sts k).inputSet.M = (Toy.Ristretto.sts k').inputSet.M) ∧
    Rel Toy.Ristretto.params.G Toy.Ristretto.params.U (Toy.Ristretto.sts false).inputSet.M (Toy.Ristretto.sts false).J 2
      (7 : ZMod ℓ) ∧
    ∃ (S : Finset Transcript) (_ : Nonempty S) (c : ChosenProgram S Block A Seed (Fin (k + 1) → Seed) (Fin ((k + 1) * 2 * 4) → Block) Unit
        (Option (Proof (ZMod ℓ) (ZMod ℓ))) (Fin (k + 1) → Forgery Bool (ZMod ℓ) (ZMod ℓ))),
      (∀ t ∈ S, t.getLast? = some (.challenge "xi" 64)) ∧
      (∀ c, signTranscript (Toy.env ℓ) Toy.Ristretto.params Toy.Ristretto.sts ⟨false, Toy.transcript, 2, 7⟩ c ∈ S) ∧
      c.AtMost 1 1 1 1 ∧
      ∀ O H W tape i, NewForgery (Toy.env ℓ) S Toy.Ristretto.sts
        (((c.signingOnly H W).signRun
          (fun _ => signPoint (Toy.env ℓ) S Toy.Ristretto.params Toy.Ristretto.sts ⟨false, Toy.transcript, 2, 7⟩)
          (fun _ => signAnswer (Toy.env ℓ) Toy.Ristretto.params Toy.Ristretto.sts ⟨false, Toy.transcript, 2, 7⟩) O tape []).1 i)
        ((c.signingOnly H W).signRun
          (fun _ => signPoint (Toy.env ℓ) S Toy.Ristretto.params Toy.Ristretto.sts ⟨false, Toy.transcript, 2, 7⟩)
          (fun _ => signAnswer (Toy.env ℓ) Toy.Ristretto.params Toy.Ristretto.sts ⟨false, Toy.transcript, 2, 7⟩) O tape []).2 O := by
  have hM : ∀ k k', (Toy.Ristretto.sts k).inputSet.hash = (Toy.Ristretto.sts k').inputSet.hash →
      (Toy.Ristretto.sts k).inputSet.M = (Toy.Ristretto.sts k').inputSet.M := by decide +kernel
  refine ⟨Toy.Ristretto.params_built, by decide +kernel, by decide +kernel, Toy.Ristretto.sts_built, Toy.Ristretto.sts_params,
    Toy.Ristretto.sts_hash, hM, ⟨by decide +kernel, by decide +kernel⟩, ?_⟩
  have hs := Toy.Ristretto.sts_rel true
  generalize Toy.Ristretto.index true = l at hs
  generalize Toy.Ristretto.key true = r at hs
  have hb := Toy.Ristretto.sts_built
  have hh := Toy.Ristretto.sts_hash
  generalize Toy.Ristretto.sts = sts at *
  generalize Toy.Ristretto.params = params at *
  exact copies_exist (Toy.env ℓ) params sts ⟨false, Toy.transcript, 2, 7⟩ (k + 1)
    (attacker_exists (Toy.env ℓ) (Toy.env_lawful ℓ (by norm_num)) params sts
    hb hh ⟨false, Toy.transcript, 2, 7⟩ true (by decide) Toy.transcript
    l r hs nn A a _ (Fin ((k + 1) * 2 * 4) → Block) v)

end Triptych
