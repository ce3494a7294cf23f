import Verif.Spec.Attack
import Verif.Props.KnownWeights

/-! # Forgeries against the complete verifier: C80

A forger may ask for challenges, weight seeds and weights, all of which are random. The verifier derives the same from the proof it
gets, and accepts or not. -/
set_option autoImplicit false
set_option linter.unusedSectionVars false
set_option linter.unusedVariables false

namespace Triptych
open Spec Finset Function

namespace Spec.AttackProgram
variable {S B A X V Y α : Type} (O : S → B) (H : A → X) (W : V → Y)

theorem run_challengesOnly (c : AttackProgram S B A X V Y α) : (c.challengesOnly H W).run O = c.run O H W := by
  induction c with
  | done a => rfl
  | challenge s next ih => exact ih _
  | seed a next ih => exact ih _
  | weights v next ih => exact ih _

theorem run_weightsOnly (c : AttackProgram S B A X V Y α) : (c.weightsOnly O).run H W = c.run O H W := by
  induction c with
  | done a => rfl
  | challenge s next ih => exact ih _
  | seed a next ih => exact ih _
  | weights v next ih => exact ih _

theorem asked_challengesOnly (c : AttackProgram S B A X V Y α) :
    ∀ {Q R T : ℕ}, c.AtMost Q R T → ((c.challengesOnly H W).asked O).length ≤ Q := by
  induction c with
  | done a => intros; exact Nat.zero_le _
  | challenge s next ih =>
    intro Q R T h
    have := ih (O s) (h.2 _)
    have h1 := h.1
    show (s :: OracleProgram.asked O (challengesOnly H W (next (O s)))).length ≤ Q
    rw [List.length_cons]
    omega
  | seed a next ih => intro Q R T h; exact ih _ (h.2 _)
  | weights v next ih => intro Q R T h; exact ih _ (h.2 _)

theorem atMost_weightsOnly (c : AttackProgram S B A X V Y α) :
    ∀ {Q R T : ℕ}, c.AtMost Q R T → (c.weightsOnly O).AtMost R T := by
  induction c with
  | done a => intros; trivial
  | challenge s next ih => intro Q R T h; exact ih _ (h.2 _)
  | seed a next ih => intro Q R T h; exact ⟨h.1, fun x => ih x (h.2 x)⟩
  | weights v next ih => intro Q R T h; exact ⟨h.1, fun y => ih y (h.2 y)⟩

end Spec.AttackProgram

variable {F P : Type} [Field F] [AddCommGroup P] [Module F P] [DecidableEq F] [DecidableEq P]

/-- With challenges `O`, seeds `H` and weights `W`, the verifier accepts the output, deriving the challenge from a transcript in
`S` and the seed from one in `A`. -/
def Spec.AcceptedForgery {κ : Type} (E : Env F P) (cfg : Config) (S A : Finset Transcript) (sts : κ → Statement P) {N : ℕ}
    (x : Forgery κ F P) (O : S → Block) (H : A → Seed) (W : Seed → Fin N → Block) : Prop :=
  x.point E sts ∈ S ∧ responseTranscript E x.t (sts x.k) x.p ∈ A ∧
    (Proof.verify (withSeeds (withOracle E S O) "Triptych verifier weights" A H (fun s : Seed => [s.val]) W) cfg x.p (sts x.k)
      x.t).1 = .ok ()

theorem accepted_cases {κ : Type} (E : Env F P) (cfg : Config) (S A : Finset Transcript)
    (hS : ∀ t ∈ S, t.getLast? = some (.challenge "xi" 64)) (sts : κ → Statement P) (hst : ∀ k, StatementBuilt E (sts k)) {N : ℕ}
    (c : AttackProgram S Block A Seed Seed (Fin N → Block) (Forgery κ F P)) (O : S → Block) (H : A → Seed)
    (W : Seed → Fin N → Block) (h : AcceptedForgery E cfg S A sts (c.run O H W) O H W) :
    Forges E S sts (c.challengesOnly H W) O ∨
      AcceptedInvalid (withOracle E S O) cfg A sts ((c.weightsOnly O).run H W) H W := by
  obtain ⟨h1, h2, h3⟩ := h
  rw [Forges, AttackProgram.run_challengesOnly, AttackProgram.run_weightsOnly]
  generalize c.run O H W = x at h1 h2 h3
  by_cases hv : Valid (sts x.k).params (sts x.k).inputSet.M (sts x.k).J x.p (challenge (withOracle E S O) x.t (sts x.k) x.p)
  · have hb : StatementBuilt (withSeeds (withOracle E S O) "Triptych verifier weights" A H (fun s : Seed => [s.val]) W) (sts x.k) :=
      statementBuilt_withSeeds _ _ _ _ _ _ _ (statementBuilt_withOracle E S O hS _ (hst x.k))
    exact Or.inl ⟨h1, (C18_accepted _ cfg _ [] _ _ hb h3).1.shapes _ (by simp), hv⟩
  · exact Or.inr ⟨h2, hv, h3⟩

theorem lawful_withOracle (E : Env F P) (hE : E.Lawful) (S : Finset Transcript) (O : S → Block) : (withOracle E S O).Lawful :=
  ⟨hE.1, hE.2, hE.3, hE.4, hE.5, hE.6⟩

theorem avg_swap {A B C : Type} [Fintype A] [Fintype B] [Fintype C] (f : A → B → C → ℚ) :
    (avg fun a => avg fun b => avg fun c => f a b c) = avg fun b => avg fun c => avg fun a => f a b c := by
  rw [avg_comm (fun a b => avg fun c => f a b c)]
  congr 1
  funext b
  exact avg_comm (fun a c => f a b c)

theorem avg_add₃ {A B C : Type} [Fintype A] [Fintype B] [Fintype C] (f g : A → B → C → ℚ) :
    (avg fun a => avg fun b => avg fun c => (f a b c + g a b c)) =
      (avg fun a => avg fun b => avg fun c => f a b c) + avg fun a => avg fun b => avg fun c => g a b c := by
  rw [← avg_add]
  congr 1
  funext a
  rw [← avg_add]
  congr 1
  funext b
  rw [← avg_add]

local notation "ℓ" => (2 ^ 252 + 27742317777372353535851937790883648493 : ℕ)

open Classical in
/-- `C80_ristretto` for forgeries of statements with the property `good`. -/
theorem attack_good {κ : Type} {P : Type} [AddCommGroup P] [Module (ZMod ℓ) P] [DecidableEq P]
    (E : Env (ZMod ℓ) P) (hE : E.Lawful) (hwide : ∀ b, E.scalarOfWide b = ((leNat b : ℕ) : ZMod ℓ)) (cfg : Config)
    (S A : Finset Transcript) (hS : ∀ t ∈ S, t.getLast? = some (.challenge "xi" 64)) (sts : κ → Statement P)
    (hst : ∀ k, StatementBuilt E (sts k)) (hinj : ∀ k k', (sts k).hash = (sts k').hash → k = k')
    (good : κ → Prop) (m : ℕ) (hm : ∀ k, (sts k).params.m ≤ m)
    (c : AttackProgram S Block A Seed Seed (Fin (1 * 2 * 4) → Block) (Forgery κ (ZMod ℓ) P)) (Q R T : ℕ) (hc : c.AtMost Q R T) :
    (avg fun O : S → Block => avg fun H : A → Seed => avg fun W : Seed → Fin (1 * 2 * 4) → Block =>
      ind (good (c.run O H W).k ∧ AcceptedForgery E cfg S A sts (c.run O H W) O H W)) ≤
      m * (Q + 1) / 2 ^ 252 + ((R + 1) * (4 / 2 ^ 64) + 1 / 2 ^ 174) +
      avg fun O : S → Block => avg fun H : A → Seed => avg fun W : Seed → Fin (1 * 2 * 4) → Block =>
        (#{s ∈ (c.challengesOnly H W).touched (Forgery.crit E S sts) O | RewindsFor good E S sts (c.challengesOnly H W) O s} : ℚ) := by
  have h1 : ∀ (O : S → Block) (H : A → Seed) (W : Seed → Fin (1 * 2 * 4) → Block),
      ind (good (c.run O H W).k ∧ AcceptedForgery E cfg S A sts (c.run O H W) O H W) ≤ ind (good ((c.challengesOnly H W).run O).k ∧ Forges E S sts (c.challengesOnly H W) O) +
        ind (AcceptedInvalid (withOracle E S O) cfg A sts ((c.weightsOnly O).run H W) H W) := by
    intro O H W
    by_cases h : good (c.run O H W).k ∧ AcceptedForgery E cfg S A sts (c.run O H W) O H W
    · rw [ind_pos h]
      rcases accepted_cases E cfg S A hS sts hst c O H W h.2 with h' | h'
      · rw [ind_pos ⟨by rw [AttackProgram.run_challengesOnly]; exact h.1, h'⟩]
        linarith [ind_nonneg (AcceptedInvalid (withOracle E S O) cfg A sts ((c.weightsOnly O).run H W) H W)]
      · rw [ind_pos h']
        linarith [ind_nonneg (good ((c.challengesOnly H W).run O).k ∧ Forges E S sts (c.challengesOnly H W) O)]
    · rw [ind_neg h]
      exact add_nonneg (ind_nonneg _) (ind_nonneg _)
  refine (avg_mono _ _ fun O => avg_mono _ _ fun H => avg_mono _ _ fun W => h1 O H W).trans ?_
  have e := avg_add₃ (fun (O : S → Block) (H : A → Seed) (W : Seed → Fin (1 * 2 * 4) → Block) =>
      ind (good ((c.challengesOnly H W).run O).k ∧ Forges E S sts (c.challengesOnly H W) O)) fun O H W =>
      ind (AcceptedInvalid (withOracle E S O) cfg A sts ((c.weightsOnly O).run H W) H W)
  rw [e]
  have h2 : (avg fun O : S → Block => avg fun H : A → Seed => avg fun W : Seed → Fin (1 * 2 * 4) → Block =>
        ind (AcceptedInvalid (withOracle E S O) cfg A sts ((c.weightsOnly O).run H W) H W)) ≤ ((R + 1) * (4 / 2 ^ 64) + 1 / 2 ^ 174) := by
    refine (avg_mono _ _ fun O => C78_known_ristretto (withOracle E S O) (lawful_withOracle E hE S O) hwide cfg A sts
      (fun k => statementBuilt_withOracle E S O hS _ (hst k)) hinj (c.weightsOnly O) R T
      (AttackProgram.atMost_weightsOnly O c hc)).trans ?_
    generalize ((R : ℚ) + 1) * (4 / 2 ^ 64) + 1 / 2 ^ 174 = y
    rw [avg_const]
  have swap := fun f : (S → Block) → (A → Seed) → (Seed → Fin (1 * 2 * 4) → Block) → ℚ => avg_swap f
  have h3 : (avg fun O : S → Block => avg fun H : A → Seed => avg fun W : Seed → Fin (1 * 2 * 4) → Block =>
        ind (good ((c.challengesOnly H W).run O).k ∧ Forges E S sts (c.challengesOnly H W) O)) ≤ m * (Q + 1) / 2 ^ 252 +
      avg fun O : S → Block => avg fun H : A → Seed => avg fun W : Seed → Fin (1 * 2 * 4) → Block =>
        (#{s ∈ (c.challengesOnly H W).touched (Forgery.crit E S sts) O | RewindsFor good E S sts (c.challengesOnly H W) O s} : ℚ) := by
    rw [swap, swap]
    have key : ∀ (H : A → Seed) (W : Seed → Fin (1 * 2 * 4) → Block),
        (avg fun O : S → Block => ind (good ((c.challengesOnly H W).run O).k ∧ Forges E S sts (c.challengesOnly H W) O)) ≤ m * (Q + 1) / 2 ^ 252 +
          avg fun O : S → Block =>
            (#{s ∈ (c.challengesOnly H W).touched (Forgery.crit E S sts) O | RewindsFor good E S sts (c.challengesOnly H W) O s} : ℚ) := by
      intro H W
      rw [avg_ind']
      refine (forge_good_ristretto E hE hwide S sts hst hinj good m hm (c.challengesOnly H W) Q
        fun O => AttackProgram.asked_challengesOnly O H W c hc).trans (le_of_eq ?_)
      rw [avg, Nat.cast_sum]
    refine (avg_mono _ _ fun H => avg_mono _ _ fun W => key H W).trans (le_of_eq ?_)
    have e1 : ∀ H : A → Seed, (avg fun W : Seed → Fin (1 * 2 * 4) → Block => (m * (Q + 1) / 2 ^ 252 +
          avg fun O : S → Block =>
            (#{s ∈ (c.challengesOnly H W).touched (Forgery.crit E S sts) O | RewindsFor good E S sts (c.challengesOnly H W) O s} : ℚ))) =
        m * (Q + 1) / 2 ^ 252 + avg fun W : Seed → Fin (1 * 2 * 4) → Block => avg fun O : S → Block =>
            (#{s ∈ (c.challengesOnly H W).touched (Forgery.crit E S sts) O | RewindsFor good E S sts (c.challengesOnly H W) O s} : ℚ) := by
      intro H
      rw [avg_add, avg_const]
    simp only [e1]
    rw [avg_add, avg_const]
  linarith

open Classical in
/-- C80: the probability that the verifier accepts the output of a forger asking for at most `Q` challenges, `R` seeds and the
weights of `T` seeds is at most `m (Q + 1) / 2 ^ 252 + (R + 1) 4 / 2 ^ 64 + 1 / 2 ^ 174`, plus the expected number of questions
at which rewinding the forger yields a signing key or a relation among the commitment generators. -/
theorem C80_ristretto {κ : Type} {P : Type} [AddCommGroup P] [Module (ZMod ℓ) P] [DecidableEq P]
    (E : Env (ZMod ℓ) P) (hE : E.Lawful) (hwide : ∀ b, E.scalarOfWide b = ((leNat b : ℕ) : ZMod ℓ)) (cfg : Config)
    (S A : Finset Transcript) (hS : ∀ t ∈ S, t.getLast? = some (.challenge "xi" 64)) (sts : κ → Statement P)
    (hst : ∀ k, StatementBuilt E (sts k)) (hinj : ∀ k k', (sts k).hash = (sts k').hash → k = k')
    (m : ℕ) (hm : ∀ k, (sts k).params.m ≤ m)
    (c : AttackProgram S Block A Seed Seed (Fin (1 * 2 * 4) → Block) (Forgery κ (ZMod ℓ) P)) (Q R T : ℕ) (hc : c.AtMost Q R T) :
    (avg fun O : S → Block => avg fun H : A → Seed => avg fun W : Seed → Fin (1 * 2 * 4) → Block =>
      ind (AcceptedForgery E cfg S A sts (c.run O H W) O H W)) ≤
      m * (Q + 1) / 2 ^ 252 + ((R + 1) * (4 / 2 ^ 64) + 1 / 2 ^ 174) +
      avg fun O : S → Block => avg fun H : A → Seed => avg fun W : Seed → Fin (1 * 2 * 4) → Block =>
        (#{s ∈ (c.challengesOnly H W).touched (Forgery.crit E S sts) O | Rewinds E S sts (c.challengesOnly H W) O s} : ℚ) := by
  have h := attack_good E hE hwide cfg S A hS sts hst hinj (fun _ => True) m hm c Q R T hc
  simp only [true_and, RewindsFor] at h
  exact h

namespace Spec.OracleProgram
variable {S B A X V Y α : Type}

/-- A program that only asks for challenges as an attack. -/
def toAttack : OracleProgram S B α → AttackProgram S B A X V Y α
  | done a => .done a
  | ask s next => .challenge s fun b => (next b).toAttack

end Spec.OracleProgram

/-- The honest signer of a toy statement, seen as an attacker that asks for one challenge, then for a seed and weights it does not
need, meets the hypotheses of `C80_ristretto`. -/
example (nn : Nonces (ZMod ℓ)) (A : Finset Transcript) (a : A) : ∃ (S : Finset Transcript)
    (c : AttackProgram S Block A Seed Seed (Fin (1 * 2 * 4) → Block) (Forgery Unit (ZMod ℓ) (ZMod ℓ))),
    (∀ t ∈ S, t.getLast? = some (.challenge "xi" 64)) ∧ c.AtMost 1 1 1 ∧ (Toy.env ℓ).Lawful ∧
    (∀ b, (Toy.env ℓ).scalarOfWide b = ((leNat b : ℕ) : ZMod ℓ)) ∧
    StatementBuilt (Toy.env ℓ) Toy.Ristretto.statement ∧ Toy.Ristretto.statement.params.m ≤ 2 ∧
    ∀ O H W, Forges (Toy.env ℓ) S (fun _ => Toy.Ristretto.statement) (c.challengesOnly H W) O := by
  have hrel : Rel Toy.Ristretto.statement.params.G Toy.Ristretto.statement.params.U Toy.Ristretto.statement.inputSet.M
      Toy.Ristretto.statement.J 2 (7 : ZMod ℓ) := ⟨by decide +kernel, by decide +kernel⟩
  have h := C60_honest (Toy.env ℓ) Toy.transcript Toy.Ristretto.statement Toy.Ristretto.statement_built 2 7 hrel nn {_}
    (mem_singleton_self _)
  refine ⟨_, .seed a fun x => .weights x fun _ => (honestForger (Toy.env ℓ) Toy.transcript Toy.Ristretto.statement 2 7 nn {_}
    (mem_singleton_self _)).toAttack, fun t ht => ?_, ⟨by norm_num, fun _ => ⟨by norm_num, fun _ => ⟨by norm_num, fun _ => trivial⟩⟩⟩,
    Toy.env_lawful ℓ (by norm_num), fun _ => rfl, Toy.Ristretto.statement_built, by decide +kernel, fun O H W => (h O).2⟩
  rw [mem_singleton.1 ht]
  exact challengeTranscript_getLast _ _ _ _ _ _ _ _ _

end Triptych
