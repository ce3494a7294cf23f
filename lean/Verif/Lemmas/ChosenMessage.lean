import Verif.Spec.ChosenMessage
import Verif.Lemmas.Signing
import Verif.Lemmas.Draws

/-! # Programs that request signatures, with fixed random choices of the signers -/
set_option autoImplicit false
set_option linter.unusedSectionVars false
set_option linter.unusedVariables false

namespace Triptych
open Spec Finset Function

namespace Spec.SigningProgram
variable {ι β γ δ α T : Type} (point : γ → T → ι) (answer : γ → T → β → δ)

/-- The output and the points used by the signers, whose random choices for the `i`-th signature are `tape i`. -/
def signRun (O : ι → β) : SigningProgram ι β γ δ α → (ℕ → T) → List ι → α × List ι
  | done a, _, used => (a, used)
  | ask i next, tape, used => signRun O (next (O i)) tape used
  | sign g next, tape, used => signRun O (next (answer g (tape 0) (O (point g (tape 0))))) (fun i => tape (i + 1))
      (point g (tape 0) :: used)

theorem withSigner_tape [Fintype T] [Nonempty T] (d : T) (win : α → List ι → (ι → β) → Prop) (c : SigningProgram ι β γ δ α) (Q q : ℕ)
    (hc : c.AtMost Q q) (used : List ι) (O : ι → β) :
    withSigner point answer win O c used = avg fun tape : Fin q → T =>
      ind (win (signRun point answer O c (extend d tape) used).1 (signRun point answer O c (extend d tape) used).2 O) := by
  induction c generalizing used Q q with
  | done a =>
    rw [withSigner]
    simp only [signRun]
    rw [avg_const]
    unfold ind
    rfl
  | ask i next ih =>
    rw [withSigner]
    exact ih _ _ _ (hc.2 _) _
  | sign g next ih =>
    obtain ⟨hq, hc⟩ := hc
    obtain ⟨q, rfl⟩ : ∃ q', q = q' + 1 := ⟨q - 1, by omega⟩
    rw [withSigner]
    simp only [ih _ _ _ (hc _)]
    rw [← avg_prod (fun y : T × (Fin (q + 1 - 1) → T) =>
      ind (win (signRun point answer O (next (answer g y.1 (O (point g y.1)))) (extend d y.2) (point g y.1 :: used)).1
        (signRun point answer O (next (answer g y.1 (O (point g y.1)))) (extend d y.2) (point g y.1 :: used)).2 O))]
    refine avg_equiv (Fin.consEquiv fun _ : Fin (q + 1) => T) _ _ fun y => ?_
    have h0 : extend d (Fin.consEquiv (fun _ : Fin (q + 1) => T) y) 0 = y.1 := by
      simp [extend, Fin.consEquiv]
    have h1 : (fun i => extend d (Fin.consEquiv (fun _ : Fin (q + 1) => T) y) (i + 1)) = extend d y.2 := by
      funext i
      by_cases h : i < q
      · have := Fin.cons_succ (α := fun _ : Fin (q + 1) => T) y.1 y.2 ⟨i, h⟩
        simp only [extend, Nat.add_lt_add_iff_right, h, dif_pos]
        exact this
      · simp [extend, h]
    simp only [signRun, h0, h1]

end Spec.SigningProgram

namespace Spec.ChosenProgram
variable {S B A X V Y γ δ α β T : Type} (point : γ → T → S) (answer : γ → T → B → δ)

/-- The program with the challenges `O` and the signers' random choices fixed. -/
def weightsOnly (O : S → B) : ChosenProgram S B A X V Y γ δ α → (ℕ → T) → GrindProgram A X V Y α
  | done a, _ => .done a
  | challenge s next, tape => (next (O s)).weightsOnly O tape
  | seed a next, tape => .seed a fun x => (next x).weightsOnly O tape
  | weights v next, tape => .weights v fun y => (next y).weightsOnly O tape
  | sign g next, tape => (next (answer g (tape 0) (O (point g (tape 0))))).weightsOnly O fun i => tape (i + 1)

theorem run_weightsOnly (O : S → B) (H : A → X) (W : V → Y) (c : ChosenProgram S B A X V Y γ δ α) (tape : ℕ → T) (used : List S) :
    (c.weightsOnly point answer O tape).run H W = ((c.signingOnly H W).signRun point answer O tape used).1 := by
  induction c generalizing tape used with
  | done a => rfl
  | challenge s next ih => exact ih _ _ _
  | seed a next ih => exact ih _ _ _
  | weights v next ih => exact ih _ _ _
  | sign g next ih => exact ih _ _ _

theorem atMost_weightsOnly (O : S → B) (c : ChosenProgram S B A X V Y γ δ α) :
    ∀ {Q R N q : ℕ} (tape : ℕ → T), c.AtMost Q R N q → (c.weightsOnly point answer O tape).AtMost R N := by
  induction c with
  | done a => intros; trivial
  | challenge s next ih => intro Q R N q tape h; exact ih _ _ (h.2 _)
  | seed a next ih => intro Q R N q tape h; exact ⟨h.1, fun x => ih x _ (h.2 x)⟩
  | weights v next ih => intro Q R N q tape h; exact ⟨h.1, fun y => ih y _ (h.2 y)⟩
  | sign g next ih => intro Q R N q tape h; exact ih _ _ (h.2 _)

theorem atMost_signingOnly (H : A → X) (W : V → Y) (c : ChosenProgram S B A X V Y γ δ α) :
    ∀ {Q R N q : ℕ}, c.AtMost Q R N q → (c.signingOnly H W).AtMost Q q := by
  induction c with
  | done a => intros; trivial
  | challenge s next ih => intro Q R N q h; exact ⟨h.1, fun b => ih b (h.2 b)⟩
  | seed a next ih => intro Q R N q h; exact ih _ (h.2 _)
  | weights v next ih => intro Q R N q h; exact ih _ (h.2 _)
  | sign g next ih => intro Q R N q h; exact ⟨h.1, fun b => ih b (h.2 b)⟩

theorem atMost_map (f : α → β) (c : ChosenProgram S B A X V Y γ δ α) :
    ∀ {Q R N q : ℕ}, c.AtMost Q R N q → (c.map f).AtMost Q R N q := by
  induction c with
  | done a => intros; trivial
  | challenge s next ih => intro Q R N q h; exact ⟨h.1, fun x => ih x (h.2 x)⟩
  | seed a next ih => intro Q R N q h; exact ⟨h.1, fun x => ih x (h.2 x)⟩
  | weights v next ih => intro Q R N q h; exact ⟨h.1, fun y => ih y (h.2 y)⟩
  | sign g next ih => intro Q R N q h; exact ⟨h.1, fun y => ih y (h.2 y)⟩

theorem signRun_map (f : α → β) (O : S → B) (H : A → X) (W : V → Y) (c : ChosenProgram S B A X V Y γ δ α) (tape : ℕ → T)
    (used : List S) :
    ((c.map f).signingOnly H W).signRun point answer O tape used =
      (f ((c.signingOnly H W).signRun point answer O tape used).1, ((c.signingOnly H W).signRun point answer O tape used).2) := by
  induction c generalizing tape used with
  | done a => rfl
  | challenge s next ih => exact ih _ _ _
  | seed a next ih => exact ih _ _ _
  | weights v next ih => exact ih _ _ _
  | sign g next ih => exact ih _ _ _

end Spec.ChosenProgram
end Triptych
