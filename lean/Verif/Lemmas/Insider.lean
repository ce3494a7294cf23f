import Verif.Spec.Insider
import Verif.Lemmas.ChosenMessage
import Verif.Lemmas.DLog
import Verif.Lemmas.Rewind

/-! # Lemmas: programs that corrupt users -/
set_option autoImplicit false
set_option linter.unusedSectionVars false
set_option linter.unusedVariables false

namespace Triptych
open Spec Finset Function

namespace Spec.InsiderProgram
variable {S B A X V Y γ δ υ F α : Type}

theorem atMost_withKeys (x : υ → F) (c : InsiderProgram S B A X V Y γ δ υ F α) :
    ∀ (C : List υ) {Q R T q : ℕ}, c.AtMost Q R T q → (c.withKeys x C).AtMost Q R T q := by
  induction c with
  | done a => intros; trivial
  | challenge s next ih => intro C Q R N q h; exact ⟨h.1, fun x => ih x C (h.2 x)⟩
  | seed a next ih => intro C Q R N q h; exact ⟨h.1, fun x => ih x C (h.2 x)⟩
  | weights v next ih => intro C Q R N q h; exact ⟨h.1, fun y => ih y C (h.2 y)⟩
  | sign g next ih => intro C Q R N q h; exact ⟨h.1, fun y => ih y C (h.2 y)⟩
  | corrupt i next ih => intro C Q R N q h; exact ih _ _ (h _)

variable [DecidableEq S] {T : Type} (sim : γ → T → B → S × δ) (H : A → X) (W : V → Y)

/-- Corrupted users remain corrupted. -/
theorem corrupted_mono (x : υ → F) (u : υ) (c : InsiderProgram S B A X V Y γ δ υ F α) :
    ∀ (C : List υ) (hC : u ∈ C) (tape : ℕ → B × T) (changed : List (S × B)) (O : S → B),
      u ∈ ((((c.withKeys x C).signingOnly H W).simulated sim tape changed).run O).2 := by
  induction c with
  | done a => intro C hC _ _ _; exact hC
  | challenge s next ih =>
    intro C hC tape changed O
    rw [withKeys, ChosenProgram.signingOnly, SigningProgram.simulated]
    split
    · exact ih _ C hC _ _ _
    · exact ih _ C hC _ _ _
  | seed a next ih => intro C hC tape changed O; exact ih _ C hC _ _ _
  | weights v next ih => intro C hC tape changed O; exact ih _ C hC _ _ _
  | sign g next ih => intro C hC tape changed O; exact ih _ C hC _ _ _
  | corrupt i next ih => intro C hC tape changed O; exact ih _ _ (List.mem_cons_of_mem _ hC) _ _ _

/-- Without the key of `u` the program runs in the same way, unless it corrupts `u`. -/
theorem withKeys_congr [DecidableEq υ] (x x' : υ → F) (u : υ) (hx : ∀ i, i ≠ u → x' i = x i)
    (c : InsiderProgram S B A X V Y γ δ υ F α) :
    ∀ (C : List υ) (tape : ℕ → B × T) (changed : List (S × B)) (O : S → B),
      (((c.withKeys x' C).signingOnly H W).simulated sim tape changed).run O
          = (((c.withKeys x C).signingOnly H W).simulated sim tape changed).run O ∨
        (u ∈ ((((c.withKeys x' C).signingOnly H W).simulated sim tape changed).run O).2 ∧
          u ∈ ((((c.withKeys x C).signingOnly H W).simulated sim tape changed).run O).2) := by
  induction c with
  | done a => intro C _ _ _; exact Or.inl rfl
  | challenge s next ih =>
    intro C tape changed O
    rw [withKeys, withKeys, ChosenProgram.signingOnly, ChosenProgram.signingOnly, SigningProgram.simulated, SigningProgram.simulated]
    cases changed.lookup s with
    | some b => exact ih _ C _ _ _
    | none => exact ih _ C _ _ _
  | seed a next ih => intro C tape changed O; exact ih _ C _ _ _
  | weights v next ih => intro C tape changed O; exact ih _ C _ _ _
  | sign g next ih => intro C tape changed O; exact ih _ C _ _ _
  | corrupt i next ih =>
    intro C tape changed O
    by_cases hi : i = u
    · subst hi
      exact Or.inr ⟨corrupted_mono sim H W x' i _ _ List.mem_cons_self _ _ _, corrupted_mono sim H W x i _ _ List.mem_cons_self _ _ _⟩
    · rw [withKeys, withKeys, hx i hi]
      exact ih _ _ _ _ _

end Spec.InsiderProgram

theorem run_simulated_map {S B A X V Y γ δ α β T : Type} [DecidableEq S] (sim : γ → T → B → S × δ) (H : A → X) (W : V → Y) (f : α → β)
    (c : ChosenProgram S B A X V Y γ δ α) : ∀ (tape : ℕ → B × T) (changed : List (S × B)) (O : S → B),
      (((c.map f).signingOnly H W).simulated sim tape changed).run O
        = f ((((c.signingOnly H W).simulated sim tape changed)).run O) := by
  induction c with
  | done a => intros; rfl
  | challenge s next ih =>
    intro tape changed O
    rw [ChosenProgram.map, ChosenProgram.signingOnly, ChosenProgram.signingOnly, SigningProgram.simulated, SigningProgram.simulated]
    cases changed.lookup s with
    | some b => exact ih _ _ _ _
    | none => exact ih _ _ _ _
  | seed a next ih => intro tape changed O; exact ih _ _ _ _
  | weights v next ih => intro tape changed O; exact ih _ _ _ _
  | sign g next ih => intro tape changed O; exact ih _ _ _ _

namespace Spec.OracleProgram
variable {ι β α F : Type} [DecidableEq ι] [DecidableEq F]

/-- Rewinding gives the same if runs differ only where they do not count. -/
theorem rewind_congr (c c' : OracleProgram ι β α) (crit : α → Option ι) (ok : α → β → Prop) [∀ a b, Decidable (ok a b)] (dec : β → F)
    (O : ι → β) (bs : List β) (h : c'.run O = c.run O)
    (hb : ∀ s, crit (c.run O) = some s → ∀ b, c'.run (update O s b) = c.run (update O s b) ∨
      (crit (c'.run (update O s b)) ≠ some s ∧ crit (c.run (update O s b)) ≠ some s)) :
    c'.rewind crit ok dec O bs = c.rewind crit ok dec O bs := by
  rw [rewind, rewind, h]
  cases hc : crit (c.run O) with
  | none => rfl
  | some s =>
    dsimp only
    generalize O s :: bs = l
    generalize ([] : List (β × α)) = kept
    induction l generalizing kept with
    | nil => rfl
    | cons b l ih =>
      rw [collect, collect]
      rcases hb s hc b with e | ⟨h1, h2⟩
      · rw [e]
        split
        · exact ih _
        · exact ih _
      · rw [if_neg fun h => h1 h.1, if_neg fun h => h2 h.1]
        exact ih _

end Spec.OracleProgram

section
variable {F P : Type} [Field F] [AddCommGroup P] [Module F P]

/-- The keys of the users: those in `D` have the keys `x`, the others `x0`. -/
def Spec.mixKeys {υ : Type} [DecidableEq υ] (D : Finset υ) (x0 : υ → Fˣ) (x : D → Fˣ) (i : υ) : Fˣ :=
  if h : i ∈ D then x ⟨i, h⟩ else x0 i

/-- The public data of all users, from that of the users in `D` and the keys of the others. -/
def Spec.mixPublic {n m : ℕ} {υ : Type} [DecidableEq υ] (D : Finset υ) (x0 : υ → Fˣ) (G : P) (pub : Public n m P D) : Public n m P υ :=
  ⟨pub.gens, fun i => if h : i ∈ D then pub.key ⟨i, h⟩ else (x0 i : F) • G,
    fun i => if h : i ∈ D then pub.tag ⟨i, h⟩ else (x0 i : F)⁻¹ • pub.gens.2.2.1⟩

/-- The keys of the users not in `D`. -/
def Spec.knownKeys {υ : Type} [DecidableEq υ] (D : Finset υ) (x0 : υ → Fˣ) (i : υ) : F := if i ∈ D then 0 else x0 i

theorem mixPublic_publish {n m : ℕ} {υ : Type} [DecidableEq υ] (D : Finset υ) (x0 : υ → Fˣ) (G : P) (g : Generators n m P)
    (x : D → Fˣ) : mixPublic D x0 G (publish G g x) = publish G g (mixKeys D x0 x) := by
  rw [mixPublic, publish, publish]
  congr 1
  · funext i
    rw [mixKeys]
    split <;> rfl
  · funext i
    rw [mixKeys]
    split <;> rfl

theorem knownKeys_mixKeys {υ : Type} [DecidableEq υ] (D : Finset υ) (x0 : υ → Fˣ) (x : D → Fˣ) :
    knownKeys D (mixKeys D x0 x) = knownKeys D x0 := by
  funext i
  rw [knownKeys, knownKeys]
  split
  · rfl
  · rename_i h
    rw [mixKeys, dif_neg h]

theorem avg_mixKeys {υ : Type} [DecidableEq υ] [Fintype υ] [Fintype Fˣ] (D : Finset υ) (f : (υ → Fˣ) → ℚ) :
    avg f = avg fun x0 : υ → Fˣ => avg fun x : D → Fˣ => f (mixKeys D x0 x) := by
  rw [avg_extend (Subtype.val : D → υ) Subtype.val_injective]
  refine congrArg avg (funext fun x0 => congrArg avg (funext fun x => congrArg f (funext fun i => ?_)))
  rw [mixKeys]
  split
  · rename_i h
    exact Subtype.val_injective.extend_apply x x0 ⟨i, h⟩
  · rename_i h
    exact extend_apply' _ _ _ (by rintro ⟨j, rfl⟩; exact h j.2)

end

/-- A transcript longer than those in `S`. -/
noncomputable def Spec.outside (S : Finset Transcript) : Transcript := S.toList.flatten ++ [.challenge "" 0]

theorem outside_length (S : Finset Transcript) (t : Transcript) (ht : t ∈ S) : t.length < (outside S).length := by
  rw [outside, List.length_append, List.length_singleton]
  have : t.length ≤ S.toList.flatten.length := (List.sublist_flatten_of_mem (mem_toList.2 ht)).length_le
  omega

end Triptych
