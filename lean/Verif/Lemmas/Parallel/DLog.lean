import Verif.Spec.Parallel.DLog
import Verif.Lemmas.DLog

/-! Setting up random generators and users' keys of the parallel proving system from a discrete-logarithm challenge. -/
set_option autoImplicit false
set_option linter.unusedSectionVars false
set_option linter.unusedVariables false

namespace Triptych.Parallel
open Finset Function
open Triptych.Parallel.Spec
open Triptych.Spec (avg unit_smul_ne SetupCoins timesY relationAnswer Relation padded commit)

variable {F P : Type} [Field F] [AddCommGroup P] [Module F P] [DecidableEq F] [DecidableEq P]

/-- What is set up from `Y = y • G` is what users with the signing keys `t i * y` publish. -/
theorem setup_publish {n m : ℕ} {υ : Type} (G : P) (hG : G ≠ 0) (y : Fˣ) (ρ : SetupCoins n m F (Option υ)) [Fintype F] [Fintype P] :
    setup G ⟨(y : F) • G, unit_smul_ne hG y⟩ ρ =
      publish G (setup G ⟨(y : F) • G, unit_smul_ne hG y⟩ ρ).gens fun i => ρ.t (some i) * y := by
  have h := Triptych.setup_publish G hG y ρ
  have h1 := congrArg (fun p => p.key) h
  have h2 := congrArg (fun p => p.tag) h
  have e1 : (setup G ⟨(y : F) • G, unit_smul_ne hG y⟩ ρ).key =
      (publish G (setup G ⟨(y : F) • G, unit_smul_ne hG y⟩ ρ).gens fun i => ρ.t (some i) * y).key :=
    funext fun i => congrFun h1 (some i)
  have e2 : (setup G ⟨(y : F) • G, unit_smul_ne hG y⟩ ρ).tag =
      (publish G (setup G ⟨(y : F) • G, unit_smul_ne hG y⟩ ρ).gens fun i => ρ.t (some i) * y).tag :=
    funext fun i => congrFun h2 (some i)
  have hmk : ∀ a b : Public n m P υ, a.gens = b.gens → a.key = b.key → a.tag = b.tag → a = b := by
    rintro ⟨_, _, _⟩ ⟨_, _, _⟩ rfl rfl rfl
    rfl
  exact hmk _ _ rfl e1 e2

/-- `dlog_setup` for the parallel proving system. -/
theorem dlog_setup [Fintype F] [Fintype P] {n m : ℕ} {υ Ω : Type} [Fintype υ] [DecidableEq υ] [Fintype Ω] (G : P) (hG : G ≠ 0)
    (hgen : ∀ X : P, ∃ x : F, x • G = X) (yields : Generators n m P → (υ → Fˣ) → Ω → Prop)
    (solved : {Y : P // Y ≠ 0} → SetupCoins n m F (Option υ) → Ω → Prop)
    (h : ∀ g x ω, yields g x ω →
      (∀ (y : Fˣ) ρ, (setup G ⟨(y : F) • G, unit_smul_ne hG y⟩ ρ).gens = g → (fun i => ρ.t (some i) * y) = x →
        solved ⟨(y : F) • G, unit_smul_ne hG y⟩ ρ ω) ∨
      ∃ (z : ℕ → ℕ → F) (s : F), Relation n m (List.ofFn g.1.1) g.1.2.1.1 z s ∧
        ∀ (y : Fˣ) ρ, (setup G ⟨(y : F) • G, unit_smul_ne hG y⟩ ρ).gens = g → (fun i => ρ.t (some i) * y) = x → timesY ρ z s ≠ 0 →
          solved ⟨(y : F) • G, unit_smul_ne hG y⟩ ρ ω) :
    (avg fun g : Generators n m P => avg fun x : υ → Fˣ => avg fun ω : Ω => ind (yields g x ω)) ≤
      1 / Fintype.card F +
      avg fun y : Fˣ => avg fun ρ : SetupCoins n m F (Option υ) => avg fun ω : Ω =>
        ind (solved ⟨(y : F) • G, unit_smul_ne hG y⟩ ρ ω) := by
  have h1 := Triptych.dlog_setup (n := n) (m := m) (υ := Option υ) G hG hgen
    (fun g x ω => yields (g, ⟨(x none : F) • G, unit_smul_ne hG _⟩) (fun i => x (some i)) ω) solved (fun g x ω hy => by
      have hpub : ∀ (y : Fˣ) (ρ : SetupCoins n m F (Option υ)), (Triptych.Spec.setup G ⟨(y : F) • G, unit_smul_ne hG y⟩ ρ).gens = g →
          (fun i => ρ.t i * y) = x →
          (setup G ⟨(y : F) • G, unit_smul_ne hG y⟩ ρ).gens = (g, ⟨(x none : F) • G, unit_smul_ne hG _⟩) ∧
          (fun i => ρ.t (some i) * y) = fun i => x (some i) := by
        intro y ρ h1 h2
        subst h2
        refine ⟨Prod.ext h1 (Subtype.ext ?_), rfl⟩
        show (ρ.t none : F) • (y : F) • G = ((ρ.t none * y : Fˣ) : F) • G
        rw [smul_smul, Units.val_mul]
      rcases h _ _ _ hy with h1 | ⟨z, s, hr, h1⟩
      · exact Or.inl fun y ρ h2 h3 => h1 y ρ (hpub y ρ h2 h3).1 (hpub y ρ h2 h3).2
      · exact Or.inr ⟨z, s, hr, fun y ρ h2 h3 => h1 y ρ (hpub y ρ h2 h3).1 (hpub y ρ h2 h3).2⟩)
  refine (le_of_eq ?_).trans h1
  rw [avg_prod]
  refine congrArg avg (funext fun g => ?_)
  refine Eq.trans ?_ (avg_equiv (Equiv.piOptionEquivProd (β := fun _ : Option υ => Fˣ)) _
    (fun z : Fˣ × (υ → Fˣ) => avg fun ω : Ω => ind (yields (g, ⟨(z.1 : F) • G, unit_smul_ne hG _⟩) z.2 ω)) fun x => rfl).symm
  rw [avg_prod]
  refine (avg_equiv (unitEquiv G hG hgen 1) _ _ fun u => ?_).symm
  have e : unitEquiv G hG hgen 1 u = ⟨(u : F) • G, unit_smul_ne hG _⟩ := by
    refine Subtype.ext ?_
    show (u : F) • ((1 : Fˣ) : F) • G = (u : F) • G
    rw [Units.val_one, one_smul]
  rw [e]

end Triptych.Parallel
