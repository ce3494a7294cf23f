import Verif.Spec.DLog

/-! # Specification: discrete logarithms, random generators and honest users of the parallel proving system

As for the plain proving system, with the additional generator `G1`. -/
set_option autoImplicit false

namespace Triptych.Parallel.Spec
open Triptych.Spec (unit_smul_ne SetupCoins)

variable {F P : Type} [Field F] [AddCommGroup P] [Module F P]

/-- The generators obtained by hashing: those of the plain proving system, and `G1`, which is not the identity. -/
abbrev Generators (n m : ℕ) (P : Type) [Zero P] := Triptych.Spec.Generators n m P × {X : P // X ≠ 0}

/-- What everybody knows: the generators, and the verification keys and linking tags of the honest users `υ`. -/
structure Public (n m : ℕ) (P υ : Type) [Zero P] where
  gens : Generators n m P
  key : υ → P
  tag : υ → P

/-- The public data if the honest users have the signing keys `x`. -/
def publish {n m : ℕ} {υ : Type} (G : P) (g : Generators n m P) (x : υ → Fˣ) : Public n m P υ :=
  ⟨g, fun i => (x i : F) • G, fun i => (x i : F)⁻¹ • g.1.2.2.1⟩

/-- The public data set up from `Y`: as in the plain proving system, with `G1 = t • Y` for one more number `t`. -/
def setup {n m : ℕ} {υ : Type} (G : P) (Y : {Y : P // Y ≠ 0}) (ρ : SetupCoins n m F (Option υ)) : Public n m P υ :=
  ⟨((Triptych.Spec.setup G Y ρ).gens, ⟨(ρ.t none : F) • Y.1, unit_smul_ne Y.2 _⟩),
    fun i => (Triptych.Spec.setup G Y ρ).key (some i), fun i => (Triptych.Spec.setup G Y ρ).tag (some i)⟩

end Triptych.Parallel.Spec
