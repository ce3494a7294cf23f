import Verif.Spec.Soundness
import Mathlib.Algebra.Field.Basic
import Mathlib.Algebra.Module.Basic
import Mathlib.Algebra.GroupWithZero.Units.Basic
import Mathlib.Algebra.GroupWithZero.Units.Fintype

/-! # Specification: discrete logarithms, random generators and honest users

The group is generated by `G`; a discrete logarithm of `Y` is a number `y` with `y • G = Y`. The library's other generators come
from hashing constants to the group; here they are random points. Honest users draw their signing keys at random. -/
set_option autoImplicit false

namespace Triptych.Spec
open Finset

variable {F P : Type} [Field F] [AddCommGroup P] [Module F P]

/-- The generators obtained by hashing: the commitment generators, `CommitmentH` and `U`, the last two not the identity. -/
abbrev Generators (n m : ℕ) (P : Type) [Zero P] := (Fin (n * m) → P) × {X : P // X ≠ 0} × {X : P // X ≠ 0}

/-- What everybody knows: the generators, and the verification keys and linking tags of the honest users `υ`. -/
structure Public (n m : ℕ) (P υ : Type) [Zero P] where
  gens : Generators n m P
  key : υ → P
  tag : υ → P

/-- The public data if the honest users have the signing keys `x`: user `i` has the verification key `x i • G` and the linking tag
`(x i)⁻¹ • U`. -/
def publish {n m : ℕ} {υ : Type} (G : P) (g : Generators n m P) (x : υ → Fˣ) : Public n m P υ :=
  ⟨g, fun i => (x i : F) • G, fun i => (x i : F)⁻¹ • g.2.2.1⟩

/-- The random choices with which somebody who looks for the discrete logarithm of `Y` sets up the public data. -/
structure SetupCoins (n m : ℕ) (F υ : Type) [Monoid F] where
  t : υ → Fˣ
  u : Fˣ
  h : Fˣ
  a : Fin (n * m) → F
  b : Fin (n * m) → F

theorem unit_smul_ne {Y : P} (hY : Y ≠ 0) (u : Fˣ) : (u : F) • Y ≠ 0 := by
  intro h
  have h2 : ((u⁻¹ : Fˣ) : F) • (u : F) • Y = 0 := by rw [h, smul_zero]
  rw [smul_smul, ← Units.val_mul, inv_mul_cancel, Units.val_one, one_smul] at h2
  exact hY h2

/-- The public data set up from `Y`: users' keys `t i • Y`, `U = u • Y`, so the linking tags are `(u / t i) • G`, `CommitmentH = h • Y`,
and the commitment generators `a i • G + b i • Y`. The discrete logarithm of `Y` is not used. -/
def setup {n m : ℕ} {υ : Type} (G : P) (Y : {Y : P // Y ≠ 0}) (ρ : SetupCoins n m F υ) : Public n m P υ :=
  ⟨(fun i => ρ.a i • G + ρ.b i • Y.1, ⟨(ρ.h : F) • Y.1, unit_smul_ne Y.2 _⟩, ⟨(ρ.u : F) • Y.1, unit_smul_ne Y.2 _⟩),
    fun i => (ρ.t i : F) • Y.1, fun i => ((ρ.u : F) / (ρ.t i : F)) • G⟩

/-- A finite list of coefficients, continued by zero. -/
def padded {k : ℕ} (v : Fin k → F) (i : ℕ) : F := if h : i < k then v ⟨i, h⟩ else 0

/-- How often `Y` occurs in the linear combination with coefficients `x`, `s` of the generators of `setup`. -/
def timesY {n m : ℕ} {υ : Type} (ρ : SetupCoins n m F υ) (x : ℕ → ℕ → F) (s : F) : F :=
  ∑ j ∈ range m, ∑ i ∈ range n, x j i * padded ρ.b (j * n + i) + s * ρ.h

/-- The discrete logarithm of `Y`, from a relation with coefficients `x`, `s` among the generators of `setup`. -/
def relationAnswer {n m : ℕ} {υ : Type} (ρ : SetupCoins n m F υ) (x : ℕ → ℕ → F) (s : F) : F :=
  -(∑ j ∈ range m, ∑ i ∈ range n, x j i * padded ρ.a (j * n + i)) / timesY ρ x s

end Triptych.Spec
