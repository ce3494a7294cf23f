import Verif.Spec.Generator
import Verif.Spec.Parallel.Prover
import Verif.Spec.Parallel.ZeroKnowledge

/-! # Specification: the parallel prover's randomness from a table -/
set_option autoImplicit false

namespace Triptych.Parallel.Spec
open Triptych.Spec (Block Block.bytes withTable)

/-- The number of scalars the parallel prover draws. -/
def drawCount (n m : ℕ) : ℕ := m * n + 2 * m + 4

theorem draw_mask {n m : ℕ} (j : Fin m) (i : Fin n) : 1 + (j.val * n + i.val) < drawCount n m := by
  have h := Triptych.Spec.draw_mask j i
  rw [Triptych.Spec.drawCount] at h
  rw [drawCount]
  omega

/-- The parallel prover's randomness in the order in which the scalars are drawn. -/
def coinsOf {F : Type} {n m : ℕ} (v : Fin (drawCount n m) → F) : Coins F n m where
  rA := v ⟨0, by rw [drawCount]; omega⟩
  a j i := v ⟨1 + (j.val * n + i.val), draw_mask j i⟩
  rB := v ⟨1 + m * n, by rw [drawCount]; omega⟩
  rC := v ⟨2 + m * n, by rw [drawCount]; omega⟩
  rD := v ⟨3 + m * n, by rw [drawCount]; omega⟩
  rho j := v ⟨4 + m * n + j.val, by rw [drawCount]; have := j.2; omega⟩
  rho1 j := v ⟨4 + m * n + m + j.val, by rw [drawCount]; have := j.2; omega⟩

/-- The parallel prover's randomness from a table: each entry of 64 bytes is reduced to a scalar. -/
def tableCoins {F P : Type} (E : Env F P) {n m : ℕ} (τ : Fin (drawCount n m) → Block) : Coins F n m :=
  coinsOf fun i => E.scalarOfWide (τ i).bytes

end Triptych.Parallel.Spec
