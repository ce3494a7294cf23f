import Verif.Spec.Oracle
import Verif.Spec.Prover
import Verif.Spec.ZeroKnowledge

/-! # Specification: the output of a transcript generator as a table

The outputs of one transcript generator (given by its key material) for the first `N` requests of 64 bytes are replaced by a
table. A random table is what a pseudorandom generator is meant to look like. -/
set_option autoImplicit false

namespace Triptych.Spec

/-- The environment `E` in which the generator `key` answers its first `N` requests of 64 bytes from the table `τ`. -/
def withTable {F P : Type} (E : Env F P) (key : TRng) {N : ℕ} (τ : Fin N → Block) : Env F P :=
  { E with prf := fun r len =>
      if h : r.reqs.length < N ∧ r = queryPoint key r.reqs.length ∧ len = 64 then (τ ⟨r.reqs.length, h.1⟩).bytes
      else E.prf r len }

/-- The number of scalars the prover draws. -/
def drawCount (n m : ℕ) : ℕ := m * n + m + 4

theorem draw_mask {n m : ℕ} (j : Fin m) (i : Fin n) : 1 + (j.val * n + i.val) < drawCount n m := by
  have h : j.val * n + i.val < m * n := by
    calc j.val * n + i.val < j.val * n + n := by have := i.2; omega
      _ = (j.val + 1) * n := by ring
      _ ≤ m * n := Nat.mul_le_mul_right _ j.2
  rw [drawCount]
  omega

/-- The prover's randomness in the order in which the scalars are drawn. -/
def coinsOf {F : Type} {n m : ℕ} (v : Fin (drawCount n m) → F) : Coins F n m where
  rA := v ⟨0, by rw [drawCount]; omega⟩
  a j i := v ⟨1 + (j.val * n + i.val), draw_mask j i⟩
  rB := v ⟨1 + m * n, by rw [drawCount]; omega⟩
  rC := v ⟨2 + m * n, by rw [drawCount]; omega⟩
  rD := v ⟨3 + m * n, by rw [drawCount]; omega⟩
  rho j := v ⟨4 + m * n + j.val, by rw [drawCount]; have := j.2; omega⟩

/-- The prover's randomness from a table: each entry of 64 bytes is reduced to a scalar. -/
def tableCoins {F P : Type} (E : Env F P) {n m : ℕ} (τ : Fin (drawCount n m) → Block) : Coins F n m :=
  coinsOf fun i => E.scalarOfWide (τ i).bytes

/-- The generator from which the verifier draws the weights of a batch. -/
def weightKey (label : String) (seeds : List ℕ) : TRng := ⟨weightTranscript label seeds, [], List.replicate 32 0, []⟩

end Triptych.Spec
