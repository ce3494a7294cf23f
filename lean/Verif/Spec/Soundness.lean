import Verif.Spec.Prover

/-! # Specification: the knowledge extractor -/
set_option autoImplicit false

namespace Triptych.Spec
open Finset

variable {F P : Type} [Field F] [AddCommGroup P] [Module F P]

/-- The key computed from the responses `z` of `m + 1` runs with challenges `ξ`: the leading coefficient of the polynomial of
degree `m` interpolating `z` at `ξ`. -/
def extractKey (m : ℕ) (ξ z : ℕ → F) : F :=
  ∑ e ∈ range (m + 1), z e / ∏ e' ∈ (range (m + 1)).erase e, (ξ e - ξ e')

/-- The ring position computed from the response matrices of runs 0 and 1: the one whose digits select entries growing with
the challenge. -/
def extractIndex [DecidableEq F] (n m : ℕ) (ξ : ℕ → F) (f : ℕ → ℕ → ℕ → F) : ℕ :=
  ((List.range (n ^ m)).find? fun l => decide (∀ j < m,
    f 1 j (grayDigit n l j) - f 0 j (grayDigit n l j) = ξ 1 - ξ 0)).getD 0

/-- How far the values `u` at runs 0, 1 and `e` are from being an affine function of the challenge. -/
def defect (ξ u : ℕ → F) (e : ℕ) : F := (ξ 1 - ξ 0) * u e - (ξ 1 - ξ e) * u 0 - (ξ e - ξ 0) * u 1

/-- A non-trivial linear relation among the commitment generators, with coefficients `x` and `s`. -/
def Relation (n m : ℕ) (CG : List P) (H : P) (x : ℕ → ℕ → F) (s : F) : Prop :=
  commit n m CG H x s = 0 ∧ ((∃ j < m, ∃ i < n, x j i ≠ 0) ∨ s ≠ 0)

/-- No sum of at most `n` ones is one, except one one. True if the characteristic is larger than `n`, as for the scalar field
of Ristretto. -/
def SmallSums (F : Type) [Field F] (n : ℕ) : Prop := ∀ k ≤ n, (k : F) = 1 → k = 1

end Triptych.Spec
