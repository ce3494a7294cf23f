import Verif.Spec.Equations
import Verif.Spec.Transcripts
import Mathlib.Algebra.Polynomial.Coeff
import Mathlib.Algebra.Polynomial.BigOperators

/-! # Specification: the honest prover's messages, as in the paper -/
set_option autoImplicit false

namespace Triptych.Spec
open Finset

variable {F P : Type} [Field F] [AddCommGroup P] [Module F P]

/-- The masking matrix: the drawn entries, except that column 0 makes every row sum to zero. -/
def maskA (n : ℕ) (a : List (List F)) (j i : ℕ) : F :=
  match i with
  | 0 => -∑ i ∈ range (n - 1), (a.getD j []).getD (i + 1) 0
  | i + 1 => (a.getD j []).getD (i + 1) 0

/-- The selector matrix of index `l`: one in the column of its Gray digit in each row, zero elsewhere. -/
def selector (n l j i : ℕ) : F := if grayDigit n l j = i then 1 else 0

/-- The polynomial `Π_j (a_{j,k_j} + σ_{j,k_j} x)` of ring position `k`. -/
noncomputable def ringPoly (n m : ℕ) (a σ : ℕ → ℕ → F) (k : ℕ) : Polynomial F :=
  ∏ j ∈ range m, (Polynomial.C (a j (grayDigit n k j)) + Polynomial.C (σ j (grayDigit n k j)) * Polynomial.X)

/-- The honest prover's proof for index `l`, key `r`, drawn randomness `nn` and challenge `ξ`. -/
noncomputable def honestProof (params : Params P) (M : List P) (J : P) (l : ℕ) (r : F) (nn : Nonces F) (ξ : F) :
    Proof F P :=
  let n := params.n
  let m := params.m
  let a := maskA n nn.a
  let σ := selector n l
  { A := commit n m params.CommitmentG params.CommitmentH a nn.rA
    B := commit n m params.CommitmentG params.CommitmentH σ nn.rB
    C := commit n m params.CommitmentG params.CommitmentH (fun j i => a j i * (1 - 2 * σ j i)) nn.rC
    D := commit n m params.CommitmentG params.CommitmentH (fun j i => -(a j i * a j i)) nn.rD
    X := (List.range m).map fun j =>
      ∑ k ∈ range (n ^ m), (ringPoly n m a σ k).coeff j • M.getD k 0 + nn.rho.getD j 0 • params.G
    Y := (List.range m).map fun j => nn.rho.getD j 0 • J
    f := (List.range m).map fun j => (List.range (n - 1)).map fun i => σ j (i + 1) * ξ + a j (i + 1)
    zA := nn.rA + ξ * nn.rB
    zC := ξ * nn.rC + nn.rD
    z := r * ξ ^ m - ∑ j ∈ range m, nn.rho.getD j 0 * ξ ^ j }

/-- The drawn randomness has the right dimensions. -/
structure NonceShape (n m : ℕ) (nn : Nonces F) : Prop where
  a : nn.a.length = m
  row : ∀ row ∈ nn.a, row.length = n
  rho : nn.rho.length = m

/-- The key material of the generator from which the prover draws its randomness: the caller's transcript with the statement
hash, the witness, and 32 external bytes. -/
def proverKey (E : Env F P) (t : Transcript) (stHash : Bytes) (l : ℕ) (r : F) (ext : Bytes) : TRng :=
  ⟨t ++ [.append "dom-sep" (asciiBytes "Triptych proof"), .append "version" versionBytes, .append "statement" stHash],
    [("l", leBytes 4 l), ("r", E.scalarBytes r)], ext, []⟩

/-- The `i`-th query point of a generator that is only asked for scalars. -/
def queryPoint (key : TRng) (i : ℕ) : TRng := { key with reqs := List.replicate i 64 }

/-- The `i`-th scalar drawn from a fresh generator. -/
def drawn (E : Env F P) (key : TRng) (i : ℕ) : F := E.scalarOfWide (E.prf (queryPoint key i) 64)

/-- The prover's randomness: `m n + m + 4` scalars in order. -/
def proverNonces (E : Env F P) (n m : ℕ) (key : TRng) : Nonces F where
  rA := drawn E key 0
  a := (List.range m).map fun j => (List.range n).map fun i => drawn E key (1 + (j * n + i))
  rB := drawn E key (1 + m * n)
  rC := drawn E key (2 + m * n)
  rD := drawn E key (3 + m * n)
  rho := (List.range m).map fun j => drawn E key (4 + m * n + j)

end Triptych.Spec
