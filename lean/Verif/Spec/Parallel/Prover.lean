import Verif.Spec.Prover
import Verif.Spec.Parallel.Equations
import Verif.Spec.Parallel.Transcripts

/-! # Specification: the honest parallel prover's messages -/
set_option autoImplicit false

namespace Triptych.Parallel.Spec
open Finset
open Triptych.Spec (grayDigit commit fullF ringCoeff maskA selector ringPoly versionBytes queryPoint drawn)

variable {F P : Type} [Field F] [AddCommGroup P] [Module F P]

/-- The honest prover's proof for index `l`, keys `r` and `r1`, drawn randomness `nn` and challenge `ξ`. -/
noncomputable def honestProof (params : Params P) (M M1 : List P) (offset J : P) (l : ℕ) (r r1 : F) (nn : Nonces F) (ξ : F) :
    Proof F P :=
  let n := params.n
  let m := params.m
  let a := maskA n nn.a
  let σ := selector n l
  { A := commit n m params.CommitmentG params.CommitmentH a nn.rA
    B := commit n m params.CommitmentG params.CommitmentH σ nn.rB
    C := commit n m params.CommitmentG params.CommitmentH (fun j i => a j i * (1 - 2 * σ j i)) nn.rC
    D := commit n m params.CommitmentG params.CommitmentH (fun j i => -(a j i * a j i)) nn.rD
    X := (List.range m).map fun j =>
      ∑ k ∈ range (n ^ m), (ringPoly n m a σ k).coeff j • M.getD k 0 + nn.rho.getD j 0 • params.G
    X1 := (List.range m).map fun j =>
      ∑ k ∈ range (n ^ m), (ringPoly n m a σ k).coeff j • (M1.getD k 0 - offset) + nn.rho1.getD j 0 • params.G1
    Y := (List.range m).map fun j => nn.rho.getD j 0 • J
    f := (List.range m).map fun j => (List.range (n - 1)).map fun i => σ j (i + 1) * ξ + a j (i + 1)
    zA := nn.rA + ξ * nn.rB
    zC := ξ * nn.rC + nn.rD
    z := r * ξ ^ m - ∑ j ∈ range m, nn.rho.getD j 0 * ξ ^ j
    z1 := r1 * ξ ^ m - ∑ j ∈ range m, nn.rho1.getD j 0 * ξ ^ j }

/-- The drawn randomness has the right dimensions. -/
structure NonceShape (n m : ℕ) (nn : Nonces F) : Prop where
  a : nn.a.length = m
  row : ∀ row ∈ nn.a, row.length = n
  rho : nn.rho.length = m
  rho1 : nn.rho1.length = m

/-- The key material of the generator from which the prover draws its randomness: the caller's transcript with the statement
hash, the witness, and 32 external bytes. -/
def proverKey (E : Env F P) (t : Transcript) (stHash : Bytes) (l : ℕ) (r r1 : F) (ext : Bytes) : TRng :=
  ⟨t ++ [.append "dom-sep" (asciiBytes "Parallel Triptych proof"), .append "version" versionBytes,
      .append "statement" stHash],
    [("l", leBytes 4 l), ("r", E.scalarBytes r), ("r1", E.scalarBytes r1)], ext, []⟩

/-- The prover's randomness: `m n + 2 m + 4` scalars in order. -/
def proverNonces (E : Env F P) (n m : ℕ) (key : TRng) : Nonces F where
  rA := drawn E key 0
  a := (List.range m).map fun j => (List.range n).map fun i => drawn E key (1 + (j * n + i))
  rB := drawn E key (1 + m * n)
  rC := drawn E key (2 + m * n)
  rD := drawn E key (3 + m * n)
  rho := (List.range m).map fun j => drawn E key (4 + m * n + j)
  rho1 := (List.range m).map fun j => drawn E key (4 + m * n + m + j)

end Triptych.Parallel.Spec
