import Verif.Model.Verify
import Verif.Model.Parallel.Verify
import Verif.Spec.Gray
import Mathlib.Algebra.BigOperators.Group.Finset.Basic

/-! # Specification: the relation and the verification equations of Triptych

Written as in the paper, with sums and products over index ranges. Nothing here uses the functions of the model; only its
record types (statements and proofs). -/
set_option autoImplicit false

namespace Triptych.Spec
open Finset

variable {F P : Type} [Field F] [AddCommGroup P] [Module F P]

/-- `(l, r)` is a witness for a ring `M` with linking tag `J`: `M[l] = r G` and `r J = U`. -/
def Rel (G U : P) (M : List P) (J : P) (l : ℕ) (r : F) : Prop := M[l]? = some (r • G) ∧ r • J = U

/-- Pedersen commitment to the `m` by `n` matrix `x` with the given mask; generators are stored row by row. -/
def commit (n m : ℕ) (CG : List P) (H : P) (x : ℕ → ℕ → F) (mask : F) : P :=
  ∑ j ∈ range m, ∑ i ∈ range n, x j i • CG.getD (j * n + i) 0 + mask • H

/-- The response matrix with its column 0, which is not sent: every row sums to the challenge. -/
def fullF (f : List (List F)) (ξ : F) (j i : ℕ) : F :=
  match i with
  | 0 => ξ - (f.getD j []).sum
  | i + 1 => (f.getD j []).getD i 0

/-- The product of responses selected by the Gray code of `k`. -/
def ringCoeff (n m : ℕ) (f : ℕ → ℕ → F) (k : ℕ) : F := ∏ j ∈ range m, f j (grayDigit n k j)

/-- First equation: `Com(f; z_A) - (A + ξ B)`. -/
def E1 (params : Params P) (p : Proof F P) (ξ : F) : P :=
  commit params.n params.m params.CommitmentG params.CommitmentH (fullF p.f ξ) p.zA - (p.A + ξ • p.B)

/-- Second equation: `Com(f (ξ - f); z_C) - (ξ C + D)`. -/
def E2 (params : Params P) (p : Proof F P) (ξ : F) : P :=
  commit params.n params.m params.CommitmentG params.CommitmentH
    (fun j i => fullF p.f ξ j i * (ξ - fullF p.f ξ j i)) p.zC - (ξ • p.C + p.D)

/-- Third equation: `Σ_k (Π_j f_{j,k_j}) M_k - Σ_j ξ^j X_j - z G`. -/
def E3 (params : Params P) (M : List P) (p : Proof F P) (ξ : F) : P :=
  ∑ k ∈ range (params.n ^ params.m), ringCoeff params.n params.m (fullF p.f ξ) k • M.getD k 0
    - ∑ j ∈ range params.m, ξ ^ j • p.X.getD j 0 - p.z • params.G

/-- Fourth equation: `(Σ_k Π_j f_{j,k_j}) U - Σ_j ξ^j Y_j - z J`. -/
def E4 (params : Params P) (J : P) (p : Proof F P) (ξ : F) : P :=
  (∑ k ∈ range (params.n ^ params.m), ringCoeff params.n params.m (fullF p.f ξ) k) • params.U
    - ∑ j ∈ range params.m, ξ ^ j • p.Y.getD j 0 - p.z • J

/-- All entries of the full response matrix are non-zero. -/
def NonzeroF (n m : ℕ) (f : List (List F)) (ξ : F) : Prop := ∀ j < m, ∀ i < n, fullF f ξ j i ≠ 0

/-- The proof has the dimensions prescribed by the parameters. -/
structure Shape (params : Params P) (p : Proof F P) : Prop where
  X : p.X.length = params.m
  Y : p.Y.length = params.m
  f : p.f.length = params.m
  row : ∀ row ∈ p.f, row.length = params.n - 1

/-- All four verification equations hold for the challenge `ξ`. -/
structure Valid (params : Params P) (M : List P) (J : P) (p : Proof F P) (ξ : F) : Prop where
  e1 : E1 params p ξ = 0
  e2 : E2 params p ξ = 0
  e3 : E3 params M p ξ = 0
  e4 : E4 params J p ξ = 0

/-- The weighted sum of the four equations. -/
def weighted (params : Params P) (M : List P) (J : P) (p : Proof F P) (ξ : F) (w : Proof.Weights F) : P :=
  w.w1 • E1 params p ξ + w.w2 • E2 params p ξ + w.w3 • E3 params M p ξ + w.w4 • E4 params J p ξ

/-- The sum over a batch of the weighted equations; parameters and ring are those of the first statement. -/
def batchSum (params : Params P) (M : List P) (sts : List (Statement P)) (ps : List (Proof F P)) (ξs : List F)
    (ws : List (Proof.Weights F)) : P :=
  ((sts.zip (ps.zip (ξs.zip ws))).map fun x => weighted params M x.1.J x.2.1 x.2.2.1 x.2.2.2).sum

/-- Everything a batch must satisfy before any proof is looked at in detail. `first` is the first statement. -/
structure BatchPre (first : Statement P) (sts : List (Statement P)) (ps : List (Proof F P)) (ts : List Transcript) :
    Prop where
  proofs : sts.length = ps.length
  transcripts : sts.length = ts.length
  inputSets : ∀ s ∈ sts, s.inputSet.hash = first.inputSet.hash
  params : ∀ s ∈ sts, s.params.hash = first.params.hash
  shapes : ∀ p ∈ ps, Shape first.params p

/-- The number of scalars of the final check of a batch of `k` proofs. -/
def batchSize (params : Params P) (k : ℕ) : ℕ :=
  1 + params.n * params.m + 1 + params.n ^ params.m + 1 + k * (4 + 1 + 2 * params.m)

/-- The size of a batch of `k` proofs is acceptable: it fits `u32`, and in builds with overflow checks so does the size of the
final check. -/
def SizeOK (cfg : Config) (params : Params P) (k : ℕ) : Prop :=
  k ≤ u32Max ∧ (cfg.overflowChecks = true → batchSize params k ≤ u32Max)

/-- No entry of any reconstructed response matrix of the batch is zero. -/
def BatchNonzeroF (params : Params P) (ps : List (Proof F P)) (ξs : List F) : Prop :=
  ∀ x ∈ ps.zip ξs, NonzeroF params.n params.m x.1.f x.2

end Triptych.Spec
