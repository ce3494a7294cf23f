import Verif.Spec.Prover
import Mathlib.Data.Fintype.Pi
import Mathlib.Data.Fintype.Prod
import Mathlib.Data.List.OfFn

/-! # Specification: the simulator and the Diffie-Hellman hybrid for zero knowledge

The challenge `ξ` is fixed beforehand, as for a programmed random oracle. -/
set_option autoImplicit false

namespace Triptych.Spec
open Finset

variable {F P : Type} [Field F] [AddCommGroup P] [Module F P]

/-- The honest prover's randomness: an `m` by `n` matrix, four masks and `m` further scalars. -/
structure Coins (F : Type) (n m : ℕ) where
  a : Fin m → Fin n → F
  rA : F
  rB : F
  rC : F
  rD : F
  rho : Fin m → F

/-- The same randomness as the lists the prover works with. -/
def Coins.nonces {n m : ℕ} (c : Coins F n m) : Nonces F where
  rA := c.rA
  a := List.ofFn fun j => List.ofFn (c.a j)
  rB := c.rB
  rC := c.rC
  rD := c.rD
  rho := List.ofFn c.rho

/-- The simulator's randomness. -/
structure SimCoins (F : Type) (n m : ℕ) where
  f : Fin m → Fin (n - 1) → F
  zA : F
  zC : F
  z : F
  b : F
  c : F
  y : Fin (m - 1) → F

/-- The simulator: it knows neither signer nor key. Responses are random, `B`, `C`, `X_1, …`, `Y_1, …` are random elements, and
`A`, `D`, `X_0`, `Y_0` are what the verification equations prescribe. -/
def simulate (params : Params P) (M : List P) (J : P) (ξ : F) (s : SimCoins F params.n params.m)
    (R : Fin (params.m - 1) → P) : Proof F P :=
  let f := List.ofFn fun j => List.ofFn (s.f j)
  let com := commit params.n params.m params.CommitmentG params.CommitmentH
  { A := com (fullF f ξ) s.zA - ξ • s.b • params.CommitmentH
    B := s.b • params.CommitmentH
    C := s.c • params.CommitmentH
    D := com (fun j i => fullF f ξ j i * (ξ - fullF f ξ j i)) s.zC - ξ • s.c • params.CommitmentH
    X := (∑ k ∈ range (params.n ^ params.m), ringCoeff params.n params.m (fullF f ξ) k • M.getD k 0
        - ∑ j, ξ ^ (j.val + 1) • R j - s.z • params.G) :: List.ofFn R
    Y := (ξ ^ params.m • params.U - ∑ j, ξ ^ (j.val + 1) • s.y j • J - s.z • J) :: List.ofFn fun j => s.y j • J
    f := f
    zA := s.zA
    zC := s.zC
    z := s.z }

/-- The randomness of the hybrid. -/
structure HybridCoins (F : Type) (n m : ℕ) where
  a : Fin m → Fin n → F
  rA : F
  rB : F
  rC : F
  rD : F
  z : F

/-- The hybrid: the prover's algorithm for index `l`, run without knowledge of the key, on given elements `Y_1, …` and `T_1, …`.
`X_j` is masked with `T_j` instead of `ρ_j G`; the response `z` is random, and `X_0` and `Y_0` are what the verification
equations prescribe. -/
noncomputable def hybrid (params : Params P) (M : List P) (J : P) (l : ℕ) (ξ : F) (c : HybridCoins F params.n params.m)
    (Y T : Fin (params.m - 1) → P) : Proof F P :=
  let h := honestProof params M J l 0 (Coins.nonces ⟨c.a, c.rA, c.rB, c.rC, c.rD, fun _ => 0⟩) ξ
  { h with
    X := (∑ k ∈ range (params.n ^ params.m), ringCoeff params.n params.m (fullF h.f ξ) k • M.getD k 0
        - ∑ j, ξ ^ (j.val + 1) • (h.X.getD (j.val + 1) 0 + T j) - c.z • params.G)
        :: List.ofFn fun j : Fin (params.m - 1) => h.X.getD (j.val + 1) 0 + T j
    Y := (ξ ^ params.m • params.U - ∑ j, ξ ^ (j.val + 1) • Y j - c.z • J) :: List.ofFn Y
    z := c.z }

/-- Randomness as tuples, to see that there are finitely many choices. -/
def Coins.tuple (F : Type) (n m : ℕ) : Coins F n m ≃ (Fin m → Fin n → F) × F × F × F × F × (Fin m → F) where
  toFun c := (c.a, c.rA, c.rB, c.rC, c.rD, c.rho)
  invFun x := ⟨x.1, x.2.1, x.2.2.1, x.2.2.2.1, x.2.2.2.2.1, x.2.2.2.2.2⟩
  left_inv _ := rfl
  right_inv _ := rfl

/-- As above. -/
def SimCoins.tuple (F : Type) (n m : ℕ) :
    SimCoins F n m ≃ (Fin m → Fin (n - 1) → F) × F × F × F × F × F × (Fin (m - 1) → F) where
  toFun c := (c.f, c.zA, c.zC, c.z, c.b, c.c, c.y)
  invFun x := ⟨x.1, x.2.1, x.2.2.1, x.2.2.2.1, x.2.2.2.2.1, x.2.2.2.2.2.1, x.2.2.2.2.2.2⟩
  left_inv _ := rfl
  right_inv _ := rfl

/-- As above. -/
def HybridCoins.tuple (F : Type) (n m : ℕ) : HybridCoins F n m ≃ (Fin m → Fin n → F) × F × F × F × F × F where
  toFun c := (c.a, c.rA, c.rB, c.rC, c.rD, c.z)
  invFun x := ⟨x.1, x.2.1, x.2.2.1, x.2.2.2.1, x.2.2.2.2.1, x.2.2.2.2.2⟩
  left_inv _ := rfl
  right_inv _ := rfl

instance {n m : ℕ} [Fintype F] [DecidableEq F] : Fintype (Coins F n m) := Fintype.ofEquiv _ (Coins.tuple F n m).symm
instance {n m : ℕ} [Fintype F] [DecidableEq F] : Fintype (SimCoins F n m) := Fintype.ofEquiv _ (SimCoins.tuple F n m).symm
instance {n m : ℕ} [Fintype F] [DecidableEq F] : Fintype (HybridCoins F n m) :=
  Fintype.ofEquiv _ (HybridCoins.tuple F n m).symm
instance {n m : ℕ} : Nonempty (Coins F n m) := ⟨⟨fun _ _ => 0, 0, 0, 0, 0, fun _ => 0⟩⟩
instance {n m : ℕ} : Nonempty (SimCoins F n m) := ⟨⟨fun _ _ => 0, 0, 0, 0, 0, 0, fun _ => 0⟩⟩
instance {n m : ℕ} : Nonempty (HybridCoins F n m) := ⟨⟨fun _ _ => 0, 0, 0, 0, 0, 0⟩⟩

/-- Everything in a proof except `X`. -/
def withoutX (p : Proof F P) : Proof F P := { p with X := [] }

end Triptych.Spec
