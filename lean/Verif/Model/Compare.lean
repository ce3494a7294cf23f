import Verif.Model.Parallel.Prove

/-! # Comparison of public objects: the derived `PartialEq` (`==`) of both modules

`derive(PartialEq)` compares field by field; `Arc<Vec<_>>` and `Vec<_>` compare their elements, `RistrettoPoint` compares group
elements (not coordinates), `Scalar` compares field elements. -/
set_option autoImplicit false

namespace Triptych
variable {F P : Type} [DecidableEq F] [DecidableEq P]

/-- src/parameters.rs:25-34, `PartialEq` for `TriptychParameters`. -/
def Params.eq (a b : Params P) : Bool :=
  a.n == b.n && a.m == b.m && a.G == b.G && a.U == b.U && a.CommitmentG == b.CommitmentG && a.CommitmentH == b.CommitmentH
    && a.hash == b.hash

/-- src/statement.rs:16-20, `PartialEq` for `TriptychInputSet`. -/
def InputSet.eq (a b : InputSet P) : Bool := a.M == b.M && a.hash == b.hash

/-- src/statement.rs:100-106, `PartialEq` for `TriptychStatement`. -/
def Statement.eq (a b : Statement P) : Bool :=
  a.params.eq b.params && a.inputSet.eq b.inputSet && a.J == b.J && a.hash == b.hash

/-- src/proof.rs:39-51, `PartialEq` for `TriptychProof`. -/
def Proof.eq (a b : Proof F P) : Bool :=
  a.A == b.A && a.B == b.B && a.C == b.C && a.D == b.D && a.X == b.X && a.Y == b.Y && a.f == b.f && a.zA == b.zA && a.zC == b.zC
    && a.z == b.z

namespace Parallel

/-- src/parallel/parameters.rs:25-35, `PartialEq` for `TriptychParameters`. -/
def Params.eq (a b : Params P) : Bool :=
  a.n == b.n && a.m == b.m && a.G == b.G && a.G1 == b.G1 && a.U == b.U && a.CommitmentG == b.CommitmentG
    && a.CommitmentH == b.CommitmentH && a.hash == b.hash

/-- src/parallel/statement.rs:16-21, `PartialEq` for `TriptychInputSet`. -/
def InputSet.eq (a b : InputSet P) : Bool := a.M == b.M && a.M1 == b.M1 && a.hash == b.hash

/-- src/parallel/statement.rs:137-144, `PartialEq` for `TriptychStatement`. -/
def Statement.eq (a b : Statement P) : Bool :=
  a.params.eq b.params && a.inputSet.eq b.inputSet && a.offset == b.offset && a.J == b.J && a.hash == b.hash

/-- src/parallel/proof.rs:37-51, `PartialEq` for `TriptychProof`. -/
def Proof.eq (a b : Proof F P) : Bool :=
  a.A == b.A && a.B == b.B && a.C == b.C && a.D == b.D && a.X == b.X && a.X1 == b.X1 && a.Y == b.Y && a.f == b.f && a.zA == b.zA
    && a.zC == b.zC && a.z == b.z && a.z1 == b.z1

end Parallel
end Triptych
