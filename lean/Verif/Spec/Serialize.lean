import Verif.Model.Serialize
import Verif.Model.Parallel.Serialize

/-! # Specification: the encoding of proofs -/
set_option autoImplicit false

namespace Triptych.Spec
variable {F P : Type}

/-- The dimensions of a proof that has an encoding: at least two rows of at least one response each, at most `u32::MAX` rows
and fewer than `u32::MAX` columns, and as many entries of `X` and `Y` as rows. -/
structure Encodable (p : Proof F P) (cols : ℕ) : Prop where
  rows : 2 ≤ p.f.length ∧ p.f.length ≤ u32Max
  width : 1 ≤ cols ∧ cols < u32Max
  row : ∀ row ∈ p.f, row.length = cols
  X : p.X.length = p.f.length
  Y : p.Y.length = p.f.length

/-- The encoded points and scalars of a proof, in order. -/
def blocks (E : Env F P) (p : Proof F P) : List Bytes :=
  [p.A, p.B, p.C, p.D].map E.compress ++ [p.zA, p.zC, p.z].map E.scalarBytes ++ p.X.map E.compress
    ++ p.Y.map E.compress ++ p.f.flatten.map E.scalarBytes

/-- The encoding: columns and rows as four little-endian bytes each, then all blocks. -/
def encoding (E : Env F P) (p : Proof F P) (cols : ℕ) : Bytes :=
  leBytes 4 cols ++ leBytes 4 p.f.length ++ (blocks E p).flatten

end Triptych.Spec

namespace Triptych.Parallel.Spec

variable {F P : Type}

/-- As `Triptych.Spec.Encodable`, with `X1`. -/
structure Encodable (p : Proof F P) (cols : ℕ) : Prop where
  rows : 2 ≤ p.f.length ∧ p.f.length ≤ u32Max
  width : 1 ≤ cols ∧ cols < u32Max
  row : ∀ row ∈ p.f, row.length = cols
  X : p.X.length = p.f.length
  X1 : p.X1.length = p.f.length
  Y : p.Y.length = p.f.length

/-- The encoded points and scalars of a proof, in order. -/
def blocks (E : Env F P) (p : Proof F P) : List Bytes :=
  [p.A, p.B, p.C, p.D].map E.compress ++ [p.zA, p.zC, p.z, p.z1].map E.scalarBytes ++ p.X.map E.compress
    ++ p.X1.map E.compress ++ p.Y.map E.compress ++ p.f.flatten.map E.scalarBytes

/-- The encoding: columns and rows as four little-endian bytes each, then all blocks. -/
def encoding (E : Env F P) (p : Proof F P) (cols : ℕ) : Bytes :=
  leBytes 4 cols ++ leBytes 4 p.f.length ++ (blocks E p).flatten

end Triptych.Parallel.Spec
