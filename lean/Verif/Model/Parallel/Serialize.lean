import Verif.Model.Serialize
import Verif.Model.Parallel.Verify

/-! # Parallel serialization (src/parallel/proof.rs:886-1080); the parsing helpers are identical to the non-parallel
ones -/
set_option autoImplicit false

namespace Triptych.Parallel
namespace Proof
variable {F P : Type}

/-- src/parallel/proof.rs:888-933, `to_bytes`. -/
def toBytes {ε : Type} (E : Env F P) (p : Proof F P) : Outcome ε Bytes := do
  let row0 ← idx p.f 0
  let nMinus1 := row0.length % 2 ^ 32
  let m := p.f.length % 2 ^ 32
  .ok (leBytes 4 nMinus1 ++ leBytes 4 m
    ++ E.compress p.A ++ E.compress p.B ++ E.compress p.C ++ E.compress p.D
    ++ E.scalarBytes p.zA ++ E.scalarBytes p.zC ++ E.scalarBytes p.z ++ E.scalarBytes p.z1
    ++ p.X.flatMap E.compress ++ p.X1.flatMap E.compress ++ p.Y.flatMap E.compress
    ++ p.f.flatMap fun row => row.flatMap E.scalarBytes)

/-- src/parallel/proof.rs:939-1062, `from_bytes`; every error is `FailedDeserialization`, here `none`. -/
def fromBytesOption (E : Env F P) (bytes : Bytes) : Option (Proof F P) := do
  let (nMinus1, rest) ← parseU32 bytes
  let n ← checkedAdd nMinus1 1
  if n < 2 then none
  else
    let (m, rest) ← parseU32 rest
    if m < 2 then none
    else
      let chunks := chunks32 rest
      let (A, chunks) ← parsePoint E chunks
      let (B, chunks) ← parsePoint E chunks
      let (C, chunks) ← parsePoint E chunks
      let (D, chunks) ← parsePoint E chunks
      let (zA, chunks) ← parseScalar E chunks
      let (zC, chunks) ← parseScalar E chunks
      let (z, chunks) ← parseScalar E chunks
      let (z1, chunks) ← parseScalar E chunks
      let (X, chunks) ← parseMany (parsePoint E) m chunks
      let (X1, chunks) ← parseMany (parsePoint E) m chunks
      let (Y, chunks) ← parseMany (parsePoint E) m chunks
      let (f, chunks) ← parseMany (parseMany (parseScalar E) nMinus1) m chunks
      if remainder32 rest ≠ [] then none
      else if chunks ≠ [] then none
      else if X.length ≠ m ∨ X1.length ≠ m ∨ Y.length ≠ m then none
      else if f.length ≠ m then none
      else if f.any (fun row => row.length ≠ nMinus1) then none
      else some { A := A, B := B, C := C, D := D, X := X, X1 := X1, Y := Y, f := f, zA := zA, zC := zC, z := z,
                  z1 := z1 }

/-- src/parallel/proof.rs:939-1062, `from_bytes`. -/
def fromBytes (E : Env F P) (bytes : Bytes) : Outcome ProofError (Proof F P) :=
  Outcome.ofOption (fromBytesOption E bytes) .FailedDeserialization

/-- src/parallel/proof.rs:1066-1070, `BorshSerialize::serialize` into a byte vector. -/
def borshSerialize (E : Env F P) (p : Proof F P) : Outcome Unit Bytes := do
  let b ← toBytes E p
  Outcome.ofOption (borshBytes b) ()

/-- src/parallel/proof.rs:1073-1080, `BorshDeserialize::deserialize_reader`. -/
def borshDeserialize (E : Env F P) (input : Bytes) : Outcome Unit (Proof F P × Bytes) :=
  match borshReadBytes input with
  | none => .err ()
  | some (bytes, rest) =>
    match fromBytes E bytes with
    | .ok p => .ok (p, rest)
    | .err _ => .err ()
    | .panic => .panic
    | .diverge => .diverge

end Proof
end Triptych.Parallel
