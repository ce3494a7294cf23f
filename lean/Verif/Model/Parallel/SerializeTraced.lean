import Verif.Model.SerializeTraced
import Verif.Model.Parallel.Serialize

/-! # Parallel serialization with its cost (src/parallel/proof.rs:888-1062) -/
set_option autoImplicit false

namespace Triptych.Parallel.Proof
open Traced
variable {F P : Type}

/-- src/parallel/proof.rs:939-1062, `from_bytes`, with its cost. -/
def fromBytesT (E : Env F P) (bytes : Bytes) : Traced F ProofError (Proof F P) := do
  let (nMinus1, rest) ← parseU32T bytes
  let n ← lift (Outcome.ofOption (checkedAdd nMinus1 1) .FailedDeserialization)
  if n < 2 then lift (.err .FailedDeserialization)
  else
    let (m, rest) ← parseU32T rest
    if m < 2 then lift (.err .FailedDeserialization)
    else
      let chunks := chunks32 rest
      let (A, chunks) ← parsePointT E chunks
      let (B, chunks) ← parsePointT E chunks
      let (C, chunks) ← parsePointT E chunks
      let (D, chunks) ← parsePointT E chunks
      let (zA, chunks) ← parseScalarT E chunks
      let (zC, chunks) ← parseScalarT E chunks
      let (z, chunks) ← parseScalarT E chunks
      let (z1, chunks) ← parseScalarT E chunks
      let (X, chunks) ← parseManyT (parsePointT E) m chunks
      let (X1, chunks) ← parseManyT (parsePointT E) m chunks
      let (Y, chunks) ← parseManyT (parsePointT E) m chunks
      let (f, chunks) ← parseManyT (parseManyT (parseScalarT E) nMinus1) m chunks
      if remainder32 rest ≠ [] then lift (.err .FailedDeserialization)
      else
        leak (.call "ChunksExact::next" [])
        if chunks ≠ [] then lift (.err .FailedDeserialization)
        else if X.length ≠ m ∨ X1.length ≠ m ∨ Y.length ≠ m then lift (.err .FailedDeserialization)
        else if f.length ≠ m then lift (.err .FailedDeserialization)
        else
          checkColumnsT nMinus1 f
          pure { A := A, B := B, C := C, D := D, X := X, X1 := X1, Y := Y, f := f, zA := zA, zC := zC, z := z, z1 := z1 }

/-- src/parallel/proof.rs:888-933, `to_bytes`, with the computation of the capacity (889-904). -/
def toBytesT {ε : Type} (E : Env F P) (cfg : Config) (p : Proof F P) : Traced F ε Bytes := do
  let row0 ← lift (idx p.f 0)
  let size ← lift (uncheckedUsize cfg
    (8 + SERIALIZED_BYTES * (4 + p.X.length + p.X1.length + p.Y.length + 4 + p.f.length * row0.length)))
  withCapacityT cfg size
  let bytes ← lift (toBytes E p)
  leak (.call "write" [bytes.length])
  pure bytes

end Triptych.Parallel.Proof
