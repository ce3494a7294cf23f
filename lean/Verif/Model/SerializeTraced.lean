import Verif.Model.Serialize
import Verif.Model.Leak

/-! # Serialization with its cost (src/proof.rs:812-977)

The same computations as in `Verif.Model.Serialize`, recording for the decoder every read of the input, every decoding of a
point or scalar, and every iteration of a loop (which stores at most one element), and for the encoder the reservation of
memory and the number of bytes written. -/
set_option autoImplicit false

namespace Triptych
open Traced

section Shared
variable {F P ε : Type}

/-- src/proof.rs:862-872, `parse_u32`. -/
def parseU32T (bytes : Bytes) : Traced F ProofError (Nat × Bytes) :=
  step (.call "read u32" []) (Outcome.ofOption (parseU32 bytes) .FailedDeserialization)

/-- src/proof.rs:875-884, `parse_scalar`. -/
def parseScalarT (E : Env F P) (chunks : List Bytes) : Traced F ProofError (F × List Bytes) := do
  leak (.call "ChunksExact::next" [])
  match chunks with
  | [] => lift (.err .FailedDeserialization)
  | c :: cs =>
    if c.length ≠ SERIALIZED_BYTES then lift (.err .FailedDeserialization)
    else do
      let s ← step (.call "decode" []) (Outcome.ofOption (E.scalarOfCanonical c) .FailedDeserialization)
      pure (s, cs)

/-- src/proof.rs:887-900, `parse_point`. -/
def parsePointT (E : Env F P) (chunks : List Bytes) : Traced F ProofError (P × List Bytes) := do
  leak (.call "ChunksExact::next" [])
  match chunks with
  | [] => lift (.err .FailedDeserialization)
  | c :: cs =>
    if c.length ≠ SERIALIZED_BYTES then lift (.err .FailedDeserialization)
    else do
      let p ← step (.call "decode" []) (Outcome.ofOption (E.decompress c) .FailedDeserialization)
      pure (p, cs)

/-- `(0..k).map(|_| parse(&mut chunks)).collect::<Result<Vec<_>, _>>()`: collecting results reserves no memory in advance (the
lower size hint of the adapter is zero) and stops at the first error. -/
def parseManyT {α : Type} (parse : List Bytes → Traced F ProofError (α × List Bytes)) :
    Nat → List Bytes → Traced F ProofError (List α × List Bytes)
  | 0, cs => pure ([], cs)
  | k + 1, cs => do
    leak (.call "iteration" [])
    let (x, cs) ← parse cs
    let (xs, cs) ← parseManyT parse k cs
    pure (x :: xs, cs)

/-- src/proof.rs:959-963: the loop over the rows of `f`. -/
def checkColumnsT {α : Type} (cols : Nat) : List (List α) → Traced F ProofError Unit
  | [] => pure ()
  | row :: rows => do
    leak (.call "iteration" [])
    if row.length ≠ cols then lift (.err .FailedDeserialization)
    else checkColumnsT cols rows

/-- Unchecked `usize` arithmetic with result `x`: panics on overflow if overflow checks are on, wraps otherwise. -/
def uncheckedUsize (cfg : Config) (x : Nat) : Outcome ε Nat :=
  if x ≤ cfg.usizeMax then .ok x
  else if cfg.overflowChecks then .panic
  else .ok (x % (cfg.usizeMax + 1))

/-- `Vec::<u8>::with_capacity(size)`: panics beyond `isize::MAX` bytes. That the allocator may refuse a smaller size (and abort
the process) is not modelled: the requested size is recorded. -/
def withCapacityT (cfg : Config) (size : Nat) : Traced F ε Unit :=
  step (.call "Vec::with_capacity" [size]) (if size ≤ cfg.usizeMax / 2 then .ok () else .panic)

end Shared

namespace Proof
variable {F P : Type}

/-- src/proof.rs:860-977, `from_bytes`, with its cost. -/
def fromBytesT (E : Env F P) (bytes : Bytes) : Traced F ProofError (Proof F P) := do
  let (nMinus1, rest) ← parseU32T bytes
  let n ← lift (Outcome.ofOption (checkedAdd nMinus1 1) .FailedDeserialization)
  if n < 2 then lift (.err .FailedDeserialization)
  else
    let (m, rest) ← parseU32T rest
    if m < 2 then lift (.err .FailedDeserialization)
    else
      let chunks := chunks32 rest
      let (A, chunks) ← parsePointT E chunks
      let (B, chunks) ← parsePointT E chunks
      let (C, chunks) ← parsePointT E chunks
      let (D, chunks) ← parsePointT E chunks
      let (zA, chunks) ← parseScalarT E chunks
      let (zC, chunks) ← parseScalarT E chunks
      let (z, chunks) ← parseScalarT E chunks
      let (X, chunks) ← parseManyT (parsePointT E) m chunks
      let (Y, chunks) ← parseManyT (parsePointT E) m chunks
      let (f, chunks) ← parseManyT (parseManyT (parseScalarT E) nMinus1) m chunks
      if remainder32 rest ≠ [] then lift (.err .FailedDeserialization)
      else
        leak (.call "ChunksExact::next" [])
        if chunks ≠ [] then lift (.err .FailedDeserialization)
        else if X.length ≠ m ∨ Y.length ≠ m then lift (.err .FailedDeserialization)
        else if f.length ≠ m then lift (.err .FailedDeserialization)
        else
          checkColumnsT nMinus1 f
          pure { A := A, B := B, C := C, D := D, X := X, Y := Y, f := f, zA := zA, zC := zC, z := z }

/-- src/proof.rs:812-854, `to_bytes`, with the computation of the capacity (813-826): all summands are non-negative, so some
intermediate result overflows exactly when the total does. -/
def toBytesT {ε : Type} (E : Env F P) (cfg : Config) (p : Proof F P) : Traced F ε Bytes := do
  let row0 ← lift (idx p.f 0)
  let size ← lift (uncheckedUsize cfg
    (8 + SERIALIZED_BYTES * (4 + p.X.length + p.Y.length + 3 + p.f.length * row0.length)))
  withCapacityT cfg size
  let bytes ← lift (toBytes E p)
  leak (.call "write" [bytes.length])
  pure bytes

end Proof
end Triptych
