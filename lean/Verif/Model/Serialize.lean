import Verif.Model.Verify

/-! # Serialization (src/proof.rs:812-995) -/
set_option autoImplicit false

namespace Triptych

/-- src/proof.rs:34, `SERIALIZED_BYTES`. -/
def SERIALIZED_BYTES : Nat := 32

section Shared
variable {F P : Type}

/-- src/proof.rs:862-872, `parse_u32`: the next four bytes, little endian; returns the remaining bytes. -/
def parseU32 (bytes : Bytes) : Option (Nat × Bytes) :=
  let b := bytes.take 4
  if b.length ≠ 4 then none else some (leNat b, bytes.drop 4)

/-- src/proof.rs:875-884, `parse_scalar`: the next chunk; `try_into::<[u8; 32]>` fails on a wrong length. -/
def parseScalar (E : Env F P) (chunks : List Bytes) : Option (F × List Bytes) :=
  match chunks with
  | [] => none
  | c :: cs =>
    if c.length ≠ SERIALIZED_BYTES then none
    else do
      let s ← E.scalarOfCanonical c
      some (s, cs)

/-- src/proof.rs:887-900, `parse_point`. -/
def parsePoint (E : Env F P) (chunks : List Bytes) : Option (P × List Bytes) :=
  match chunks with
  | [] => none
  | c :: cs =>
    if c.length ≠ SERIALIZED_BYTES then none
    else do
      let p ← E.decompress c
      some (p, cs)

/-- `(0..k).map(|_| parse(&mut chunks)).collect::<Result<Vec<_>, _>>()`: stops at the first error. -/
def parseMany {α : Type} (parse : List Bytes → Option (α × List Bytes)) :
    Nat → List Bytes → Option (List α × List Bytes)
  | 0, cs => some ([], cs)
  | k + 1, cs => do
    let (x, cs) ← parse cs
    let (xs, cs) ← parseMany parse k cs
    some (x :: xs, cs)

/-- `bytes.chunks_exact(32)`: the full chunks. -/
def chunks32 (bytes : Bytes) : List Bytes :=
  (List.range (bytes.length / 32)).map fun i => (bytes.drop (i * 32)).take 32

/-- `ChunksExact::remainder()`: the trailing bytes that do not form a full chunk. -/
def remainder32 (bytes : Bytes) : Bytes := bytes.drop (bytes.length / 32 * 32)

/-- Borsh encoding of a `Vec<u8>`: `u32` little-endian length, then the bytes; `none` is borsh's error for lengths
beyond `u32`. -/
def borshBytes (b : Bytes) : Option Bytes :=
  if b.length ≤ u32Max then some (leBytes 4 b.length ++ b) else none

/-- Borsh decoding of a `Vec<u8>` from a reader: the bytes and the unread rest; `none` if the reader ends early. -/
def borshReadBytes (input : Bytes) : Option (Bytes × Bytes) := do
  let (len, rest) ← parseU32 input
  if len ≤ rest.length then some (rest.take len, rest.drop len) else none

end Shared

namespace Proof
variable {F P : Type}

/-- src/proof.rs:812-854, `to_bytes`. `self.f[0]` panics if `f` is empty; the dimensions are cast to `u32`. The capacity
computation (813-826) is not modelled beyond its indexing. -/
def toBytes {ε : Type} (E : Env F P) (p : Proof F P) : Outcome ε Bytes := do
  let row0 ← idx p.f 0
  let nMinus1 := row0.length % 2 ^ 32
  let m := p.f.length % 2 ^ 32
  .ok (leBytes 4 nMinus1 ++ leBytes 4 m
    ++ E.compress p.A ++ E.compress p.B ++ E.compress p.C ++ E.compress p.D
    ++ E.scalarBytes p.zA ++ E.scalarBytes p.zC ++ E.scalarBytes p.z
    ++ p.X.flatMap E.compress ++ p.Y.flatMap E.compress
    ++ p.f.flatMap fun row => row.flatMap E.scalarBytes)

/-- src/proof.rs:860-977, `from_bytes`; every error is `FailedDeserialization`, here `none`. -/
def fromBytesOption (E : Env F P) (bytes : Bytes) : Option (Proof F P) := do
  let (nMinus1, rest) ← parseU32 bytes
  let n ← checkedAdd nMinus1 1
  if n < 2 then none
  else
    let (m, rest) ← parseU32 rest
    if m < 2 then none
    else
      let chunks := chunks32 rest
      let (A, chunks) ← parsePoint E chunks
      let (B, chunks) ← parsePoint E chunks
      let (C, chunks) ← parsePoint E chunks
      let (D, chunks) ← parsePoint E chunks
      let (zA, chunks) ← parseScalar E chunks
      let (zC, chunks) ← parseScalar E chunks
      let (z, chunks) ← parseScalar E chunks
      let (X, chunks) ← parseMany (parsePoint E) m chunks
      let (Y, chunks) ← parseMany (parsePoint E) m chunks
      let (f, chunks) ← parseMany (parseMany (parseScalar E) nMinus1) m chunks
      if remainder32 rest ≠ [] then none
      else if chunks ≠ [] then none
      else if X.length ≠ m ∨ Y.length ≠ m then none
      else if f.length ≠ m then none
      else if f.any (fun row => row.length ≠ nMinus1) then none
      else some { A := A, B := B, C := C, D := D, X := X, Y := Y, f := f, zA := zA, zC := zC, z := z }

/-- src/proof.rs:860-977, `from_bytes`. -/
def fromBytes (E : Env F P) (bytes : Bytes) : Outcome ProofError (Proof F P) :=
  Outcome.ofOption (fromBytesOption E bytes) .FailedDeserialization

/-- src/proof.rs:980-985, `BorshSerialize::serialize` into a byte vector (`none`: borsh error). -/
def borshSerialize (E : Env F P) (p : Proof F P) : Outcome Unit Bytes := do
  let b ← toBytes E p
  Outcome.ofOption (borshBytes b) ()

/-- src/proof.rs:987-995, `BorshDeserialize::deserialize_reader`: the proof and the unread rest of the reader. -/
def borshDeserialize (E : Env F P) (input : Bytes) : Outcome Unit (Proof F P × Bytes) :=
  match borshReadBytes input with
  | none => .err ()
  | some (bytes, rest) =>
    match fromBytes E bytes with
    | .ok p => .ok (p, rest)
    | .err _ => .err ()
    | .panic => .panic
    | .diverge => .diverge

end Proof
end Triptych
