import Verif.Model.Serialize

/-!
# The derived serde implementation (src/proof.rs:38, `derive(Deserialize, Serialize)`)

Values of serde's data model, as far as a proof can contain them, and the code that `serde_derive` 1.0 and
`curve25519-dalek` 4.1 generate for the proof and its components. Neither crate is in the sandbox; their behaviour is
transcribed from their documentation and is part of the trusted base. Simplification: a format is one that reports the
end of a sequence and rejects elements left over after the last one that is asked for, as `serde_json` does.
-/
set_option autoImplicit false

namespace Triptych
namespace Serde

/-- What identifies an entry of a struct rendered as a map: formats use names, indices or bytes. `other` is any
key that is not an identifier. -/
inductive Key where
  | name (s : String)
  | index (k : Nat)
  | bytes (b : Bytes)
  | other
deriving DecidableEq, Repr

/-- Values of serde's data model: integers, sequences and tuples, maps and structs, and anything else. -/
inductive Value where
  | num (n : Int)
  | seq (l : List Value)
  | map (l : List (Key × Value))
  | other

variable {F P : Type}

/-- `u8: Serialize` -/
def ofByte (b : UInt8) : Value := .num b.toNat

/-- `u8: Deserialize`: integers out of range are an error. -/
def toByte : Value → Option UInt8
  | .num n => if 0 ≤ n ∧ n < 256 then some (UInt8.ofNat n.toNat) else none
  | _ => none

/-- The elements of a sequence one by one, stopping at the first error (`SeqAccess::next_element`). -/
def elements {α : Type} (dec : Value → Option α) : List Value → Option (List α)
  | [] => some []
  | v :: vs => do
    let x ← dec v
    let xs ← elements dec vs
    some (x :: xs)

/-- `[u8; 32]`, as dalek reads it: `deserialize_tuple(32, _)`, a visitor that only implements `visit_seq` and asks for 32
elements. -/
def toBytes32 : Value → Option Bytes
  | .seq l => if l.length = 32 then elements toByte l else none
  | _ => none

/-- `curve25519_dalek::Scalar: Serialize` (the type of src/proof.rs:46-49): a tuple of 32 bytes. -/
def ofScalar (E : Env F P) (s : F) : Value := .seq ((E.scalarBytes s).map ofByte)

/-- `curve25519_dalek::Scalar: Deserialize`: non-canonical bytes are an error. -/
def toScalar (E : Env F P) (v : Value) : Option F := do
  let b ← toBytes32 v
  E.scalarOfCanonical b

/-- `curve25519_dalek::RistrettoPoint: Serialize` (the type of src/proof.rs:40-45): the compressed point, a tuple of 32 bytes. -/
def ofPoint (E : Env F P) (p : P) : Value := .seq ((E.compress p).map ofByte)

/-- `curve25519_dalek::RistrettoPoint: Deserialize`: a failing decompression is an error. -/
def toPoint (E : Env F P) (v : Value) : Option P := do
  let b ← toBytes32 v
  E.decompress b

/-- `Vec<T>: Serialize` -/
def ofVec {α : Type} (enc : α → Value) (l : List α) : Value := .seq (l.map enc)

/-- `Vec<T>: Deserialize` -/
def toVec {α : Type} (dec : Value → Option α) : Value → Option (List α)
  | .seq l => elements dec l
  | _ => none

/-- One arm of the generated `visit_map`: a second value for the same field is an error. -/
def setOnce {α : Type} (dec : Value → Option α) (slot : Option α) (v : Value) : Option (Option α) :=
  match slot with
  | some _ => none
  | none => do
    let x ← dec v
    some (some x)

/-- The generated identifier visitor for the given field names: `visit_u64`, `visit_str`, `visit_bytes` give the position of
the field or "ignore" (`some none`); other keys are an error (`none`). -/
def identify (names : List String) : Key → Option (Option Nat)
  | .name s => some (names.findIdx? (· = s))
  | .index k => some (if k < names.length then some k else none)
  | .bytes b => some (names.findIdx? (fun s => asciiBytes s = b))
  | .other => none

end Serde

namespace Proof
open Serde
variable {F P : Type}

/-- src/proof.rs:39-50: the field names, in order of declaration. -/
def fieldNames : List String := ["A", "B", "C", "D", "X", "Y", "f", "z_A", "z_C", "z"]

/-- src/proof.rs:38, derived `Serialize`: the values passed to `serialize_field`, in order of declaration. -/
def serdeFields (E : Env F P) (p : Proof F P) : List Value :=
  [ofPoint E p.A, ofPoint E p.B, ofPoint E p.C, ofPoint E p.D, ofVec (ofPoint E) p.X, ofVec (ofPoint E) p.Y,
    ofVec (ofVec (ofScalar E)) p.f, ofScalar E p.zA, ofScalar E p.zC, ofScalar E p.z]

/-- src/proof.rs:38, derived `Serialize`, in a format that renders structs as sequences. -/
def serializeSeq (E : Env F P) (p : Proof F P) : Value := .seq (serdeFields E p)

/-- src/proof.rs:38, derived `Serialize`, in a format that renders structs as maps. -/
def serializeMap (E : Env F P) (p : Proof F P) : Value :=
  .map (List.zip (fieldNames.map Key.name) (serdeFields E p))

/-- The local variables of the generated `visit_map`. -/
structure Slots (F P : Type) where
  A : Option P := none
  B : Option P := none
  C : Option P := none
  D : Option P := none
  X : Option (List P) := none
  Y : Option (List P) := none
  f : Option (List (List F)) := none
  zA : Option F := none
  zC : Option F := none
  z : Option F := none

/-- The `match` on the field identifier in the generated `visit_map`. -/
def visitEntry (E : Env F P) (s : Slots F P) (field : Option Nat) (v : Value) : Option (Slots F P) :=
  match field with
  | some 0 => do let x ← setOnce (toPoint E) s.A v; some { s with A := x }
  | some 1 => do let x ← setOnce (toPoint E) s.B v; some { s with B := x }
  | some 2 => do let x ← setOnce (toPoint E) s.C v; some { s with C := x }
  | some 3 => do let x ← setOnce (toPoint E) s.D v; some { s with D := x }
  | some 4 => do let x ← setOnce (toVec (toPoint E)) s.X v; some { s with X := x }
  | some 5 => do let x ← setOnce (toVec (toPoint E)) s.Y v; some { s with Y := x }
  | some 6 => do let x ← setOnce (toVec (toVec (toScalar E))) s.f v; some { s with f := x }
  | some 7 => do let x ← setOnce (toScalar E) s.zA v; some { s with zA := x }
  | some 8 => do let x ← setOnce (toScalar E) s.zC v; some { s with zC := x }
  | some 9 => do let x ← setOnce (toScalar E) s.z v; some { s with z := x }
  | _ => some s

/-- The loop over the entries in the generated `visit_map`. -/
def visitEntries (E : Env F P) : Slots F P → List (Key × Value) → Option (Slots F P)
  | s, [] => some s
  | s, (k, v) :: es => do
    let field ← identify fieldNames k
    let s ← visitEntry E s field v
    visitEntries E s es

/-- src/proof.rs:38, derived `Deserialize`: `visit_map` with its `missing_field` errors, and `visit_seq` with its
`invalid_length` errors. There is no validation of the dimensions. -/
def deserialize (E : Env F P) : Value → Option (Proof F P)
  | .map es => do
    let s ← visitEntries E {} es
    let A ← s.A
    let B ← s.B
    let C ← s.C
    let D ← s.D
    let X ← s.X
    let Y ← s.Y
    let f ← s.f
    let zA ← s.zA
    let zC ← s.zC
    let z ← s.z
    some { A := A, B := B, C := C, D := D, X := X, Y := Y, f := f, zA := zA, zC := zC, z := z }
  | .seq [vA, vB, vC, vD, vX, vY, vf, vzA, vzC, vz] => do
    let A ← toPoint E vA
    let B ← toPoint E vB
    let C ← toPoint E vC
    let D ← toPoint E vD
    let X ← toVec (toPoint E) vX
    let Y ← toVec (toPoint E) vY
    let f ← toVec (toVec (toScalar E)) vf
    let zA ← toScalar E vzA
    let zC ← toScalar E vzC
    let z ← toScalar E vz
    some { A := A, B := B, C := C, D := D, X := X, Y := Y, f := f, zA := zA, zC := zC, z := z }
  | _ => none

end Proof
end Triptych
