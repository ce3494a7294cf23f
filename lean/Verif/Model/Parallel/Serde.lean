import Verif.Model.Serde
import Verif.Model.Parallel.Serialize

/-!
# The derived serde implementation for parallel proofs (src/parallel/proof.rs:36, `derive(Deserialize, Serialize)`)

As `Verif/Model/Serde.lean`, with the fields `X1` and `z1`.
-/
set_option autoImplicit false

namespace Triptych.Parallel
namespace Proof
open Triptych.Serde
variable {F P : Type}

/-- src/parallel/proof.rs:38-51: the field names, in order of declaration. -/
def fieldNames : List String := ["A", "B", "C", "D", "X", "X1", "Y", "f", "z_A", "z_C", "z", "z1"]

/-- src/parallel/proof.rs:36, derived `Serialize`: the values passed to `serialize_field`, in order of declaration. -/
def serdeFields (E : Env F P) (p : Proof F P) : List Value :=
  [ofPoint E p.A, ofPoint E p.B, ofPoint E p.C, ofPoint E p.D,
    ofVec (ofPoint E) p.X, ofVec (ofPoint E) p.X1, ofVec (ofPoint E) p.Y, ofVec (ofVec (ofScalar E)) p.f,
    ofScalar E p.zA, ofScalar E p.zC, ofScalar E p.z, ofScalar E p.z1]

/-- src/parallel/proof.rs:36, derived `Serialize`, in a format that renders structs as sequences. -/
def serializeSeq (E : Env F P) (p : Proof F P) : Value := .seq (serdeFields E p)

/-- src/parallel/proof.rs:36, derived `Serialize`, in a format that renders structs as maps. -/
def serializeMap (E : Env F P) (p : Proof F P) : Value :=
  .map (List.zip (fieldNames.map Key.name) (serdeFields E p))

/-- The local variables of the generated `visit_map`. -/
structure Slots (F P : Type) where
  A : Option P := none
  B : Option P := none
  C : Option P := none
  D : Option P := none
  X : Option (List P) := none
  X1 : Option (List P) := none
  Y : Option (List P) := none
  f : Option (List (List F)) := none
  zA : Option F := none
  zC : Option F := none
  z : Option F := none
  z1 : Option F := none

/-- The `match` on the field identifier in the generated `visit_map`. -/
def visitEntry (E : Env F P) (s : Slots F P) (field : Option Nat) (v : Value) : Option (Slots F P) :=
  match field with
  | some 0 => do let x ← setOnce (toPoint E) s.A v; some { s with A := x }
  | some 1 => do let x ← setOnce (toPoint E) s.B v; some { s with B := x }
  | some 2 => do let x ← setOnce (toPoint E) s.C v; some { s with C := x }
  | some 3 => do let x ← setOnce (toPoint E) s.D v; some { s with D := x }
  | some 4 => do let x ← setOnce (toVec (toPoint E)) s.X v; some { s with X := x }
  | some 5 => do let x ← setOnce (toVec (toPoint E)) s.X1 v; some { s with X1 := x }
  | some 6 => do let x ← setOnce (toVec (toPoint E)) s.Y v; some { s with Y := x }
  | some 7 => do let x ← setOnce (toVec (toVec (toScalar E))) s.f v; some { s with f := x }
  | some 8 => do let x ← setOnce (toScalar E) s.zA v; some { s with zA := x }
  | some 9 => do let x ← setOnce (toScalar E) s.zC v; some { s with zC := x }
  | some 10 => do let x ← setOnce (toScalar E) s.z v; some { s with z := x }
  | some 11 => do let x ← setOnce (toScalar E) s.z1 v; some { s with z1 := x }
  | _ => some s

/-- The loop over the entries in the generated `visit_map`. -/
def visitEntries (E : Env F P) : Slots F P → List (Key × Value) → Option (Slots F P)
  | s, [] => some s
  | s, (k, v) :: es => do
    let field ← identify fieldNames k
    let s ← visitEntry E s field v
    visitEntries E s es

/-- src/parallel/proof.rs:36, derived `Deserialize`: `visit_map` with its `missing_field` errors, and `visit_seq` with its
`invalid_length` errors. There is no validation of the dimensions. -/
def deserialize (E : Env F P) : Value → Option (Proof F P)
  | .map es => do
    let s ← visitEntries E {} es
    let A ← s.A
    let B ← s.B
    let C ← s.C
    let D ← s.D
    let X ← s.X
    let X1 ← s.X1
    let Y ← s.Y
    let f ← s.f
    let zA ← s.zA
    let zC ← s.zC
    let z ← s.z
    let z1 ← s.z1
    some { A := A, B := B, C := C, D := D, X := X, X1 := X1, Y := Y, f := f, zA := zA, zC := zC, z := z, z1 := z1 }
  | .seq [vA, vB, vC, vD, vX, vX1, vY, vf, vzA, vzC, vz, vz1] => do
    let A ← toPoint E vA
    let B ← toPoint E vB
    let C ← toPoint E vC
    let D ← toPoint E vD
    let X ← toVec (toPoint E) vX
    let X1 ← toVec (toPoint E) vX1
    let Y ← toVec (toPoint E) vY
    let f ← toVec (toVec (toScalar E)) vf
    let zA ← toScalar E vzA
    let zC ← toScalar E vzC
    let z ← toScalar E vz
    let z1 ← toScalar E vz1
    some { A := A, B := B, C := C, D := D, X := X, X1 := X1, Y := Y, f := f, zA := zA, zC := zC, z := z, z1 := z1 }
  | _ => none

end Proof
end Triptych.Parallel
