import Verif.Model.Serde
import Verif.Spec.Serialize

/-! # Specification: proofs as values of serde's data model -/
set_option autoImplicit false

namespace Triptych.Spec
open Serde
variable {F P : Type}

/-- A byte string as a tuple of integers. -/
def tuple (b : Bytes) : Value := .seq (b.map fun x => .num x.toNat)

/-- The ten fields of a proof as pairs of their name and their value. -/
def namedFields (E : Env F P) (p : Proof F P) : List (String × Value) :=
  [("A", tuple (E.compress p.A)), ("B", tuple (E.compress p.B)), ("C", tuple (E.compress p.C)),
    ("D", tuple (E.compress p.D)), ("X", .seq (p.X.map fun x => tuple (E.compress x))),
    ("Y", .seq (p.Y.map fun x => tuple (E.compress x))),
    ("f", .seq (p.f.map fun row => .seq (row.map fun x => tuple (E.scalarBytes x)))),
    ("z_A", tuple (E.scalarBytes p.zA)), ("z_C", tuple (E.scalarBytes p.zC)), ("z", tuple (E.scalarBytes p.z))]

/-- The names of the fields of a proof, in order. -/
def proofFields : List String := ["A", "B", "C", "D", "X", "Y", "f", "z_A", "z_C", "z"]

/-- A key denotes the field with the given position and name. -/
def Denotes (k : Key) (i : ℕ) (name : String) : Prop := k = .index i ∨ k = .name name ∨ k = .bytes (asciiBytes name)

instance (k : Key) (i : ℕ) (name : String) : Decidable (Denotes k i name) := by unfold Denotes; infer_instance

/-- The entries of a map represent the given fields: all keys are identifiers, and every field is denoted by exactly one
entry, which has the value of the field. (Entries that denote no field are arbitrary.) -/
def MapRepresents (fields : List (String × Value)) (es : List (Key × Value)) : Prop :=
  (∀ e ∈ es, e.1 ≠ .other) ∧
  ∀ i (hi : i < fields.length),
    (es.filter fun e => Denotes e.1 i fields[i].1).map Prod.snd = [fields[i].2]

/-- A value represents the given fields: either as the sequence of their values or as a map. -/
def Represents (fields : List (String × Value)) (v : Value) : Prop :=
  v = .seq (fields.map Prod.snd) ∨ ∃ es, v = .map es ∧ MapRepresents fields es

end Triptych.Spec
