import Verif.Model.Parallel.Serde
import Verif.Spec.Serde

/-! # Specification: parallel proofs as values of serde's data model -/
set_option autoImplicit false

namespace Triptych.Parallel.Spec
open Triptych.Serde
open Triptych.Spec (tuple)
variable {F P : Type}

/-- The twelve fields of a proof as pairs of their name and their value. -/
def namedFields (E : Env F P) (p : Proof F P) : List (String × Value) :=
  [("A", tuple (E.compress p.A)),
    ("B", tuple (E.compress p.B)),
    ("C", tuple (E.compress p.C)),
    ("D", tuple (E.compress p.D)),
    ("X", .seq (p.X.map fun x => tuple (E.compress x))),
    ("X1", .seq (p.X1.map fun x => tuple (E.compress x))),
    ("Y", .seq (p.Y.map fun x => tuple (E.compress x))),
    ("f", .seq (p.f.map fun row => .seq (row.map fun x => tuple (E.scalarBytes x)))),
    ("z_A", tuple (E.scalarBytes p.zA)),
    ("z_C", tuple (E.scalarBytes p.zC)),
    ("z", tuple (E.scalarBytes p.z)),
    ("z1", tuple (E.scalarBytes p.z1))]

/-- The names of the fields of a proof, in order. -/
def proofFields : List String := ["A", "B", "C", "D", "X", "X1", "Y", "f", "z_A", "z_C", "z", "z1"]

end Triptych.Parallel.Spec
