import Verif.Toy
import Verif.Spec.Parallel.Built

/-! # Concrete objects of parallel Triptych in the environment of `Verif.Toy` -/
set_option autoImplicit false

namespace Triptych.Parallel.Toy
open Triptych.Toy (env get transcript transcript' cfg)

abbrev F := ZMod 101

/-- Parameters `n = 2`, `m = 2` from `TriptychParameters::new`. -/
def params : Params F := get ⟨0, 0, 0, 0, 0, [], 0, []⟩ (Params.new (env 101) 2 2)

theorem params_new : Params.new (env 101) 2 2 = .ok params := by decide +kernel

/-- Four keys; the signing key of position 2 is 7. -/
def keys : List F := [(3 : F), 5, 7, 11].map fun r => r • params.G

/-- Two offsets. -/
def offset : F := 17
def offset' : F := 23

/-- Four auxiliary keys; shifted by `offset`, the auxiliary signing key of position 2 is 9; shifted by `offset'`, that of
position 0 is 4. -/
def keys1 : List F := [(4 : F) • params.G1 + offset', 33, (9 : F) • params.G1 + offset, 44]

def inputSet : InputSet F := get ⟨[], [], []⟩ (InputSet.new (env 101) keys keys1)
theorem inputSet_new : InputSet.new (env 101) keys keys1 = .ok inputSet := by decide +kernel

/-- The witness `(2, 7, 9)`. -/
def witness : Witness F F := get ⟨params, 0, 0, 0⟩ (Witness.new params 2 7 9)
theorem witness_new : Witness.new params 2 (7 : F) 9 = .ok witness := by decide +kernel

def statement : Statement F := get ⟨params, inputSet, 0, 0, []⟩
  (Statement.new (env 101) params inputSet offset witness.computeLinkingTag)
theorem statement_new : Statement.new (env 101) params inputSet offset witness.computeLinkingTag = .ok statement := by
  decide +kernel

/-- A second signer of the same ring: position 0, keys 3 and 4. -/
def witness' : Witness F F := get ⟨params, 0, 0, 0⟩ (Witness.new params 0 3 4)
theorem witness'_new : Witness.new params 0 (3 : F) 4 = .ok witness' := by decide +kernel

def statement' : Statement F := get ⟨params, inputSet, 0, 0, []⟩
  (Statement.new (env 101) params inputSet offset' witness'.computeLinkingTag)
theorem statement'_new : Statement.new (env 101) params inputSet offset' witness'.computeLinkingTag = .ok statement' := by
  decide +kernel

def emptyProof : Proof F F := ⟨0, 0, 0, 0, [], [], [], [], 0, 0, 0, 0⟩

/-- A proof made by the constant-time prover. -/
def proof : Proof F F := get emptyProof (Proof.proveWithRng (env 101) nullRng witness statement () transcript).1
theorem proof_new : (Proof.proveWithRng (env 101) nullRng witness statement () transcript).1 = .ok proof := by
  decide +kernel

def proof' : Proof F F := get emptyProof (Proof.proveWithRng (env 101) nullRng witness' statement' () transcript').1
theorem proof'_new : (Proof.proveWithRng (env 101) nullRng witness' statement' () transcript').1 = .ok proof' := by
  decide +kernel

theorem verify_ok : (Proof.verify (env 101) cfg proof statement transcript).1 = .ok () := by decide +kernel
theorem verify_ok' : (Proof.verify (env 101) cfg proof' statement' transcript').1 = .ok () := by decide +kernel
theorem batch_ok : (Proof.verifyBatch (env 101) cfg [statement, statement'] [proof, proof']
    [transcript, transcript']).1 = .ok () := by decide +kernel

end Triptych.Parallel.Toy
