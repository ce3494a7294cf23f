import Verif.Model.Parallel.RingCT
import Verif.Model.Serialize
import Verif.Model.Parallel.Serialize

/-! # The documented examples and the fuzz targets (src/lib.rs:69-111, src/parallel/mod.rs:21-76, fuzz/fuzz_targets)

The examples of the crate documentation, for arbitrary `n` and `m` instead of the constants 2 and 3, and the two fuzz
targets. `unwrap` on an error and a failed `assert!` are panics. -/
set_option autoImplicit false

namespace Triptych.Example
open Parallel.RingCT (unwrap)

section Draws
variable {F P σ : Type}

/-- dalek `RistrettoPoint::random(&mut rng)`: 64 bytes mapped to a group element. -/
def randomPoint (E : Env F P) (R : Rng σ) (s : σ) : P × σ :=
  let (b, s) := R.fill s 64
  (E.pointOfUniform b, s)

/-- src/lib.rs:86-95 (and src/parallel/mod.rs:42-50, 51-60): the vector with the own key at position `l` and random points at
the other positions; the positions are given as a list. -/
def ring (E : Env F P) (R : Rng σ) (l : ℕ) (own : P) : List ℕ → σ → List P × σ
  | [], s => ([], s)
  | i :: is, s =>
    let (x, s) := if i = l then (own, s) else randomPoint E R s
    let (M, s) := ring E R l own is s
    (x :: M, s)

end Draws

section Single
variable {F P σ : Type} [Field F] [AddCommGroup P] [Module F P] [DecidableEq F] [DecidableEq P]

/-- src/lib.rs:76-100: parameters, random witness, input set, statement. Also returns the generator state. -/
def setup (E : Env F P) (R : Rng σ) (n m : ℕ) (s : σ) : Outcome Unit (Witness F P × Statement P × σ) := do
  let params ← unwrap (Params.new E n m)
  let (witness, s) ← Witness.random E R params s
  let (M, s) := ring E R witness.l witness.computeVerificationKey (List.range params.getN) s
  let inputSet ← unwrap (InputSet.new E M)
  let statement ← unwrap (Statement.new E params inputSet witness.computeLinkingTag)
  .ok (witness, statement, s)

/-- src/lib.rs:102-109: prove with a clone of the transcript, verify with the original. Simplification: `prove` draws from
its own handle to the operating system's generator; here it continues with the same generator. -/
def run (E : Env F P) (cfg : Config) (R : Rng σ) (witness : Witness F P) (statement : Statement P) (s : σ)
    (transcript : Transcript) : Outcome Unit Unit := do
  let proof ← unwrap (Proof.proveWithRng E R witness statement s transcript).1
  unwrap (Proof.verify E cfg proof statement transcript).1

/-- src/lib.rs:69-111: the whole example. -/
def main (E : Env F P) (cfg : Config) (R : Rng σ) (n m : ℕ) (s : σ) : Outcome Unit Unit := do
  let (witness, statement, s) ← setup E R n m s
  run E cfg R witness statement s (Transcript.new (asciiBytes "Test transcript"))

/-- fuzz/fuzz_targets/proofs.rs:11-17: `assert_eq!(&proof.to_bytes(), data)` for every proof that decodes. -/
def fuzz (E : Env F P) (data : Bytes) : Outcome Unit Unit :=
  match Proof.fromBytes E data with
  | .ok proof => do
    let bytes ← proof.toBytes E
    if bytes = data then .ok () else .panic
  | .err _ => .ok ()
  | .panic => .panic
  | .diverge => .diverge

end Single

end Triptych.Example

namespace Triptych.Parallel.Example
open Parallel.RingCT (unwrap)
open Triptych.Example (ring)
variable {F P σ : Type} [Field F] [AddCommGroup P] [Module F P] [DecidableEq F] [DecidableEq P]

/-- src/parallel/mod.rs:28-65: parameters, random witness, random offset, input set, statement. Also returns the generator
state. -/
def setup (E : Env F P) (R : Rng σ) (n m : ℕ) (s : σ) : Outcome Unit (Witness F P × Statement P × σ) := do
  let params ← unwrap (Params.new E n m)
  let (witness, s) ← Witness.random E R params s
  let (b, s) := R.fill s 64
  let offset := E.scalarOfWide b • params.G1
  let (M, s) := ring E R witness.l witness.computeVerificationKey (List.range params.getN) s
  let (M1, s) := ring E R witness.l (witness.computeAuxiliaryVerificationKey + offset) (List.range params.getN) s
  let inputSet ← unwrap (InputSet.new E M M1)
  let statement ← unwrap (Statement.new E params inputSet offset witness.computeLinkingTag)
  .ok (witness, statement, s)

/-- src/parallel/mod.rs:21-76: the whole example; the last part (lines 67-74) is as in the RingCT example. Simplification: `prove`
draws from its own handle to the operating system's generator; here it continues with the same generator. -/
def main (E : Env F P) (cfg : Config) (R : Rng σ) (n m : ℕ) (s : σ) : Outcome Unit Unit := do
  let (witness, statement, s) ← setup E R n m s
  let transcript := Transcript.new (asciiBytes "Test transcript")
  let proof ← unwrap (Proof.proveWithRng E R witness statement s transcript).1
  unwrap (Proof.verify E cfg proof statement transcript).1

/-- fuzz/fuzz_targets/parallel.rs:11-17: `assert_eq!(&proof.to_bytes(), data)` for every proof that decodes. -/
def fuzz (E : Env F P) (data : Bytes) : Outcome Unit Unit :=
  match Proof.fromBytes E data with
  | .ok proof => do
    let bytes ← proof.toBytes E
    if bytes = data then .ok () else .panic
  | .err _ => .ok ()
  | .panic => .panic
  | .diverge => .diverge

end Triptych.Parallel.Example
