import Verif.Model.Parallel.Prove
import Verif.Model.Parallel.Verify

/-! # The RingCT example (examples/ringct.rs)

The example's random choices (generator `H`, keys and commitments of the other outputs, signing key, masks), its value and its
index are arguments here; `unwrap` on an error is a panic. -/
set_option autoImplicit false

namespace Triptych.Parallel.RingCT
variable {F P : Type} [Field F] [AddCommGroup P] [Module F P] [DecidableEq F] [DecidableEq P]

/-- examples/ringct.rs:53 and 60: a commitment to `value` with `mask`. -/
def commitment (params : Params P) (H : P) (value mask : F) : P := value • H + mask • params.G1

/-- `Result::unwrap` (as in examples/ringct.rs:64, 68, 69): errors become panics. -/
def unwrap {ε ε' α : Type} : Outcome ε α → Outcome ε' α
  | .ok a => .ok a
  | .err _ => .panic
  | .panic => .panic
  | .diverge => .diverge

/-- examples/ringct.rs:43-69: the own output is stored at `index` in both vectors (out of range this panics), then witness,
input set and statement are constructed. Simplification: the order of the random draws is not modelled. -/
def setup (E : Env F P) (params : Params P) (H : P) (keys commitments : List P) (index : ℕ) (signingKey value mask : F)
    (offsetMask : F) : Outcome Unit (Witness F P × Statement P) :=
  if keys.length ≤ index ∨ commitments.length ≤ index then .panic
  else do
    let keys := keys.set index (signingKey • params.G)
    let commitments := commitments.set index (commitment params H value mask)
    let offset := commitment params H value offsetMask
    let witness ← unwrap (Witness.new params index signingKey (mask - offsetMask))
    let inputSet ← unwrap (InputSet.new E keys commitments)
    let statement ← unwrap (Statement.new E params inputSet offset witness.computeLinkingTag)
    .ok (witness, statement)

/-- examples/ringct.rs:74-81: the proof is made with a clone of the transcript and verified with the original; the example
asserts that the result is `ok`. -/
def run {σ : Type} (E : Env F P) (cfg : Config) (R : Rng σ) (s : σ) (witness : Witness F P) (statement : Statement P)
    (transcript : Transcript) : Outcome ProofError Unit := do
  let proof ← (Proof.proveWithRng E R witness statement s transcript).1
  (Proof.verify E cfg proof statement transcript).1

end Triptych.Parallel.RingCT
