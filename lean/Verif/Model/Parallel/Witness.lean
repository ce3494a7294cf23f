import Verif.Model.Witness
import Verif.Model.Parallel.Parameters

/-! # Parallel witnesses (src/parallel/witness.rs) -/
set_option autoImplicit false

namespace Triptych.Parallel

/-- src/parallel/witness.rs:17-23. -/
structure Witness (F P : Type) where
  params : Params P
  l : Nat
  r : F
  r1 : F
deriving DecidableEq

namespace Witness
variable {F P : Type}

/-- src/parallel/witness.rs:43-60, `new`. -/
def new [DecidableEq F] [Zero F] (params : Params P) (l : Nat) (r r1 : F) : Outcome WitnessError (Witness F P) :=
  if r = 0 then .err (.InvalidParameter "`r == 0`")
  else if r1 = 0 then .err (.InvalidParameter "`r1 == 0`")
  else if l ≥ params.getN then .err (.InvalidParameter "`l >= N`")
  else .ok { params := params, l := l, r := r, r1 := r1 }

/-- src/parallel/witness.rs:69-82, `random`: index, then `r`, then `r1`. -/
def random {σ ε : Type} (E : Env F P) (R : Rng σ) (params : Params P) (s : σ) : Outcome ε (Witness F P × σ) :=
  let (x, s) := R.nextU64 s
  if params.getN = 0 then .panic
  else
    let l := x.toNat % params.getN % 2 ^ 32
    let (b, s) := R.fill s 64
    let (b1, s) := R.fill s 64
    .ok ({ params := params, l := l, r := E.scalarOfWide b, r1 := E.scalarOfWide b1 }, s)

/-- src/parallel/witness.rs:105-107, `compute_linking_tag`. -/
def computeLinkingTag [Inv F] [SMul F P] (w : Witness F P) : P := w.r⁻¹ • w.params.U

/-- src/parallel/witness.rs:110-112, `compute_verification_key`. -/
def computeVerificationKey [SMul F P] (w : Witness F P) : P := w.r • w.params.G

/-- src/parallel/witness.rs:115-117, `compute_auxiliary_verification_key`. -/
def computeAuxiliaryVerificationKey [SMul F P] (w : Witness F P) : P := w.r1 • w.params.G1

/-- src/parallel/witness.rs:16 `derive(Zeroize)`: zeroes `l`, `r` and `r1`, skips `params`. -/
def zeroize [Zero F] (w : Witness F P) : Witness F P := { w with l := 0, r := 0, r1 := 0 }

end Witness
end Triptych.Parallel
