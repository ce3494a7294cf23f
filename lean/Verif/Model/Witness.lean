import Verif.Model.Parameters

/-! # Witnesses (src/witness.rs) -/
set_option autoImplicit false

namespace Triptych

/-- src/witness.rs:15-22. -/
structure Witness (F P : Type) where
  params : Params P
  l : Nat
  r : F
deriving DecidableEq

/-- src/witness.rs:24-33. -/
inductive WitnessError where
  | InvalidParameter (reason : String)
deriving DecidableEq, Repr

namespace Witness
variable {F P : Type}

/-- src/witness.rs:42-55, `new`. -/
def new [DecidableEq F] [Zero F] (params : Params P) (l : Nat) (r : F) : Outcome WitnessError (Witness F P) :=
  if r = 0 then .err (.InvalidParameter "`r == 0`")
  else if l ≥ params.getN then .err (.InvalidParameter "`l >= N`")
  else .ok { params := params, l := l, r := r }

/-- src/witness.rs:63-76, `random`: `next_u64() % N as u64`, truncated to `u32`, then `Scalar::random`.
The remainder panics if `N` is zero. Also returns the generator state. -/
def random {σ ε : Type} (E : Env F P) (R : Rng σ) (params : Params P) (s : σ) : Outcome ε (Witness F P × σ) :=
  let (x, s) := R.nextU64 s
  if params.getN = 0 then .panic
  else
    let l := x.toNat % params.getN % 2 ^ 32
    let (b, s) := R.fill s 64
    .ok ({ params := params, l := l, r := E.scalarOfWide b }, s)

/-- src/witness.rs:94-96, `compute_linking_tag`: dalek inverts zero to zero, as a Lean field does. -/
def computeLinkingTag [Inv F] [SMul F P] (w : Witness F P) : P := w.r⁻¹ • w.params.U

/-- src/witness.rs:99-101, `compute_verification_key`. -/
def computeVerificationKey [SMul F P] (w : Witness F P) : P := w.r • w.params.G

/-- src/witness.rs:16 `derive(Zeroize)`: zeroes `l` and `r`, skips `params`. -/
def zeroize [Zero F] (w : Witness F P) : Witness F P := { w with l := 0, r := 0 }

end Witness
end Triptych
