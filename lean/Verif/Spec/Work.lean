import Verif.Model.Leak

/-! # Specification: the heavy operations of a run -/
set_option autoImplicit false

namespace Triptych.Spec

/-- A costly operation. -/
inductive Work where
  /-- the given number of scalar multiplications of group elements -/
  | multiplications (count : Nat)
  /-- a random scalar drawn from the transcript generator -/
  | random
  /-- a multiscalar multiplication of the given numbers of scalars and points -/
  | multiscalar (scalars points : Nat)
  /-- a multiplication of a polynomial with the given number of coefficients by a linear one -/
  | convolution (coefficients : Nat)
deriving DecidableEq

/-- The costly operation an observation stands for, if any. -/
def heavy {F : Type} : Leak F → Option Work
  | .call name sizes =>
    if name = "mul" then some (.multiplications 1)
    else if name = "map mul" then some (.multiplications (sizes.getD 0 0))
    else if name = "Scalar::random" then some .random
    else if name = "multiscalar_mul" then some (.multiscalar (sizes.getD 0 0) (sizes.getD 1 0))
    else if name = "rotate_right" then some (.convolution (sizes.getD 0 0))
    else none
  | .vartime name scalars sizes =>
    if name = "vartime_multiscalar_mul" then some (.multiscalar scalars.length (sizes.getD 0 0)) else none
  | _ => none

/-- The costly operations of a run, in order. -/
def work {F : Type} (trace : List (Leak F)) : List Work := trace.filterMap heavy

/-- The heavy operations of making one proof for a ring of `n ^ m` keys, in order: two checks of the witness; the masks and
commitments `A`, `B`, `C` and `D`, each a multiscalar multiplication of size `n * m + 1`; the masks of the polynomials; the
polynomials, `m - 1` multiplications for every ring position; the commitments to them, `m` multiscalar multiplications over the
whole ring; and `m` multiples of the linking tag. -/
def proverWork (n m : Nat) : List Work :=
  [.multiplications 1, .multiplications 1] ++
  List.replicate (1 + n * m) .random ++ [.multiscalar (n * m + 1) (n * m + 1)] ++
  [.random, .multiscalar (n * m + 1) (n * m + 1), .random, .multiscalar (n * m + 1) (n * m + 1),
    .random, .multiscalar (n * m + 1) (n * m + 1)] ++
  List.replicate m .random ++
  List.replicate (n ^ m * (m - 1)) (.convolution (m + 1)) ++
  List.replicate m (.multiscalar (n ^ m + 1) (n ^ m + 1)) ++
  [.multiplications m]

/-- The same for a parallel proof: three checks of the witness, and commitments in both rings. -/
def proverWorkParallel (n m : Nat) : List Work :=
  [.multiplications 1, .multiplications 1, .multiplications 1] ++
  List.replicate (1 + n * m) .random ++ [.multiscalar (n * m + 1) (n * m + 1)] ++
  [.random, .multiscalar (n * m + 1) (n * m + 1), .random, .multiscalar (n * m + 1) (n * m + 1),
    .random, .multiscalar (n * m + 1) (n * m + 1)] ++
  List.replicate (2 * m) .random ++
  List.replicate (n ^ m * (m - 1)) (.convolution (m + 1)) ++
  List.replicate m (.multiscalar (n ^ m + 1) (n ^ m + 1)) ++
  List.replicate m (.multiscalar (n ^ m + 2) (n ^ m + 2)) ++
  [.multiplications m]

end Triptych.Spec
