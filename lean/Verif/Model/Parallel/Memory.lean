import Verif.Model.Memory
import Verif.Model.Parallel.Prove

/-! # What the parallel prover leaves in memory (src/parallel/proof.rs:172-443, src/parallel/witness.rs:15-22, 105-107)

As in `Verif.Model.Memory`, whose polynomial functions this module shares (src/parallel/proof.rs:318-366 is the same code). -/
set_option autoImplicit false

namespace Triptych.Parallel
open Kept

namespace Witness
variable {F P : Type}

/-- src/parallel/witness.rs:16, `ZeroizeOnDrop`: what remains of a witness. -/
def drop [Zero F] (w : Witness F P) : List (Cell F P) := 
  [.words "l" [w.zeroize.l], .scalar "r" w.zeroize.r, .scalar "r1" w.zeroize.r1]

/-- src/parallel/witness.rs:105-107, `compute_linking_tag`, with the inverse it wraps in `Zeroizing`. -/
def computeLinkingTagM [Inv F] [SMul F P] {ε : Type} (w : Witness F P) : Kept F P ε P := do
  let inverse := w.r⁻¹
  keep (.erased "inverse" 1)
  run (.ok (inverse • w.params.U))

end Witness

namespace Proof
variable {F P σ : Type} [Field F] [AddCommGroup P] [Module F P] [DecidableEq F] [DecidableEq P]

/-- src/parallel/proof.rs:179-225. `r`, `r1` and the statement's parts are borrowed; `l`, `M_l` and `M1_l` are variables. -/
def checkWitnessM (w : Witness F P) (st : Statement P) (timing : OperationTiming) : Kept F P ProofError Unit :=
  if w.params ≠ st.params then run (.err (.InvalidParameter "witness and statement parameters did not match"))
  else do
    keep (.words "l" [w.l])
    let (Ml, M1l) ← run (selectKeys st.inputSet.M st.inputSet.M1 w.l timing)
    keep (.points "M_l" [Ml])
    keep (.points "M1_l" [M1l])
    if Ml ≠ w.r • st.params.G then run (.err (.InvalidParameter "`M[l] != r * G`"))
    else if M1l - st.offset ≠ w.r1 • st.params.G1 then run (.err (.InvalidParameter "`M1[l] - offset != r1 * G1`"))
    else if w.r • st.J ≠ st.params.U then run (.err (.InvalidParameter "`r * J != U`"))
    else run (.ok ())

/-- src/parallel/proof.rs:383-398: `minus_offset` and `p_sum` die with each entry; `rho1` is borrowed. -/
def computeX1M (params : Params P) (M1 : List P) (offset : P) (p : List (List F)) (timing : OperationTiming) :
    List (F × Nat) → Kept F P ProofError (List P)
  | [] => run (.ok [])
  | (rhoj, j) :: rest => do
    let minusOffset := -offset
    keep (.points "minus_offset" [minusOffset])
    let points := M1 ++ [params.G1] ++ [minusOffset]
    let scalars ← run (p.mapM fun row => idx row j)
    let pSum := scalars.sum
    keep (.scalar "p_sum" pSum)
    let x ← run (match timing with
      | .Constant => msm (scalars ++ [rhoj] ++ [pSum]) points
      | .Variable => msm (scalars ++ [rhoj] ++ [pSum]) points)
    let xs ← computeX1M params M1 offset p timing rest
    run (.ok (x :: xs))

/-- src/parallel/proof.rs:230-401: draws and commitments in the order of the code. Also returns the drawn randomness. The scalars of a
matrix commitment and of `X` are borrowed (src/parallel/parameters.rs, `commit_matrix`, src/parallel/proof.rs:373-375). -/
def commitPhaseM (E : Env F P) (l : Nat) (st : Statement P) (timing : OperationTiming) (r : TRng) :
    Kept F P ProofError (Committed F P × Nonces F × TRng) := do
  let params := st.params
  let M := st.inputSet.M
  let M1 := st.inputSet.M1
  let (rA, r) := r.scalar E
  keep (.scalar "r_A" rA)
  let (a0, r) := drawMatrix E params.n params.m r
  let a ← run (a0.mapM fixRow)
  keep (.matrix "a" a)
  let A ← run ((params.commitMatrix a rA timing).mapErr fun _ => .InvalidParameter "unable to compute `A`")
  let (rB, r) := r.scalar E
  keep (.scalar "r_B" rB)
  let lDecomposed ← run (decomposeIndex params.n params.m l timing)
  keep (.words "l_decomposed" lDecomposed)
  let sigma ← run (sigmaMatrix params.n params.m lDecomposed timing)
  keep (.matrix "sigma" sigma)
  let B ← run ((params.commitMatrix sigma rB timing).mapErr fun _ => .InvalidParameter "unable to compute `B`")
  let (rC, r) := r.scalar E
  keep (.scalar "r_C" rC)
  let aSigma ← run (aSigmaMatrix params.n params.m a sigma)
  keep (.matrix "a_sigma" aSigma)
  let C ← run ((params.commitMatrix aSigma rC timing).mapErr fun _ => .InvalidParameter "unable to compute `C`")
  let (rD, r) := r.scalar E
  keep (.scalar "r_D" rD)
  let aSquare ← run (aSquareMatrix params.n params.m a)
  keep (.matrix "a_square" aSquare)
  let D ← run ((params.commitMatrix aSquare rD timing).mapErr fun _ => .InvalidParameter "unable to compute `D`")
  let (rho, r) := drawScalars E params.m r
  keep (.erased "rho" rho.length)
  let (rho1, r) := drawScalars E params.m r
  keep (.erased "rho1" rho1.length)
  let p ← polynomialsM params.n params.m a sigma
  let X ← run (computeX params M p rho timing)
  let X1 ← computeX1M params M1 st.offset p timing rho1.zipIdx
  let Y := rho.map fun x => x • st.J
  run (.ok ({ A := A, B := B, C := C, D := D, X := X, X1 := X1, Y := Y, a := a, sigma := sigma },
    { rA := rA, a := a0, rB := rB, rC := rC, rD := rD, rho := rho, rho1 := rho1 }, r))

/-- The commitments, if they die with the prover because it fails. Otherwise they become part of the proof. -/
def dropCommitments (c : Committed F P) : List (Cell F P) :=
  [.points "A" [c.A], .points "B" [c.B], .points "C" [c.C], .points "D" [c.D], .points "X" c.X,
    .points "X1" c.X1, .points "Y" c.Y]

/-- src/parallel/proof.rs:172-443, `prove_internal`: what remains in memory, and the result, transcript and generator state as returned by
`proveInternal`. (An error before all commitments are made would leave some of them behind. It does not occur with statements
made by the library, and is not modelled: `C97_result`, `C97_memory`.) -/
def proveInternalM (E : Env F P) (R : Rng σ) (w : Witness F P) (st : Statement P) (s : σ) (t : Transcript)
    (timing : OperationTiming) : List (Cell F P) × (Outcome ProofError (Proof F P) × Transcript × σ) :=
  let check := checkWitnessM w st timing
  match check.out with
  | .err e => (check.cells, .err e, t, s)
  | .panic => (check.cells, .panic, t, s)
  | .diverge => (check.cells, .diverge, t, s)
  | .ok () =>
    let pt := ProofTranscript.new E R t st s (some w)
    let first := commitPhaseM E w.l st timing pt.trng
    match first.out with
    | .err e => (check.cells ++ first.cells, .err e, pt.transcript, pt.ext)
    | .panic => (check.cells ++ first.cells, .panic, pt.transcript, pt.ext)
    | .diverge => (check.cells ++ first.cells, .diverge, pt.transcript, pt.ext)
    | .ok (c, nn, trng) =>
      let pt := { pt with trng := trng }
      let (xi, pt) := pt.commit E R st.params c.A c.B c.C c.D c.X c.X1 c.Y
      let result := do
        let xiPowers ← xi
        respondPhase w.r w.r1 st.params nn c xiPowers
      match result with
      | .ok p => (check.cells ++ first.cells, .ok p, pt.transcript, pt.ext)
      | e => (check.cells ++ first.cells ++ dropCommitments c, e, pt.transcript, pt.ext)

/-- src/parallel/proof.rs:161-168, `prove_with_rng` (and `prove`, 142-150), with what it leaves in memory. -/
def proveWithRngM (E : Env F P) (R : Rng σ) (w : Witness F P) (st : Statement P) (s : σ) (t : Transcript) :
    List (Cell F P) × (Outcome ProofError (Proof F P) × Transcript × σ) := proveInternalM E R w st s t .Constant

/-- src/parallel/proof.rs:121-128, `prove_with_rng_vartime` (and `prove_vartime`, 101-109), with what it leaves in memory. -/
def proveWithRngVartimeM (E : Env F P) (R : Rng σ) (w : Witness F P) (st : Statement P) (s : σ) (t : Transcript) :
    List (Cell F P) × (Outcome ProofError (Proof F P) × Transcript × σ) := proveInternalM E R w st s t .Variable

end Proof
end Triptych.Parallel
