import Verif.Model.ProveTraced
import Verif.Model.Parallel.Prove

/-! # The parallel prover with its observable execution (src/parallel/proof.rs:172-443 and callees)

The same computations as in `Verif.Model.Parallel.Prove`, in the order of the Rust code, with observations. Matrix and
polynomial helpers are those of `Verif.Model.ProveTraced` (the code is identical in both modules). -/
set_option autoImplicit false

namespace Triptych.Parallel
open Traced

/-- src/parallel/proof.rs:202-205: the loop over the zip of both rings, from the given position on. -/
def selectLoopT {F P ε : Type} (l : Nat) : List (P × P) → Nat → P × P → Traced F ε (P × P)
  | [], _, acc => pure acc
  | (item, item1) :: rest, index, acc => do
    leak (.access index)
    leak (.call "ct_eq" [])
    leak (.call "conditional_assign" [])
    leak (.call "ct_eq" [])
    leak (.call "conditional_assign" [])
    selectLoopT l rest (index + 1) (bif index == l then (item, item1) else acc)

/-- src/parallel/proof.rs:196-211: `M_l` and `M1_l`. -/
def selectKeysT {F P : Type} [Zero P] (M M1 : List P) (l : Nat) (timing : OperationTiming) : Traced F ProofError (P × P) :=
  match timing with
  | .Constant => do
    leak (.call "zip" [M.length, M1.length])
    selectLoopT l (M.zip M1) 0 (0, 0)
  | .Variable => do
    let Ml ← idxT M l
    let M1l ← idxT M1 l
    pure (Ml, M1l)

namespace Params
variable {F P : Type}

/-- src/parallel/parameters.rs:171-197. -/
def commitMatrixT [SMul F P] [Zero P] [Add P] (p : Params P) (matrix : List (List F)) (mask : F)
    (timing : OperationTiming) : Traced F ParameterError P := do
  jump (matrix.length ≠ p.m) (lift (.err (.InvalidParameter "matrix did not have `m` rows"))) do
    leak (.call "lengths" (matrix.map List.length))
    jump (matrix.any (fun row => row.length ≠ p.n)) (lift (.err (.InvalidParameter "matrix did not have `n` columns"))) do
      leak (.call "flatten" (matrix.map List.length))
      msmT (matrix.flatten ++ [mask]) (p.CommitmentG ++ [p.CommitmentH]) timing

end Params

namespace ProofTranscript
variable {F P σ : Type}

/-- src/parallel/transcript.rs:136-151, `build_transcript_rng`: the observations. -/
def buildTranscriptRngT (E : Env F P) (witness : Option (Witness F P)) : List (Leak F) :=
  match witness with
  | some w => [.call "rekey l" [(leBytes 4 w.l).length], .call "rekey r" [(E.scalarBytes w.r).length],
      .call "rekey r1" [(E.scalarBytes w.r1).length], .call "finalize" [32]]
  | none => [.call "finalize" [32]]

/-- src/parallel/transcript.rs:26-47, `new`: the observations. The statement's hash was written to a buffer of `TRANSCRIPT_HASH_BYTES`
bytes (src/parallel/statement.rs:204). -/
def newT (E : Env F P) (witness : Option (Witness F P)) : List (Leak F) :=
  [appendT "dom-sep" TRANSCRIPT_PARALLEL_PROOF, appendT "version" (leBytes 8 VERSION),
    .call "append statement" [TRANSCRIPT_HASH_BYTES]] ++ buildTranscriptRngT E witness

/-- src/parallel/transcript.rs:50-102, `commit`: the observations and the same result as `commit`. -/
def commitT [DecidableEq F] [Zero F] [One F] [Mul F] (E : Env F P) (R : Rng σ) (pt : ProofTranscript F P σ)
    (params : Params P) (A B C D : P) (X X1 Y : List P) : Traced F ProofError (List F) × ProofTranscript F P σ :=
  let before := [appendT "A" (E.compress A), appendT "B" (E.compress B), appendT "C" (E.compress C),
      appendT "D" (E.compress D)] ++ (X.map fun x => appendT "X" (E.compress x)) ++
      (X1.map fun x => appendT "X1" (E.compress x)) ++ (Y.map fun x => appendT "Y" (E.compress x)) ++ buildTranscriptRngT E pt.witness ++ [.call "challenge xi" [64]]
  let t := pt.transcript
  let t := t.appendMessage "A" (E.compress A)
  let t := t.appendMessage "B" (E.compress B)
  let t := t.appendMessage "C" (E.compress C)
  let t := t.appendMessage "D" (E.compress D)
  let t := appendPoints E "X" t X
  let t := appendPoints E "X1" t X1
  let t := appendPoints E "Y" t Y
  let (trng, s) := buildTranscriptRng E R t pt.witness pt.ext
  let (xiBytes, t) := t.challengeBytes E "xi" 64
  let powers := xiPowersLoopT (E.scalarOfWide xiBytes) (params.m + 1) 1
  (⟨before ++ powers.trace, powers.out⟩, { pt with transcript := t, trng := trng, ext := s })

end ProofTranscript

namespace Proof
variable {F P σ : Type} [Field F] [AddCommGroup P] [Module F P] [DecidableEq F] [DecidableEq P]

/-- src/parallel/proof.rs:179-225. The comparison of parameters is of public data. -/
def checkWitnessT (w : Witness F P) (st : Statement P) (timing : OperationTiming) : Traced F ProofError Unit := do
  jump (w.params ≠ st.params) (lift (.err (.InvalidParameter "witness and statement parameters did not match"))) do
    let (Ml, M1l) ← selectKeysT st.inputSet.M st.inputSet.M1 w.l timing
    leak (.call "mul" [])
    jump (Ml ≠ w.r • st.params.G) (lift (.err (.InvalidParameter "`M[l] != r * G`"))) do
      leak (.call "sub" [])
      leak (.call "mul" [])
      jump (M1l - st.offset ≠ w.r1 • st.params.G1) (lift (.err (.InvalidParameter "`M1[l] - offset != r1 * G1`"))) do
        leak (.call "mul" [])
        jump (w.r • st.J ≠ st.params.U) (lift (.err (.InvalidParameter "`r * J != U`"))) (pure ())

/-- src/parallel/proof.rs:368-381. -/
def computeXT (params : Params P) (M : List P) (p : List (List F)) (rho : List F) (timing : OperationTiming) :
    Traced F ProofError (List P) :=
  rho.zipIdx.mapM fun (rhoj, j) => do
    let points := M ++ [params.G]
    let scalars ← p.mapM fun row => idxT row j
    msmT (scalars ++ [rhoj]) points timing

/-- src/parallel/proof.rs:383-398. -/
def computeX1T (params : Params P) (M1 : List P) (offset : P) (p : List (List F)) (rho1 : List F)
    (timing : OperationTiming) : Traced F ProofError (List P) :=
  rho1.zipIdx.mapM fun (rhoj, j) => do
    leak (.call "neg" [])
    let points := M1 ++ [params.G1] ++ [-offset]
    let scalars ← p.mapM fun row => idxT row j
    leak (.call "sum" [scalars.length])
    msmT (scalars ++ [rhoj] ++ [scalars.sum]) points timing

/-- src/parallel/proof.rs:230-401: draws and commitments in the order of the code. Also returns the drawn randomness. -/
def commitPhaseT (E : Env F P) (l : Nat) (st : Statement P) (timing : OperationTiming) (r : TRng) :
    Traced F ProofError (Committed F P × Nonces F × TRng) := do
  let params := st.params
  let M := st.inputSet.M
  let M1 := st.inputSet.M1
  let (rA, r) ← scalarT E r
  let (a0, r) ← drawMatrixT E params.n params.m r
  let a ← a0.mapM fixRowT
  let A ← Triptych.Proof.commitErr (params.commitMatrixT a rA timing) "unable to compute `A`"
  let (rB, r) ← scalarT E r
  let lDecomposed ← decomposeIndexT params.n params.m l timing
  let sigma ← sigmaMatrixT params.n params.m lDecomposed timing
  let B ← Triptych.Proof.commitErr (params.commitMatrixT sigma rB timing) "unable to compute `B`"
  let (rC, r) ← scalarT E r
  let aSigma ← aSigmaMatrixT params.n params.m a sigma
  let C ← Triptych.Proof.commitErr (params.commitMatrixT aSigma rC timing) "unable to compute `C`"
  let (rD, r) ← scalarT E r
  let aSquare ← aSquareMatrixT params.n params.m a
  let D ← Triptych.Proof.commitErr (params.commitMatrixT aSquare rD timing) "unable to compute `D`"
  let (rho, r) ← drawScalarsT E params.m r
  let (rho1, r) ← drawScalarsT E params.m r
  let p ← polynomialsT params.n params.m a sigma
  let X ← computeXT params M p rho timing
  let X1 ← computeX1T params M1 st.offset p rho1 timing
  leak (.call "map mul" [rho.length])
  let Y := rho.map fun x => x • st.J
  pure ({ A := A, B := B, C := C, D := D, X := X, X1 := X1, Y := Y, a := a, sigma := sigma },
    { rA := rA, a := a0, rB := rB, rC := rC, rD := rD, rho := rho, rho1 := rho1 }, r)

/-- src/parallel/proof.rs:406-442. -/
def respondPhaseT (r r1 : F) (params : Params P) (nn : Nonces F) (c : Committed F P) (xiPowers : List F) :
    Traced F ProofError (Proof F P) := do
  let f ← responseMatrixT params.n params.m c.a c.sigma xiPowers
  let ξ ← idxT xiPowers 1
  let zA := nn.rA + ξ * nn.rB
  let zC := ξ * nn.rC + nn.rD
  let z ← responseZT params.m r nn.rho xiPowers
  let z1 ← responseZT params.m r1 nn.rho1 xiPowers
  pure { A := c.A, B := c.B, C := c.C, D := c.D, X := c.X, X1 := c.X1, Y := c.Y, f := f, zA := zA, zC := zC, z := z,
         z1 := z1 }

/-- src/parallel/proof.rs:172-443, `prove_internal`: the observations, and the result, transcript and generator state as returned by
`proveInternal`. -/
def proveInternalT (E : Env F P) (R : Rng σ) (w : Witness F P) (st : Statement P) (s : σ) (t : Transcript)
    (timing : OperationTiming) : List (Leak F) × (Outcome ProofError (Proof F P) × Transcript × σ) :=
  let check := checkWitnessT w st timing
  match check.out with
  | .err e => (check.trace, .err e, t, s)
  | .panic => (check.trace, .panic, t, s)
  | .diverge => (check.trace, .diverge, t, s)
  | .ok () =>
    let pt := ProofTranscript.new E R t st s (some w)
    let first := commitPhaseT E w.l st timing pt.trng
    let trace := check.trace ++ ProofTranscript.newT E (some w) ++ first.trace
    match first.out with
    | .err e => (trace, .err e, pt.transcript, pt.ext)
    | .panic => (trace, .panic, pt.transcript, pt.ext)
    | .diverge => (trace, .diverge, pt.transcript, pt.ext)
    | .ok (c, nn, trng) =>
      let pt := { pt with trng := trng }
      let (xi, pt) := pt.commitT E R st.params c.A c.B c.C c.D c.X c.X1 c.Y
      let result := xi >>= fun xiPowers => respondPhaseT w.r w.r1 st.params nn c xiPowers
      (trace ++ result.trace, result.out, pt.transcript, pt.ext)

/-- src/parallel/proof.rs:161-168, `prove_with_rng` (and `prove`, 142-150), with its observations. -/
def proveWithRngT (E : Env F P) (R : Rng σ) (w : Witness F P) (st : Statement P) (s : σ) (t : Transcript) :
    List (Leak F) × (Outcome ProofError (Proof F P) × Transcript × σ) := proveInternalT E R w st s t .Constant

/-- src/parallel/proof.rs:121-128, `prove_with_rng_vartime` (and `prove_vartime`, 101-109), with its observations. -/
def proveWithRngVartimeT (E : Env F P) (R : Rng σ) (w : Witness F P) (st : Statement P) (s : σ) (t : Transcript) :
    List (Leak F) × (Outcome ProofError (Proof F P) × Transcript × σ) := proveInternalT E R w st s t .Variable

end Proof
end Triptych.Parallel
