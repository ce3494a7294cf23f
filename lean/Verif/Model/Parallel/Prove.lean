import Verif.Model.Prove
import Verif.Model.Parallel.ProofTranscript

/-! # The parallel prover (src/parallel/proof.rs:88-443)

Matrix and polynomial helpers are those of `Verif.Model.Prove` (the code is identical in both modules). -/
set_option autoImplicit false

namespace Triptych.Parallel

/-- src/parallel/proof.rs:38-51. -/
structure Proof (F P : Type) where
  A : P
  B : P
  C : P
  D : P
  X : List P
  X1 : List P
  Y : List P
  f : List (List F)
  zA : F
  zC : F
  z : F
  z1 : F
deriving DecidableEq

/-- Prover randomness, in the order it is drawn (src/parallel/proof.rs:230-316). -/
structure Nonces (F : Type) where
  rA : F
  a : List (List F)
  rB : F
  rC : F
  rD : F
  rho : List F
  rho1 : List F
deriving DecidableEq

/-- What the prover sends before the challenge, together with the secrets it keeps for the responses. -/
structure Committed (F P : Type) where
  A : P
  B : P
  C : P
  D : P
  X : List P
  X1 : List P
  Y : List P
  a : List (List F)
  sigma : List (List F)
deriving DecidableEq

/-- src/parallel/proof.rs:197-211: `M_l` and `M1_l` selected from the ring. Constant time: the loop runs over the zip of
both vectors. Variable time: `M[l]`, `M1[l]`, which panic out of range. -/
def selectKeys {P : Type} [Zero P] (M M1 : List P) (l : Nat) (timing : OperationTiming) : Outcome ProofError (P × P) :=
  match timing with
  | .Constant =>
    .ok ((M.zip M1).zipIdx.foldl (fun acc (item, index) => bif index == l then item else acc) (0, 0))
  | .Variable => do
    let Ml ← idx M l
    let M1l ← idx M1 l
    .ok (Ml, M1l)

namespace Proof
variable {F P σ : Type}

/-- src/parallel/proof.rs:230-316: the draws from the transcript generator, in order. -/
def drawNonces (E : Env F P) (n m : Nat) (r : TRng) : Nonces F × TRng :=
  let (rA, r) := r.scalar E
  let (a, r) := drawMatrix E n m r
  let (rB, r) := r.scalar E
  let (rC, r) := r.scalar E
  let (rD, r) := r.scalar E
  let (rho, r) := drawScalars E m r
  let (rho1, r) := drawScalars E m r
  ({ rA := rA, a := a, rB := rB, rC := rC, rD := rD, rho := rho, rho1 := rho1 }, r)

variable [Field F] [AddCommGroup P] [Module F P] [DecidableEq F] [DecidableEq P]

/-- src/parallel/proof.rs:179-225: validity checks on the witness. -/
def checkWitness (w : Witness F P) (st : Statement P) (timing : OperationTiming) : Outcome ProofError Unit :=
  if w.params ≠ st.params then .err (.InvalidParameter "witness and statement parameters did not match")
  else do
    let (Ml, M1l) ← selectKeys st.inputSet.M st.inputSet.M1 w.l timing
    if Ml ≠ w.r • st.params.G then .err (.InvalidParameter "`M[l] != r * G`")
    else if M1l - st.offset ≠ w.r1 • st.params.G1 then .err (.InvalidParameter "`M1[l] - offset != r1 * G1`")
    else if w.r • st.J ≠ st.params.U then .err (.InvalidParameter "`r * J != U`")
    else .ok ()

/-- src/parallel/proof.rs:368-381: the vector `X`. -/
def computeX (params : Params P) (M : List P) (p : List (List F)) (rho : List F) (timing : OperationTiming) :
    Outcome ProofError (List P) :=
  rho.zipIdx.mapM fun (rhoj, j) => do
    let points := M ++ [params.G]
    let scalars ← p.mapM fun row => idx row j
    match timing with
    | .Constant => msm (scalars ++ [rhoj]) points
    | .Variable => msm (scalars ++ [rhoj]) points

/-- src/parallel/proof.rs:383-398: the vector `X1`. -/
def computeX1 (params : Params P) (M1 : List P) (offset : P) (p : List (List F)) (rho1 : List F)
    (timing : OperationTiming) : Outcome ProofError (List P) :=
  rho1.zipIdx.mapM fun (rhoj, j) => do
    let points := M1 ++ [params.G1] ++ [-offset]
    let scalars ← p.mapM fun row => idx row j
    match timing with
    | .Constant => msm (scalars ++ [rhoj] ++ [scalars.sum]) points
    | .Variable => msm (scalars ++ [rhoj] ++ [scalars.sum]) points

/-- src/parallel/proof.rs:230-401: the commitment phase, given the drawn randomness. -/
def commitPhase (l : Nat) (st : Statement P) (timing : OperationTiming) (nn : Nonces F) :
    Outcome ProofError (Committed F P) := do
  let params := st.params
  let M := st.inputSet.M
  let M1 := st.inputSet.M1
  let a ← nn.a.mapM fixRow
  let A ← (params.commitMatrix a nn.rA timing).mapErr fun _ => .InvalidParameter "unable to compute `A`"
  let lDecomposed ← decomposeIndex params.n params.m l timing
  let sigma ← sigmaMatrix params.n params.m lDecomposed timing
  let B ← (params.commitMatrix sigma nn.rB timing).mapErr fun _ => .InvalidParameter "unable to compute `B`"
  let aSigma ← aSigmaMatrix params.n params.m a sigma
  let C ← (params.commitMatrix aSigma nn.rC timing).mapErr fun _ => .InvalidParameter "unable to compute `C`"
  let aSquare ← aSquareMatrix params.n params.m a
  let D ← (params.commitMatrix aSquare nn.rD timing).mapErr fun _ => .InvalidParameter "unable to compute `D`"
  let p ← polynomials params.n params.m a sigma
  let X ← computeX params M p nn.rho timing
  let X1 ← computeX1 params M1 st.offset p nn.rho1 timing
  let Y := nn.rho.map fun x => x • st.J
  .ok { A := A, B := B, C := C, D := D, X := X, X1 := X1, Y := Y, a := a, sigma := sigma }

/-- src/parallel/proof.rs:406-442: the response phase. -/
def respondPhase (r r1 : F) (params : Params P) (nn : Nonces F) (c : Committed F P) (xiPowers : List F) :
    Outcome ProofError (Proof F P) := do
  let f ← responseMatrix params.n params.m c.a c.sigma xiPowers
  let ξ ← idx xiPowers 1
  let zA := nn.rA + ξ * nn.rB
  let zC := ξ * nn.rC + nn.rD
  let z ← responseZ params.m r nn.rho xiPowers
  let z1 ← responseZ params.m r1 nn.rho1 xiPowers
  .ok { A := c.A, B := c.B, C := c.C, D := c.D, X := c.X, X1 := c.X1, Y := c.Y, f := f, zA := zA, zC := zC, z := z,
        z1 := z1 }

/-- src/parallel/proof.rs:172-443, `prove_internal`. Returns the result, the caller's transcript and the external
generator's state afterwards. -/
def proveInternal (E : Env F P) (R : Rng σ) (w : Witness F P) (st : Statement P) (s : σ) (t : Transcript)
    (timing : OperationTiming) : Outcome ProofError (Proof F P) × Transcript × σ :=
  match checkWitness w st timing with
  | .err e => (.err e, t, s)
  | .panic => (.panic, t, s)
  | .diverge => (.diverge, t, s)
  | .ok () =>
    let pt := ProofTranscript.new E R t st s (some w)
    let (nn, trng) := drawNonces E st.params.n st.params.m pt.trng
    let pt := { pt with trng := trng }
    match commitPhase w.l st timing nn with
    | .err e => (.err e, pt.transcript, pt.ext)
    | .panic => (.panic, pt.transcript, pt.ext)
    | .diverge => (.diverge, pt.transcript, pt.ext)
    | .ok c =>
      let (xi, pt) := pt.commit E R st.params c.A c.B c.C c.D c.X c.X1 c.Y
      let result := do
        let xiPowers ← xi
        respondPhase w.r w.r1 st.params nn c xiPowers
      (result, pt.transcript, pt.ext)

/-- src/parallel/proof.rs:161-168, `prove_with_rng` (and `prove`, 142-150). -/
def proveWithRng (E : Env F P) (R : Rng σ) (w : Witness F P) (st : Statement P) (s : σ) (t : Transcript) :
    Outcome ProofError (Proof F P) × Transcript × σ := proveInternal E R w st s t .Constant

/-- src/parallel/proof.rs:121-128, `prove_with_rng_vartime` (and `prove_vartime`, 101-109). -/
def proveWithRngVartime (E : Env F P) (R : Rng σ) (w : Witness F P) (st : Statement P) (s : σ) (t : Transcript) :
    Outcome ProofError (Proof F P) × Transcript × σ := proveInternal E R w st s t .Variable

end Proof
end Triptych.Parallel
