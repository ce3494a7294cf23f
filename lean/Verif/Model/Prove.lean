import Verif.Model.ProofTranscript

/-! # The prover (src/proof.rs:88-403)

Helper definitions that do not mention the statement type are shared with the parallel prover
(src/parallel/proof.rs), whose code for them is identical. -/
set_option autoImplicit false

namespace Triptych

/-- src/proof.rs:36-51. -/
structure Proof (F P : Type) where
  A : P
  B : P
  C : P
  D : P
  X : List P
  Y : List P
  f : List (List F)
  zA : F
  zC : F
  z : F
deriving DecidableEq

section Shared
variable {F P : Type}

/-- src/proof.rs:194-205 (parallel: 196-211): `M_l` selected from the ring. Constant time: start from the identity and
conditionally assign every item whose index is `l`. Variable time: `M[l]`, which panics out of range. -/
def selectKey [Zero P] (M : List P) (l : Nat) (timing : OperationTiming) : Outcome ProofError P :=
  match timing with
  | .Constant => .ok (M.zipIdx.foldl (fun acc (item, index) => bif index == l then item else acc) 0)
  | .Variable => idx M l

/-- `k` consecutive `Scalar::random` draws from a transcript generator. -/
def drawScalars (E : Env F P) : Nat → TRng → List F × TRng
  | 0, r => ([], r)
  | k + 1, r =>
    let (x, r) := r.scalar E
    let (xs, r) := drawScalars E k r
    (x :: xs, r)

/-- src/proof.rs:221-227: a matrix of random scalars, `rows` rows of `cols` entries, row by row. -/
def drawMatrix (E : Env F P) (cols : Nat) : Nat → TRng → List (List F) × TRng
  | 0, r => ([], r)
  | k + 1, r =>
    let (x, r) := drawScalars E cols r
    let (xs, r) := drawMatrix E cols k r
    (x :: xs, r)

/-- src/proof.rs:228-230: `a[j][0] = -a[j][1..].iter().sum()` for one row; slicing an empty row panics. -/
def fixRow [AddCommGroup F] (row : List F) : Outcome ProofError (List F) :=
  match row with
  | [] => .panic
  | _ :: tl => .ok (-tl.sum :: tl)

/-- src/proof.rs:239-250: decomposition of the signer index. -/
def decomposeIndex (n m l : Nat) (timing : OperationTiming) : Outcome ProofError (List Nat) :=
  match timing with
  | .Constant =>
    Outcome.ofOption (GrayIterator.decompose n m l) (.InvalidParameter "`l` decomposition failed")
  | .Variable =>
    Outcome.ofOption (GrayIterator.decomposeVartime n m l) (.InvalidParameter "`l` decomposition failed")

/-- src/proof.rs:251-257: the matrix `sigma`. -/
def sigmaMatrix [Zero F] [One F] (n m : Nat) (lDecomposed : List Nat) (timing : OperationTiming) :
    Outcome ProofError (List (List F)) :=
  (List.range m).mapM fun j =>
    (List.range n).mapM fun i => do
      let d ← idx lDecomposed j
      .ok (delta d i timing)

/-- src/proof.rs:265-273: the matrix `a * (1 - 2 sigma)`. -/
def aSigmaMatrix [Field F] (n m : Nat) (a sigma : List (List F)) : Outcome ProofError (List (List F)) :=
  (List.range m).mapM fun j =>
    (List.range n).mapM fun i => do
      let x ← idx2 a j i
      let s ← idx2 sigma j i
      .ok (x * (1 - 2 * s))

/-- src/proof.rs:282-288: the matrix `-a * a`. -/
def aSquareMatrix [Field F] (n m : Nat) (a : List (List F)) : Outcome ProofError (List (List F)) :=
  (List.range m).mapM fun j =>
    (List.range n).mapM fun i => do
      let x ← idx2 a j i
      let y ← idx2 a j i
      .ok (-x * y)

/-- `slice.rotate_right(1)`; panics if the slice is empty. -/
def rotateRight1 (c : List F) : Outcome ProofError (List F) :=
  match c.getLast? with
  | none => .panic
  | some x => .ok (x :: c.dropLast)

/-- src/proof.rs:326-347: one convolution step against `a[j][k_j] + sigma[j][k_j] x`. -/
def convolveStep [Field F] (a sigma : List (List F)) (k : List Nat) (c : List F) (j : Nat) :
    Outcome ProofError (List F) := do
  let kj ← idx k j
  let aj ← idx2 a j kj
  let degree0 := c.map fun x => aj * x
  let shifted ← rotateRight1 c
  let sj ← idx2 sigma j kj
  let degree1 := shifted.map fun x => sj * x
  .ok (List.zipWith (· + ·) degree0 degree1)

/-- src/proof.rs:312-347: the coefficients of the polynomial of one ring position with digits `k`. -/
def coefficients [Field F] (m : Nat) (a sigma : List (List F)) (k : List Nat) : Outcome ProofError (List F) := do
  let c := List.replicate (m + 1) (0 : F)
  let k0 ← idx k 0
  let a0 ← idx2 a 0 k0
  let c ← setIdx c 0 a0
  let s0 ← idx2 sigma 0 k0
  let c ← setIdx c 1 s0
  ((List.range (m - 1)).map (· + 1)).foldlM (convolveStep a sigma k) c

/-- src/proof.rs:303-350: the loop over ring positions; `k` is `k_decomposed` before the current Gray step. -/
def coefficientsLoop [Field F] (m : Nat) (a sigma : List (List F)) :
    List (Nat × Nat × Nat) → List Nat → Outcome ProofError (List (List F))
  | [], _ => .ok []
  | (grayIndex, _, grayNew) :: rest, k => do
    let k ← setIdx k grayIndex grayNew
    let c ← coefficients m a sigma k
    let cs ← coefficientsLoop m a sigma rest k
    .ok (c :: cs)

/-- src/proof.rs:302-350: the polynomial coefficient matrix `p`. -/
def polynomials [Field F] (n m : Nat) (a sigma : List (List F)) : Outcome ProofError (List (List F)) := do
  let g ← Outcome.ofOption (GrayIterator.new n m) (.InvalidParameter "coefficient decomposition failed")
  coefficientsLoop m a sigma g.toList (List.replicate m 0)

/-- src/proof.rs:374-380: the response matrix `f` (columns `1..n`). -/
def responseMatrix [Field F] (n m : Nat) (a sigma : List (List F)) (xiPowers : List F) :
    Outcome ProofError (List (List F)) :=
  (List.range m).mapM fun j =>
    ((List.range (n - 1)).map (· + 1)).mapM fun i => do
      let s ← idx2 sigma j i
      let ξ ← idx xiPowers 1
      let x ← idx2 a j i
      .ok (s * ξ + x)

/-- src/proof.rs:385-389 (and 423-427 of the parallel prover): `r * xi^m - sum_j rho_j * xi^j`. -/
def responseZ [Field F] (m : Nat) (r : F) (rho xiPowers : List F) : Outcome ProofError F := do
  let x ← idx xiPowers m
  .ok (r * x - (List.zipWith (· * ·) rho xiPowers).sum)

end Shared

/-- Prover randomness, in the order it is drawn (src/proof.rs:220-300): `r_A`, `a`, `r_B`, `r_C`, `r_D`, `rho`. The
column 0 of `a` is still the drawn value here. -/
structure Nonces (F : Type) where
  rA : F
  a : List (List F)
  rB : F
  rC : F
  rD : F
  rho : List F
deriving DecidableEq

/-- What the prover sends before the challenge, together with the secrets it keeps for the responses. -/
structure Committed (F P : Type) where
  A : P
  B : P
  C : P
  D : P
  X : List P
  Y : List P
  a : List (List F)
  sigma : List (List F)
deriving DecidableEq

namespace Proof
variable {F P σ : Type}

/-- src/proof.rs:219-300: the draws from the transcript generator. The Rust code interleaves them with the
computation of the commitments, which does not touch the generator. -/
def drawNonces (E : Env F P) (n m : Nat) (r : TRng) : Nonces F × TRng :=
  let (rA, r) := r.scalar E
  let (a, r) := drawMatrix E n m r
  let (rB, r) := r.scalar E
  let (rC, r) := r.scalar E
  let (rD, r) := r.scalar E
  let (rho, r) := drawScalars E m r
  ({ rA := rA, a := a, rB := rB, rC := rC, rD := rD, rho := rho }, r)

variable [Field F] [AddCommGroup P] [Module F P] [DecidableEq F] [DecidableEq P]

/-- src/proof.rs:179-214: validity checks on the witness. -/
def checkWitness (w : Witness F P) (st : Statement P) (timing : OperationTiming) : Outcome ProofError Unit :=
  if w.params ≠ st.params then .err (.InvalidParameter "witness and statement parameters did not match")
  else do
    let Ml ← selectKey st.inputSet.M w.l timing
    if Ml ≠ w.r • st.params.G then .err (.InvalidParameter "`M[l] != r * G`")
    else if w.r • st.J ≠ st.params.U then .err (.InvalidParameter "`r * J != U`")
    else .ok ()

/-- src/proof.rs:353-365: the vector `X`. -/
def computeX (params : Params P) (M : List P) (p : List (List F)) (rho : List F) (timing : OperationTiming) :
    Outcome ProofError (List P) :=
  rho.zipIdx.mapM fun (rhoj, j) => do
    let points := M ++ [params.G]
    let scalars ← p.mapM fun row => idx row j
    match timing with
    | .Constant => msm (scalars ++ [rhoj]) points
    | .Variable => msm (scalars ++ [rhoj]) points

/-- src/proof.rs:219-368: the commitment phase, given the drawn randomness. -/
def commitPhase (l : Nat) (st : Statement P) (timing : OperationTiming) (nn : Nonces F) :
    Outcome ProofError (Committed F P) := do
  let params := st.params
  let M := st.inputSet.M
  let a ← nn.a.mapM fixRow
  let A ← (params.commitMatrix a nn.rA timing).mapErr fun _ => .InvalidParameter "unable to compute `A`"
  let lDecomposed ← decomposeIndex params.n params.m l timing
  let sigma ← sigmaMatrix params.n params.m lDecomposed timing
  let B ← (params.commitMatrix sigma nn.rB timing).mapErr fun _ => .InvalidParameter "unable to compute `B`"
  let aSigma ← aSigmaMatrix params.n params.m a sigma
  let C ← (params.commitMatrix aSigma nn.rC timing).mapErr fun _ => .InvalidParameter "unable to compute `C`"
  let aSquare ← aSquareMatrix params.n params.m a
  let D ← (params.commitMatrix aSquare nn.rD timing).mapErr fun _ => .InvalidParameter "unable to compute `D`"
  let p ← polynomials params.n params.m a sigma
  let X ← computeX params M p nn.rho timing
  let Y := nn.rho.map fun x => x • st.J
  .ok { A := A, B := B, C := C, D := D, X := X, Y := Y, a := a, sigma := sigma }

/-- src/proof.rs:373-402: the response phase. -/
def respondPhase (r : F) (params : Params P) (nn : Nonces F) (c : Committed F P) (xiPowers : List F) :
    Outcome ProofError (Proof F P) := do
  let f ← responseMatrix params.n params.m c.a c.sigma xiPowers
  let ξ ← idx xiPowers 1
  let zA := nn.rA + ξ * nn.rB
  let zC := ξ * nn.rC + nn.rD
  let z ← responseZ params.m r nn.rho xiPowers
  .ok { A := c.A, B := c.B, C := c.C, D := c.D, X := c.X, Y := c.Y, f := f, zA := zA, zC := zC, z := z }

/-- src/proof.rs:172-403, `prove_internal`. Returns the result, the caller's transcript and the external generator's
state afterwards. -/
def proveInternal (E : Env F P) (R : Rng σ) (w : Witness F P) (st : Statement P) (s : σ) (t : Transcript)
    (timing : OperationTiming) : Outcome ProofError (Proof F P) × Transcript × σ :=
  match checkWitness w st timing with
  | .err e => (.err e, t, s)
  | .panic => (.panic, t, s)
  | .diverge => (.diverge, t, s)
  | .ok () =>
    let pt := ProofTranscript.new E R t st s (some w)
    let (nn, trng) := drawNonces E st.params.n st.params.m pt.trng
    let pt := { pt with trng := trng }
    match commitPhase w.l st timing nn with
    | .err e => (.err e, pt.transcript, pt.ext)
    | .panic => (.panic, pt.transcript, pt.ext)
    | .diverge => (.diverge, pt.transcript, pt.ext)
    | .ok c =>
      let (xi, pt) := pt.commit E R st.params c.A c.B c.C c.D c.X c.Y
      let result := do
        let xiPowers ← xi
        respondPhase w.r st.params nn c xiPowers
      (result, pt.transcript, pt.ext)

/-- src/proof.rs:161-168, `prove_with_rng` (and `prove`, 142-150, which supplies the operating system generator). -/
def proveWithRng (E : Env F P) (R : Rng σ) (w : Witness F P) (st : Statement P) (s : σ) (t : Transcript) :
    Outcome ProofError (Proof F P) × Transcript × σ := proveInternal E R w st s t .Constant

/-- src/proof.rs:121-128, `prove_with_rng_vartime` (and `prove_vartime`, 101-109). -/
def proveWithRngVartime (E : Env F P) (R : Rng σ) (w : Witness F P) (st : Statement P) (s : σ) (t : Transcript) :
    Outcome ProofError (Proof F P) × Transcript × σ := proveInternal E R w st s t .Variable

end Proof
end Triptych
