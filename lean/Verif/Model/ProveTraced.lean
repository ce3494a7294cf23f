import Verif.Model.Prove
import Verif.Model.Leak

/-! # The prover with its observable execution (src/proof.rs:172-403 and callees)

The same computations as in `Verif.Model.Prove`, in the order of the Rust code, with observations (`Verif.Model.Leak`).
Helper definitions that do not mention the statement type are shared with the parallel prover. -/
set_option autoImplicit false

namespace Triptych
open Traced

section Shared
variable {F P ε : Type}

/-- `multiscalar_mul` (constant time for given lengths) or `vartime_multiscalar_mul`. -/
def msmT [SMul F P] [Zero P] [Add P] (scalars : List F) (points : List P) (timing : OperationTiming) : Traced F ε P :=
  match timing with
  | .Constant => step (.call "multiscalar_mul" [scalars.length, points.length]) (msm scalars points)
  | .Variable => step (.vartime "vartime_multiscalar_mul" scalars [points.length]) (msm scalars points)

/-- src/util.rs:23-40, `delta`. -/
def deltaT [Zero F] [One F] (x y : Nat) (timing : OperationTiming) : Traced F ε F :=
  match timing with
  | .Constant => do
    leak (.call "ct_eq" [])
    leak (.call "conditional_assign" [])
    lift (.ok (bif x == y then 1 else 0))
  | .Variable => do
    jump (x = y) (lift (.ok 1)) (lift (.ok 0))

/-- src/proof.rs:197-201: the loop over the ring, from the given position on. -/
def selectLoopT (l : Nat) : List P → Nat → P → Traced F ε P
  | [], _, acc => pure acc
  | item :: rest, index, acc => do
    leak (.access index)
    leak (.call "ct_eq" [])
    leak (.call "conditional_assign" [])
    selectLoopT l rest (index + 1) (bif index == l then item else acc)

/-- src/proof.rs:194-205: `M_l`. -/
def selectKeyT [Zero P] (M : List P) (l : Nat) (timing : OperationTiming) : Traced F ProofError P :=
  match timing with
  | .Constant => selectLoopT l M 0 0
  | .Variable => idxT M l

/-- `Scalar::random(transcript.as_mut_rng())`. -/
def scalarT (E : Env F P) (r : TRng) : Traced F ε (F × TRng) := step (.call "Scalar::random" []) (.ok (r.scalar E))

/-- A vector of random scalars. -/
def drawScalarsT (E : Env F P) : Nat → TRng → Traced F ε (List F × TRng)
  | 0, r => pure ([], r)
  | k + 1, r => do
    let (x, r) ← scalarT E r
    let (xs, r) ← drawScalarsT E k r
    pure (x :: xs, r)

/-- src/proof.rs:221-227: a matrix of random scalars. -/
def drawMatrixT (E : Env F P) (cols : Nat) : Nat → TRng → Traced F ε (List (List F) × TRng)
  | 0, r => pure ([], r)
  | k + 1, r => do
    let (x, r) ← drawScalarsT E cols r
    let (xs, r) ← drawMatrixT E cols k r
    pure (x :: xs, r)

/-- src/proof.rs:228-230, for one row. -/
def fixRowT [AddCommGroup F] (row : List F) : Traced F ProofError (List F) := do
  leak (.call "sum" [row.length])
  step (.access 0) (fixRow row)

/-- src/gray.rs:89-96. -/
def baseLoopT (N : Nat) : Nat → Nat → Traced F ε (List Nat)
  | 0, _ => pure []
  | k + 1, v => do
    leak (.call "U64::div_rem" [N])
    let ds ← baseLoopT N k (v / N)
    pure (v % N :: ds)

/-- src/gray.rs:98-105. -/
def grayLoopT (N : Nat) : List Nat → Traced F ε (List Nat × Nat)
  | [] => pure ([], 0)
  | b :: bs => do
    let (ds, shift) ← grayLoopT N bs
    leak (.access bs.length)
    leak (.call "U64::rem" [N])
    let d := saturatingAdd64 b shift % N
    pure (d :: ds, saturatingAdd64 shift N - d)

/-- src/gray.rs:80-112, `decompose`. -/
def decomposeT (N M v : Nat) (e : ε) : Traced F ε (List Nat) := do
  jump (N ≤ 1 ∨ M = 0) (lift (.err e)) do
    let base ← baseLoopT N M v
    let (digits, _) ← grayLoopT N base
    digits.mapM fun d => jump (d ≤ u32Max) (lift (.ok d)) (lift (.err e))

/-- src/gray.rs:54-60. -/
def baseLoopVartimeT (N : Nat) (e : ε) : Nat → Nat → Traced F ε (List Nat)
  | 0, _ => pure []
  | k + 1, v => do
    let d ← step (.vartime "u32::checked_rem" [] [v, N]) (Outcome.ofOption (checkedRem v N) e)
    let v' ← step (.vartime "u32::checked_div" [] [v, N]) (Outcome.ofOption (checkedDiv v N) e)
    let ds ← baseLoopVartimeT N e k v'
    pure (d :: ds)

/-- src/gray.rs:62-69. -/
def grayLoopVartimeT (N : Nat) (e : ε) : List Nat → Traced F ε (List Nat × Nat)
  | [] => pure ([], 0)
  | b :: bs => do
    let (ds, shift) ← grayLoopVartimeT N e bs
    leak (.access bs.length)
    let s ← step (.vartime "u32::checked_add" [] [b, shift]) (Outcome.ofOption (checkedAdd b shift) e)
    let d ← step (.vartime "u32::checked_rem" [] [s, N]) (Outcome.ofOption (checkedRem s N) e)
    let t ← step (.vartime "u32::checked_add" [] [shift, N]) (Outcome.ofOption (checkedAdd shift N) e)
    let shift' ← step (.vartime "u32::checked_sub" [] [t, d]) (Outcome.ofOption (checkedSub t d) e)
    pure (d :: ds, shift')

/-- src/gray.rs:49-72, `decompose_vartime`. -/
def decomposeVartimeT (N M v : Nat) (e : ε) : Traced F ε (List Nat) := do
  jump (N ≤ 1 ∨ M = 0) (lift (.err e)) do
    let base ← baseLoopVartimeT N e M v
    let (digits, _) ← grayLoopVartimeT N e base
    pure digits

/-- src/proof.rs:239-250. -/
def decomposeIndexT (n m l : Nat) (timing : OperationTiming) : Traced F ProofError (List Nat) :=
  match timing with
  | .Constant => decomposeT n m l (.InvalidParameter "`l` decomposition failed")
  | .Variable => decomposeVartimeT n m l (.InvalidParameter "`l` decomposition failed")

/-- src/proof.rs:251-257. -/
def sigmaMatrixT [Zero F] [One F] (n m : Nat) (lDecomposed : List Nat) (timing : OperationTiming) :
    Traced F ProofError (List (List F)) :=
  (List.range m).mapM fun j =>
    (List.range n).mapM fun i => do
      let d ← idxT lDecomposed j
      deltaT d i timing

/-- src/proof.rs:265-273. -/
def aSigmaMatrixT [Field F] (n m : Nat) (a sigma : List (List F)) : Traced F ProofError (List (List F)) :=
  (List.range m).mapM fun j =>
    (List.range n).mapM fun i => do
      let x ← idx2T a j i
      let s ← idx2T sigma j i
      pure (x * (1 - 2 * s))

/-- src/proof.rs:282-288. -/
def aSquareMatrixT [Field F] (n m : Nat) (a : List (List F)) : Traced F ProofError (List (List F)) :=
  (List.range m).mapM fun j =>
    (List.range n).mapM fun i => do
      let x ← idx2T a j i
      let y ← idx2T a j i
      pure (-x * y)

/-- src/proof.rs:326-347. -/
def convolveStepT [Field F] (a sigma : List (List F)) (k : List Nat) (c : List F) (j : Nat) :
    Traced F ProofError (List F) := do
  let kj ← idxT k j
  let aj ← idx2T a j kj
  leak (.call "map" [c.length])
  let degree0 := c.map fun x => aj * x
  let shifted ← step (.call "rotate_right" [c.length]) (rotateRight1 c)
  let sj ← idx2T sigma j kj
  leak (.call "map" [shifted.length])
  let degree1 := shifted.map fun x => sj * x
  leak (.call "zip" [degree0.length, degree1.length])
  pure (List.zipWith (· + ·) degree0 degree1)

/-- src/proof.rs:312-347. -/
def coefficientsT [Field F] (m : Nat) (a sigma : List (List F)) (k : List Nat) : Traced F ProofError (List F) := do
  let c := List.replicate (m + 1) (0 : F)
  let k0 ← idxT k 0
  let a0 ← idx2T a 0 k0
  let c ← setIdxT c 0 a0
  let s0 ← idx2T sigma 0 k0
  let c ← setIdxT c 1 s0
  ((List.range (m - 1)).map (· + 1)).foldlM (convolveStepT a sigma k) c

/-- src/proof.rs:303-350. The iterator runs in variable time on public data: its items are observed. -/
def coefficientsLoopT [Field F] (m : Nat) (a sigma : List (List F)) :
    List (Nat × Nat × Nat) → List Nat → Traced F ProofError (List (List F))
  | [], _ => pure []
  | (grayIndex, grayOld, grayNew) :: rest, k => do
    leak (.vartime "GrayIterator::next" [] [grayIndex, grayOld, grayNew])
    let k ← setIdxT k grayIndex grayNew
    let c ← coefficientsT m a sigma k
    let cs ← coefficientsLoopT m a sigma rest k
    pure (c :: cs)

/-- src/proof.rs:302-350. -/
def polynomialsT [Field F] (n m : Nat) (a sigma : List (List F)) : Traced F ProofError (List (List F)) := do
  leak (.vartime "GrayIterator::new" [] [n, m])
  let g ← lift (Outcome.ofOption (GrayIterator.new n m) (.InvalidParameter "coefficient decomposition failed"))
  coefficientsLoopT m a sigma g.toList (List.replicate m 0)

/-- src/proof.rs:374-380. -/
def responseMatrixT [Field F] (n m : Nat) (a sigma : List (List F)) (xiPowers : List F) :
    Traced F ProofError (List (List F)) :=
  (List.range m).mapM fun j =>
    ((List.range (n - 1)).map (· + 1)).mapM fun i => do
      let s ← idx2T sigma j i
      let ξ ← idxT xiPowers 1
      let x ← idx2T a j i
      pure (s * ξ + x)

/-- src/proof.rs:385-389. -/
def responseZT [Field F] (m : Nat) (r : F) (rho xiPowers : List F) : Traced F ProofError F := do
  let x ← idxT xiPowers m
  leak (.call "zip" [rho.length, xiPowers.length])
  pure (r * x - (List.zipWith (· * ·) rho xiPowers).sum)

/-- src/transcript.rs:77-89. -/
def xiPowersLoopT [DecidableEq F] [Zero F] [Mul F] (ξ : F) : Nat → F → Traced F ProofError (List F)
  | 0, _ => pure []
  | k + 1, p => do
    jump (p = 0) (lift (.err .InvalidChallenge)) do
      let rest ← xiPowersLoopT ξ k (p * ξ)
      pure (p :: rest)

/-- `transcript.append_message(label, message)`. -/
def appendT (label : String) (message : Bytes) : Leak F := .call ("append " ++ label) [message.length]

end Shared

namespace Params
variable {F P : Type}

/-- src/parameters.rs:153-179. -/
def commitMatrixT [SMul F P] [Zero P] [Add P] (p : Params P) (matrix : List (List F)) (mask : F)
    (timing : OperationTiming) : Traced F ParameterError P := do
  jump (matrix.length ≠ p.m) (lift (.err (.InvalidParameter "matrix did not have `m` rows"))) do
    leak (.call "lengths" (matrix.map List.length))
    jump (matrix.any (fun row => row.length ≠ p.n)) (lift (.err (.InvalidParameter "matrix did not have `n` columns"))) do
      leak (.call "flatten" (matrix.map List.length))
      msmT (matrix.flatten ++ [mask]) (p.CommitmentG ++ [p.CommitmentH]) timing

end Params

namespace ProofTranscript
variable {F P σ : Type}

/-- src/transcript.rs:120-135, `build_transcript_rng`: the observations. -/
def buildTranscriptRngT (E : Env F P) (witness : Option (Witness F P)) : List (Leak F) :=
  match witness with
  | some w => [.call "rekey l" [(leBytes 4 w.l).length], .call "rekey r" [(E.scalarBytes w.r).length],
      .call "finalize" [32]]
  | none => [.call "finalize" [32]]

/-- src/transcript.rs:22-43, `new`: the observations. The statement's hash was written to a buffer of `TRANSCRIPT_HASH_BYTES`
bytes (src/statement.rs:153). -/
def newT (E : Env F P) (witness : Option (Witness F P)) : List (Leak F) :=
  [appendT "dom-sep" TRANSCRIPT_PROOF, appendT "version" (leBytes 8 VERSION),
    .call "append statement" [TRANSCRIPT_HASH_BYTES]] ++ buildTranscriptRngT E witness

/-- src/transcript.rs:46-94, `commit`: the observations and the same result as `commit`. -/
def commitT [DecidableEq F] [Zero F] [One F] [Mul F] (E : Env F P) (R : Rng σ) (pt : ProofTranscript F P σ)
    (params : Params P) (A B C D : P) (X Y : List P) : Traced F ProofError (List F) × ProofTranscript F P σ :=
  let before := [appendT "A" (E.compress A), appendT "B" (E.compress B), appendT "C" (E.compress C),
      appendT "D" (E.compress D)] ++ (X.map fun x => appendT "X" (E.compress x)) ++
      (Y.map fun x => appendT "Y" (E.compress x)) ++ buildTranscriptRngT E pt.witness ++ [.call "challenge xi" [64]]
  let t := pt.transcript
  let t := t.appendMessage "A" (E.compress A)
  let t := t.appendMessage "B" (E.compress B)
  let t := t.appendMessage "C" (E.compress C)
  let t := t.appendMessage "D" (E.compress D)
  let t := appendPoints E "X" t X
  let t := appendPoints E "Y" t Y
  let (trng, s) := buildTranscriptRng E R t pt.witness pt.ext
  let (xiBytes, t) := t.challengeBytes E "xi" 64
  let powers := xiPowersLoopT (E.scalarOfWide xiBytes) (params.m + 1) 1
  (⟨before ++ powers.trace, powers.out⟩, { pt with transcript := t, trng := trng, ext := s })

end ProofTranscript

namespace Proof
variable {F P σ : Type} [Field F] [AddCommGroup P] [Module F P] [DecidableEq F] [DecidableEq P]

/-- src/proof.rs:179-214. The comparison of parameters is of public data. -/
def checkWitnessT (w : Witness F P) (st : Statement P) (timing : OperationTiming) : Traced F ProofError Unit := do
  jump (w.params ≠ st.params) (lift (.err (.InvalidParameter "witness and statement parameters did not match"))) do
    let Ml ← selectKeyT st.inputSet.M w.l timing
    leak (.call "mul" [])
    jump (Ml ≠ w.r • st.params.G) (lift (.err (.InvalidParameter "`M[l] != r * G`"))) do
      leak (.call "mul" [])
      jump (w.r • st.J ≠ st.params.U) (lift (.err (.InvalidParameter "`r * J != U`"))) (pure ())

/-- src/proof.rs:353-365. -/
def computeXT (params : Params P) (M : List P) (p : List (List F)) (rho : List F) (timing : OperationTiming) :
    Traced F ProofError (List P) :=
  rho.zipIdx.mapM fun (rhoj, j) => do
    let points := M ++ [params.G]
    let scalars ← p.mapM fun row => idxT row j
    msmT (scalars ++ [rhoj]) points timing

/-- `map_err(|_| ..)?` on a commitment. -/
def commitErr {α : Type} (x : Traced F ParameterError α) (message : String) : Traced F ProofError α :=
  ⟨x.trace, x.out.mapErr fun _ => .InvalidParameter message⟩

/-- src/proof.rs:219-368: draws and commitments in the order of the code. Also returns the drawn randomness. -/
def commitPhaseT (E : Env F P) (l : Nat) (st : Statement P) (timing : OperationTiming) (r : TRng) :
    Traced F ProofError (Committed F P × Nonces F × TRng) := do
  let params := st.params
  let M := st.inputSet.M
  let (rA, r) ← scalarT E r
  let (a0, r) ← drawMatrixT E params.n params.m r
  let a ← a0.mapM fixRowT
  let A ← commitErr (params.commitMatrixT a rA timing) "unable to compute `A`"
  let (rB, r) ← scalarT E r
  let lDecomposed ← decomposeIndexT params.n params.m l timing
  let sigma ← sigmaMatrixT params.n params.m lDecomposed timing
  let B ← commitErr (params.commitMatrixT sigma rB timing) "unable to compute `B`"
  let (rC, r) ← scalarT E r
  let aSigma ← aSigmaMatrixT params.n params.m a sigma
  let C ← commitErr (params.commitMatrixT aSigma rC timing) "unable to compute `C`"
  let (rD, r) ← scalarT E r
  let aSquare ← aSquareMatrixT params.n params.m a
  let D ← commitErr (params.commitMatrixT aSquare rD timing) "unable to compute `D`"
  let (rho, r) ← drawScalarsT E params.m r
  let p ← polynomialsT params.n params.m a sigma
  let X ← computeXT params M p rho timing
  leak (.call "map mul" [rho.length])
  let Y := rho.map fun x => x • st.J
  pure ({ A := A, B := B, C := C, D := D, X := X, Y := Y, a := a, sigma := sigma },
    { rA := rA, a := a0, rB := rB, rC := rC, rD := rD, rho := rho }, r)

/-- src/proof.rs:373-402. -/
def respondPhaseT (r : F) (params : Params P) (nn : Nonces F) (c : Committed F P) (xiPowers : List F) :
    Traced F ProofError (Proof F P) := do
  let f ← responseMatrixT params.n params.m c.a c.sigma xiPowers
  let ξ ← idxT xiPowers 1
  let zA := nn.rA + ξ * nn.rB
  let zC := ξ * nn.rC + nn.rD
  let z ← responseZT params.m r nn.rho xiPowers
  pure { A := c.A, B := c.B, C := c.C, D := c.D, X := c.X, Y := c.Y, f := f, zA := zA, zC := zC, z := z }

/-- src/proof.rs:172-403, `prove_internal`: the observations, and the result, transcript and generator state as returned by
`proveInternal`. -/
def proveInternalT (E : Env F P) (R : Rng σ) (w : Witness F P) (st : Statement P) (s : σ) (t : Transcript)
    (timing : OperationTiming) : List (Leak F) × (Outcome ProofError (Proof F P) × Transcript × σ) :=
  let check := checkWitnessT w st timing
  match check.out with
  | .err e => (check.trace, .err e, t, s)
  | .panic => (check.trace, .panic, t, s)
  | .diverge => (check.trace, .diverge, t, s)
  | .ok () =>
    let pt := ProofTranscript.new E R t st s (some w)
    let first := commitPhaseT E w.l st timing pt.trng
    let trace := check.trace ++ ProofTranscript.newT E (some w) ++ first.trace
    match first.out with
    | .err e => (trace, .err e, pt.transcript, pt.ext)
    | .panic => (trace, .panic, pt.transcript, pt.ext)
    | .diverge => (trace, .diverge, pt.transcript, pt.ext)
    | .ok (c, nn, trng) =>
      let pt := { pt with trng := trng }
      let (xi, pt) := pt.commitT E R st.params c.A c.B c.C c.D c.X c.Y
      let result := xi >>= fun xiPowers => respondPhaseT w.r st.params nn c xiPowers
      (trace ++ result.trace, result.out, pt.transcript, pt.ext)

/-- src/proof.rs:161-168, `prove_with_rng` (and `prove`, 142-150), with its observations. -/
def proveWithRngT (E : Env F P) (R : Rng σ) (w : Witness F P) (st : Statement P) (s : σ) (t : Transcript) :
    List (Leak F) × (Outcome ProofError (Proof F P) × Transcript × σ) := proveInternalT E R w st s t .Constant

/-- src/proof.rs:121-128, `prove_with_rng_vartime` (and `prove_vartime`, 101-109), with its observations. -/
def proveWithRngVartimeT (E : Env F P) (R : Rng σ) (w : Witness F P) (st : Statement P) (s : σ) (t : Transcript) :
    List (Leak F) × (Outcome ProofError (Proof F P) × Transcript × σ) := proveInternalT E R w st s t .Variable

end Proof
end Triptych
