import Verif.Model.Prove

/-! # What the prover leaves in memory (src/proof.rs:172-403, src/witness.rs:15-22, 94-96)

The same computations as in `Verif.Model.Prove`, in the order of the Rust code, with the contents of the variables that die when the
prover returns. A vector in a `Zeroizing` wrapper is overwritten with zeros when it dies: only its length remains. The memory of all
other vectors and variables is given back as it is.

Simplifications: the registers and unnamed temporaries of arithmetic, and memory of the libraries (`merlin`'s generator,
`curve25519-dalek`'s tables), are not part of this model; the powers of the challenge, which everybody knows, are left out; vectors are
not moved while they are built, since their final size is known from the iterator they are collected from. -/
set_option autoImplicit false

namespace Triptych

/-- The remains of a variable. -/
inductive Cell (F P : Type) where
  | scalar (name : String) (x : F)
  | vector (name : String) (xs : List F)
  | matrix (name : String) (xs : List (List F))
  | words (name : String) (xs : List Nat)
  | points (name : String) (xs : List P)
  /-- a variable wrapped in `Zeroizing`: zeros -/
  | erased (name : String) (length : Nat)
deriving DecidableEq

/-- An outcome together with the remains of the variables that have died or will die when the outcome is returned. -/
structure Kept (F P ε α : Type) where
  cells : List (Cell F P)
  out : Outcome ε α

namespace Kept
variable {F P ε α β : Type}

/-- Sequential composition; nothing follows an error or a panic. -/
def bind (x : Kept F P ε α) (f : α → Kept F P ε β) : Kept F P ε β :=
  match x.out with
  | .ok a => ⟨x.cells ++ (f a).cells, (f a).out⟩
  | .err e => ⟨x.cells, .err e⟩
  | .panic => ⟨x.cells, .panic⟩
  | .diverge => ⟨x.cells, .diverge⟩

instance : Monad (Kept F P ε) where
  pure a := ⟨[], .ok a⟩
  bind := Kept.bind

/-- The declaration of a variable with this content. -/
def keep (x : Cell F P) : Kept F P ε Unit := ⟨[x], .ok ()⟩

/-- A computation without variables. -/
def run (o : Outcome ε α) : Kept F P ε α := ⟨[], o⟩

end Kept
open Kept

section Shared
variable {F P : Type}

/-- src/proof.rs:326-347: `degree_0_portion`, `shifted_coefficients`, `degree_1_portion` and the previous `coefficients` die. -/
def convolveStepM [Field F] (a sigma : List (List F)) (k : List Nat) (c : List F) (j : Nat) : Kept F P ProofError (List F) := do
  keep (.vector "coefficients" c)
  let kj ← run (idx k j)
  let aj ← run (idx2 a j kj)
  let degree0 := c.map fun x => aj * x
  keep (.vector "degree_0_portion" degree0)
  let shifted ← run (rotateRight1 c)
  keep (.vector "shifted_coefficients" shifted)
  let sj ← run (idx2 sigma j kj)
  let degree1 := shifted.map fun x => sj * x
  keep (.vector "degree_1_portion" degree1)
  run (.ok (List.zipWith (· + ·) degree0 degree1))

/-- src/proof.rs:312-347. -/
def coefficientsM [Field F] (m : Nat) (a sigma : List (List F)) (k : List Nat) : Kept F P ProofError (List F) := do
  let c := List.replicate (m + 1) (0 : F)
  let k0 ← run (idx k 0)
  let a0 ← run (idx2 a 0 k0)
  let c ← run (setIdx c 0 a0)
  let s0 ← run (idx2 sigma 0 k0)
  let c ← run (setIdx c 1 s0)
  ((List.range (m - 1)).map (· + 1)).foldlM (convolveStepM a sigma k) c

/-- src/proof.rs:303-350. -/
def coefficientsLoopM [Field F] (m : Nat) (a sigma : List (List F)) :
    List (Nat × Nat × Nat) → List Nat → Kept F P ProofError (List (List F))
  | [], _ => run (.ok [])
  | (grayIndex, _, grayNew) :: rest, k => do
    let k ← run (setIdx k grayIndex grayNew)
    keep (.words "k_decomposed" k)
    let c ← coefficientsM m a sigma k
    let cs ← coefficientsLoopM m a sigma rest k
    run (.ok (c :: cs))

/-- src/proof.rs:302-350. -/
def polynomialsM [Field F] (n m : Nat) (a sigma : List (List F)) : Kept F P ProofError (List (List F)) := do
  let g ← run (Outcome.ofOption (GrayIterator.new n m) (.InvalidParameter "coefficient decomposition failed"))
  let p ← coefficientsLoopM m a sigma g.toList (List.replicate m 0)
  keep (.matrix "p" p)
  run (.ok p)

end Shared

namespace Witness
variable {F P : Type}

/-- src/witness.rs:16, `ZeroizeOnDrop`: what remains of a witness. -/
def drop [Zero F] (w : Witness F P) : List (Cell F P) := [.words "l" [w.zeroize.l], .scalar "r" w.zeroize.r]

/-- src/witness.rs:94-96, `compute_linking_tag`, with the inverse it wraps in `Zeroizing`. -/
def computeLinkingTagM [Inv F] [SMul F P] {ε : Type} (w : Witness F P) : Kept F P ε P := do
  let inverse := w.r⁻¹
  keep (.erased "inverse" 1)
  run (.ok (inverse • w.params.U))

end Witness

namespace Proof
variable {F P σ : Type} [Field F] [AddCommGroup P] [Module F P] [DecidableEq F] [DecidableEq P]

/-- src/proof.rs:179-214. `r` and the statement's parts are borrowed; `l` and `M_l` are variables. -/
def checkWitnessM (w : Witness F P) (st : Statement P) (timing : OperationTiming) : Kept F P ProofError Unit :=
  if w.params ≠ st.params then run (.err (.InvalidParameter "witness and statement parameters did not match"))
  else do
    keep (.words "l" [w.l])
    let Ml ← run (selectKey st.inputSet.M w.l timing)
    keep (.points "M_l" [Ml])
    if Ml ≠ w.r • st.params.G then run (.err (.InvalidParameter "`M[l] != r * G`"))
    else if w.r • st.J ≠ st.params.U then run (.err (.InvalidParameter "`r * J != U`"))
    else run (.ok ())

/-- src/proof.rs:219-368: draws and commitments in the order of the code. Also returns the drawn randomness. The scalars of a
matrix commitment and of `X` are borrowed (src/parameters.rs:173, src/proof.rs:357-358). -/
def commitPhaseM (E : Env F P) (l : Nat) (st : Statement P) (timing : OperationTiming) (r : TRng) :
    Kept F P ProofError (Committed F P × Nonces F × TRng) := do
  let params := st.params
  let M := st.inputSet.M
  let (rA, r) := r.scalar E
  keep (.scalar "r_A" rA)
  let (a0, r) := drawMatrix E params.n params.m r
  let a ← run (a0.mapM fixRow)
  keep (.matrix "a" a)
  let A ← run ((params.commitMatrix a rA timing).mapErr fun _ => .InvalidParameter "unable to compute `A`")
  let (rB, r) := r.scalar E
  keep (.scalar "r_B" rB)
  let lDecomposed ← run (decomposeIndex params.n params.m l timing)
  keep (.words "l_decomposed" lDecomposed)
  let sigma ← run (sigmaMatrix params.n params.m lDecomposed timing)
  keep (.matrix "sigma" sigma)
  let B ← run ((params.commitMatrix sigma rB timing).mapErr fun _ => .InvalidParameter "unable to compute `B`")
  let (rC, r) := r.scalar E
  keep (.scalar "r_C" rC)
  let aSigma ← run (aSigmaMatrix params.n params.m a sigma)
  keep (.matrix "a_sigma" aSigma)
  let C ← run ((params.commitMatrix aSigma rC timing).mapErr fun _ => .InvalidParameter "unable to compute `C`")
  let (rD, r) := r.scalar E
  keep (.scalar "r_D" rD)
  let aSquare ← run (aSquareMatrix params.n params.m a)
  keep (.matrix "a_square" aSquare)
  let D ← run ((params.commitMatrix aSquare rD timing).mapErr fun _ => .InvalidParameter "unable to compute `D`")
  let (rho, r) := drawScalars E params.m r
  keep (.erased "rho" rho.length)
  let p ← polynomialsM params.n params.m a sigma
  let X ← run (computeX params M p rho timing)
  let Y := rho.map fun x => x • st.J
  run (.ok ({ A := A, B := B, C := C, D := D, X := X, Y := Y, a := a, sigma := sigma },
    { rA := rA, a := a0, rB := rB, rC := rC, rD := rD, rho := rho }, r))

/-- The commitments, if they die with the prover because it fails. Otherwise they become part of the proof. -/
def dropCommitments (c : Committed F P) : List (Cell F P) :=
  [.points "A" [c.A], .points "B" [c.B], .points "C" [c.C], .points "D" [c.D], .points "X" c.X, .points "Y" c.Y]

/-- src/proof.rs:172-403, `prove_internal`: what remains in memory, and the result, transcript and generator state as returned by
`proveInternal`. (An error before all commitments are made would leave some of them behind. It does not occur with statements
made by the library, and is not modelled: `C96_result`, `C96_memory`.) -/
def proveInternalM (E : Env F P) (R : Rng σ) (w : Witness F P) (st : Statement P) (s : σ) (t : Transcript)
    (timing : OperationTiming) : List (Cell F P) × (Outcome ProofError (Proof F P) × Transcript × σ) :=
  let check := checkWitnessM w st timing
  match check.out with
  | .err e => (check.cells, .err e, t, s)
  | .panic => (check.cells, .panic, t, s)
  | .diverge => (check.cells, .diverge, t, s)
  | .ok () =>
    let pt := ProofTranscript.new E R t st s (some w)
    let first := commitPhaseM E w.l st timing pt.trng
    match first.out with
    | .err e => (check.cells ++ first.cells, .err e, pt.transcript, pt.ext)
    | .panic => (check.cells ++ first.cells, .panic, pt.transcript, pt.ext)
    | .diverge => (check.cells ++ first.cells, .diverge, pt.transcript, pt.ext)
    | .ok (c, nn, trng) =>
      let pt := { pt with trng := trng }
      let (xi, pt) := pt.commit E R st.params c.A c.B c.C c.D c.X c.Y
      let result := do
        let xiPowers ← xi
        respondPhase w.r st.params nn c xiPowers
      match result with
      | .ok p => (check.cells ++ first.cells, .ok p, pt.transcript, pt.ext)
      | e => (check.cells ++ first.cells ++ dropCommitments c, e, pt.transcript, pt.ext)

/-- src/proof.rs:161-168, `prove_with_rng` (and `prove`, 142-150), with what it leaves in memory. -/
def proveWithRngM (E : Env F P) (R : Rng σ) (w : Witness F P) (st : Statement P) (s : σ) (t : Transcript) :
    List (Cell F P) × (Outcome ProofError (Proof F P) × Transcript × σ) := proveInternalM E R w st s t .Constant

/-- src/proof.rs:121-128, `prove_with_rng_vartime` (and `prove_vartime`, 101-109), with what it leaves in memory. -/
def proveWithRngVartimeM (E : Env F P) (R : Rng σ) (w : Witness F P) (st : Statement P) (s : σ) (t : Transcript) :
    List (Cell F P) × (Outcome ProofError (Proof F P) × Transcript × σ) := proveInternalM E R w st s t .Variable

end Proof
end Triptych
