import Verif.Model.Prove

/-! # The verifier (src/proof.rs:405-417, 537-810) -/
set_option autoImplicit false

namespace Triptych

/-- Build and platform parameters: whether integer overflow checks are compiled in, the largest `usize`, and a bound on
the iterations of the weight-drawing `while` loop (running out of it is the outcome `diverge`). -/
structure Config where
  overflowChecks : Bool
  usizeMax : Nat
  fuel : Nat
deriving DecidableEq, Repr

section Shared
variable {F P : Type}

/-- `itertools::Itertools::all_equal`. -/
def allEqual {α : Type} [DecidableEq α] : List α → Bool
  | [] => true
  | x :: xs => xs.all fun y => decide (y = x)

/-- Unchecked `u32` arithmetic result `x`: panics on overflow if overflow checks are on, wraps otherwise. -/
def uncheckedU32 (cfg : Config) (x : Nat) : Outcome ProofError Nat :=
  if x ≤ u32Max then .ok x
  else if cfg.overflowChecks then .panic
  else .ok (x % 2 ^ 32)

/-- `dest.iter_mut().zip(src)` with `*d += s`: entries beyond the shorter list are left alone. -/
def addZip [Add F] : List F → List F → List F
  | d :: ds, s :: ss => (d + s) :: addZip ds ss
  | ds, [] => ds
  | [], _ => []

/-- `slice.chunks_exact(n).collect()`; panics if `n` is zero. -/
def chunksExact {ε α : Type} (n : Nat) (l : List α) : Outcome ε (List (List α)) :=
  if n = 0 then .panic
  else .ok ((List.range (l.length / n)).map fun i => (l.drop (i * n)).take n)

/-- dalek `Scalar::batch_invert`: inverts every element; with a zero among the inputs the result is meaningless
(debug builds of dalek panic), which is modelled as a panic. -/
def batchInvert [Field F] [DecidableEq F] (l : List F) : Outcome ProofError (List F) :=
  if (0 : F) ∈ l then .panic else .ok (l.map fun x => x⁻¹)

/-- src/proof.rs:697-704 (parallel: 753-760): reconstruct column 0 of `f`. -/
def reconstructF [Field F] (m : Nat) (proofF : List (List F)) (xiPowers : List F) :
    Outcome ProofError (List (List F)) :=
  (List.range m).mapM fun j => do
    let ξ ← idx xiPowers 1
    let row ← idx proofF j
    .ok ((ξ - row.sum) :: row)

end Shared

namespace Proof
variable {F P : Type} [Field F] [AddCommGroup P] [Module F P] [DecidableEq F] [DecidableEq P]

/-- src/proof.rs:605-615: the columns check of one proof. -/
def checkRows (params : Params P) (rows : List (List F)) : Outcome ProofError Unit :=
  rows.forM fun row => do
    let cols ← Outcome.ofOption (checkedSub params.n 1)
      (.InvalidParameter "proof `f` matrix column count overflowed")
    if row.length ≠ cols then .err (.InvalidParameter "proof `f` matrix did not have `n - 1` columns")
    else .ok ()

/-- src/proof.rs:589-616: the shape check of one proof. -/
def checkShape (params : Params P) (proof : Proof F P) : Outcome ProofError Unit :=
  if proof.X.length ≠ params.m then .err (.InvalidParameter "proof `X` vector length was not `m`")
  else if proof.Y.length ≠ params.m then .err (.InvalidParameter "proof `Y` vector length was not `m`")
  else if proof.f.length ≠ params.m then .err (.InvalidParameter "proof `f` matrix did not have `m` rows")
  else checkRows params proof.f

/-- src/proof.rs:618-639: `final_size`. All summands are non-negative, so some intermediate result overflows exactly when
the total does. Conversion to `usize` cannot fail on 32- and 64-bit platforms. -/
def finalSize (cfg : Config) (params : Params P) (batch : Nat) : Outcome ProofError Nat :=
  if batch ≤ u32Max then
    uncheckedU32 cfg (1 + params.n * params.m + 1 + params.getN + 1 + batch * (4 + 1 + 2 * params.m))
  else .err (.InvalidParameter "batch size overflowed `u32`")

/-- src/proof.rs:641-659: the points of the final check. -/
def finalPoints (statements : List (Statement P)) (proofs : List (Proof F P)) (params : Params P) (M : List P) :
    List P :=
  ((proofs.zip statements).flatMap fun (p, s) => [p.A, p.B, p.C, p.D, s.J] ++ p.X ++ p.Y)
    ++ [params.G] ++ params.CommitmentG ++ [params.CommitmentH] ++ M ++ [params.U]

/-- src/proof.rs:677-689: the challenge loop. `wt` is `transcript_weights`. Returns the challenge powers of all proofs and the
final weight transcript, and the callers' transcripts after the loop (also when it stops early). -/
def challengeLoop (E : Env F P) (params : Params P) :
    List (Statement P) → List (Proof F P) → List Transcript → Transcript →
      Outcome ProofError (List (List F) × Transcript) × List Transcript
  | st :: sts, p :: ps, t :: ts, wt =>
    let pt := ProofTranscript.new E nullRng t st () none
    let (xi, pt) := pt.commit E nullRng params p.A p.B p.C p.D p.X p.Y
    match xi with
    | .err e => (.err e, pt.transcript :: ts)
    | .panic => (.panic, pt.transcript :: ts)
    | .diverge => (.diverge, pt.transcript :: ts)
    | .ok xiPowers =>
      let (trng, t', _) := pt.response E nullRng p.f p.zA p.zC p.z
      let (x, _) := trng.nextU64 E
      let (rest, ts') := challengeLoop E params sts ps ts (wt.appendU64 "proof" x)
      (rest >>= fun (xis, wt) => .ok (xiPowers :: xis, wt), t' :: ts')
  | _, _, ts, wt => (.ok ([], wt), ts)

/-- src/proof.rs:671-673: `transcript_weights` before any proof. -/
def weightTranscriptStart : Transcript :=
  (Transcript.new TRANSCRIPT_VERIFIER_WEIGHTS).appendU64 "version" VERSION

/-- The four weights of one proof. -/
structure Weights (F : Type) where
  w1 : F
  w2 : F
  w3 : F
  w4 : F
deriving DecidableEq

/-- src/proof.rs:715-725: the `while` loop drawing weights until all four are non-zero; `none` when out of fuel. -/
def drawWeights (E : Env F P) : Nat → TRng → Option (Weights F × TRng)
  | 0, _ => none
  | fuel + 1, r =>
    let (w1, r) := r.scalar E
    let (w2, r) := r.scalar E
    let (w3, r) := r.scalar E
    let (w4, r) := r.scalar E
    if w1 = 0 ∨ w2 = 0 ∨ w3 = 0 ∨ w4 = 0 then drawWeights E fuel r
    else some (⟨w1, w2, w3, w4⟩, r)

/-- src/proof.rs:661-669: accumulated scalars of the final check. -/
structure Acc (F : Type) where
  scalars : List F
  G : F
  CommitmentG : List F
  CommitmentH : F
  M : List F
  U : F
deriving DecidableEq

/-- src/proof.rs:783-791: the loop over ring positions of one proof: updates `f_product`, the ring scalars and
`U_scalar_proof`. The zip stops at the shorter of both lists. Returns the ring scalars and `U_scalar_proof`. -/
def ringLoop (f fInverse : List (List F)) (w3 : F) :
    List F → List (Nat × Nat × Nat) → F → F → Outcome ProofError (List F × F)
  | Ms :: Mss, (grayIndex, grayOld, grayNew) :: items, fProduct, Usp => do
    let inv ← idx2 fInverse grayIndex grayOld
    let new ← idx2 f grayIndex grayNew
    let fProduct := fProduct * (inv * new)
    let (rest, Usp) ← ringLoop f fInverse w3 Mss items fProduct (Usp + fProduct)
    .ok ((Ms + w3 * fProduct) :: rest, Usp)
  | Mss, _, _, Usp => .ok (Mss, Usp)

/-- src/proof.rs:695-795: processing of one proof. -/
def processProof (E : Env F P) (cfg : Config) (params : Params P) (acc : Acc F) (trng : TRng) (proof : Proof F P)
    (xiPowers : List F) : Outcome ProofError (Acc F × TRng) := do
  let f ← reconstructF params.m proof.f xiPowers
  if f.any (fun row => decide ((0 : F) ∈ row)) then .err (.InvalidParameter "proof `f` matrix contained 0")
  else
    match drawWeights E cfg.fuel trng with
    | none => .diverge
    | some (⟨w1, w2, w3, w4⟩, trng) => do
      let ξ ← idx xiPowers 1
      let G := acc.G - w3 * proof.z
      let CommitmentG := addZip acc.CommitmentG (f.flatten.map fun x => w1 * x + w2 * x * (ξ - x))
      let CommitmentH := acc.CommitmentH + (w1 * proof.zA + w2 * proof.zC)
      let head ← slice xiPowers 0 params.m
      let scalars := acc.scalars ++ [-w1, -w1 * ξ, -w2 * ξ, -w2, -w4 * proof.z]
        ++ (head.map fun x => -w3 * x) ++ (head.map fun x => -w4 * x)
      let firsts ← f.mapM fun row => idx row 0
      let fProduct := firsts.prod
      let g ← Outcome.ofOption (GrayIterator.new params.n params.m)
        (.InvalidParameter "coefficient decomposition failed")
      let inverseFlat ← batchInvert f.flatten
      let fInverse ← chunksExact params.n inverseFlat
      let (M, Usp) ← ringLoop f fInverse w3 acc.M g.toList fProduct 0
      .ok ({ scalars := scalars, G := G, CommitmentG := CommitmentG, CommitmentH := CommitmentH, M := M,
             U := acc.U + w4 * Usp }, trng)

/-- src/proof.rs:694-795: the loop over all proofs (zipped with their challenge powers). -/
def processLoop (E : Env F P) (cfg : Config) (params : Params P) :
    List (Proof F P × List F) → Acc F → TRng → Outcome ProofError (Acc F)
  | [], acc, _ => .ok acc
  | (p, xi) :: rest, acc, trng => do
    let (acc, trng) ← processProof E cfg params acc trng p xi
    processLoop E cfg params rest acc trng

/-- src/proof.rs:661-669: the initial accumulators. -/
def Acc.init (params : Params P) (M : List P) : Acc F :=
  { scalars := [], G := 0, CommitmentG := List.replicate params.CommitmentG.length 0, CommitmentH := 0,
    M := List.replicate M.length 0, U := 0 }

/-- src/proof.rs:797-802: the scalar vector of the final check. -/
def Acc.finalScalars (acc : Acc F) : List F :=
  acc.scalars ++ [acc.G] ++ acc.CommitmentG ++ [acc.CommitmentH] ++ acc.M ++ [acc.U]

/-- src/proof.rs:691-809: everything after the challenges are known. -/
def finalCheck (E : Env F P) (cfg : Config) (statements : List (Statement P)) (proofs : List (Proof F P))
    (params : Params P) (M : List P) (xis : List (List F)) (wt : Transcript) : Outcome ProofError Unit := do
  let (trng, _) := TRng.finalize nullRng wt [] ()
  let acc ← processLoop E cfg params (proofs.zip xis) (Acc.init params M) trng
  let total ← msm acc.finalScalars (finalPoints statements proofs params M)
  if total = 0 then .ok () else .err .FailedVerification

/-- src/proof.rs:547-810, `verify_batch`. Returns the result and the transcripts afterwards. -/
def verifyBatch (E : Env F P) (cfg : Config) (statements : List (Statement P)) (proofs : List (Proof F P))
    (transcripts : List Transcript) : Outcome ProofError Unit × List Transcript :=
  if statements.length ≠ proofs.length then
    (.err (.InvalidParameter "number of statements and proof does not match"), transcripts)
  else if statements.length ≠ transcripts.length then
    (.err (.InvalidParameter "number of statements and transcripts does not match"), transcripts)
  else
    match statements.head? with
    | none => (.ok (), transcripts)
    | some first =>
      if !allEqual (statements.map fun s => s.inputSet.hash) then
        (.err (.InvalidParameter "statement input sets do not match"), transcripts)
      else if !allEqual (statements.map fun s => s.params.hash) then
        (.err (.InvalidParameter "statement parameters do not match"), transcripts)
      else
        let M := first.inputSet.M
        let params := first.params
        match (do
            proofs.forM (checkShape params)
            let _ ← finalSize cfg params proofs.length
            .ok () : Outcome ProofError Unit) with
        | .err e => (.err e, transcripts)
        | .panic => (.panic, transcripts)
        | .diverge => (.diverge, transcripts)
        | .ok () =>
          let (challenges, transcripts) := challengeLoop E params statements proofs transcripts weightTranscriptStart
          (challenges >>= fun (xis, wt) => finalCheck E cfg statements proofs params M xis wt, transcripts)

/-- src/proof.rs:410-417, `verify`: a batch of one. -/
def verify (E : Env F P) (cfg : Config) (proof : Proof F P) (statement : Statement P) (transcript : Transcript) :
    Outcome ProofError Unit × List Transcript :=
  verifyBatch E cfg [statement] [proof] [transcript]

end Proof
end Triptych
