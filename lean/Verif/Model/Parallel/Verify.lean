import Verif.Model.Verify
import Verif.Model.Parallel.Prove

/-! # The parallel verifier (src/parallel/proof.rs:445-457, 577-884) -/
set_option autoImplicit false

namespace Triptych.Parallel
namespace Proof
variable {F P : Type} [Field F] [AddCommGroup P] [Module F P] [DecidableEq F] [DecidableEq P]

/-- src/parallel/proof.rs:650-661: the columns check of one proof. -/
def checkRows (params : Params P) (rows : List (List F)) : Outcome ProofError Unit :=
  rows.forM fun row => do
    let cols ← Outcome.ofOption (checkedSub params.n 1)
      (.InvalidParameter "proof `f` matrix column count overflowed")
    if row.length ≠ cols then .err (.InvalidParameter "proof `f` matrix did not have `n - 1` columns")
    else .ok ()

/-- src/parallel/proof.rs:629-662: the shape check of one proof. -/
def checkShape (params : Params P) (proof : Proof F P) : Outcome ProofError Unit :=
  if proof.X.length ≠ params.m then .err (.InvalidParameter "proof `X` vector length was not `m`")
  else if proof.X1.length ≠ params.m then .err (.InvalidParameter "proof `X1` vector length was not `m`")
  else if proof.Y.length ≠ params.m then .err (.InvalidParameter "proof `Y` vector length was not `m`")
  else if proof.f.length ≠ params.m then .err (.InvalidParameter "proof `f` matrix did not have `m` rows")
  else checkRows params proof.f

/-- src/parallel/proof.rs:664-687: `final_size`. -/
def finalSize (cfg : Config) (params : Params P) (batch : Nat) : Outcome ProofError Nat :=
  if batch ≤ u32Max then
    uncheckedU32 cfg (1 + 1 + params.n * params.m + 1 + 2 * params.getN + 1 + batch * (4 + 1 + 1 + 3 * params.m))
  else .err (.InvalidParameter "batch size overflowed `u32`")

/-- src/parallel/proof.rs:689-711: the points of the final check. -/
def finalPoints (statements : List (Statement P)) (proofs : List (Proof F P)) (params : Params P) (M M1 : List P) :
    List P :=
  ((proofs.zip statements).flatMap fun (p, s) => [p.A, p.B, p.C, p.D, s.J] ++ p.X ++ p.X1 ++ p.Y ++ [s.offset])
    ++ [params.G] ++ [params.G1] ++ params.CommitmentG ++ [params.CommitmentH] ++ M ++ M1 ++ [params.U]

/-- src/parallel/proof.rs:731-745: the challenge loop (see the non-parallel version). -/
def challengeLoop (E : Env F P) (params : Params P) :
    List (Statement P) → List (Proof F P) → List Transcript → Transcript →
      Outcome ProofError (List (List F) × Transcript) × List Transcript
  | st :: sts, p :: ps, t :: ts, wt =>
    let pt := ProofTranscript.new E nullRng t st () none
    let (xi, pt) := pt.commit E nullRng params p.A p.B p.C p.D p.X p.X1 p.Y
    match xi with
    | .err e => (.err e, pt.transcript :: ts)
    | .panic => (.panic, pt.transcript :: ts)
    | .diverge => (.diverge, pt.transcript :: ts)
    | .ok xiPowers =>
      let (trng, t', _) := pt.response E nullRng p.f p.zA p.zC p.z p.z1
      let (x, _) := trng.nextU64 E
      let (rest, ts') := challengeLoop E params sts ps ts (wt.appendU64 "proof" x)
      (rest >>= fun (xis, wt) => .ok (xiPowers :: xis, wt), t' :: ts')
  | _, _, ts, wt => (.ok ([], wt), ts)

/-- src/parallel/proof.rs:725-727: `transcript_weights` before any proof. -/
def weightTranscriptStart : Transcript :=
  (Transcript.new TRANSCRIPT_PARALLEL_VERIFIER_WEIGHTS).appendU64 "version" VERSION

/-- The five weights of one proof. -/
structure Weights (F : Type) where
  w1 : F
  w2 : F
  w3 : F
  w4 : F
  w5 : F
deriving DecidableEq

/-- src/parallel/proof.rs:771-783: the `while` loop drawing weights until all five are non-zero. -/
def drawWeights (E : Env F P) : Nat → TRng → Option (Weights F × TRng)
  | 0, _ => none
  | fuel + 1, r =>
    let (w1, r) := r.scalar E
    let (w2, r) := r.scalar E
    let (w3, r) := r.scalar E
    let (w4, r) := r.scalar E
    let (w5, r) := r.scalar E
    if (0 : F) ∈ [w1, w2, w3, w4, w5] then drawWeights E fuel r
    else some (⟨w1, w2, w3, w4, w5⟩, r)

/-- src/parallel/proof.rs:713-723: accumulated scalars of the final check (`H` multiplies `G1`). -/
structure Acc (F : Type) where
  scalars : List F
  G : F
  H : F
  CommitmentG : List F
  CommitmentH : F
  M : List F
  M1 : List F
  U : F
deriving DecidableEq

/-- src/parallel/proof.rs:849-861: the loop over ring positions of one proof. Returns both vectors of ring scalars and
`f_product_sum`. The zip stops at the shortest list. -/
def ringLoop (f fInverse : List (List F)) (w3 w5 : F) :
    List F → List F → List (Nat × Nat × Nat) → F → F → Outcome ProofError (List F × List F × F)
  | Ms :: Mss, M1s :: M1ss, (grayIndex, grayOld, grayNew) :: items, fProduct, fSum => do
    let inv ← idx2 fInverse grayIndex grayOld
    let new ← idx2 f grayIndex grayNew
    let fProduct := fProduct * (inv * new)
    let (rest, rest1, fSum) ← ringLoop f fInverse w3 w5 Mss M1ss items fProduct (fSum + fProduct)
    .ok ((Ms + w3 * fProduct) :: rest, (M1s + w5 * fProduct) :: rest1, fSum)
  | Mss, M1ss, _, _, fSum => .ok (Mss, M1ss, fSum)

/-- src/parallel/proof.rs:751-867: processing of one proof. -/
def processProof (E : Env F P) (cfg : Config) (params : Params P) (acc : Acc F) (trng : TRng) (proof : Proof F P)
    (xiPowers : List F) : Outcome ProofError (Acc F × TRng) := do
  let f ← reconstructF params.m proof.f xiPowers
  if f.any (fun row => decide ((0 : F) ∈ row)) then .err (.InvalidParameter "proof `f` matrix contained 0")
  else
    match drawWeights E cfg.fuel trng with
    | none => .diverge
    | some (⟨w1, w2, w3, w4, w5⟩, trng) => do
      let ξ ← idx xiPowers 1
      let G := acc.G - w3 * proof.z
      let H := acc.H - w5 * proof.z1
      let CommitmentG := addZip acc.CommitmentG (f.flatten.map fun x => w1 * x + w2 * x * (ξ - x))
      let CommitmentH := acc.CommitmentH + (w1 * proof.zA + w2 * proof.zC)
      let head ← slice xiPowers 0 params.m
      let scalars := acc.scalars ++ [-w1, -w1 * ξ, -w2 * ξ, -w2, -w4 * proof.z]
        ++ (head.map fun x => -w3 * x) ++ (head.map fun x => -w5 * x) ++ (head.map fun x => -w4 * x)
      let firsts ← f.mapM fun row => idx row 0
      let fProduct := firsts.prod
      let g ← Outcome.ofOption (GrayIterator.new params.n params.m)
        (.InvalidParameter "coefficient decomposition failed")
      let inverseFlat ← batchInvert f.flatten
      let fInverse ← chunksExact params.n inverseFlat
      let (M, M1, fSum) ← ringLoop f fInverse w3 w5 acc.M acc.M1 g.toList fProduct 0
      .ok ({ scalars := scalars ++ [-w5 * fSum], G := G, H := H, CommitmentG := CommitmentG,
             CommitmentH := CommitmentH, M := M, M1 := M1, U := acc.U + w4 * fSum }, trng)

/-- src/parallel/proof.rs:751-867: the loop over all proofs (zipped with their challenge powers). -/
def processLoop (E : Env F P) (cfg : Config) (params : Params P) :
    List (Proof F P × List F) → Acc F → TRng → Outcome ProofError (Acc F)
  | [], acc, _ => .ok acc
  | (p, xi) :: rest, acc, trng => do
    let (acc, trng) ← processProof E cfg params acc trng p xi
    processLoop E cfg params rest acc trng

/-- src/parallel/proof.rs:713-723: the initial accumulators. -/
def Acc.init (params : Params P) (M M1 : List P) : Acc F :=
  { scalars := [], G := 0, H := 0, CommitmentG := List.replicate params.CommitmentG.length 0, CommitmentH := 0,
    M := List.replicate M.length 0, M1 := List.replicate M1.length 0, U := 0 }

/-- src/parallel/proof.rs:869-876: the scalar vector of the final check. -/
def Acc.finalScalars (acc : Acc F) : List F :=
  acc.scalars ++ [acc.G] ++ [acc.H] ++ acc.CommitmentG ++ [acc.CommitmentH] ++ acc.M ++ acc.M1 ++ [acc.U]

/-- src/parallel/proof.rs:747-883: everything after the challenges are known. -/
def finalCheck (E : Env F P) (cfg : Config) (statements : List (Statement P)) (proofs : List (Proof F P))
    (params : Params P) (M M1 : List P) (xis : List (List F)) (wt : Transcript) : Outcome ProofError Unit := do
  let (trng, _) := TRng.finalize nullRng wt [] ()
  let acc ← processLoop E cfg params (proofs.zip xis) (Acc.init params M M1) trng
  let total ← msm acc.finalScalars (finalPoints statements proofs params M M1)
  if total = 0 then .ok () else .err .FailedVerification

/-- src/parallel/proof.rs:587-884, `verify_batch`. Returns the result and the transcripts afterwards. -/
def verifyBatch (E : Env F P) (cfg : Config) (statements : List (Statement P)) (proofs : List (Proof F P))
    (transcripts : List Transcript) : Outcome ProofError Unit × List Transcript :=
  if statements.length ≠ proofs.length then
    (.err (.InvalidParameter "number of statements and proofs does not match"), transcripts)
  else if statements.length ≠ transcripts.length then
    (.err (.InvalidParameter "number of statements and transcripts does not match"), transcripts)
  else
    match statements.head? with
    | none => (.ok (), transcripts)
    | some first =>
      if !allEqual (statements.map fun s => s.inputSet.hash) then
        (.err (.InvalidParameter "statement input sets do not match"), transcripts)
      else if !allEqual (statements.map fun s => s.params.hash) then
        (.err (.InvalidParameter "statement parameters do not match"), transcripts)
      else
        let M := first.inputSet.M
        let M1 := first.inputSet.M1
        let params := first.params
        match (do
            proofs.forM (checkShape params)
            let _ ← finalSize cfg params proofs.length
            .ok () : Outcome ProofError Unit) with
        | .err e => (.err e, transcripts)
        | .panic => (.panic, transcripts)
        | .diverge => (.diverge, transcripts)
        | .ok () =>
          let (challenges, transcripts) := challengeLoop E params statements proofs transcripts weightTranscriptStart
          (challenges >>= fun (xis, wt) => finalCheck E cfg statements proofs params M M1 xis wt, transcripts)

/-- src/parallel/proof.rs:450-457, `verify`: a batch of one. -/
def verify (E : Env F P) (cfg : Config) (proof : Proof F P) (statement : Statement P) (transcript : Transcript) :
    Outcome ProofError Unit × List Transcript :=
  verifyBatch E cfg [statement] [proof] [transcript]

end Proof
end Triptych.Parallel
