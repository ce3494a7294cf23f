import Verif.Model.Parameters

/-! # Parallel parameters (src/parallel/parameters.rs) -/
set_option autoImplicit false

namespace Triptych.Parallel

/-- src/parallel/parameters.rs:26-35. -/
structure Params (P : Type) where
  n : Nat
  m : Nat
  G : P
  G1 : P
  U : P
  CommitmentG : List P
  CommitmentH : P
  hash : Bytes
deriving DecidableEq

namespace Params
variable {F P : Type}

/-- src/parallel/parameters.rs:117-123: `CommitmentH` from BLAKE3. -/
def commitmentH (E : Env F P) : P :=
  E.pointOfUniform (E.xof (POINT_COMMITMENT_H ++ leBytes 8 VERSION) 0 64)

/-- src/parallel/parameters.rs:125-140: the `i`-th commitment generator, from the `i`-th 64-byte block of XOF output. -/
def commitmentG (E : Env F P) (n m i : Nat) : P :=
  E.pointOfUniform (E.xof (POINT_COMMITMENT_G ++ leBytes 8 VERSION ++ leBytes 4 n ++ leBytes 4 m) (64 * i) 64)

/-- src/parallel/parameters.rs:142-153: the transcript hashed for the parameters, before the challenge. -/
def hashTranscript (E : Env F P) (n m : Nat) (G G1 U : P) (CommitmentG : List P) (CommitmentH : P) : Transcript :=
  let t := Transcript.new TRANSCRIPT_PARALLEL_PARAMETERS
  let t := t.appendU64 "version" VERSION
  let t := t.appendMessage "n" (leBytes 4 n)
  let t := t.appendMessage "m" (leBytes 4 m)
  let t := t.appendMessage "G" (E.compress G)
  let t := t.appendMessage "G1" (E.compress G1)
  let t := t.appendMessage "U" (E.compress U)
  let t := CommitmentG.foldl (fun t item => t.appendMessage "CommitmentG" (E.compress item)) t
  t.appendMessage "CommitmentH" (E.compress CommitmentH)

/-- src/parallel/parameters.rs:93-165, `new_with_generators`. -/
def newWithGenerators (E : Env F P) (n m : Nat) (G G1 U : P) : Outcome ParameterError (Params P) :=
  if n < 2 then .err (.InvalidParameter "`n < 2`")
  else if m < 2 then .err (.InvalidParameter "`m < 2`")
  else if (checkedPow n m).isNone then .err (.InvalidParameter "`n**m` overflowed `u32`")
  else
    let H := commitmentH E
    match checkedMul n m with
    | none => .err (.InvalidParameter "`n*m` overflowed `u32`")
    | some nm =>
      let CG := (List.range nm).map (commitmentG E n m)
      let t := hashTranscript E n m G G1 U CG H
      let (hash, _) := t.challengeBytes E "hash" TRANSCRIPT_HASH_BYTES
      .ok { n := n, m := m, G := G, G1 := G1, U := U, CommitmentG := CG, CommitmentH := H, hash := hash }

/-- src/parallel/parameters.rs:57-79, `new`. -/
def new (E : Env F P) (n m : Nat) : Outcome ParameterError (Params P) :=
  let G1 := E.pointOfUniform (E.xof (POINT_G1 ++ leBytes 8 VERSION) 0 64)
  let U := E.pointOfUniform (E.xof (POINT_U ++ leBytes 8 VERSION) 0 64)
  newWithGenerators E n m E.basepoint G1 U

/-- src/parallel/parameters.rs:241-244, `get_N`, with release-build wrap-around (see the non-parallel version). -/
def getN (p : Params P) : Nat := p.n ^ p.m % 2 ^ 32

/-- src/parallel/parameters.rs:171-197, `commit_matrix`. Both timing branches compute the same sum. -/
def commitMatrix [SMul F P] [Zero P] [Add P] (p : Params P) (matrix : List (List F)) (mask : F)
    (timing : OperationTiming) : Outcome ParameterError P :=
  if matrix.length ≠ p.m then .err (.InvalidParameter "matrix did not have `m` rows")
  else if matrix.any (fun row => row.length ≠ p.n) then
    .err (.InvalidParameter "matrix did not have `n` columns")
  else
    let scalars := matrix.flatten ++ [mask]
    let points := p.CommitmentG ++ [p.CommitmentH]
    match timing with
    | .Constant => msm scalars points
    | .Variable => msm scalars points

end Params
end Triptych.Parallel
