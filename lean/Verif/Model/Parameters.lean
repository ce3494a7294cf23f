import Verif.Model.Gray

/-! # Parameters (src/parameters.rs) -/
set_option autoImplicit false

namespace Triptych

/-- src/parameters.rs:24-34. -/
structure Params (P : Type) where
  n : Nat
  m : Nat
  G : P
  U : P
  CommitmentG : List P
  CommitmentH : P
  hash : Bytes
deriving DecidableEq

/-- src/parameters.rs:36-45. -/
inductive ParameterError where
  | InvalidParameter (reason : String)
deriving DecidableEq, Repr

namespace Params
variable {F P : Type}

/-- src/parameters.rs:100-106: `CommitmentH` from BLAKE3. -/
def commitmentH (E : Env F P) : P :=
  E.pointOfUniform (E.xof (POINT_COMMITMENT_H ++ leBytes 8 VERSION) 0 64)

/-- src/parameters.rs:108-123: the `i`-th commitment generator, from the `i`-th 64-byte block of the XOF output. -/
def commitmentG (E : Env F P) (n m i : Nat) : P :=
  E.pointOfUniform (E.xof (POINT_COMMITMENT_G ++ leBytes 8 VERSION ++ leBytes 4 n ++ leBytes 4 m) (64 * i) 64)

/-- src/parameters.rs:125-136: the transcript hashed for the parameters, up to and including the challenge. -/
def hashTranscript (E : Env F P) (n m : Nat) (G U : P) (CommitmentG : List P) (CommitmentH : P) : Transcript :=
  let t := Transcript.new TRANSCRIPT_PARAMETERS
  let t := t.appendU64 "version" VERSION
  let t := t.appendMessage "n" (leBytes 4 n)
  let t := t.appendMessage "m" (leBytes 4 m)
  let t := t.appendMessage "G" (E.compress G)
  let t := t.appendMessage "U" (E.compress U)
  let t := CommitmentG.foldl (fun t item => t.appendMessage "CommitmentG" (E.compress item)) t
  t.appendMessage "CommitmentH" (E.compress CommitmentH)

/-- src/parameters.rs:83-147, `new_with_generators`. -/
def newWithGenerators (E : Env F P) (n m : Nat) (G U : P) : Outcome ParameterError (Params P) :=
  if n < 2 then .err (.InvalidParameter "`n < 2`")
  else if m < 2 then .err (.InvalidParameter "`m < 2`")
  else if (checkedPow n m).isNone then .err (.InvalidParameter "`n**m` overflowed `u32`")
  else
    let H := commitmentH E
    match checkedMul n m with
    | none => .err (.InvalidParameter "`n*m` overflowed `u32`")
    | some nm =>
      let CG := (List.range nm).map (commitmentG E n m)
      let t := hashTranscript E n m G U CG H
      let (hash, _) := t.challengeBytes E "hash" TRANSCRIPT_HASH_BYTES
      .ok { n := n, m := m, G := G, U := U, CommitmentG := CG, CommitmentH := H, hash := hash }

/-- src/parameters.rs:56-69, `new`. -/
def new (E : Env F P) (n m : Nat) : Outcome ParameterError (Params P) :=
  let U := E.pointOfUniform (E.xof (POINT_U ++ leBytes 8 VERSION) 0 64)
  newWithGenerators E n m E.basepoint U

/-- src/parameters.rs:215-218, `get_N`: `u32::pow`. Modelled with release-build wrap-around; for parameters built by the
constructors there is no overflow (`C02`), so debug builds agree. -/
def getN (p : Params P) : Nat := p.n ^ p.m % 2 ^ 32

/-- src/parameters.rs:153-179, `commit_matrix`. Both timing branches compute the same sum. -/
def commitMatrix [SMul F P] [Zero P] [Add P] (p : Params P) (matrix : List (List F)) (mask : F)
    (timing : OperationTiming) : Outcome ParameterError P :=
  if matrix.length ≠ p.m then .err (.InvalidParameter "matrix did not have `m` rows")
  else if matrix.any (fun row => row.length ≠ p.n) then
    .err (.InvalidParameter "matrix did not have `n` columns")
  else
    let scalars := matrix.flatten ++ [mask]
    let points := p.CommitmentG ++ [p.CommitmentH]
    match timing with
    | .Constant => msm scalars points
    | .Variable => msm scalars points

end Params
end Triptych
