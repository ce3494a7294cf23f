import Verif.Model.Parameters

/-! # Input sets and statements (src/statement.rs) -/
set_option autoImplicit false

namespace Triptych

/-- src/statement.rs:15-20. -/
structure InputSet (P : Type) where
  M : List P
  hash : Bytes
deriving DecidableEq

/-- src/statement.rs:108-117. -/
inductive StatementError where
  | InvalidParameter (reason : String)
deriving DecidableEq, Repr

variable {F P : Type}

namespace InputSet

/-- src/statement.rs:68-74: the transcript hashed for an input set, before the challenge. -/
def hashTranscript (E : Env F P) (M : List P) (unpaddedSize : Nat) : Transcript :=
  let t := Transcript.new TRANSCRIPT_INPUT_SET
  let t := t.appendU64 "version" VERSION
  let t := t.appendMessage "unpadded_size" (leBytes 4 unpaddedSize)
  M.foldl (fun t item => t.appendMessage "M" (E.compress item)) t

/-- src/statement.rs:62-82, `new_internal`. -/
def newInternal (E : Env F P) (M : List P) (unpaddedSize : Nat) : Outcome StatementError (InputSet P) :=
  if unpaddedSize ≤ u32Max then
    let t := hashTranscript E M unpaddedSize
    let (hash, _) := t.challengeBytes E "hash" TRANSCRIPT_HASH_BYTES
    .ok { M := M, hash := hash }
  else .err (.InvalidParameter "unpadded size overflowed `u32`")

/-- src/statement.rs:25-27, `new`. -/
def new (E : Env F P) (M : List P) : Outcome StatementError (InputSet P) :=
  newInternal E M M.length

/-- src/statement.rs:37-58, `new_with_padding`; `Vec::resize` truncates or extends. -/
def newWithPadding (E : Env F P) (M : List P) (params : Params P) : Outcome StatementError (InputSet P) :=
  let unpaddedSize := M.length
  if unpaddedSize > params.getN then .err (.InvalidParameter "unpadded size exceeded `N`")
  else
    match M.getLast? with
    | none => .err (.InvalidParameter "`M` is empty")
    | some last =>
      let MPadded := M.take params.getN ++ List.replicate (params.getN - M.length) last
      newInternal E MPadded unpaddedSize

end InputSet

/-- src/statement.rs:99-106. -/
structure Statement (P : Type) where
  params : Params P
  inputSet : InputSet P
  J : P
  hash : Bytes
deriving DecidableEq

namespace Statement

/-- src/statement.rs:147-152: the transcript hashed for a statement, before the challenge. -/
def hashTranscript (E : Env F P) (paramsHash inputSetHash : Bytes) (J : P) : Transcript :=
  let t := Transcript.new TRANSCRIPT_STATEMENT
  let t := t.appendU64 "version" VERSION
  let t := t.appendMessage "params" paramsHash
  let t := t.appendMessage "input_set" inputSetHash
  t.appendMessage "J" (E.compress J)

/-- src/statement.rs:130-162, `new`. -/
def new [DecidableEq P] [Zero P] (E : Env F P) (params : Params P) (inputSet : InputSet P) (J : P) :
    Outcome StatementError (Statement P) :=
  if inputSet.M.length ≠ params.getN then .err (.InvalidParameter "input vector length was not `N`")
  else if (0 : P) ∈ inputSet.M then .err (.InvalidParameter "input vector contained the identity point")
  else
    let t := hashTranscript E params.hash inputSet.hash J
    let (hash, _) := t.challengeBytes E "hash" TRANSCRIPT_HASH_BYTES
    .ok { params := params, inputSet := inputSet, J := J, hash := hash }

end Statement
end Triptych
