import Verif.Model.Statement
import Verif.Model.Parallel.Parameters

/-! # Parallel input sets and statements (src/parallel/statement.rs) -/
set_option autoImplicit false

namespace Triptych.Parallel

/-- src/parallel/statement.rs:17-21. -/
structure InputSet (P : Type) where
  M : List P
  M1 : List P
  hash : Bytes
deriving DecidableEq

variable {F P : Type}

namespace InputSet

/-- src/parallel/statement.rs:95-104: the transcript hashed for an input set, before the challenge. -/
def hashTranscript (E : Env F P) (M M1 : List P) (unpaddedSize : Nat) : Transcript :=
  let t := Transcript.new TRANSCRIPT_PARALLEL_INPUT_SET
  let t := t.appendU64 "version" VERSION
  let t := t.appendMessage "unpadded_size" (leBytes 4 unpaddedSize)
  let t := M.foldl (fun t item => t.appendMessage "M" (E.compress item)) t
  M1.foldl (fun t item => t.appendMessage "M1" (E.compress item)) t

/-- src/parallel/statement.rs:89-113, `new_internal`. -/
def newInternal (E : Env F P) (M M1 : List P) (unpaddedSize : Nat) : Outcome StatementError (InputSet P) :=
  if unpaddedSize ≤ u32Max then
    let t := hashTranscript E M M1 unpaddedSize
    let (hash, _) := t.challengeBytes E "hash" TRANSCRIPT_HASH_BYTES
    .ok { M := M, M1 := M1, hash := hash }
  else .err (.InvalidParameter "unpadded size overflowed `u32`")

/-- src/parallel/statement.rs:27-36, `new`. -/
def new (E : Env F P) (M M1 : List P) : Outcome StatementError (InputSet P) :=
  if M.length ≠ M1.length then .err (.InvalidParameter "`M` and `M1` did not have matching lengths")
  else newInternal E M M1 M.length

/-- src/parallel/statement.rs:48-85, `new_with_padding`; `Vec::resize` truncates or extends. -/
def newWithPadding (E : Env F P) (M M1 : List P) (params : Params P) : Outcome StatementError (InputSet P) :=
  if M.length ≠ M1.length then .err (.InvalidParameter "`M` and `M1` did not have matching lengths")
  else
    let unpaddedSize := M.length
    if unpaddedSize > params.getN then .err (.InvalidParameter "unpadded size exceeded `N`")
    else
      match M.getLast? with
      | none => .err (.InvalidParameter "`M` was empty")
      | some last =>
        match M1.getLast? with
        | none => .err (.InvalidParameter "`M1` was empty")
        | some last1 =>
          let MPadded := M.take params.getN ++ List.replicate (params.getN - M.length) last
          let M1Padded := M1.take params.getN ++ List.replicate (params.getN - M1.length) last1
          newInternal E MPadded M1Padded unpaddedSize

end InputSet

/-- src/parallel/statement.rs:138-144. -/
structure Statement (P : Type) where
  params : Params P
  inputSet : InputSet P
  offset : P
  J : P
  hash : Bytes
deriving DecidableEq

namespace Statement

/-- src/parallel/statement.rs:197-203: the transcript hashed for a statement, before the challenge. -/
def hashTranscript (E : Env F P) (paramsHash inputSetHash : Bytes) (offset J : P) : Transcript :=
  let t := Transcript.new TRANSCRIPT_PARALLEL_STATEMENT
  let t := t.appendU64 "version" VERSION
  let t := t.appendMessage "params" paramsHash
  let t := t.appendMessage "input_set" inputSetHash
  let t := t.appendMessage "offset" (E.compress offset)
  t.appendMessage "J" (E.compress J)

/-- src/parallel/statement.rs:168-214, `new`. -/
def new [DecidableEq P] [AddCommGroup P] (E : Env F P) (params : Params P) (inputSet : InputSet P) (offset J : P) :
    Outcome StatementError (Statement P) :=
  if inputSet.M.length ≠ params.getN then .err (.InvalidParameter "input vector size was not `N`")
  else if (0 : P) ∈ inputSet.M then .err (.InvalidParameter "input vector contained the identity point")
  else if (0 : P) ∈ inputSet.M1.map (fun p => p - offset) then
    .err (.InvalidParameter "input vector contained the identity point")
  else
    let t := hashTranscript E params.hash inputSet.hash offset J
    let (hash, _) := t.challengeBytes E "hash" TRANSCRIPT_HASH_BYTES
    .ok { params := params, inputSet := inputSet, offset := offset, J := J, hash := hash }

end Statement
end Triptych.Parallel
