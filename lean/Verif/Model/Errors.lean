import Verif.Model.ProofTranscript
import Verif.Model.Statement

/-! The messages of the error types (`Display`, derived by snafu from the `display` attributes). -/

set_option autoImplicit false

namespace Triptych

/-- src/proof.rs:56-86 and src/parallel/proof.rs:56-86: the `Display` text of `ProofError`. Neither blame variant prints its
indexes. -/
def ProofError.text : ProofError → String
  | .InvalidParameter reason => "An invalid parameter was provided: " ++ reason
  | .InvalidChallenge => "A transcript challenge was invalid"
  | .FailedDeserialization => "Proof deserialization failed"
  | .FailedVerification => "Single proof verification failed"
  | .FailedBatchVerification => "Batch proof verification failed"
  | .FailedBatchVerificationWithSingleBlame _ => "Batch proof verification failed"
  | .FailedBatchVerificationWithFullBlame _ => "Batch proof verification failed"

/-- src/parameters.rs:37-45 and src/parallel/parameters.rs:38-46: the `Display` text of `ParameterError`. -/
def ParameterError.text : ParameterError → String
  | .InvalidParameter reason => "An invalid parameter was provided: " ++ reason

/-- src/statement.rs:109-117 and src/parallel/statement.rs:147-155: the `Display` text of `StatementError`. -/
def StatementError.text : StatementError → String
  | .InvalidParameter reason => "An invalid parameter was provided: " ++ reason

/-- src/witness.rs:25-33 and src/parallel/witness.rs:26-34: the `Display` text of `WitnessError`. -/
def WitnessError.text : WitnessError → String
  | .InvalidParameter reason => "An invalid parameter was provided: " ++ reason

end Triptych
