import Verif.Model.ProofTranscript
import Verif.Model.Parallel.Statement
import Verif.Model.Parallel.Witness

/-! # Parallel proof transcripts (src/parallel/transcript.rs) -/
set_option autoImplicit false

namespace Triptych.Parallel

/-- src/parallel/transcript.rs:17-22, `ProofTranscript`. -/
structure ProofTranscript (F P σ : Type) where
  transcript : Transcript
  witness : Option (Witness F P)
  trng : TRng
  ext : σ

namespace ProofTranscript
variable {F P σ : Type}

/-- src/parallel/transcript.rs:136-151, `build_transcript_rng`. -/
def buildTranscriptRng (E : Env F P) (R : Rng σ) (t : Transcript) (witness : Option (Witness F P)) (s : σ) :
    TRng × σ :=
  match witness with
  | some w =>
    TRng.finalize R t [("l", leBytes 4 w.l), ("r", E.scalarBytes w.r), ("r1", E.scalarBytes w.r1)] s
  | none => TRng.finalize R t [] s

/-- src/parallel/transcript.rs:26-47, `ProofTranscript::new`. -/
def new (E : Env F P) (R : Rng σ) (t : Transcript) (statement : Statement P) (s : σ)
    (witness : Option (Witness F P)) : ProofTranscript F P σ :=
  let t := t.appendMessage "dom-sep" TRANSCRIPT_PARALLEL_PROOF
  let t := t.appendU64 "version" VERSION
  let t := t.appendMessage "statement" statement.hash
  let (trng, s) := buildTranscriptRng E R t witness s
  { transcript := t, witness := witness, trng := trng, ext := s }

/-- src/parallel/transcript.rs:50-102, `commit`. -/
def commit [DecidableEq F] [Zero F] [One F] [Mul F] (E : Env F P) (R : Rng σ) (pt : ProofTranscript F P σ)
    (params : Params P) (A B C D : P) (X X1 Y : List P) : Outcome ProofError (List F) × ProofTranscript F P σ :=
  let t := pt.transcript
  let t := t.appendMessage "A" (E.compress A)
  let t := t.appendMessage "B" (E.compress B)
  let t := t.appendMessage "C" (E.compress C)
  let t := t.appendMessage "D" (E.compress D)
  let t := appendPoints E "X" t X
  let t := appendPoints E "X1" t X1
  let t := appendPoints E "Y" t Y
  let (trng, s) := buildTranscriptRng E R t pt.witness pt.ext
  let (xiBytes, t) := t.challengeBytes E "xi" 64
  let ξ := E.scalarOfWide xiBytes
  (xiPowersLoop ξ (params.m + 1) 1, { pt with transcript := t, trng := trng, ext := s })

/-- src/parallel/transcript.rs:105-128, `response`. -/
def response (E : Env F P) (R : Rng σ) (pt : ProofTranscript F P σ) (f : List (List F)) (zA zC z z1 : F) :
    TRng × Transcript × σ :=
  let t := appendMatrix E "f" pt.transcript f
  let t := t.appendMessage "z_A" (E.scalarBytes zA)
  let t := t.appendMessage "z_C" (E.scalarBytes zC)
  let t := t.appendMessage "z" (E.scalarBytes z)
  let t := t.appendMessage "z1" (E.scalarBytes z1)
  let (trng, s) := buildTranscriptRng E R t pt.witness pt.ext
  (trng, t, s)

end ProofTranscript
end Triptych.Parallel
