import Verif.Model.Statement
import Verif.Model.Witness

/-! # Proof transcripts (src/transcript.rs) -/
set_option autoImplicit false

namespace Triptych

/-- src/proof.rs:53-86 (and src/parallel/proof.rs, identical). -/
inductive ProofError where
  | InvalidParameter (reason : String)
  | InvalidChallenge
  | FailedDeserialization
  | FailedVerification
  | FailedBatchVerification
  | FailedBatchVerificationWithSingleBlame (index : Option Nat)
  | FailedBatchVerificationWithFullBlame (indexes : List Nat)
deriving DecidableEq, Repr

/-- src/transcript.rs:13-18, `ProofTranscript`. The mutable references to the caller's transcript and generator become
the current values of both. -/
structure ProofTranscript (F P σ : Type) where
  transcript : Transcript
  witness : Option (Witness F P)
  trng : TRng
  ext : σ

/-- src/transcript.rs:77-89 (src/parallel/transcript.rs:85-97), the loop `for _ in 0..=m` collecting the challenge powers:
`k` iterations left, current power `p`. -/
def xiPowersLoop {F : Type} [DecidableEq F] [Zero F] [Mul F] (ξ : F) : Nat → F → Outcome ProofError (List F)
  | 0, _ => .ok []
  | k + 1, p =>
    if p = 0 then .err .InvalidChallenge
    else do
      let rest ← xiPowersLoop ξ k (p * ξ)
      .ok (p :: rest)

/-- Appending a list of group elements under one label (`for item in items { append_message(label, item) }`). -/
def appendPoints {F P : Type} (E : Env F P) (label : String) (t : Transcript) (items : List P) : Transcript :=
  items.foldl (fun t item => t.appendMessage label (E.compress item)) t

/-- Appending a matrix of scalars under one label (src/transcript.rs:99-103). -/
def appendMatrix {F P : Type} (E : Env F P) (label : String) (t : Transcript) (rows : List (List F)) : Transcript :=
  rows.foldl (fun t row => row.foldl (fun t x => t.appendMessage label (E.scalarBytes x)) t) t

namespace ProofTranscript
variable {F P σ : Type}

/-- src/transcript.rs:120-135, `build_transcript_rng`. -/
def buildTranscriptRng (E : Env F P) (R : Rng σ) (t : Transcript) (witness : Option (Witness F P)) (s : σ) :
    TRng × σ :=
  match witness with
  | some w => TRng.finalize R t [("l", leBytes 4 w.l), ("r", E.scalarBytes w.r)] s
  | none => TRng.finalize R t [] s

/-- src/transcript.rs:22-43, `ProofTranscript::new`. -/
def new (E : Env F P) (R : Rng σ) (t : Transcript) (statement : Statement P) (s : σ)
    (witness : Option (Witness F P)) : ProofTranscript F P σ :=
  let t := t.appendMessage "dom-sep" TRANSCRIPT_PROOF
  let t := t.appendU64 "version" VERSION
  let t := t.appendMessage "statement" statement.hash
  let (trng, s) := buildTranscriptRng E R t witness s
  { transcript := t, witness := witness, trng := trng, ext := s }

/-- src/transcript.rs:46-94, `commit`. Also returns the updated transcript on error. The overflow check of `m + 1` against
`usize` cannot fail since `m` is a `u32`. -/
def commit [DecidableEq F] [Zero F] [One F] [Mul F] (E : Env F P) (R : Rng σ) (pt : ProofTranscript F P σ)
    (params : Params P) (A B C D : P) (X Y : List P) : Outcome ProofError (List F) × ProofTranscript F P σ :=
  let t := pt.transcript
  let t := t.appendMessage "A" (E.compress A)
  let t := t.appendMessage "B" (E.compress B)
  let t := t.appendMessage "C" (E.compress C)
  let t := t.appendMessage "D" (E.compress D)
  let t := appendPoints E "X" t X
  let t := appendPoints E "Y" t Y
  let (trng, s) := buildTranscriptRng E R t pt.witness pt.ext
  let (xiBytes, t) := t.challengeBytes E "xi" 64
  let ξ := E.scalarOfWide xiBytes
  (xiPowersLoop ξ (params.m + 1) 1, { pt with transcript := t, trng := trng, ext := s })

/-- src/transcript.rs:97-112, `response`. Returns the transcript generator; the updated transcript and generator state are
returned as well. -/
def response (E : Env F P) (R : Rng σ) (pt : ProofTranscript F P σ) (f : List (List F)) (zA zC z : F) :
    TRng × Transcript × σ :=
  let t := appendMatrix E "f" pt.transcript f
  let t := t.appendMessage "z_A" (E.scalarBytes zA)
  let t := t.appendMessage "z_C" (E.scalarBytes zC)
  let t := t.appendMessage "z" (E.scalarBytes z)
  let (trng, s) := buildTranscriptRng E R t pt.witness pt.ext
  (trng, t, s)

end ProofTranscript
end Triptych
