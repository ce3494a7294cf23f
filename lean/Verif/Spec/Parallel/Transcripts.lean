import Verif.Spec.Transcripts

/-! # Specification: the exact transcripts of the parallel protocol -/
set_option autoImplicit false

namespace Triptych.Parallel.Spec
open Triptych.Spec (versionBytes points scalars weightTranscript weightScalar)
variable {F P : Type}

/-- The transcript whose challenge is the hash of a parameter set. -/
def paramsTranscript (E : Env F P) (n m : ℕ) (G G1 U : P) (CG : List P) (H : P) : Transcript :=
  [.append "dom-sep" (asciiBytes "Parallel Triptych parameters"), .append "version" versionBytes,
    .append "n" (leBytes 4 n), .append "m" (leBytes 4 m), .append "G" (E.compress G), .append "G1" (E.compress G1),
    .append "U" (E.compress U)]
    ++ points E "CommitmentG" CG ++ [.append "CommitmentH" (E.compress H), .challenge "hash" 32]

/-- The transcript whose challenge is the hash of an input set. -/
def inputSetTranscript (E : Env F P) (M M1 : List P) (unpaddedSize : ℕ) : Transcript :=
  [.append "dom-sep" (asciiBytes "Parallel Triptych input set"), .append "version" versionBytes,
    .append "unpadded_size" (leBytes 4 unpaddedSize)] ++ points E "M" M ++ points E "M1" M1 ++ [.challenge "hash" 32]

/-- The transcript whose challenge is the hash of a statement. -/
def statementTranscript (E : Env F P) (paramsHash inputSetHash : Bytes) (offset J : P) : Transcript :=
  [.append "dom-sep" (asciiBytes "Parallel Triptych statement"), .append "version" versionBytes,
    .append "params" paramsHash, .append "input_set" inputSetHash, .append "offset" (E.compress offset),
    .append "J" (E.compress J), .challenge "hash" 32]

/-- The transcript from which prover and verifier derive the challenge of a proof. -/
def challengeTranscript (E : Env F P) (t : Transcript) (stHash : Bytes) (A B C D : P) (X X1 Y : List P) : Transcript :=
  t ++ [.append "dom-sep" (asciiBytes "Parallel Triptych proof"), .append "version" versionBytes,
    .append "statement" stHash,
    .append "A" (E.compress A), .append "B" (E.compress B), .append "C" (E.compress C), .append "D" (E.compress D)]
    ++ points E "X" X ++ points E "X1" X1 ++ points E "Y" Y ++ [.challenge "xi" 64]

/-- The challenge of a proof verified with transcript `t`. -/
def challenge (E : Env F P) (t : Transcript) (st : Statement P) (p : Proof F P) : F :=
  E.scalarOfWide (E.challenge (challengeTranscript E t st.hash p.A p.B p.C p.D p.X p.X1 p.Y))

/-- The transcript after the responses of the proof have been appended. -/
def responseTranscript (E : Env F P) (t : Transcript) (st : Statement P) (p : Proof F P) : Transcript :=
  challengeTranscript E t st.hash p.A p.B p.C p.D p.X p.X1 p.Y ++ scalars E "f" p.f.flatten
    ++ [.append "z_A" (E.scalarBytes p.zA), .append "z_C" (E.scalarBytes p.zC), .append "z" (E.scalarBytes p.z),
      .append "z1" (E.scalarBytes p.z1)]

/-- The 64-bit number a proof contributes to the weight derivation. -/
def weightSeed (E : Env F P) (t : Transcript) (st : Statement P) (p : Proof F P) : ℕ :=
  leNat (E.prf ⟨responseTranscript E t st p, [], List.replicate 32 0, []⟩ 8)

/-- The challenges of all proofs of a batch. -/
def challenges (E : Env F P) (sts : List (Statement P)) (ps : List (Proof F P)) (ts : List Transcript) : List F :=
  (sts.zip (ps.zip ts)).map fun x => challenge E x.2.2 x.1 x.2.1

/-- The weight seeds of all proofs of a batch. -/
def seeds (E : Env F P) (sts : List (Statement P)) (ps : List (Proof F P)) (ts : List Transcript) : List ℕ :=
  (sts.zip (ps.zip ts)).map fun x => weightSeed E x.2.2 x.1 x.2.1

/-- The transcripts of a batch after complete verification. -/
def responseTranscripts (E : Env F P) (sts : List (Statement P)) (ps : List (Proof F P)) (ts : List Transcript) :
    List Transcript :=
  (sts.zip (ps.zip ts)).map fun x => responseTranscript E x.2.2 x.1 x.2.1

/-- The `q`-th quintuple of scalars drawn from the weight generator. -/
def weightQuint (E : Env F P) (wt : Transcript) (q : ℕ) : Proof.Weights F :=
  ⟨weightScalar E wt (5 * q), weightScalar E wt (5 * q + 1), weightScalar E wt (5 * q + 2),
    weightScalar E wt (5 * q + 3), weightScalar E wt (5 * q + 4)⟩

/-- A quintuple is usable if none of its entries is zero. -/
def usable [DecidableEq F] [Zero F] (w : Proof.Weights F) : Bool :=
  decide (w.w1 ≠ 0 ∧ w.w2 ≠ 0 ∧ w.w3 ≠ 0 ∧ w.w4 ≠ 0 ∧ w.w5 ≠ 0)

/-- The usable quintuples among the first `q` drawn, in order. -/
def usableQuints [DecidableEq F] [Zero F] (E : Env F P) (wt : Transcript) (q : ℕ) : List (Proof.Weights F) :=
  ((List.range q).map (weightQuint E wt)).filter usable

/-- `ws` are the weights of a batch: the first usable quintuples drawn from the weight generator, one per proof. -/
def IsWeights [DecidableEq F] [Zero F] (E : Env F P) (sts : List (Statement P)) (ps : List (Proof F P))
    (ts : List Transcript) (ws : List (Proof.Weights F)) : Prop :=
  ws.length = ps.length ∧
    ∃ q, ws = usableQuints E (weightTranscript "Parallel Triptych verifier weights" (seeds E sts ps ts)) q

/-- Among the first `fuel` quintuples drawn there is a usable one for every proof. -/
def EnoughFuel [DecidableEq F] [Zero F] (E : Env F P) (sts : List (Statement P)) (ps : List (Proof F P))
    (ts : List Transcript) (fuel : ℕ) : Prop :=
  ps.length ≤ (usableQuints E (weightTranscript "Parallel Triptych verifier weights" (seeds E sts ps ts)) fuel).length

end Triptych.Parallel.Spec
