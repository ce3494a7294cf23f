import Verif.Model.Verify
import Verif.Model.Parallel.Verify

/-! # Specification: the exact transcripts of the protocol, written out in full -/
set_option autoImplicit false

namespace Triptych.Spec
variable {F P : Type}

/-- The version number 0 as eight bytes. -/
def versionBytes : Bytes := [0, 0, 0, 0, 0, 0, 0, 0]

/-- One `append` per group element. -/
def points (E : Env F P) (label : String) (l : List P) : Transcript := l.map fun p => .append label (E.compress p)

/-- One `append` per scalar. -/
def scalars (E : Env F P) (label : String) (l : List F) : Transcript := l.map fun x => .append label (E.scalarBytes x)

/-- The transcript whose challenge is the hash of a parameter set. -/
def paramsTranscript (E : Env F P) (n m : ℕ) (G U : P) (CG : List P) (H : P) : Transcript :=
  [.append "dom-sep" (asciiBytes "Triptych parameters"), .append "version" versionBytes,
    .append "n" (leBytes 4 n), .append "m" (leBytes 4 m), .append "G" (E.compress G), .append "U" (E.compress U)]
    ++ points E "CommitmentG" CG ++ [.append "CommitmentH" (E.compress H), .challenge "hash" 32]

/-- The transcript whose challenge is the hash of an input set. -/
def inputSetTranscript (E : Env F P) (M : List P) (unpaddedSize : ℕ) : Transcript :=
  [.append "dom-sep" (asciiBytes "Triptych input set"), .append "version" versionBytes,
    .append "unpadded_size" (leBytes 4 unpaddedSize)] ++ points E "M" M ++ [.challenge "hash" 32]

/-- The transcript whose challenge is the hash of a statement. -/
def statementTranscript (E : Env F P) (paramsHash inputSetHash : Bytes) (J : P) : Transcript :=
  [.append "dom-sep" (asciiBytes "Triptych statement"), .append "version" versionBytes,
    .append "params" paramsHash, .append "input_set" inputSetHash, .append "J" (E.compress J), .challenge "hash" 32]

/-- The transcript from which prover and verifier derive the challenge of a proof. -/
def challengeTranscript (E : Env F P) (t : Transcript) (stHash : Bytes) (A B C D : P) (X Y : List P) : Transcript :=
  t ++ [.append "dom-sep" (asciiBytes "Triptych proof"), .append "version" versionBytes, .append "statement" stHash,
    .append "A" (E.compress A), .append "B" (E.compress B), .append "C" (E.compress C), .append "D" (E.compress D)]
    ++ points E "X" X ++ points E "Y" Y ++ [.challenge "xi" 64]

/-- The challenge of a proof verified with transcript `t`. -/
def challenge (E : Env F P) (t : Transcript) (st : Statement P) (p : Proof F P) : F :=
  E.scalarOfWide (E.challenge (challengeTranscript E t st.hash p.A p.B p.C p.D p.X p.Y))

/-- The transcript after the responses of the proof have been appended. -/
def responseTranscript (E : Env F P) (t : Transcript) (st : Statement P) (p : Proof F P) : Transcript :=
  challengeTranscript E t st.hash p.A p.B p.C p.D p.X p.Y ++ scalars E "f" p.f.flatten
    ++ [.append "z_A" (E.scalarBytes p.zA), .append "z_C" (E.scalarBytes p.zC), .append "z" (E.scalarBytes p.z)]

/-- The 64-bit number a proof contributes to the weight derivation: eight bytes of a transcript generator without
external randomness. -/
def weightSeed (E : Env F P) (t : Transcript) (st : Statement P) (p : Proof F P) : ℕ :=
  leNat (E.prf ⟨responseTranscript E t st p, [], List.replicate 32 0, []⟩ 8)

/-- The challenges of all proofs of a batch. -/
def challenges (E : Env F P) (sts : List (Statement P)) (ps : List (Proof F P)) (ts : List Transcript) : List F :=
  (sts.zip (ps.zip ts)).map fun x => challenge E x.2.2 x.1 x.2.1

/-- The weight seeds of all proofs of a batch. -/
def seeds (E : Env F P) (sts : List (Statement P)) (ps : List (Proof F P)) (ts : List Transcript) : List ℕ :=
  (sts.zip (ps.zip ts)).map fun x => weightSeed E x.2.2 x.1 x.2.1

/-- The transcripts of a batch after complete verification. -/
def responseTranscripts (E : Env F P) (sts : List (Statement P)) (ps : List (Proof F P)) (ts : List Transcript) :
    List Transcript :=
  (sts.zip (ps.zip ts)).map fun x => responseTranscript E x.2.2 x.1 x.2.1

/-- The weight transcript of a batch. -/
def weightTranscript (label : String) (seeds : List ℕ) : Transcript :=
  [.append "dom-sep" (asciiBytes label), .append "version" versionBytes]
    ++ seeds.map fun x => .append "proof" (leBytes 8 x)

/-- The `i`-th scalar drawn from the weight generator with transcript `wt`. -/
def weightScalar (E : Env F P) (wt : Transcript) (i : ℕ) : F :=
  E.scalarOfWide (E.prf ⟨wt, [], List.replicate 32 0, List.replicate i 64⟩ 64)

/-- The `q`-th quadruple of scalars drawn from the weight generator. -/
def weightQuad (E : Env F P) (wt : Transcript) (q : ℕ) : Proof.Weights F :=
  ⟨weightScalar E wt (4 * q), weightScalar E wt (4 * q + 1), weightScalar E wt (4 * q + 2),
    weightScalar E wt (4 * q + 3)⟩

/-- A quadruple is usable if none of its entries is zero. -/
def usable [DecidableEq F] [Zero F] (w : Proof.Weights F) : Bool :=
  decide (w.w1 ≠ 0 ∧ w.w2 ≠ 0 ∧ w.w3 ≠ 0 ∧ w.w4 ≠ 0)

/-- The usable quadruples among the first `q` drawn, in order. -/
def usableQuads [DecidableEq F] [Zero F] (E : Env F P) (wt : Transcript) (q : ℕ) : List (Proof.Weights F) :=
  ((List.range q).map (weightQuad E wt)).filter usable

/-- `ws` are the weights of a batch: the first usable quadruples drawn from the weight generator, one per proof. -/
def IsWeights [DecidableEq F] [Zero F] (E : Env F P) (sts : List (Statement P)) (ps : List (Proof F P))
    (ts : List Transcript) (ws : List (Proof.Weights F)) : Prop :=
  ws.length = ps.length ∧
    ∃ q, ws = usableQuads E (weightTranscript "Triptych verifier weights" (seeds E sts ps ts)) q

/-- Among the first `fuel` quadruples drawn there is a usable one for every proof. (Each quadruple is unusable with
probability about `4 / ℓ`.) -/
def EnoughFuel [DecidableEq F] [Zero F] (E : Env F P) (sts : List (Statement P)) (ps : List (Proof F P))
    (ts : List Transcript) (fuel : ℕ) : Prop :=
  ps.length ≤ (usableQuads E (weightTranscript "Triptych verifier weights" (seeds E sts ps ts)) fuel).length

end Triptych.Spec
