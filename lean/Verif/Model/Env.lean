import Verif.Model.Outcome
import Mathlib.Algebra.Module.Defs
import Mathlib.Algebra.Field.Defs

/-!
# External functions: byte encodings, BLAKE3, Merlin, random number generators

These are the dependencies of the crate (`curve25519-dalek`, `blake3`, `merlin`, `rand_core`). They are parameters of
the model, collected in `Env`. A Merlin transcript is modelled by the list of operations performed on it.
-/
set_option autoImplicit false

namespace Triptych

abbrev Bytes := List UInt8

/-- `u32::MAX`. -/
def u32Max : Nat := 2 ^ 32 - 1

/-- Little-endian bytes of an unsigned integer of `k` bytes (`to_le_bytes`). -/
def leBytes : Nat → Nat → Bytes
  | 0, _ => []
  | k + 1, x => UInt8.ofNat (x % 256) :: leBytes k (x / 256)

/-- Value of a little-endian byte string (`from_le_bytes`). -/
def leNat : Bytes → Nat
  | [] => 0
  | b :: bs => b.toNat + 256 * leNat bs

/-- `str::as_bytes` for the (ASCII) domain separators. -/
def asciiBytes (s : String) : Bytes := s.toList.map fun c => UInt8.ofNat c.toNat

/-- One Merlin transcript operation that changes its state:
`append_message(label, msg)` or `challenge_bytes(label, &mut [0; len])`. -/
inductive Op where
  | append (label : String) (msg : Bytes)
  | challenge (label : String) (len : Nat)
deriving DecidableEq, Repr

/-- A Merlin transcript: the operations performed on it, oldest first. -/
abbrev Transcript := List Op

/-- `merlin::Transcript::new(label)`: starts by appending the label under `dom-sep`. -/
def Transcript.new (label : Bytes) : Transcript := [.append "dom-sep" label]

/-- `Transcript::append_message`. -/
def Transcript.appendMessage (t : Transcript) (label : String) (msg : Bytes) : Transcript :=
  t ++ [.append label msg]

/-- `Transcript::append_u64` (Merlin appends the 8 little-endian bytes). -/
def Transcript.appendU64 (t : Transcript) (label : String) (x : Nat) : Transcript :=
  t.appendMessage label (leBytes 8 x)

/-- State of a `merlin::TranscriptRng`: the transcript it was built from, the witness data it was rekeyed with,
the 32 bytes of external randomness, and the sizes of the requests served so far. -/
structure TRng where
  log : Transcript
  rekeys : List (String × Bytes)
  ext : Bytes
  reqs : List Nat
deriving DecidableEq, Repr

/-- External functions the crate calls. `F` is the type of scalars, `P` that of group elements. -/
structure Env (F P : Type) where
  /-- `Scalar::as_bytes` -/
  scalarBytes : F → Bytes
  /-- `Scalar::from_canonical_bytes` -/
  scalarOfCanonical : Bytes → Option F
  /-- `Scalar::from_bytes_mod_order_wide` -/
  scalarOfWide : Bytes → F
  /-- `RistrettoPoint::compress().as_bytes()` -/
  compress : P → Bytes
  /-- `CompressedRistretto::from_slice(..).decompress()` on 32 bytes -/
  decompress : Bytes → Option P
  /-- `RistrettoPoint::from_uniform_bytes` -/
  pointOfUniform : Bytes → P
  /-- `RISTRETTO_BASEPOINT_POINT` -/
  basepoint : P
  /-- BLAKE3 extendable output: hashed input, output offset, number of bytes -/
  xof : Bytes → Nat → Nat → Bytes
  /-- Merlin challenge bytes as a function of the whole transcript (the last operation is the challenge itself) -/
  challenge : Transcript → Bytes
  /-- Merlin PRF output of a transcript RNG in a given state, for a request of the given size -/
  prf : TRng → Nat → Bytes

/-- Facts about curve25519-dalek encodings: 32 bytes, decoding inverts encoding, only canonical bytes decode. -/
structure Env.Lawful {F P : Type} (E : Env F P) : Prop where
  scalarBytes_length : ∀ s, (E.scalarBytes s).length = 32
  scalar_decode_encode : ∀ s, E.scalarOfCanonical (E.scalarBytes s) = some s
  scalar_encode_decode : ∀ b s, E.scalarOfCanonical b = some s → E.scalarBytes s = b
  compress_length : ∀ p, (E.compress p).length = 32
  point_decode_encode : ∀ p, E.decompress (E.compress p) = some p
  point_encode_decode : ∀ b p, E.decompress b = some p → E.compress p = b

/-- `Transcript::challenge_bytes(label, &mut [0; len])`: the output and the new transcript. -/
def Transcript.challengeBytes {F P : Type} (E : Env F P) (t : Transcript) (label : String) (len : Nat) :
    Bytes × Transcript :=
  let t' := t ++ [.challenge label len]
  (E.challenge t', t')

/-- `TranscriptRng::fill_bytes`. -/
def TRng.fill {F P : Type} (E : Env F P) (r : TRng) (len : Nat) : Bytes × TRng :=
  (E.prf r len, { r with reqs := r.reqs ++ [len] })

/-- `Scalar::random(&mut transcript_rng)`: 64 bytes reduced modulo the group order. -/
def TRng.scalar {F P : Type} (E : Env F P) (r : TRng) : F × TRng :=
  let (b, r') := r.fill E 64
  (E.scalarOfWide b, r')

/-- `TranscriptRng::next_u64` (`next_u64_via_fill`): 8 bytes, little endian. -/
def TRng.nextU64 {F P : Type} (E : Env F P) (r : TRng) : Nat × TRng :=
  let (b, r') := r.fill E 8
  (leNat b, r')

/-- An external random number generator (`CryptoRngCore`) with arbitrary state and behaviour. -/
structure Rng (σ : Type) where
  /-- `fill_bytes` on a buffer of the given size -/
  fill : σ → Nat → Bytes × σ
  /-- `next_u64` -/
  nextU64 : σ → UInt64 × σ

/-- src/util.rs:42-63, `NullRng`: only produces zero. -/
def nullRng : Rng Unit where
  fill _ n := (List.replicate n 0, ())
  nextU64 _ := (0, ())

/-- `TranscriptRngBuilder::finalize(rng)`: takes 32 bytes of external randomness. -/
def TRng.finalize {σ : Type} (R : Rng σ) (t : Transcript) (rekeys : List (String × Bytes)) (s : σ) : TRng × σ :=
  let (b, s') := R.fill s 32
  (⟨t, rekeys, b, []⟩, s')

/-- dalek `RistrettoPoint::multiscalar_mul` / `vartime_multiscalar_mul`: the sum of products; dalek asserts that both
iterators have the same length. -/
def msm {ε F P : Type} [SMul F P] [Zero P] [Add P] (scalars : List F) (points : List P) : Outcome ε P :=
  if scalars.length = points.length then .ok (List.zipWith (· • ·) scalars points).sum else .panic

/-- Options for constant- or variable-time operations (src/util.rs:13-20). -/
inductive OperationTiming where
  | Constant
  | Variable
deriving DecidableEq, Repr

/-- src/util.rs:23-40, `delta`. The constant-time branch starts from zero and conditionally assigns one. -/
def delta {F : Type} [Zero F] [One F] (x y : Nat) (timing : OperationTiming) : F :=
  match timing with
  | .Constant => bif x == y then 1 else 0
  | .Variable => if x = y then 1 else 0

/-- src/lib.rs:141-168, domain separators and constants. -/
def VERSION : Nat := 0
def TRANSCRIPT_HASH_BYTES : Nat := 32
def TRANSCRIPT_PARAMETERS : Bytes := asciiBytes "Triptych parameters"
def TRANSCRIPT_PARALLEL_PARAMETERS : Bytes := asciiBytes "Parallel Triptych parameters"
def POINT_G1 : Bytes := asciiBytes "Triptych G1"
def POINT_U : Bytes := asciiBytes "Triptych U"
def POINT_COMMITMENT_G : Bytes := asciiBytes "Triptych CommitmentG"
def POINT_COMMITMENT_H : Bytes := asciiBytes "Triptych CommitmentH"
def TRANSCRIPT_INPUT_SET : Bytes := asciiBytes "Triptych input set"
def TRANSCRIPT_PARALLEL_INPUT_SET : Bytes := asciiBytes "Parallel Triptych input set"
def TRANSCRIPT_STATEMENT : Bytes := asciiBytes "Triptych statement"
def TRANSCRIPT_PARALLEL_STATEMENT : Bytes := asciiBytes "Parallel Triptych statement"
def TRANSCRIPT_PROOF : Bytes := asciiBytes "Triptych proof"
def TRANSCRIPT_PARALLEL_PROOF : Bytes := asciiBytes "Parallel Triptych proof"
def TRANSCRIPT_VERIFIER_WEIGHTS : Bytes := asciiBytes "Triptych verifier weights"
def TRANSCRIPT_PARALLEL_VERIFIER_WEIGHTS : Bytes := asciiBytes "Parallel Triptych verifier weights"

end Triptych
