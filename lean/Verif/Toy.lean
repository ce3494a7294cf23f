import Verif.Spec.Built
import Verif.Model.Blame
import Verif.Model.Parallel.Blame
import Mathlib.Algebra.Field.ZMod
import Mathlib.Tactic.NormNum.Prime

/-! # A concrete environment

Used by the examples which show that the hypotheses of the property theorems are met. Scalars are `ZMod p`, encoded as in
curve25519-dalek (32 bytes, little endian, canonical); the group is the additive group of `ZMod p`; the hash functions are
toy functions of all their input bytes. The small prime 101 keeps kernel evaluation fast. -/
set_option autoImplicit false

namespace Triptych.Toy

/-- A polynomial hash of a byte string. -/
def hashNat (b : Bytes) : Nat := b.foldl (fun h x => (h * 1103515245 + x.toNat + 12345) % 2305843009213693951) 7

/-- Bytes of a transcript operation. -/
def opBytes : Op → Bytes
  | .append label msg => 1 :: asciiBytes label ++ leBytes 8 msg.length ++ msg
  | .challenge label len => 2 :: asciiBytes label ++ leBytes 8 len

/-- Bytes of the state of a transcript generator. -/
def rngBytes (r : TRng) : Bytes :=
  r.log.flatMap opBytes ++ r.rekeys.flatMap (fun x => asciiBytes x.1 ++ x.2) ++ r.ext ++ r.reqs.flatMap (leBytes 8)

/-- The environment over `ZMod p`. -/
def env (p : Nat) [NeZero p] : Env (ZMod p) (ZMod p) where
  scalarBytes s := leBytes 32 s.val
  scalarOfCanonical b := if b.length = 32 ∧ leNat b < p then some (leNat b : ZMod p) else none
  scalarOfWide b := (leNat b : ZMod p)
  compress s := leBytes 32 s.val
  decompress b := if b.length = 32 ∧ leNat b < p then some (leNat b : ZMod p) else none
  pointOfUniform b := ((1 + leNat b % (p - 1) : ℕ) : ZMod p)
  basepoint := 1
  xof b offset len := leBytes len (hashNat (b ++ leBytes 8 offset))
  challenge t := leBytes 64 (hashNat (t.flatMap opBytes))
  prf r len := leBytes len (hashNat (rngBytes r))

theorem leBytes_length (k x : ℕ) : (leBytes k x).length = k := by
  induction k generalizing x with
  | zero => rfl
  | succ k ih => simp [leBytes, ih]

theorem leNat_leBytes (k x : ℕ) (h : x < 256 ^ k) : leNat (leBytes k x) = x := by
  induction k generalizing x with
  | zero => simp at h; simp [leBytes, leNat, h]
  | succ k ih =>
    have hx : x / 256 < 256 ^ k := by
      rw [Nat.div_lt_iff_lt_mul (by norm_num), ← pow_succ]; exact h
    rw [leBytes, leNat, ih _ hx]
    simp only [UInt8.toNat_ofNat']
    omega

theorem leBytes_leNat (b : Bytes) : leBytes b.length (leNat b) = b := by
  induction b with
  | nil => rfl
  | cons x b ih =>
    have hx : x.toNat < 256 := x.toNat_lt
    rw [List.length_cons, leBytes, leNat]
    have h1 : (x.toNat + 256 * leNat b) % 256 = x.toNat := by omega
    have h2 : (x.toNat + 256 * leNat b) / 256 = leNat b := by omega
    rw [h1, h2, ih]
    simp

/-- The environment satisfies the encoding laws. -/
theorem env_lawful (p : ℕ) [NeZero p] (hp : p ≤ 256 ^ 32) : (env p).Lawful := by
  have hval : ∀ s : ZMod p, leNat (leBytes 32 s.val) = s.val := fun s =>
    leNat_leBytes 32 _ (lt_of_lt_of_le (ZMod.val_lt s) hp)
  have dec : ∀ s : ZMod p, (if (leBytes 32 s.val).length = 32 ∧ leNat (leBytes 32 s.val) < p
      then some (leNat (leBytes 32 s.val) : ZMod p) else none) = some s := by
    intro s
    rw [if_pos ⟨leBytes_length 32 _, by rw [hval]; exact ZMod.val_lt s⟩, hval, ZMod.natCast_zmod_val]
  have enc : ∀ (b : Bytes) (s : ZMod p), (if b.length = 32 ∧ leNat b < p then some (leNat b : ZMod p) else none) = some s →
      leBytes 32 s.val = b := by
    intro b s h
    split at h
    · rename_i hb
      simp only [Option.some.injEq] at h
      subst h
      rw [ZMod.val_natCast, Nat.mod_eq_of_lt hb.2]
      conv_rhs => rw [← leBytes_leNat b, hb.1]
    · simp at h
  exact ⟨fun s => leBytes_length 32 _, dec, enc, fun s => leBytes_length 32 _, dec, enc⟩

instance prime101 : Fact (Nat.Prime 101) := ⟨by norm_num⟩

abbrev F := ZMod 101

/-- The value of a successful outcome. -/
def get {ε α : Type} (d : α) : Outcome ε α → α
  | .ok a => a
  | _ => d

/-- Parameters `n = 2`, `m = 2` from `TriptychParameters::new`. -/
def params : Params F := get ⟨0, 0, 0, 0, [], 0, []⟩ (Params.new (env 101) 2 2)

theorem params_new : Params.new (env 101) 2 2 = .ok params := by decide +kernel

/-- Four keys; the signing key of position 2 is 7. -/
def keys : List F := [(3 : F), 5, 7, 11].map fun r => r • params.G

def inputSet : InputSet F := get ⟨[], []⟩ (InputSet.new (env 101) keys)
theorem inputSet_new : InputSet.new (env 101) keys = .ok inputSet := by decide +kernel

/-- The witness `(2, 7)`. -/
def witness : Witness F F := get ⟨params, 0, 0⟩ (Witness.new params 2 7)
theorem witness_new : Witness.new params 2 (7 : F) = .ok witness := by decide +kernel

def statement : Statement F := get ⟨params, inputSet, 0, []⟩
  (Statement.new (env 101) params inputSet witness.computeLinkingTag)
theorem statement_new : Statement.new (env 101) params inputSet witness.computeLinkingTag = .ok statement := by
  decide +kernel

/-- A second signer of the same ring: position 0, key 3. -/
def witness' : Witness F F := get ⟨params, 0, 0⟩ (Witness.new params 0 3)
theorem witness'_new : Witness.new params 0 (3 : F) = .ok witness' := by decide +kernel

def statement' : Statement F := get ⟨params, inputSet, 0, []⟩
  (Statement.new (env 101) params inputSet witness'.computeLinkingTag)
theorem statement'_new : Statement.new (env 101) params inputSet witness'.computeLinkingTag = .ok statement' := by
  decide +kernel

/-- The caller's transcript. -/
def transcript : Transcript := (Transcript.new (asciiBytes "test")).appendMessage "message" (asciiBytes "hello")
def transcript' : Transcript := (Transcript.new (asciiBytes "test")).appendMessage "message" (asciiBytes "world")

def cfg : Config := ⟨true, 2 ^ 64 - 1, 100⟩

def emptyProof : Proof F F := ⟨0, 0, 0, 0, [], [], [], 0, 0, 0⟩

/-- A proof made by the constant-time prover. -/
def proof : Proof F F := get emptyProof (Proof.proveWithRng (env 101) nullRng witness statement () transcript).1
theorem proof_new : (Proof.proveWithRng (env 101) nullRng witness statement () transcript).1 = .ok proof := by
  decide +kernel

def proof' : Proof F F := get emptyProof (Proof.proveWithRng (env 101) nullRng witness' statement' () transcript').1
theorem proof'_new : (Proof.proveWithRng (env 101) nullRng witness' statement' () transcript').1 = .ok proof' := by
  decide +kernel

theorem verify_ok : (Proof.verify (env 101) cfg proof statement transcript).1 = .ok () := by decide +kernel
theorem verify_ok' : (Proof.verify (env 101) cfg proof' statement' transcript').1 = .ok () := by decide +kernel
theorem batch_ok : (Proof.verifyBatch (env 101) cfg [statement, statement'] [proof, proof']
    [transcript, transcript']).1 = .ok () := by decide +kernel

end Triptych.Toy
