import Verif.Props.Parallel.Statement

/-! # Properties of parallel witnesses: C47 -/
set_option autoImplicit false
set_option linter.unusedSectionVars false

namespace Triptych.Parallel
open Triptych.Parallel.Spec

variable {F P : Type} [Field F] [AddCommGroup P] [Module F P] [DecidableEq F] [DecidableEq P]

/-- C47: the exact behaviour of `TriptychWitness::new`. -/
theorem C47_new (E : Env F P) (params : Params P) (l : ℕ) (r r1 : F) (hp : ParamsBuilt E params) :
    (r = 0 → Witness.new params l r r1 = .err (.InvalidParameter "`r == 0`")) ∧
    (r ≠ 0 → r1 = 0 → Witness.new params l r r1 = .err (.InvalidParameter "`r1 == 0`")) ∧
    (r ≠ 0 → r1 ≠ 0 → params.n ^ params.m ≤ l → Witness.new params l r r1 = .err (.InvalidParameter "`l >= N`")) ∧
    (r ≠ 0 → r1 ≠ 0 → l < params.n ^ params.m →
      ∃ w, Witness.new params l r r1 = .ok w ∧ w.params = params ∧ w.l = l ∧ w.r = r ∧ w.r1 = r1) := by
  have hN := hp.ok.getN
  refine ⟨?_, ?_, ?_, ?_⟩
  · intro h; rw [Witness.new, if_pos h]
  · intro h h1; rw [Witness.new, if_neg h, if_pos h1]
  · intro h1 h1' h2; rw [Witness.new, if_neg h1, if_neg h1', if_pos (by rw [hN]; exact h2)]
  · intro h1 h1' h2
    rw [Witness.new, if_neg h1, if_neg h1', if_neg (by rw [hN]; omega)]
    exact ⟨_, rfl, rfl, rfl, rfl, rfl⟩

/-- `C47_new` needs built parameters only; a witness: -/
example : Witness.new Toy.params 2 (7 : ZMod 101) 9 = .ok Toy.witness := Toy.witness_new

/-- C47: `random` never panics, whatever the generator does; the index is in range, the parameters are kept, the keys are the
reductions of the generator's next two blocks of 64 bytes. -/
theorem C47_random {ε σ : Type} (E : Env F P) (R : Rng σ) (params : Params P) (s : σ) (hp : ParamsBuilt E params) :
    ∃ w s', (Witness.random E R params s : Outcome ε (Witness F P × σ)) = .ok (w, s') ∧ w.params = params ∧
      w.l < params.n ^ params.m ∧ w.l = (R.nextU64 s).1.toNat % params.n ^ params.m ∧
      w.r = E.scalarOfWide (R.fill (R.nextU64 s).2 64).1 ∧
      w.r1 = E.scalarOfWide (R.fill (R.fill (R.nextU64 s).2 64).2 64).1 ∧
      s' = (R.fill (R.fill (R.nextU64 s).2 64).2 64).2 := by
  have hN := hp.ok.getN
  have hn := hp.ok.n
  have hb := hp.ok.N
  have hpos : 0 < params.n ^ params.m := Nat.pow_pos (by omega)
  have hlt := Nat.mod_lt (R.nextU64 s).1.toNat hpos
  have hmod : (R.nextU64 s).1.toNat % params.n ^ params.m % 2 ^ 32 = (R.nextU64 s).1.toNat % params.n ^ params.m := by
    apply Nat.mod_eq_of_lt
    rw [u32Max] at hb
    omega
  rw [Witness.random]
  simp only [hN]
  rw [if_neg (by omega)]
  refine ⟨_, _, rfl, rfl, ?_, ?_, rfl, rfl, rfl⟩
  · rw [hmod]; exact hlt
  · exact hmod

/-- C47: the keys of a random witness are not checked: they are zero if the generator returns zeros. -/
theorem C47_zero_key {ε : Type} (E : Env F P) (params : Params P) (hp : ParamsBuilt E params)
    (hz : E.scalarOfWide (List.replicate 64 0) = 0) :
    ∃ w, (Witness.random E nullRng params () : Outcome ε (Witness F P × Unit)) = .ok (w, ()) ∧ w.r = 0 ∧ w.r1 = 0 := by
  obtain ⟨w, s', h1, -, -, -, h5, h6, -⟩ := C47_random (ε := ε) E nullRng params () hp
  exact ⟨w, h1, by rw [h5]; exact hz, by rw [h6]; exact hz⟩

/-- The hypotheses of `C47_random` and `C47_zero_key` are met. -/
example : ParamsBuilt (Toy.env 101) Toy.params ∧ (Toy.env 101).scalarOfWide (List.replicate 64 0) = 0 :=
  ⟨⟨_, _, _, _, _, Toy.params_new⟩, by decide +kernel⟩

/-- C47: keys and tags satisfy the relation proved by the proof system. -/
theorem C47_relation (w : Witness F P) (hr : w.r ≠ 0) :
    w.computeVerificationKey = w.r • w.params.G ∧ w.computeAuxiliaryVerificationKey = w.r1 • w.params.G1 ∧
      w.r • w.computeLinkingTag = w.params.U := by
  refine ⟨rfl, rfl, ?_⟩
  rw [Witness.computeLinkingTag, smul_smul, mul_inv_cancel₀ hr, one_smul]

/-- C47: with the same non-identity `U`, equal tags mean equal signing keys, whatever index, auxiliary key, sizes or
generators. -/
theorem C47_link (w w' : Witness F P) (hU : w.params.U = w'.params.U)
    (hU0 : w.params.U ≠ 0) : w.computeLinkingTag = w'.computeLinkingTag ↔ w.r = w'.r := by
  rw [Witness.computeLinkingTag, Witness.computeLinkingTag, ← hU]
  constructor
  · intro h
    rw [← sub_eq_zero, ← sub_smul] at h
    rcases smul_eq_zero.1 h with h | h
    · exact inv_injective (sub_eq_zero.1 h)
    · exact absurd h hU0
  · intro h; rw [h]

/-- C47: with the same non-identity generators, equal verification keys mean equal signing keys, and equal auxiliary
verification keys mean equal auxiliary signing keys. -/
theorem C47_key (w w' : Witness F P) (hG : w.params.G = w'.params.G) (hG0 : w.params.G ≠ 0)
    (hG1 : w.params.G1 = w'.params.G1) (hG10 : w.params.G1 ≠ 0) :
    (w.computeVerificationKey = w'.computeVerificationKey ↔ w.r = w'.r) ∧
      (w.computeAuxiliaryVerificationKey = w'.computeAuxiliaryVerificationKey ↔ w.r1 = w'.r1) := by
  have key : ∀ (a b : F) (Q : P), Q ≠ 0 → (a • Q = b • Q ↔ a = b) := by
    intro a b Q hQ
    constructor
    · intro h
      rw [← sub_eq_zero, ← sub_smul] at h
      rcases smul_eq_zero.1 h with h | h
      · exact sub_eq_zero.1 h
      · exact absurd h hQ
    · intro h; rw [h]
  rw [Witness.computeVerificationKey, Witness.computeVerificationKey, ← hG, Witness.computeAuxiliaryVerificationKey,
    Witness.computeAuxiliaryVerificationKey, ← hG1]
  exact ⟨key _ _ _ hG0, key _ _ _ hG10⟩

/-- The hypotheses of `C47_relation`, `C47_link` and `C47_key` are met by two different witnesses. -/
example : Toy.witness.r ≠ 0 ∧ Toy.witness'.r ≠ 0 ∧ Toy.witness.params.U = Toy.witness'.params.U ∧
    Toy.witness.params.U ≠ 0 ∧ Toy.witness.params.G ≠ 0 ∧ Toy.witness.params.G1 ≠ 0 := by decide +kernel

end Triptych.Parallel
