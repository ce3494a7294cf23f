import Verif.Props.Parallel.Prove
import Verif.Props.Prove

/-! # What is left of a witness after `zeroize`: C117 -/
set_option autoImplicit false
set_option linter.unusedSectionVars false
set_option linter.unusedVariables false

namespace Triptych
open Spec

variable {F P : Type} [Field F] [AddCommGroup P] [Module F P] [DecidableEq F] [DecidableEq P]

/-- C117: nothing of the secrets of a witness is left after `zeroize`: two witnesses with the same parameters, whatever their secrets,
have become the same object, whose index and key are zero and whose verification key and linking tag are the identity; the parameters
are kept, and wiping twice is wiping once. -/
theorem C117_zeroize (w : Witness F P) :
    (∀ w' : Witness F P, w'.params = w.params → w'.zeroize = w.zeroize) ∧
    w.zeroize.params = w.params ∧ w.zeroize.l = 0 ∧ w.zeroize.r = 0 ∧ w.zeroize.zeroize = w.zeroize ∧
    w.zeroize.computeVerificationKey = 0 ∧ w.zeroize.computeLinkingTag = 0 := by
  refine ⟨fun w' h => ?_, rfl, rfl, rfl, rfl, zero_smul F _, ?_⟩
  · obtain ⟨p, l, r⟩ := w
    obtain ⟨p', l', r'⟩ := w'
    simp only at h
    subst h
    rfl
  · show (0 : F)⁻¹ • _ = _
    rw [inv_zero, zero_smul]

/-- Two different witnesses (index and key) for the same parameters. -/
example : ∃ w' : Witness Toy.F Toy.F, w' ≠ Toy.witness ∧ w'.params = Toy.witness.params ∧ w'.r ≠ Toy.witness.r ∧
    Toy.witness.l ≠ 0 ∧ Toy.witness.r ≠ 0 :=
  ⟨⟨Toy.witness.params, Toy.witness.l + 1, Toy.witness.r + 1⟩, by decide +kernel, rfl, by decide +kernel, by decide +kernel,
    by decide +kernel⟩

end Triptych

namespace Triptych.Parallel
open Triptych.Parallel.Spec

variable {F P : Type} [Field F] [AddCommGroup P] [Module F P] [DecidableEq F] [DecidableEq P]

/-- C117 for the parallel module: as `C117_zeroize`, with the auxiliary key. -/
theorem C117_zeroize_parallel (w : Witness F P) :
    (∀ w' : Witness F P, w'.params = w.params → w'.zeroize = w.zeroize) ∧
    w.zeroize.params = w.params ∧ w.zeroize.l = 0 ∧ w.zeroize.r = 0 ∧ w.zeroize.r1 = 0 ∧ w.zeroize.zeroize = w.zeroize ∧
    w.zeroize.computeVerificationKey = 0 ∧ w.zeroize.computeAuxiliaryVerificationKey = 0 ∧ w.zeroize.computeLinkingTag = 0 := by
  refine ⟨fun w' h => ?_, rfl, rfl, rfl, rfl, rfl, zero_smul F _, zero_smul F _, ?_⟩
  · obtain ⟨p, l, r, r1⟩ := w
    obtain ⟨p', l', r', r1'⟩ := w'
    simp only at h
    subst h
    rfl
  · show (0 : F)⁻¹ • _ = _
    rw [inv_zero, zero_smul]

/-- Two different witnesses (index and both keys) for the same parameters. -/
example : ∃ w' : Witness Triptych.Toy.F Triptych.Toy.F, w' ≠ Toy.witness ∧ w'.params = Toy.witness.params ∧ w'.r ≠ Toy.witness.r ∧
    w'.r1 ≠ Toy.witness.r1 ∧ Toy.witness.l ≠ 0 ∧ Toy.witness.r ≠ 0 ∧ Toy.witness.r1 ≠ 0 :=
  ⟨⟨Toy.witness.params, Toy.witness.l + 1, Toy.witness.r + 1, Toy.witness.r1 + 1⟩, by decide +kernel, rfl, by decide +kernel,
    by decide +kernel, by decide +kernel, by decide +kernel, by decide +kernel⟩

end Triptych.Parallel
