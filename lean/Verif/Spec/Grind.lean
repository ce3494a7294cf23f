import Verif.Spec.Signing
import Verif.Spec.Generator

/-! # Specification: programs that look for convenient weights

The verifier derives the weights of a batch in two steps: a transcript gives a seed of 64 bits for each proof, the seeds give the
weights. A program may compute both as it likes. -/
set_option autoImplicit false

namespace Triptych.Spec

/-- A program that may ask for the seed (`X`) of a transcript (`A`) and for the weights (`Y`) which the seeds of a batch (`V`)
give; its own random choices are fixed. -/
inductive GrindProgram (A X V Y α : Type) where
  | done (a : α)
  | seed (a : A) (next : X → GrindProgram A X V Y α)
  | weights (v : V) (next : Y → GrindProgram A X V Y α)

namespace GrindProgram
variable {A X V Y α : Type}

/-- The output, where `H` gives the seeds and `W` the weights. -/
def run (H : A → X) (W : V → Y) : GrindProgram A X V Y α → α
  | done a => a
  | seed a next => run H W (next (H a))
  | weights v next => run H W (next (W v))

/-- Whatever the answers, the program asks for at most `Q` seeds and `T` times for weights. -/
def AtMost : GrindProgram A X V Y α → ℕ → ℕ → Prop
  | done _, _, _ => True
  | seed _ next, Q, T => 0 < Q ∧ ∀ x, (next x).AtMost (Q - 1) T
  | weights _ next, Q, T => 0 < T ∧ ∀ y, (next y).AtMost Q (T - 1)

end GrindProgram

/-- A seed: a number of 64 bits. -/
abbrev Seed := Fin (2 ^ 64)

open Classical in
/-- The environment `E` in which the seeds of the transcripts in `A` are given by `H`, and the first `N` requests of 64 bytes
from the weight generator with the seeds `list v` are answered by the table `W v`. -/
noncomputable def withSeeds {F P : Type} (E : Env F P) (label : String) (A : Finset Transcript) (H : A → Seed) {V : Type}
    (list : V → List ℕ) {N : ℕ} (W : V → Fin N → Block) : Env F P :=
  { E with prf := fun r len =>
      if h : r.log ∈ A ∧ r = ⟨r.log, [], List.replicate 32 0, []⟩ ∧ len = 8 then leBytes 8 (H ⟨r.log, h.1⟩)
      else if h : r.reqs.length < N ∧ len = 64 ∧ ∃ v, r = queryPoint (weightKey label (list v)) r.reqs.length then
        (W h.2.2.choose ⟨r.reqs.length, h.1⟩).bytes
      else E.prf r len }

end Triptych.Spec
