import Verif.Spec.Oracle

/-! # Specification: rewinding a program with a random oracle, as an algorithm

The rewinder runs the program once, and then once more with each of the given answers at one point of the oracle. -/
set_option autoImplicit false

namespace Triptych.Spec
namespace OracleProgram
variable {ι β α F : Type} [DecidableEq ι] [DecidableEq F]

/-- Run the program `c` with the oracle `O`, but with each of the answers `bs` in turn at the point `s`. Keep the runs that succeed
at `s`, if the value of the answer is not the value of an answer kept before. -/
def collect (c : OracleProgram ι β α) (crit : α → Option ι) (ok : α → β → Prop) [∀ a b, Decidable (ok a b)] (dec : β → F)
    (O : ι → β) (s : ι) : List β → List (β × α) → List (β × α)
  | [], kept => kept
  | b :: bs, kept =>
    let a := c.run (Function.update O s b)
    if crit a = some s ∧ ok a b ∧ dec b ∉ kept.map fun x => dec x.1 then collect c crit ok dec O s bs (kept ++ [(b, a)])
    else collect c crit ok dec O s bs kept

/-- The rewinder: one run with `O`, which determines the point, and one with each of the answers `bs` at this point. -/
def rewind (c : OracleProgram ι β α) (crit : α → Option ι) (ok : α → β → Prop) [∀ a b, Decidable (ok a b)] (dec : β → F)
    (O : ι → β) (bs : List β) : List (β × α) :=
  match crit (c.run O) with
  | none => []
  | some s => collect c crit ok dec O s (O s :: bs) []

end OracleProgram

/-- The answers of `m` rounds with `τ` tries each. -/
def tries {β : Type} {m τ : ℕ} (tape : Fin m → Fin τ → β) : List β := (List.ofFn fun i => List.ofFn (tape i)).flatten

end Triptych.Spec
