import Verif.Spec.Oracle
import Mathlib.Algebra.Order.Field.Rat
import Mathlib.Algebra.BigOperators.Group.Finset.Basic
import Mathlib.Logic.Function.Basic

/-! # Specification: programs that may also request signatures

A program in a chosen-message attack asks a random oracle from `ι` to `β` and requests signatures: `γ` are the possible
requests, `δ` the answers. -/
set_option autoImplicit false

namespace Triptych.Spec
open Function

/-- A program that may ask an oracle and request signatures; its own random choices are fixed. -/
inductive SigningProgram (ι β γ δ α : Type) where
  | done (a : α)
  | ask (i : ι) (next : β → SigningProgram ι β γ δ α)
  | sign (g : γ) (next : δ → SigningProgram ι β γ δ α)

/-- The average of a function. -/
def avg {α : Type} [Fintype α] (f : α → ℚ) : ℚ := (∑ a, f a) / Fintype.card α

/-- Finitely many random choices as a sequence (continued arbitrarily). -/
def extend {X : Type} {q : ℕ} (d : X) (tape : Fin q → X) (i : ℕ) : X := if h : i < q then tape ⟨i, h⟩ else d

namespace SigningProgram
variable {ι β γ δ α T : Type}

/-- Whatever the answers, the program asks at most `Q` questions and requests at most `q` signatures. -/
def AtMost : SigningProgram ι β γ δ α → ℕ → ℕ → Prop
  | done _, _, _ => True
  | ask _ next, Q, q => 0 < Q ∧ ∀ b, (next b).AtMost (Q - 1) q
  | sign _ next, Q, q => 0 < q ∧ ∀ d, (next d).AtMost Q (q - 1)

open Classical in
/-- The probability that the program wins against a signer with the oracle `O`. For each signature the signer draws
randomness `c`, takes the oracle's answer at `point g c` as challenge and answers `answer g c b`. Winning may depend on the
output, the points used by the signer and the oracle. -/
noncomputable def withSigner [Fintype T] (point : γ → T → ι) (answer : γ → T → β → δ)
    (win : α → List ι → (ι → β) → Prop) (O : ι → β) : SigningProgram ι β γ δ α → List ι → ℚ
  | done a, used => if win a used O then 1 else 0
  | ask i next, used => withSigner point answer win O (next (O i)) used
  | sign g next, used =>
    avg fun c : T => withSigner point answer win O (next (answer g c (O (point g c)))) (point g c :: used)

open Classical in
/-- The probability that the program wins against a simulator that controls the oracle. For each signature it draws the
challenge `b` and randomness `s`, changes the oracle's answer at `(sim g s b).1` to `b` and answers `(sim g s b).2`. -/
noncomputable def withSimulator [Fintype T] [Fintype β] [DecidableEq ι] (sim : γ → T → β → ι × δ)
    (win : α → List ι → (ι → β) → Prop) : SigningProgram ι β γ δ α → List ι → (ι → β) → ℚ
  | done a, used, O => if win a used O then 1 else 0
  | ask i next, used, O => withSimulator sim win (next (O i)) used O
  | sign g next, used, O =>
    avg fun b : β => avg fun s : T =>
      withSimulator sim win (next (sim g s b).2) ((sim g s b).1 :: used) (update O (sim g s b).1 b)

/-- The program together with the simulator, both with fixed random choices (`tape i` for the `i`-th signature): a program
that only asks an oracle. Questions at changed points (`changed`) are answered by the simulator. -/
def simulated [DecidableEq ι] (sim : γ → T → β → ι × δ) :
    SigningProgram ι β γ δ α → (ℕ → β × T) → List (ι × β) → OracleProgram ι β α
  | done a, _, _ => .done a
  | ask i next, tape, changed =>
    match changed.lookup i with
    | some b => simulated sim (next b) tape changed
    | none => .ask i fun b => simulated sim (next b) tape changed
  | sign g next, tape, changed =>
    simulated sim (next (sim g (tape 0).2 (tape 0).1).2) (fun i => tape (i + 1))
      (((sim g (tape 0).2 (tape 0).1).1, (tape 0).1) :: changed)

end SigningProgram
end Triptych.Spec
