import Verif.Spec.Attack
import Verif.Spec.Signing

/-! # Specification: programs that attack the verifier and may request signatures

A program may ask for everything the verifier derives by hashing (challenges, weight seeds and weights), and request signatures:
`γ` are the possible requests, `δ` the answers. -/
set_option autoImplicit false

namespace Triptych.Spec

/-- A program that may ask for challenges (`S` to `B`), for seeds (`A` to `X`) and for weights (`V` to `Y`), and request signatures;
its own random choices are fixed. -/
inductive ChosenProgram (S B A X V Y γ δ α : Type) where
  | done (a : α)
  | challenge (s : S) (next : B → ChosenProgram S B A X V Y γ δ α)
  | seed (a : A) (next : X → ChosenProgram S B A X V Y γ δ α)
  | weights (v : V) (next : Y → ChosenProgram S B A X V Y γ δ α)
  | sign (g : γ) (next : δ → ChosenProgram S B A X V Y γ δ α)

namespace ChosenProgram
variable {S B A X V Y γ δ α β : Type}

/-- Whatever the answers, the program asks for at most `Q` challenges, `R` seeds and `T` times for weights, and requests at most `q`
signatures. -/
def AtMost : ChosenProgram S B A X V Y γ δ α → ℕ → ℕ → ℕ → ℕ → Prop
  | done _, _, _, _, _ => True
  | challenge _ next, Q, R, T, q => 0 < Q ∧ ∀ b, (next b).AtMost (Q - 1) R T q
  | seed _ next, Q, R, T, q => 0 < R ∧ ∀ x, (next x).AtMost Q (R - 1) T q
  | weights _ next, Q, R, T, q => 0 < T ∧ ∀ y, (next y).AtMost Q R (T - 1) q
  | sign _ next, Q, R, T, q => 0 < q ∧ ∀ d, (next d).AtMost Q R T (q - 1)

/-- The program with the seeds `H` and the weights `W` fixed: it only asks for challenges and requests signatures. -/
def signingOnly (H : A → X) (W : V → Y) : ChosenProgram S B A X V Y γ δ α → SigningProgram S B γ δ α
  | done a => .done a
  | challenge s next => .ask s fun b => (next b).signingOnly H W
  | seed a next => (next (H a)).signingOnly H W
  | weights v next => (next (W v)).signingOnly H W
  | sign g next => .sign g fun d => (next d).signingOnly H W

/-- The program, with its output changed by `f`. -/
def map (f : α → β) : ChosenProgram S B A X V Y γ δ α → ChosenProgram S B A X V Y γ δ β
  | done a => .done (f a)
  | challenge s next => .challenge s fun b => (next b).map f
  | seed a next => .seed a fun x => (next x).map f
  | weights v next => .weights v fun y => (next y).map f
  | sign g next => .sign g fun d => (next d).map f

/-- The program, with only the `i`-th output. -/
def part {ι : Type} (c : ChosenProgram S B A X V Y γ δ (ι → α)) (i : ι) : ChosenProgram S B A X V Y γ δ α := c.map fun x => x i

end ChosenProgram
end Triptych.Spec
