import Verif.Spec.Grind

/-! # Specification: programs that attack the verifier

A program may ask for everything the verifier derives by hashing: challenges, weight seeds and weights. -/
set_option autoImplicit false

namespace Triptych.Spec

/-- A program that may ask for challenges (`S` to `B`), for seeds (`A` to `X`) and for weights (`V` to `Y`); its own random
choices are fixed. -/
inductive AttackProgram (S B A X V Y α : Type) where
  | done (a : α)
  | challenge (s : S) (next : B → AttackProgram S B A X V Y α)
  | seed (a : A) (next : X → AttackProgram S B A X V Y α)
  | weights (v : V) (next : Y → AttackProgram S B A X V Y α)

namespace AttackProgram
variable {S B A X V Y α : Type}

/-- The output, where `O` gives the challenges, `H` the seeds and `W` the weights. -/
def run (O : S → B) (H : A → X) (W : V → Y) : AttackProgram S B A X V Y α → α
  | done a => a
  | challenge s next => run O H W (next (O s))
  | seed a next => run O H W (next (H a))
  | weights v next => run O H W (next (W v))

/-- Whatever the answers, the program asks for at most `Q` challenges, `R` seeds and `T` times for weights. -/
def AtMost : AttackProgram S B A X V Y α → ℕ → ℕ → ℕ → Prop
  | done _, _, _, _ => True
  | challenge _ next, Q, R, T => 0 < Q ∧ ∀ b, (next b).AtMost (Q - 1) R T
  | seed _ next, Q, R, T => 0 < R ∧ ∀ x, (next x).AtMost Q (R - 1) T
  | weights _ next, Q, R, T => 0 < T ∧ ∀ y, (next y).AtMost Q R (T - 1)

/-- The program with the seeds `H` and the weights `W` fixed: it only asks for challenges. -/
def challengesOnly (H : A → X) (W : V → Y) : AttackProgram S B A X V Y α → OracleProgram S B α
  | done a => .done a
  | challenge s next => .ask s fun b => (next b).challengesOnly H W
  | seed a next => (next (H a)).challengesOnly H W
  | weights v next => (next (W v)).challengesOnly H W

/-- The program with the challenges `O` fixed. -/
def weightsOnly (O : S → B) : AttackProgram S B A X V Y α → GrindProgram A X V Y α
  | done a => .done a
  | challenge s next => (next (O s)).weightsOnly O
  | seed a next => .seed a fun x => (next x).weightsOnly O
  | weights v next => .weights v fun y => (next y).weightsOnly O

end AttackProgram
end Triptych.Spec
