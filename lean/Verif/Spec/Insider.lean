import Verif.Spec.ChosenMessage
import Verif.Spec.DLog

/-! # Specification: programs that attack the verifier and may corrupt users

As `ChosenProgram`, with one more possibility: to ask for the signing key of an honest user. -/
set_option autoImplicit false

namespace Triptych.Spec

/-- A program that may ask for challenges, seeds and weights, request signatures, and ask for the signing keys (in `F`) of users
`υ`; its own random choices are fixed. -/
inductive InsiderProgram (S B A X V Y γ δ υ F α : Type) where
  | done (a : α)
  | challenge (s : S) (next : B → InsiderProgram S B A X V Y γ δ υ F α)
  | seed (a : A) (next : X → InsiderProgram S B A X V Y γ δ υ F α)
  | weights (v : V) (next : Y → InsiderProgram S B A X V Y γ δ υ F α)
  | sign (g : γ) (next : δ → InsiderProgram S B A X V Y γ δ υ F α)
  | corrupt (i : υ) (next : F → InsiderProgram S B A X V Y γ δ υ F α)

namespace InsiderProgram
variable {S B A X V Y γ δ υ F α : Type}

/-- Whatever the answers, the program asks for at most `Q` challenges, `R` seeds and `T` times for weights, and requests at most `q`
signatures. It may ask for any number of keys. -/
def AtMost : InsiderProgram S B A X V Y γ δ υ F α → ℕ → ℕ → ℕ → ℕ → Prop
  | done _, _, _, _, _ => True
  | challenge _ next, Q, R, T, q => 0 < Q ∧ ∀ b, (next b).AtMost (Q - 1) R T q
  | seed _ next, Q, R, T, q => 0 < R ∧ ∀ x, (next x).AtMost Q (R - 1) T q
  | weights _ next, Q, R, T, q => 0 < T ∧ ∀ y, (next y).AtMost Q R (T - 1) q
  | sign _ next, Q, R, T, q => 0 < q ∧ ∀ d, (next d).AtMost Q R T (q - 1)
  | corrupt _ next, Q, R, T, q => ∀ r, (next r).AtMost Q R T q

/-- The program that gets the key `x i` of each user `i` it asks for; it outputs the corrupted users, too (`C` are those corrupted
before). -/
def withKeys (x : υ → F) : InsiderProgram S B A X V Y γ δ υ F α → List υ → ChosenProgram S B A X V Y γ δ (α × List υ)
  | done a, C => .done (a, C)
  | challenge s next, C => .challenge s fun b => (next b).withKeys x C
  | seed a next, C => .seed a fun y => (next y).withKeys x C
  | weights v next, C => .weights v fun y => (next y).withKeys x C
  | sign g next, C => .sign g fun d => (next d).withKeys x C
  | corrupt i next, C => (next (x i)).withKeys x (i :: C)

end InsiderProgram

/-- The ring consists of honest users' keys, none of them the key of a corrupted user, or the linking tag is that of an honest user and
not that of a corrupted one. -/
def Untouched {n m : ℕ} {P υ : Type} [Zero P] (pub : Public n m P υ) (C : List υ) (M : List P) (J : P) : Prop :=
  (∀ X ∈ M, (∃ i, X = pub.key i) ∧ ∀ i ∈ C, X ≠ pub.key i) ∨ ((∃ i, J = pub.tag i) ∧ ∀ i ∈ C, J ≠ pub.tag i)

/-- No corrupted user has both its key in the ring and its linking tag on the proof. -/
def Clean {n m : ℕ} {P υ : Type} [Zero P] (pub : Public n m P υ) (C : List υ) (M : List P) (J : P) : Prop :=
  ∀ i ∈ C, pub.key i ∈ M → J ≠ pub.tag i

end Triptych.Spec
