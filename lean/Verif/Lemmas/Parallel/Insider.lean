import Verif.Lemmas.Insider
import Verif.Spec.Parallel.Insider

/-! # Lemmas: programs that corrupt users of the parallel proving system -/
set_option autoImplicit false

namespace Triptych.Parallel
open Finset Function
open Triptych.Parallel.Spec
open Triptych.Spec (mixKeys knownKeys)

variable {F P : Type} [Field F] [AddCommGroup P] [Module F P]

/-- The public data of all users, from that of the users in `D` and the keys of the others. -/
def Spec.mixPublic {n m : ℕ} {υ : Type} [DecidableEq υ] (D : Finset υ) (x0 : υ → Fˣ) (G : P) (pub : Public n m P D) : Public n m P υ :=
  ⟨pub.gens, fun i => if h : i ∈ D then pub.key ⟨i, h⟩ else (x0 i : F) • G,
    fun i => if h : i ∈ D then pub.tag ⟨i, h⟩ else (x0 i : F)⁻¹ • pub.gens.1.2.2.1⟩

theorem mixPublic_publish {n m : ℕ} {υ : Type} [DecidableEq υ] (D : Finset υ) (x0 : υ → Fˣ) (G : P) (g : Generators n m P)
    (x : D → Fˣ) : mixPublic D x0 G (publish G g x) = publish G g (mixKeys D x0 x) := by
  rw [mixPublic, publish, publish]
  congr 1
  · funext i
    rw [mixKeys]
    split <;> rfl
  · funext i
    rw [mixKeys]
    split <;> rfl

end Triptych.Parallel
