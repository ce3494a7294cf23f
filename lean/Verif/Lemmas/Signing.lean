import Verif.Spec.Signing
import Mathlib.Algebra.Order.BigOperators.Group.Finset
import Mathlib.Algebra.BigOperators.Ring.Finset
import Mathlib.Algebra.BigOperators.Field
import Mathlib.Algebra.Order.AbsoluteValue.Basic
import Mathlib.Algebra.Order.BigOperators.Ring.Finset
import Mathlib.Data.Finset.Piecewise
import Mathlib.Data.Fintype.BigOperators
import Mathlib.Data.Fintype.Pi
import Mathlib.Data.Finset.Card
import Mathlib.Logic.Equiv.Fin.Basic
import Mathlib.Tactic.Ring
import Mathlib.Tactic.Linarith
import Mathlib.Tactic.Positivity
import Mathlib.Tactic.FieldSimp

/-! Simulating signatures with a programmed random oracle: generic counting. -/
set_option autoImplicit false
set_option linter.unusedSectionVars false

namespace Triptych
open Finset Spec Function

section avg
variable {α β : Type} [Fintype α] [Fintype β]

theorem avg_mono (f g : α → ℚ) (h : ∀ a, f a ≤ g a) : avg f ≤ avg g := by
  rw [avg, avg]
  gcongr with a
  exact h a

theorem avg_const [Nonempty α] (x : ℚ) : avg (fun _ : α => x) = x := by
  have : (Fintype.card α : ℚ) ≠ 0 := by exact_mod_cast Fintype.card_ne_zero
  rw [avg, sum_const, card_univ, nsmul_eq_mul]
  field_simp

theorem avg_nonneg (f : α → ℚ) (h : ∀ a, 0 ≤ f a) : 0 ≤ avg f := by
  rw [avg]
  exact div_nonneg (sum_nonneg fun a _ => h a) (by positivity)

theorem avg_le_one (f : α → ℚ) (h : ∀ a, f a ≤ 1) : avg f ≤ 1 := by
  rw [avg]
  apply div_le_one_of_le₀ _ (by positivity)
  calc ∑ a, f a ≤ ∑ _a : α, (1 : ℚ) := sum_le_sum fun a _ => h a
    _ = Fintype.card α := by simp

theorem avg_comm (f : α → β → ℚ) : avg (fun a => avg (f a)) = avg fun b => avg fun a => f a b := by
  simp only [avg, ← sum_div]
  rw [sum_comm, div_div, div_div, mul_comm]

theorem avg_add (f g : α → ℚ) : avg (fun a => f a + g a) = avg f + avg g := by
  rw [avg, avg, avg, sum_add_distrib, add_div]

theorem avg_sub (f g : α → ℚ) : avg (fun a => f a - g a) = avg f - avg g := by
  rw [avg, avg, avg, sum_sub_distrib, sub_div]

theorem avg_equiv (e : α ≃ β) (f : α → ℚ) (g : β → ℚ) (h : ∀ a, f a = g (e a)) : avg f = avg g := by
  rw [avg, avg, Fintype.card_congr e, ← Equiv.sum_comp e g]
  congr 1
  exact sum_congr rfl fun a _ => h a

theorem avg_prod (f : α × β → ℚ) : avg f = avg fun a => avg fun b => f (a, b) := by
  simp only [avg, ← sum_div]
  rw [Fintype.sum_prod_type, Fintype.card_prod, Nat.cast_mul, div_div, mul_comm]

theorem avg_abs (f : α → ℚ) : |avg f| ≤ avg fun a => |f a| := by
  rw [avg, avg, abs_div, abs_of_nonneg (show (0 : ℚ) ≤ Fintype.card α by positivity)]
  gcongr
  exact abs_sum_le_sum_abs _ _

end avg

variable {ι β γ δ α T T' : Type} [DecidableEq ι] [Fintype ι] [Fintype β]

/-- Averaging over the answer at one point. -/
theorem avg_update [Nonempty β] (s : ι) (f : (ι → β) → ℚ) :
    avg f = avg fun b : β => avg fun O : ι → β => f (update O s b) := by
  have h : ∑ x : (ι → β) × β, f x.1 = ∑ x : (ι → β) × β, f (update x.1 s x.2) := by
    refine Finset.sum_nbij' (fun x => (update x.1 s x.2, x.1 s)) (fun x => (update x.1 s x.2, x.1 s)) ?_ ?_ ?_ ?_ ?_
    · intro x _; exact mem_univ _
    · intro x _; exact mem_univ _
    · intro x _; simp
    · intro x _; simp
    · intro x _; simp
  have h1 : avg (fun x : (ι → β) × β => f x.1) = avg fun x : (ι → β) × β => f (update x.1 s x.2) := by
    rw [avg, avg, h]
  rw [avg_prod, avg_prod] at h1
  simp only [avg_const] at h1
  rw [h1, avg_comm]

theorem update_piecewise (D : Finset ι) (f O : ι → β) (s : ι) (b : β) :
    update (D.piecewise f O) s b = (insert s D).piecewise (update f s b) O := by
  funext i
  by_cases h : i = s
  · subst h; simp
  · simp [h, piecewise]

theorem avg_piecewise [Nonempty β] (D : Finset ι) (f : ι → β) (s : ι) (hs : s ∉ D) (g : (ι → β) → ℚ) :
    avg (fun O => g (D.piecewise f O)) = avg fun b : β => avg fun O => g ((insert s D).piecewise (update f s b) O) := by
  rw [avg_update s]
  congr 1
  funext b
  congr 1
  funext O
  congr 1
  funext i
  by_cases h : i = s
  · subst h; simp [piecewise, hs]
  · by_cases h' : i ∈ D <;> simp [h, h', piecewise]

namespace Spec.SigningProgram

variable (point : γ → T → ι) (answer : γ → T → β → δ) (sim : γ → T' → β → ι × δ) (win : α → List ι → (ι → β) → Prop)

omit [DecidableEq ι] [Fintype ι] [Fintype β] in
theorem withSigner_mem [Fintype T] (O : ι → β) (c : SigningProgram ι β γ δ α) (used : List ι) :
    0 ≤ withSigner point answer win O c used ∧ withSigner point answer win O c used ≤ 1 := by
  induction c generalizing used with
  | done a => rw [withSigner]; split <;> norm_num
  | ask i next ih => exact ih _ _
  | sign g next ih =>
    rw [withSigner]
    exact ⟨avg_nonneg _ fun c => (ih _ _).1, avg_le_one _ fun c => (ih _ _).2⟩

omit [Fintype ι] in
theorem withSimulator_mem [Fintype T'] (c : SigningProgram ι β γ δ α) (used : List ι) (O : ι → β) :
    0 ≤ withSimulator sim win c used O ∧ withSimulator sim win c used O ≤ 1 := by
  induction c generalizing used O with
  | done a => rw [withSimulator]; split <;> norm_num
  | ask i next ih => exact ih _ _ _
  | sign g next ih =>
    rw [withSimulator]
    exact ⟨avg_nonneg _ fun c => avg_nonneg _ fun c => (ih _ _ _).1, avg_le_one _ fun c => avg_le_one _ fun c => (ih _ _ _).2⟩

/-- Real and simulated signatures, with the oracle fixed on `D`. -/
theorem simulate_bound [Nonempty β] [Fintype T] [Nonempty T] [Fintype T'] [Nonempty T'] (N : ℚ) (hN : 0 < N)
    (hsim : ∀ g b, ∃ e : T ≃ T', ∀ c, sim g (e c) b = (point g c, answer g c b))
    (hpt : ∀ g i, (#{c : T | point g c = i} : ℚ) * N ≤ Fintype.card T)
    (c : SigningProgram ι β γ δ α) (Q q : ℕ) (hc : c.AtMost Q q) (B : ℕ) (D : Finset ι) (hB : #D + Q + q ≤ B) (f : ι → β)
    (used : List ι) :
    |avg (fun O => withSigner point answer win (D.piecewise f O) c used) -
      avg (fun O => withSimulator sim win c used (D.piecewise f O))| ≤ q * B / N := by
  induction c generalizing Q q D f used with
  | done a =>
    simp only [withSigner, withSimulator, sub_self, abs_zero]
    positivity
  | ask i next ih =>
    obtain ⟨hQ, hc⟩ := hc
    simp only [withSigner, withSimulator]
    by_cases hi : i ∈ D
    · simp only [piecewise_eq_of_mem _ _ _ hi]
      exact ih _ _ _ (hc _) _ (by omega) _ _
    · rw [avg_piecewise D f i hi fun O => withSigner point answer win O (next (O i)) used,
        avg_piecewise D f i hi fun O => withSimulator sim win (next (O i)) used O, ← avg_sub]
      refine (avg_abs _).trans ?_
      refine (avg_mono _ (fun _ => q * B / N) fun b => ?_).trans (avg_const _).le
      have : ∀ O : ι → β, (insert i D).piecewise (update f i b) O i = b := fun O => by simp
      simp only [this]
      exact ih _ _ _ (hc _) (insert i D) (by rw [card_insert_of_notMem hi]; omega) _ _
  | sign g next ih =>
    obtain ⟨hq, hc⟩ := hc
    simp only [withSigner, withSimulator]
    have e1 : avg (fun O => avg fun b : β => avg fun s : T' => withSimulator sim win (next (sim g s b).2) ((sim g s b).1 :: used)
          (update (D.piecewise f O) (sim g s b).1 b)) =
        avg fun c : T => avg fun b : β => avg fun O : ι → β => withSimulator sim win (next (answer g c b)) (point g c :: used)
          ((insert (point g c) D).piecewise (update f (point g c) b) O) := by
      rw [avg_comm]
      have : ∀ b : β, (avg fun O => avg fun s : T' => withSimulator sim win (next (sim g s b).2) ((sim g s b).1 :: used)
          (update (D.piecewise f O) (sim g s b).1 b)) = avg fun c : T => avg fun O : ι → β =>
            withSimulator sim win (next (answer g c b)) (point g c :: used)
              ((insert (point g c) D).piecewise (update f (point g c) b) O) := by
        intro b
        obtain ⟨e, he⟩ := hsim g b
        rw [avg_comm]
        refine (avg_equiv e _ _ fun c => ?_).symm
        simp only [he, update_piecewise]
      simp only [this]
      rw [avg_comm]
    rw [e1, avg_comm, ← avg_sub]
    refine (avg_abs _).trans ?_
    have hbound : ∀ c : T, |avg (fun O => withSigner point answer win (D.piecewise f O)
          (next (answer g c (D.piecewise f O (point g c)))) (point g c :: used)) -
        avg (fun b : β => avg fun O : ι → β => withSimulator sim win (next (answer g c b)) (point g c :: used)
          ((insert (point g c) D).piecewise (update f (point g c) b) O))| ≤
        (if point g c ∈ D then 1 else 0) + ((q - 1 : ℕ) : ℚ) * B / N := by
      intro c
      have hnn : (0 : ℚ) ≤ ((q - 1 : ℕ) : ℚ) * B / N := by positivity
      by_cases hi : point g c ∈ D
      · rw [if_pos hi]
        have a1 := avg_nonneg (fun O => withSigner point answer win (D.piecewise f O)
          (next (answer g c (D.piecewise f O (point g c)))) (point g c :: used)) fun O => (withSigner_mem _ _ _ _ _ _).1
        have a2 := avg_le_one (fun O => withSigner point answer win (D.piecewise f O)
          (next (answer g c (D.piecewise f O (point g c)))) (point g c :: used)) fun O => (withSigner_mem _ _ _ _ _ _).2
        have a3 := avg_nonneg (fun b : β => avg fun O : ι → β => withSimulator sim win (next (answer g c b)) (point g c :: used)
          ((insert (point g c) D).piecewise (update f (point g c) b) O)) fun O => avg_nonneg _ fun _ => (withSimulator_mem _ _ _ _ _).1
        have a4 := avg_le_one (fun b : β => avg fun O : ι → β => withSimulator sim win (next (answer g c b)) (point g c :: used)
          ((insert (point g c) D).piecewise (update f (point g c) b) O)) fun O => avg_le_one _ fun _ => (withSimulator_mem _ _ _ _ _).2
        rw [abs_le]
        constructor <;> linarith
      · rw [if_neg hi, zero_add, avg_piecewise D f _ hi fun O => withSigner point answer win O
          (next (answer g c (O (point g c)))) (point g c :: used), ← avg_sub]
        refine (avg_abs _).trans ?_
        refine (avg_mono _ (fun _ => ((q - 1 : ℕ) : ℚ) * B / N) fun b => ?_).trans (avg_const _).le
        have : ∀ O : ι → β, (insert (point g c) D).piecewise (update f (point g c) b) O (point g c) = b := fun O => by simp
        simp only [this]
        exact ih _ _ _ (hc _) (insert (point g c) D) (by rw [card_insert_of_notMem hi]; omega) _ _
    refine (avg_mono _ _ hbound).trans ?_
    rw [avg_add, avg_const]
    have hcol : avg (fun c : T => if point g c ∈ D then (1 : ℚ) else 0) ≤ B / N := by
      have hT : (0 : ℚ) < Fintype.card T := by exact_mod_cast Fintype.card_pos
      rw [avg, div_le_div_iff₀ hT hN]
      have : ∑ c : T, (if point g c ∈ D then (1 : ℚ) else 0) = ∑ i ∈ D, (#{c : T | point g c = i} : ℚ) := by
        rw [← sum_filter, sum_const, nsmul_eq_mul, mul_one]
        rw [← Nat.cast_sum]
        congr 1
        rw [card_eq_sum_card_fiberwise (f := point g) (t := D) (by intro c hc; simpa using hc)]
        refine sum_congr rfl fun i hi => ?_
        congr 1
        ext c
        simp only [mem_filter, mem_univ, true_and]
        exact ⟨fun h => h.2, fun h => ⟨h ▸ hi, h⟩⟩
      rw [this, sum_mul]
      calc ∑ i ∈ D, (#{c : T | point g c = i} : ℚ) * N ≤ ∑ i ∈ D, (Fintype.card T : ℚ) := sum_le_sum fun i _ => hpt g i
        _ = #D * Fintype.card T := by simp
        _ ≤ B * Fintype.card T := by
          gcongr
          omega
    have hq' : (q : ℚ) = ((q - 1 : ℕ) : ℚ) + 1 := by
      have : q = (q - 1) + 1 := by omega
      exact_mod_cast this
    rw [hq', add_mul, one_mul, add_div, add_comm]
    gcongr

/-! ## Fixed random choices -/

/-- The run against the simulator with fixed random choices: output, points changed, final oracle. -/
def simRun : SigningProgram ι β γ δ α → (ℕ → β × T') → List ι → (ι → β) → α × List ι × (ι → β)
  | done a, _, used, O => (a, used, O)
  | ask i next, tape, used, O => simRun (next (O i)) tape used O
  | sign g next, tape, used, O => simRun (next (sim g (tape 0).2 (tape 0).1).2) (fun i => tape (i + 1))
      ((sim g (tape 0).2 (tape 0).1).1 :: used) (update O (sim g (tape 0).2 (tape 0).1).1 (tape 0).1)

omit [Fintype ι] [Fintype β] in
theorem simRun_used (c : SigningProgram ι β γ δ α) (tape : ℕ → β × T') (used : List ι) (O : ι → β) :
    used ⊆ (simRun sim c tape used O).2.1 ∧
      ∀ i ∉ (simRun sim c tape used O).2.1, (simRun sim c tape used O).2.2 i = O i := by
  induction c generalizing tape used O with
  | done a => exact ⟨fun _ h => h, fun _ _ => rfl⟩
  | ask i next ih => exact ih _ _ _ _
  | sign g next ih =>
    rw [simRun]
    obtain ⟨h1, h2⟩ := ih (sim g (tape 0).2 (tape 0).1).2 (fun i => tape (i + 1)) ((sim g (tape 0).2 (tape 0).1).1 :: used)
      (update O (sim g (tape 0).2 (tape 0).1).1 (tape 0).1)
    refine ⟨fun x hx => h1 (List.mem_cons_of_mem _ hx), fun i hi => ?_⟩
    rw [h2 i hi, update_of_ne]
    intro h
    exact hi (h1 (h ▸ List.mem_cons_self))

omit [Fintype ι] [Fintype β] in
theorem simRun_simulated (c : SigningProgram ι β γ δ α) (tape : ℕ → β × T') (used : List ι) (changed : List (ι × β))
    (O : ι → β) :
    (simulated sim c tape changed).run O = (simRun sim c tape used fun i => (changed.lookup i).getD (O i)).1 := by
  induction c generalizing tape used changed with
  | done a => rfl
  | ask i next ih =>
    rw [simulated, simRun]
    cases h : changed.lookup i with
    | some b => simpa using ih b tape used changed
    | none => simpa [OracleProgram.run] using ih (O i) tape used changed
  | sign g next ih =>
    rw [simulated, simRun, ih _ _ ((sim g (tape 0).2 (tape 0).1).1 :: used)]
    congr 2
    funext i
    by_cases h : i = (sim g (tape 0).2 (tape 0).1).1
    · subst h; simp
    · rw [update_of_ne h, List.lookup_cons, beq_false_of_ne h]

omit [Fintype ι] [Fintype β] in
theorem simulated_asked (c : SigningProgram ι β γ δ α) (Q q : ℕ) (hc : c.AtMost Q q) (tape : ℕ → β × T')
    (changed : List (ι × β)) (O : ι → β) : ((simulated sim c tape changed).asked O).length ≤ Q := by
  induction c generalizing tape changed Q q with
  | done a => simp [simulated, OracleProgram.asked]
  | ask i next ih =>
    obtain ⟨hQ, hc⟩ := hc
    rw [simulated]
    cases h : changed.lookup i with
    | some b => exact (ih b _ _ (hc b) _ _).trans (by omega)
    | none =>
      have := ih (O i) _ _ (hc (O i)) tape changed
      simp only [OracleProgram.asked, List.length_cons]
      omega
  | sign g next ih => exact ih _ _ _ (hc.2 _) _ _

open Classical in
omit [Fintype ι] in
theorem withSimulator_tape [Nonempty β] [Fintype T'] [Nonempty T'] (d : β × T') (c : SigningProgram ι β γ δ α) (Q q : ℕ)
    (hc : c.AtMost Q q) (used : List ι) (O : ι → β) :
    withSimulator sim win c used O = avg fun tape : Fin q → β × T' =>
      if win (simRun sim c (extend d tape) used O).1 (simRun sim c (extend d tape) used O).2.1
        (simRun sim c (extend d tape) used O).2.2 then 1 else 0 := by
  induction c generalizing used O Q q with
  | done a =>
    rw [withSimulator]
    simp only [simRun]
    exact (avg_const _).symm
  | ask i next ih =>
    rw [withSimulator]
    exact ih _ _ _ (hc.2 _) _ _
  | sign g next ih =>
    obtain ⟨hq, hc⟩ := hc
    obtain ⟨q, rfl⟩ : ∃ q', q = q' + 1 := ⟨q - 1, by omega⟩
    rw [withSimulator]
    simp only [ih _ _ _ (hc _)]
    rw [← avg_prod (fun x : β × T' => avg fun tape : Fin (q + 1 - 1) → β × T' =>
      if win (simRun sim (next (sim g x.2 x.1).2) (extend d tape) ((sim g x.2 x.1).1 :: used)
          (update O (sim g x.2 x.1).1 x.1)).1 (simRun sim (next (sim g x.2 x.1).2) (extend d tape) ((sim g x.2 x.1).1 :: used)
          (update O (sim g x.2 x.1).1 x.1)).2.1 (simRun sim (next (sim g x.2 x.1).2) (extend d tape) ((sim g x.2 x.1).1 :: used)
          (update O (sim g x.2 x.1).1 x.1)).2.2 then 1 else 0)]
    rw [← avg_prod (fun y : (β × T') × (Fin (q + 1 - 1) → β × T') =>
      if win (simRun sim (next (sim g y.1.2 y.1.1).2) (extend d y.2) ((sim g y.1.2 y.1.1).1 :: used)
          (update O (sim g y.1.2 y.1.1).1 y.1.1)).1
          (simRun sim (next (sim g y.1.2 y.1.1).2) (extend d y.2) ((sim g y.1.2 y.1.1).1 :: used)
          (update O (sim g y.1.2 y.1.1).1 y.1.1)).2.1
          (simRun sim (next (sim g y.1.2 y.1.1).2) (extend d y.2) ((sim g y.1.2 y.1.1).1 :: used)
          (update O (sim g y.1.2 y.1.1).1 y.1.1)).2.2 then 1 else 0)]
    refine avg_equiv (Fin.consEquiv fun _ : Fin (q + 1) => β × T') _ _ fun y => ?_
    have h0 : extend d (Fin.consEquiv (fun _ : Fin (q + 1) => β × T') y) 0 = y.1 := by
      simp [extend, Fin.consEquiv]
    have h1 : (fun i => extend d (Fin.consEquiv (fun _ : Fin (q + 1) => β × T') y) (i + 1)) = extend d y.2 := by
      funext i
      by_cases h : i < q
      · have := Fin.cons_succ (α := fun _ : Fin (q + 1) => β × T') y.1 y.2 ⟨i, h⟩
        simp only [extend, Nat.add_lt_add_iff_right, h, dif_pos]
        exact this
      · simp [extend, h]
    simp only [simRun, h0, h1]

end Spec.SigningProgram
end Triptych
