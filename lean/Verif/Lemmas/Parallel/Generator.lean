import Verif.Lemmas.Generator
import Verif.Spec.Parallel.Generator
import Verif.Props.Parallel.ZeroKnowledge

/-! # Lemmas: the parallel prover's randomness from a table -/
set_option autoImplicit false
set_option linter.unusedSectionVars false
set_option linter.unusedVariables false

namespace Triptych.Parallel
open Finset
open Triptych.Parallel.Spec
open Triptych.Spec (Block Block.bytes withTable queryPoint drawn)

theorem coinsOf_injective {F : Type} {n m : ℕ} : Function.Injective (coinsOf : (Fin (drawCount n m) → F) → Coins F n m) := by
  intro v v' h
  have hA : ∀ hh, v ⟨0, hh⟩ = v' ⟨0, hh⟩ := fun _ => congrArg Coins.rA h
  have ha : ∀ (j : Fin m) (i : Fin n), v ⟨_, draw_mask j i⟩ = v' ⟨_, draw_mask j i⟩ :=
    fun j i => congrFun (congrFun (congrArg Coins.a h) j) i
  have hB : ∀ hh, v ⟨1 + m * n, hh⟩ = v' ⟨1 + m * n, hh⟩ := fun _ => congrArg Coins.rB h
  have hC : ∀ hh, v ⟨2 + m * n, hh⟩ = v' ⟨2 + m * n, hh⟩ := fun _ => congrArg Coins.rC h
  have hD : ∀ hh, v ⟨3 + m * n, hh⟩ = v' ⟨3 + m * n, hh⟩ := fun _ => congrArg Coins.rD h
  have hρ : ∀ (j : Fin m) hh, v ⟨4 + m * n + j.val, hh⟩ = v' ⟨4 + m * n + j.val, hh⟩ :=
    fun j _ => congrFun (congrArg Coins.rho h) j
  have hρ1 : ∀ (j : Fin m) hh, v ⟨4 + m * n + m + j.val, hh⟩ = v' ⟨4 + m * n + m + j.val, hh⟩ :=
    fun j _ => congrFun (congrArg Coins.rho1 h) j
  funext ⟨i, hi⟩
  rcases Nat.eq_zero_or_pos i with h0 | h0
  · subst h0; exact hA _
  by_cases h1 : i < 1 + m * n
  · have hn : 0 < n := by
      rcases Nat.eq_zero_or_pos n with hn | hn
      · subst hn; simp at h1; omega
      · exact hn
    have hj : (i - 1) / n < m := by
      rw [Nat.div_lt_iff_lt_mul hn]; omega
    have he : 1 + ((i - 1) / n * n + (i - 1) % n) = i := by
      rw [mul_comm, Nat.div_add_mod]; omega
    have := ha ⟨(i - 1) / n, hj⟩ ⟨(i - 1) % n, Nat.mod_lt _ hn⟩
    simp only [he] at this
    exact this
  by_cases h2 : i = 1 + m * n
  · subst h2; exact hB _
  by_cases h3 : i = 2 + m * n
  · subst h3; exact hC _
  by_cases h4 : i = 3 + m * n
  · subst h4; exact hD _
  by_cases h5 : 4 + m * n + m ≤ i
  · have hj : i - (4 + m * n + m) < m := by rw [drawCount] at hi; omega
    have he : 4 + m * n + m + (i - (4 + m * n + m)) = i := by omega
    have := hρ1 ⟨i - (4 + m * n + m), hj⟩ (by simpa only [he] using hi)
    simp only [he] at this
    exact this
  · have hj : i - (4 + m * n) < m := by omega
    have he : 4 + m * n + (i - (4 + m * n)) = i := by omega
    have := hρ ⟨i - (4 + m * n), hj⟩ (by simpa only [he] using hi)
    simp only [he] at this
    exact this

theorem coins_card {F : Type} [Fintype F] [DecidableEq F] (n m : ℕ) : Fintype.card (Coins F n m) = Fintype.card F ^ drawCount n m := by
  rw [Fintype.card_congr (Coins.tuple F n m)]
  simp only [Fintype.card_prod, Fintype.card_fun, Fintype.card_fin]
  rw [drawCount]
  ring

theorem tableCoins_fibre {F P : Type} [Fintype F] [DecidableEq F] (E : Env F P) (K n m : ℕ)
    (hK : ∀ x : F, #{b : Block | E.scalarOfWide b.bytes = x} ≤ K) (c : Coins F n m) [DecidableEq (Coins F n m)] :
    #{τ : Fin (drawCount n m) → Block | tableCoins E τ = c} ≤ K ^ drawCount n m := by
  have hbij : Function.Bijective (coinsOf : (Fin (drawCount n m) → F) → Coins F n m) := by
    rw [Fintype.bijective_iff_injective_and_card]
    exact ⟨coinsOf_injective, by rw [coins_card]; simp⟩
  obtain ⟨v, rfl⟩ := hbij.2 c
  refine le_trans (le_of_eq ?_) (table_fibre E K _ hK v)
  congr 1
  ext τ
  rw [mem_filter, mem_filter, tableCoins, coinsOf_injective.eq_iff]

theorem withTable_nonces {F P : Type} (E : Env F P) (key : TRng) (n m : ℕ) (τ : Fin (drawCount n m) → Block) :
    proverNonces (withTable E key τ) n m key = (tableCoins E τ).nonces := by
  have h := withTable_drawn E key τ
  simp only [proverNonces, Coins.nonces, tableCoins, coinsOf, Nonces.mk.injEq]
  refine ⟨h _ _, ?_, h _ _, h _ _, h _ _, ?_, ?_⟩
  · apply List.ext_getElem (by simp)
    intro j h1 h2
    rw [List.getElem_map, List.getElem_range, List.getElem_ofFn]
    apply List.ext_getElem (by simp)
    intro i h3 h4
    rw [List.getElem_map, List.getElem_range, List.getElem_ofFn]
    exact h _ _
  · apply List.ext_getElem (by simp)
    intro j h1 h2
    rw [List.getElem_map, List.getElem_range, List.getElem_ofFn]
    exact h _ _
  · apply List.ext_getElem (by simp)
    intro j h1 h2
    rw [List.getElem_map, List.getElem_range, List.getElem_ofFn]
    exact h _ _

end Triptych.Parallel
