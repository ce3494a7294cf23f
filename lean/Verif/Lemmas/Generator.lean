import Verif.Spec.Generator
import Verif.Lemmas.Signing
import Mathlib.Data.Fintype.BigOperators
import Mathlib.Algebra.Order.BigOperators.Ring.Finset
import Mathlib.Tactic.LinearCombination

/-! # Lemmas: tables of a generator -/
set_option autoImplicit false
set_option linter.unusedSectionVars false
set_option linter.unusedVariables false

namespace Triptych
open Spec Finset

/-- Averages over the image of a map whose fibres have at most `M` elements. -/
theorem avg_fibre_le {A B : Type} [Fintype A] [Fintype B] [DecidableEq B] [Nonempty A] (f : A → B) (M : ℕ)
    (hM : ∀ b, #{a | f a = b} ≤ M) (g : B → ℚ) (h0 : ∀ b, 0 ≤ g b) :
    avg (fun a => g (f a)) ≤ (Fintype.card B * M / Fintype.card A : ℚ) * avg g := by
  have hA : (0 : ℚ) < Fintype.card A := by exact_mod_cast Fintype.card_pos
  have hB : (0 : ℚ) < Fintype.card B := by
    have : Nonempty B := ⟨f (Classical.arbitrary A)⟩
    exact_mod_cast Fintype.card_pos
  have h1 : ∑ a, g (f a) = ∑ b, (#{a | f a = b} : ℚ) * g b := by
    rw [← Finset.sum_fiberwise univ f]
    refine sum_congr rfl fun b _ => ?_
    rw [sum_congr rfl (g := fun _ => g b) (fun a ha => by rw [(mem_filter.1 ha).2]), sum_const, nsmul_eq_mul]
  have h2 : ∑ b, (#{a | f a = b} : ℚ) * g b ≤ M * ∑ b, g b := by
    rw [mul_sum]
    exact sum_le_sum fun b _ => mul_le_mul_of_nonneg_right (by exact_mod_cast hM b) (h0 b)
  rw [avg, avg, h1]
  calc (∑ b, (#{a | f a = b} : ℚ) * g b) / Fintype.card A ≤ (M * ∑ b, g b) / Fintype.card A := by gcongr
    _ = _ := by field_simp

theorem fibre_ratio {A B : Type} [Fintype A] [Fintype B] [DecidableEq B] [Nonempty A] (f : A → B) (M : ℕ)
    (hM : ∀ b, #{a | f a = b} ≤ M) : (1 : ℚ) ≤ Fintype.card B * M / Fintype.card A := by
  have hB : Nonempty B := ⟨f (Classical.arbitrary A)⟩
  have h := avg_fibre_le f M hM (fun _ => 1) (fun _ => zero_le_one)
  rw [avg_const, avg_const, mul_one] at h
  exact h

theorem avg_fibre {A B : Type} [Fintype A] [Fintype B] [DecidableEq B] [Nonempty A] (f : A → B) (M : ℕ)
    (hM : ∀ b, #{a | f a = b} ≤ M) (g : B → ℚ) (h0 : ∀ b, 0 ≤ g b) (h1 : ∀ b, g b ≤ 1) :
    |avg (fun a => g (f a)) - avg g| ≤ Fintype.card B * M / Fintype.card A - 1 := by
  have hB : Nonempty B := ⟨f (Classical.arbitrary A)⟩
  have e1 := avg_fibre_le f M hM g h0
  have e2 := avg_fibre_le f M hM (fun b => 1 - g b) (fun b => by linarith [h1 b])
  have e3 := fibre_ratio f M hM
  rw [avg_sub, avg_const] at e2
  rw [avg_sub (fun _ : B => (1 : ℚ)) g, avg_const] at e2
  have g0 := avg_nonneg g h0
  have g1 := avg_le_one g h1
  rw [abs_le]
  constructor <;> nlinarith

/-- Replacing the signer's randomness by nearly uniform randomness. -/
theorem Spec.SigningProgram.withSigner_map {ι β γ δ α T T' : Type} [Fintype T] [Fintype T'] [DecidableEq T'] [Nonempty T] (f : T → T') (M : ℕ)
    (hM : ∀ b, #{a | f a = b} ≤ M) (point : γ → T' → ι) (answer : γ → T' → β → δ) (win : α → List ι → (ι → β) → Prop)
    (O : ι → β) (c : SigningProgram ι β γ δ α) (Q q : ℕ) (hc : c.AtMost Q q) (used : List ι) :
    |c.withSigner (fun g a => point g (f a)) (fun g a => answer g (f a)) win O used - c.withSigner point answer win O used| ≤
      q * (Fintype.card T' * M / Fintype.card T - 1) := by
  have hε : (0 : ℚ) ≤ Fintype.card T' * M / Fintype.card T - 1 := by linarith [fibre_ratio f M hM]
  induction c generalizing Q q used with
  | done a =>
    simp only [SigningProgram.withSigner, sub_self, abs_zero]
    positivity
  | ask i next ih => exact ih _ (Q - 1) q (hc.2 _) used
  | sign g next ih =>
    simp only [SigningProgram.withSigner]
    have e1 := avg_fibre f M hM (fun a => withSigner point answer win O (next (answer g a (O (point g a)))) (point g a :: used))
      (fun a => (withSigner_mem point answer win O _ _).1) (fun a => (withSigner_mem point answer win O _ _).2)
    have e2 : |avg (fun a => withSigner (fun g a => point g (f a)) (fun g a => answer g (f a)) win O
          (next (answer g (f a) (O (point g (f a))))) (point g (f a) :: used)) -
        avg (fun a => withSigner point answer win O (next (answer g (f a) (O (point g (f a))))) (point g (f a) :: used))| ≤
        (q - 1 : ℕ) * (Fintype.card T' * M / Fintype.card T - 1) := by
      rw [← avg_sub]
      refine (avg_abs _).trans ((avg_mono _ _ fun a => ih _ Q (q - 1) (hc.2 _) _).trans ?_)
      rw [avg_const]
    have hq : (q : ℚ) = ((q - 1 : ℕ) : ℚ) + 1 := by
      have := hc.1
      rw [Nat.cast_sub (by omega)]
      simp
    rw [hq, add_mul, one_mul]
    exact (abs_sub_le _ _ _).trans (add_le_add e2 e1)

/-- The fibres of reducing every entry of a table. -/
theorem table_fibre {F P : Type} [DecidableEq F] (E : Env F P) (K N : ℕ)
    (hK : ∀ x : F, #{b : Block | E.scalarOfWide b.bytes = x} ≤ K) (v : Fin N → F) :
    #{τ : Fin N → Block | (fun i => E.scalarOfWide (τ i).bytes) = v} ≤ K ^ N := by
  have h : ({τ : Fin N → Block | (fun i => E.scalarOfWide (τ i).bytes) = v} : Finset _) =
      Fintype.piFinset fun i => ({b : Block | E.scalarOfWide b.bytes = v i} : Finset Block) := by
    ext τ
    simp [funext_iff, Fintype.mem_piFinset]
  rw [h, Fintype.card_piFinset]
  calc ∏ i, #{b : Block | E.scalarOfWide b.bytes = v i} ≤ ∏ _i : Fin N, K := prod_le_prod' fun i _ => hK _
    _ = K ^ N := by simp

theorem coinsOf_injective {F : Type} {n m : ℕ} : Function.Injective (coinsOf : (Fin (drawCount n m) → F) → Coins F n m) := by
  intro v v' h
  have hA : ∀ hh, v ⟨0, hh⟩ = v' ⟨0, hh⟩ := fun _ => congrArg Coins.rA h
  have ha : ∀ (j : Fin m) (i : Fin n), v ⟨_, draw_mask j i⟩ = v' ⟨_, draw_mask j i⟩ :=
    fun j i => congrFun (congrFun (congrArg Coins.a h) j) i
  have hB : ∀ hh, v ⟨1 + m * n, hh⟩ = v' ⟨1 + m * n, hh⟩ := fun _ => congrArg Coins.rB h
  have hC : ∀ hh, v ⟨2 + m * n, hh⟩ = v' ⟨2 + m * n, hh⟩ := fun _ => congrArg Coins.rC h
  have hD : ∀ hh, v ⟨3 + m * n, hh⟩ = v' ⟨3 + m * n, hh⟩ := fun _ => congrArg Coins.rD h
  have hρ : ∀ (j : Fin m) hh, v ⟨4 + m * n + j.val, hh⟩ = v' ⟨4 + m * n + j.val, hh⟩ :=
    fun j _ => congrFun (congrArg Coins.rho h) j
  funext ⟨i, hi⟩
  rcases Nat.eq_zero_or_pos i with h0 | h0
  · subst h0; exact hA _
  by_cases h1 : i < 1 + m * n
  · have hn : 0 < n := by
      rcases Nat.eq_zero_or_pos n with hn | hn
      · subst hn; simp at h1; omega
      · exact hn
    have hj : (i - 1) / n < m := by
      rw [Nat.div_lt_iff_lt_mul hn]; omega
    have he : 1 + ((i - 1) / n * n + (i - 1) % n) = i := by
      rw [mul_comm, Nat.div_add_mod]; omega
    have := ha ⟨(i - 1) / n, hj⟩ ⟨(i - 1) % n, Nat.mod_lt _ hn⟩
    simp only [he] at this
    exact this
  by_cases h2 : i = 1 + m * n
  · subst h2; exact hB _
  by_cases h3 : i = 2 + m * n
  · subst h3; exact hC _
  by_cases h4 : i = 3 + m * n
  · subst h4; exact hD _
  · have hj : i - (4 + m * n) < m := by rw [drawCount] at hi; omega
    have he : 4 + m * n + (i - (4 + m * n)) = i := by omega
    have := hρ ⟨i - (4 + m * n), hj⟩ (by simpa only [he] using hi)
    simp only [he] at this
    exact this

theorem coins_card {F : Type} [Fintype F] [DecidableEq F] (n m : ℕ) : Fintype.card (Coins F n m) = Fintype.card F ^ drawCount n m := by
  rw [Fintype.card_congr (Coins.tuple F n m)]
  simp only [Fintype.card_prod, Fintype.card_fun, Fintype.card_fin]
  rw [drawCount]
  ring

theorem tableCoins_fibre {F P : Type} [Fintype F] [DecidableEq F] (E : Env F P) (K n m : ℕ)
    (hK : ∀ x : F, #{b : Block | E.scalarOfWide b.bytes = x} ≤ K) (c : Coins F n m) [DecidableEq (Coins F n m)] :
    #{τ : Fin (drawCount n m) → Block | tableCoins E τ = c} ≤ K ^ drawCount n m := by
  have hbij : Function.Bijective (coinsOf : (Fin (drawCount n m) → F) → Coins F n m) := by
    rw [Fintype.bijective_iff_injective_and_card]
    exact ⟨coinsOf_injective, by rw [coins_card]; simp⟩
  obtain ⟨v, rfl⟩ := hbij.2 c
  refine le_trans (le_of_eq ?_) (table_fibre E K _ hK v)
  congr 1
  ext τ
  rw [mem_filter, mem_filter, tableCoins, coinsOf_injective.eq_iff]

theorem block_card : Fintype.card Block = 2 ^ 512 := by
  rw [Fintype.card_pi_const, Fintype.card_fin, show (256 : ℕ) = 2 ^ 8 by norm_num, ← pow_mul]

/-- A generator with a table gives the entries of the table. -/
theorem withTable_prf {F P : Type} (E : Env F P) (key : TRng) {N : ℕ} (τ : Fin N → Block) (i : ℕ) (hi : i < N) :
    (withTable E key τ).prf (queryPoint key i) 64 = (τ ⟨i, hi⟩).bytes := by
  have hl : (queryPoint key i).reqs.length = i := by simp [queryPoint]
  show (if h : _ then _ else _) = _
  rw [dif_pos ⟨by rw [hl]; exact hi, by rw [hl], rfl⟩]
  simp only [hl]

theorem withTable_drawn {F P : Type} (E : Env F P) (key : TRng) {N : ℕ} (τ : Fin N → Block) (i : ℕ) (hi : i < N) :
    drawn (withTable E key τ) key i = E.scalarOfWide (τ ⟨i, hi⟩).bytes := by
  rw [drawn, withTable_prf E key τ i hi]
  rfl

theorem withTable_nonces {F P : Type} (E : Env F P) (key : TRng) (n m : ℕ) (τ : Fin (drawCount n m) → Block) :
    proverNonces (withTable E key τ) n m key = (tableCoins E τ).nonces := by
  have h := withTable_drawn E key τ
  simp only [proverNonces, Coins.nonces, tableCoins, coinsOf, Nonces.mk.injEq]
  refine ⟨h _ _, ?_, h _ _, h _ _, h _ _, ?_⟩
  · apply List.ext_getElem (by simp)
    intro j h1 h2
    rw [List.getElem_map, List.getElem_range, List.getElem_ofFn]
    apply List.ext_getElem (by simp)
    intro i h3 h4
    rw [List.getElem_map, List.getElem_range, List.getElem_ofFn]
    exact h _ _
  · apply List.ext_getElem (by simp)
    intro j h1 h2
    rw [List.getElem_map, List.getElem_range, List.getElem_ofFn]
    exact h _ _

end Triptych
