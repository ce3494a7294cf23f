import Verif.Lemmas.KnownWeights

/-! # C78: looking for convenient weights of one proof, with the weights of all seeds known -/
set_option autoImplicit false
set_option linter.unusedSectionVars false
set_option linter.unusedVariables false

namespace Triptych
open Spec Finset Function

variable {F P : Type} [Field F] [AddCommGroup P] [Module F P] [DecidableEq F] [DecidableEq P]

theorem batchSum_single (params : Params P) (M : List P) (st : Statement P) (p : Proof F P) (ξ : F) (w : Fin 1 × Fin 4 → F) :
    batchSum params M [st] [p] [ξ] (weightList w) = ∑ x, w x • equation params M st.J p ξ x.2 := by
  refine (batchSum_eq_sum params M [st] [p] [ξ] rfl rfl w).trans (sum_congr rfl fun x _ => ?_)
  obtain ⟨⟨i, hi⟩, e⟩ := x
  obtain rfl : i = 0 := by simpa using hi
  rfl

theorem badTables_class [Fintype F] {κ : Type} (E : Env F P) (hE : E.Lawful) (A : Finset Transcript) (sts : κ → Statement P)
    (hst : ∀ k, StatementBuilt E (sts k)) (hinj : ∀ k k', (sts k).hash = (sts k').hash → k = k') (j : ℕ) (a : A) :
    ∃ c : Direction F 4, badTables E A sts 0 j (fun _ => a) ⊆ rowClass E 4 j c := by
  by_cases hne : ∃ x : Fin 1 → Forgery κ F P, InvalidFor E A sts x fun _ => a
  · obtain ⟨x, hx1, hx2, i, st, p, ξ, hi, hp, hξ, hv⟩ := hne
    have h0 : i = 0 := by
      have := (List.getElem?_eq_some_iff.1 hp).1
      simpa using this
    subst h0
    have e1 : st = sts (x 0).k := by simpa using hi.symm
    have e2 : p = (x 0).p := by simpa using hp.symm
    have e3 : ξ = challenge E (x 0).t (sts (x 0).k) (x 0).p := by
      rw [challenges] at hξ
      simpa using hξ.symm
    obtain ⟨e, he⟩ : ∃ e, equation (sts (x 0).k).params (sts (x 0).k).inputSet.M st.J p ξ e ≠ 0 := by
      by_contra hc
      push Not at hc
      exact hv ⟨hc 0, hc 1, hc 2, hc 3⟩
    obtain ⟨c, hc⟩ := exists_direction (F := F) (fun e => equation (sts (x 0).k).params (sts (x 0).k).inputSet.M st.J p ξ e) e he
    refine ⟨c, fun τ hτ => ?_⟩
    rw [mem_badTables] at hτ
    rw [mem_rowClass]
    obtain ⟨y, ⟨hy1, hy2, hy3⟩, hy4⟩ := hτ
    have hk : (y 0).k = (x 0).k := hinj _ _ (response_hash E hE _ _ _ _ _ _ ((hy1 0).trans (hx1 0).symm))
    have hxy : y = x := by
      funext i
      refine response_inj E hE sts hinj (sts (x 0).k).params (hst _).ok.params.n (y i) (x i) (hk ▸ hy2 i) (hx2 i)
        ((hy1 i).trans (hx1 i).symm)
    subst hxy
    rcases hy4 with h | ⟨w, h1, h2, h3⟩
    · exact Or.inl h
    · refine Or.inr ⟨w, h1, hc w ?_, h3⟩
      rw [e1, e2, e3, ← batchSum_single]
      rw [challenges] at h2
      simpa using h2
  · refine ⟨⟨fun _ => 1, 0, rfl⟩, fun τ hτ => ?_⟩
    rw [mem_badTables] at hτ
    obtain ⟨x, h, -⟩ := hτ
    exact absurd ⟨x, h⟩ hne

/-- C78, tight form: even a program that knows the weights of all seeds, and may use this to choose the transcripts whose at most
`Q` seeds it asks for, outputs an invalid proof that is accepted with probability at most `(Q + 1) s / 2 ^ 64` plus the probability
that the first usable weights of some `s + 1` seeds satisfy a common linear relation. So finding an accepted invalid proof takes
about `2 ^ 64 / s` seeds whatever else the program computes. -/
theorem C78_known [Fintype F] {κ : Type} (E : Env F P) (hE : E.Lawful) (cfg : Config) (A : Finset Transcript)
    (sts : κ → Statement P) (hst : ∀ k, StatementBuilt E (sts k)) (hinj : ∀ k k', (sts k).hash = (sts k').hash → k = k')
    (D K : ℕ) (hD : D = 2 ^ 512) (hK : ∀ x : F, #{b : Block | E.scalarOfWide b.bytes = x} ≤ K) (hK2 : K < D) (j s : ℕ)
    (c : GrindProgram A Seed Seed (Fin (1 * j * 4) → Block) (Forgery κ F P)) (Q T : ℕ) (hc : c.AtMost Q T) :
    (avg fun H : A → Seed => avg fun W : Seed → Fin (1 * j * 4) → Block => ind (AcceptedInvalid E cfg A sts (c.run H W) H W)) ≤
      (Q + 1) * (s / 2 ^ 64) +
        4 * Fintype.card F ^ 3 * (2 ^ 64 * weightBound 4 (Fintype.card F) K D 1 j) ^ (s + 1) := by
  have hβ0 := weightBound_nonneg 4 (Fintype.card F) K D 1 j hK2
  have hb := known_bound (X := Seed) (rowClass E 4 j) (seedPoint E A sts) (fun a => badTables E A sts 0 j fun _ => a)
    (badTables_class E hE A sts hst hinj j) _ (rowClass_card E D K hD hK hK2 4 j) hβ0 c Q T hc s
  rw [Fintype.card_fin] at hb
  have hdir : (Fintype.card (Direction F 4) : ℚ) ≤ 4 * Fintype.card F ^ 3 := by exact_mod_cast direction_card (F := F) 4
  have hpow : (0 : ℚ) ≤ (2 ^ 64 * weightBound 4 (Fintype.card F) K D 1 j) ^ (s + 1) :=
    pow_nonneg (mul_nonneg (by positivity) hβ0) _
  have hcast : ((2 ^ 64 : ℕ) : ℚ) = 2 ^ 64 := by push_cast; rfl
  rw [hcast] at hb
  refine le_trans (avg_mono _ _ fun H => avg_mono _ _ fun W => ind_mono ?_)
    (hb.trans (add_le_add_right (mul_le_mul_of_nonneg_right hdir hpow) _))
  rintro ⟨h1, h2, h3⟩
  generalize hx : c.run H W = x at h1 h2 h3
  refine ⟨⟨_, h1⟩, by rw [hx, seedPoint, dif_pos h1], ?_⟩
  refine bad_of_accepted E _ cfg A sts rfl hst (k := 0) (fun _ => x) (fun _ => h1) ⟨0, h2⟩ h3 (W (H ⟨_, h1⟩)) fun i hi => ?_
  rw [← withSeeds_table E "Triptych verifier weights" A H (fun s : Seed => [s.val]) W ?_ ?_ (H ⟨_, h1⟩) i hi]
  · congr 3
    show [_] = _
    rw [withSeeds_weightSeed _ _ _ _ _ _ _ _ _ h1]
  · intro s s' h
    exact Fin.ext (List.cons.inj h).1
  · intro v x hx
    rw [List.mem_singleton.1 hx]
    exact v.2

local notation "ℓ" => (2 ^ 252 + 27742317777372353535851937790883648493 : ℕ)

theorem relation_bound (d δ e r : ℕ) (hd : d ≤ 2 ^ δ) (β : ℚ) (hβ0 : 0 ≤ β) (hβ : β ≤ 1 / 2 ^ 251) (q : ℕ) (hq : q ≤ 2 ^ 253)
    (s : ℕ) (hs : r + (δ + 253 * e) ≤ 187 * (s + 1)) :
    (d : ℚ) * (q : ℚ) ^ e * (2 ^ 64 * β) ^ (s + 1) ≤ 1 / 2 ^ r := by
  have h1 : (2 : ℚ) ^ 64 * β ≤ 1 / 2 ^ 187 := by
    calc (2 : ℚ) ^ 64 * β ≤ 2 ^ 64 * (1 / 2 ^ 251) := by gcongr
      _ = 1 / 2 ^ 187 := by norm_num
  have h2 : ((2 : ℚ) ^ 64 * β) ^ (s + 1) ≤ 1 / 2 ^ (187 * (s + 1)) := by
    calc ((2 : ℚ) ^ 64 * β) ^ (s + 1) ≤ (1 / 2 ^ 187) ^ (s + 1) := by gcongr
      _ = _ := by rw [div_pow, one_pow, ← pow_mul]
  have h3 : (q : ℚ) ≤ 2 ^ 253 := by exact_mod_cast hq
  have h4 : (d : ℚ) * (q : ℚ) ^ e * (2 ^ 64 * β) ^ (s + 1) ≤ d * (2 ^ 253) ^ e * (1 / 2 ^ (187 * (s + 1))) := by gcongr
  refine h4.trans ?_
  rw [mul_one_div, div_le_div_iff₀ (by positivity) (by positivity), one_mul]
  have hd' : (d : ℚ) ≤ 2 ^ δ := by exact_mod_cast hd
  calc (d : ℚ) * (2 ^ 253) ^ e * 2 ^ r ≤ 2 ^ δ * (2 ^ 253) ^ e * 2 ^ r := by gcongr
    _ = 2 ^ (r + (δ + 253 * e)) := by rw [← pow_mul, ← pow_add, ← pow_add, Nat.add_comm r]
    _ ≤ 2 ^ (187 * (s + 1)) := pow_le_pow_right₀ (by norm_num) hs

/-- C78 for Ristretto, tight form: the probability is at most `(Q + 1) 4 / 2 ^ 64 + 1 / 2 ^ 174`, where `Q` is the number of seeds
asked for; the number of weights asked for does not matter. -/
theorem C78_known_ristretto {P : Type} [AddCommGroup P] [Module (ZMod ℓ) P] [DecidableEq P] {κ : Type} (E : Env (ZMod ℓ) P)
    (hE : E.Lawful) (hwide : ∀ b, E.scalarOfWide b = ((leNat b : ℕ) : ZMod ℓ)) (cfg : Config) (A : Finset Transcript)
    (sts : κ → Statement P) (hst : ∀ k, StatementBuilt E (sts k)) (hinj : ∀ k k', (sts k).hash = (sts k').hash → k = k')
    (c : GrindProgram A Seed Seed (Fin (1 * 2 * 4) → Block) (Forgery κ (ZMod ℓ) P)) (Q T : ℕ) (hc : c.AtMost Q T) :
    (avg fun H : A → Seed => avg fun W : Seed → Fin (1 * 2 * 4) → Block => ind (AcceptedInvalid E cfg A sts (c.run H W) H W)) ≤
      (Q + 1) * (4 / 2 ^ 64) + 1 / 2 ^ 174 := by
  obtain ⟨z, hz⟩ : ∃ z, z = 2 ^ 252 := ⟨_, rfl⟩
  obtain ⟨D, hD⟩ : ∃ D, D = 2 ^ 512 := ⟨_, rfl⟩
  have hD' : 256 ^ 64 ≤ D := by rw [hD, show (256 : ℕ) = 2 ^ 8 by norm_num, ← pow_mul]
  obtain ⟨a1, a2⟩ := weightBound_ristretto 4 D z 1 (by norm_num) (by norm_num) hz hD (by norm_num) (by norm_num)
  refine (C78_known E hE cfg A sts hst hinj D (D / ℓ + 1) hD
    (fun x => by simp only [hwide]; exact blocks_value ℓ D hD' x) a1 2 4 c Q T hc).trans ?_
  rw [Nat.cast_ofNat]
  refine add_le_add_right ?_ _
  exact relation_bound 4 2 3 174 (by norm_num) _ (weightBound_nonneg _ _ _ _ _ _ a1) a2 _ (by rw [ZMod.card]; norm_num) 4 (by norm_num)

/-- A program that asks for the weights of two seeds before it asks for one seed meets the hypotheses of `C78_known` and
`C78_known_ristretto` (the other ones are met as shown in `Verif/Props/Grind.lean`). -/
example (A : Finset Transcript) (a : A) : ∃ c : GrindProgram A Seed Seed (Fin (1 * 2 * 4) → Block) (Forgery Unit (ZMod ℓ) (ZMod ℓ)),
    c.AtMost 1 2 ∧ (Toy.env ℓ).Lawful ∧ (∀ b, (Toy.env ℓ).scalarOfWide b = ((leNat b : ℕ) : ZMod ℓ)) ∧
    (∀ k : Unit, StatementBuilt (Toy.env ℓ) ((fun _ => Toy.Ristretto.statement) k)) ∧
    (∀ k k' : Unit, Toy.Ristretto.statement.hash = Toy.Ristretto.statement.hash → k = k') :=
  ⟨.weights 0 fun τ => .weights 1 fun τ' => .seed a fun x => .done ⟨(), Toy.transcript,
    { Toy.Ristretto.proof with z := Toy.Ristretto.proof.z + (τ 0 0 : ℕ) + (τ' 0 0 : ℕ) + (x.val : ℕ) }⟩,
    ⟨by norm_num, fun _ => ⟨by norm_num, fun _ => ⟨by norm_num, fun _ => trivial⟩⟩⟩,
    Toy.env_lawful ℓ (by norm_num), fun _ => rfl, fun _ => Toy.Ristretto.statement_built, fun _ _ _ => rfl⟩

end Triptych
