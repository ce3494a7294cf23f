import Verif.Lemmas.Built
import Verif.Lemmas.Parallel.VerifyMain
import Verif.Spec.Parallel.Built

/-! # Facts about built parallel objects -/
set_option autoImplicit false
set_option linter.unusedSectionVars false
set_option linter.unusedVariables false
set_option linter.unusedSimpArgs false

namespace Triptych.Parallel
open Triptych.Parallel.Spec

variable {F P : Type}

theorem newWithGenerators_ok (E : Env F P) (n m : ℕ) (G G1 U : P) (p : Params P)
    (h : Params.newWithGenerators E n m G G1 U = .ok p) :
    2 ≤ n ∧ 2 ≤ m ∧ n ^ m ≤ u32Max ∧ p.n = n ∧ p.m = m ∧ p.G = G ∧ p.G1 = G1 ∧ p.U = U ∧
      p.CommitmentH = Params.commitmentH E ∧
      p.CommitmentG = (List.range (n * m)).map (Params.commitmentG E n m) ∧
      p.hash = E.challenge (Params.hashTranscript E n m G G1 U p.CommitmentG p.CommitmentH ++ [.challenge "hash" 32]) := by
  rw [Params.newWithGenerators] at h
  split at h
  · simp at h
  · rename_i hn
    split at h
    · simp at h
    · rename_i hm
      split at h
      · simp at h
      · rename_i hp
        have hpow : n ^ m ≤ u32Max := by
          by_contra hc
          exact hp (by simp [checkedPow, hc])
        cases hmul : checkedMul n m with
        | none => rw [hmul] at h; simp at h
        | some nm =>
          rw [hmul] at h
          have hnm : nm = n * m := by
            rw [checkedMul] at hmul
            split at hmul <;> simp at hmul
            exact hmul.symm
          subst hnm
          simp only [Outcome.ok.injEq] at h
          subst h
          refine ⟨by omega, by omega, hpow, rfl, rfl, rfl, rfl, rfl, rfl, rfl, rfl⟩

theorem newWithGenerators_eq (E : Env F P) (n m : ℕ) (G G1 U : P) (hn : 2 ≤ n) (hm : 2 ≤ m) (h : n ^ m ≤ u32Max) :
    ∃ p, Params.newWithGenerators E n m G G1 U = .ok p := by
  rw [Params.newWithGenerators, if_neg (by omega), if_neg (by omega), if_neg (by simp [checkedPow, h])]
  have h1 : checkedMul n m = some (n * m) := by
    have := mul_le_u32 n m hn hm h
    simp [checkedMul, this]
  simp only [h1]
  exact ⟨_, rfl⟩

theorem Spec.ParamsBuilt.ok {E : Env F P} {p : Params P} (h : ParamsBuilt E p) : ParamsOK p := by
  obtain ⟨n, m, G, G1, U, h⟩ := h
  obtain ⟨h1, h2, h3, h4, h5, -, -, -, -, h9, -⟩ := newWithGenerators_ok E n m G G1 U p h
  subst h4 h5
  exact ⟨h1, h2, h3, by rw [h9]; simp [Nat.mul_comm]⟩

theorem newInternal_ok (E : Env F P) (M M1 : List P) (k : ℕ) (i : InputSet P)
    (h : InputSet.newInternal E M M1 k = .ok i) : k ≤ u32Max ∧ i.M = M ∧ i.M1 = M1 ∧
      i.hash = E.challenge (InputSet.hashTranscript E M M1 k ++ [.challenge "hash" 32]) := by
  rw [InputSet.newInternal] at h
  split at h
  · rename_i hk
    simp only [Outcome.ok.injEq] at h
    subst h
    exact ⟨hk, rfl, rfl, rfl⟩
  · simp at h

/-- Both rings of an input set have the same length. -/
theorem Spec.InputSetBuilt.lengths {E : Env F P} {i : InputSet P} (h : InputSetBuilt E i) : i.M1.length = i.M.length := by
  rcases h with ⟨M, M1, h⟩ | ⟨M, M1, params, hp, h⟩
  · rw [InputSet.new] at h
    split at h
    · simp at h
    · rename_i hl
      obtain ⟨-, h1, h2, -⟩ := newInternal_ok E M M1 _ i h
      rw [h1, h2]; exact (not_not.1 hl).symm
  · rw [InputSet.newWithPadding] at h
    split at h
    · simp at h
    · rename_i hl
      simp only at h
      split at h
      · simp at h
      · split at h
        · simp at h
        · split at h
          · simp at h
          · obtain ⟨-, h1, h2, -⟩ := newInternal_ok E _ _ _ i h
            rw [h1, h2]
            simp [not_not.1 hl]

theorem statementNew_ok [DecidableEq P] [AddCommGroup P] (E : Env F P) (params : Params P) (i : InputSet P) (offset J : P)
    (s : Statement P) (h : Statement.new E params i offset J = .ok s) :
    i.M.length = params.getN ∧ (0 : P) ∉ i.M ∧ (0 : P) ∉ i.M1.map (fun p => p - offset) ∧ s.params = params ∧
      s.inputSet = i ∧ s.offset = offset ∧ s.J = J ∧
      s.hash = E.challenge (Statement.hashTranscript E params.hash i.hash offset J ++ [.challenge "hash" 32]) := by
  rw [Statement.new] at h
  split at h
  · simp at h
  · rename_i h1
    split at h
    · simp at h
    · rename_i h2
      split at h
      · simp at h
      · rename_i h3
        simp only [Outcome.ok.injEq] at h
        subst h
        exact ⟨not_not.1 h1, h2, h3, rfl, rfl, rfl, rfl, rfl⟩

/-- What every built statement satisfies. -/
structure StatementOK [AddCommGroup P] (s : Statement P) : Prop where
  params : ParamsOK s.params
  length : s.inputSet.M.length = s.params.n ^ s.params.m
  length1 : s.inputSet.M1.length = s.params.n ^ s.params.m
  nonzero : (0 : P) ∉ s.inputSet.M
  nonzero1 : s.offset ∉ s.inputSet.M1

theorem Spec.StatementBuilt.ok [DecidableEq P] [AddCommGroup P] {E : Env F P} {s : Statement P} (h : StatementBuilt E s) :
    StatementOK s := by
  obtain ⟨params, i, offset, J, hp, hi, h⟩ := h
  obtain ⟨h1, h2, h3, h4, h5, h6, -, -⟩ := statementNew_ok E params i offset J s h
  subst h4 h5 h6
  refine ⟨hp.ok, by rw [h1, hp.ok.getN], by rw [hi.lengths, h1, hp.ok.getN], h2, ?_⟩
  intro hc
  exact h3 (List.mem_map.2 ⟨_, hc, sub_self _⟩)

end Triptych.Parallel
