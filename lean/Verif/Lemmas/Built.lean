import Verif.Lemmas.VerifyMain
import Verif.Spec.Built

/-! # Facts about built objects -/
set_option autoImplicit false
set_option linter.unusedSectionVars false
set_option linter.unusedVariables false
set_option linter.unusedSimpArgs false

namespace Triptych
open Spec

variable {F P : Type}

theorem newWithGenerators_ok (E : Env F P) (n m : ℕ) (G U : P) (p : Params P)
    (h : Params.newWithGenerators E n m G U = .ok p) :
    2 ≤ n ∧ 2 ≤ m ∧ n ^ m ≤ u32Max ∧ p.n = n ∧ p.m = m ∧ p.G = G ∧ p.U = U ∧ p.CommitmentH = Params.commitmentH E ∧
      p.CommitmentG = (List.range (n * m)).map (Params.commitmentG E n m) ∧
      p.hash = E.challenge (Params.hashTranscript E n m G U p.CommitmentG p.CommitmentH ++ [.challenge "hash" 32]) := by
  rw [Params.newWithGenerators] at h
  split at h
  · simp at h
  · rename_i hn
    split at h
    · simp at h
    · rename_i hm
      split at h
      · simp at h
      · rename_i hp
        have hpow : n ^ m ≤ u32Max := by
          by_contra hc
          exact hp (by simp [checkedPow, hc])
        cases hmul : checkedMul n m with
        | none => rw [hmul] at h; simp at h
        | some nm =>
          rw [hmul] at h
          have hnm : nm = n * m := by
            rw [checkedMul] at hmul
            split at hmul <;> simp at hmul
            exact hmul.symm
          subst hnm
          simp only [Outcome.ok.injEq] at h
          subst h
          refine ⟨by omega, by omega, hpow, rfl, rfl, rfl, rfl, rfl, rfl, rfl⟩

theorem mul_le_u32 (n m : ℕ) (hn : 2 ≤ n) (hm : 2 ≤ m) (h : n ^ m ≤ u32Max) : n * m ≤ u32Max := by
  have := mul_le_pow_self n m hn
  rw [Nat.mul_comm] at this
  omega

theorem newWithGenerators_eq (E : Env F P) (n m : ℕ) (G U : P) (hn : 2 ≤ n) (hm : 2 ≤ m) (h : n ^ m ≤ u32Max) :
    ∃ p, Params.newWithGenerators E n m G U = .ok p := by
  rw [Params.newWithGenerators, if_neg (by omega), if_neg (by omega), if_neg (by simp [checkedPow, h])]
  have h1 : checkedMul n m = some (n * m) := by
    have := mul_le_u32 n m hn hm h
    simp [checkedMul, this]
  simp only [h1]
  exact ⟨_, rfl⟩

theorem Spec.ParamsBuilt.ok {E : Env F P} {p : Params P} (h : ParamsBuilt E p) : ParamsOK p := by
  obtain ⟨n, m, G, U, h⟩ := h
  obtain ⟨h1, h2, h3, h4, h5, -, -, -, h9, -⟩ := newWithGenerators_ok E n m G U p h
  subst h4 h5
  exact ⟨h1, h2, h3, by rw [h9]; simp [Nat.mul_comm]⟩

theorem statementNew_ok [DecidableEq P] [Zero P] (E : Env F P) (params : Params P) (i : InputSet P) (J : P)
    (s : Statement P) (h : Statement.new E params i J = .ok s) :
    i.M.length = params.getN ∧ (0 : P) ∉ i.M ∧ s.params = params ∧ s.inputSet = i ∧ s.J = J ∧
      s.hash = E.challenge (Statement.hashTranscript E params.hash i.hash J ++ [.challenge "hash" 32]) := by
  rw [Statement.new] at h
  split at h
  · simp at h
  · rename_i h1
    split at h
    · simp at h
    · rename_i h2
      simp only [Outcome.ok.injEq] at h
      subst h
      exact ⟨not_not.1 h1, h2, rfl, rfl, rfl, rfl⟩

/-- What every built statement satisfies. -/
structure StatementOK [Zero P] (s : Statement P) : Prop where
  params : ParamsOK s.params
  length : s.inputSet.M.length = s.params.n ^ s.params.m
  nonzero : (0 : P) ∉ s.inputSet.M

theorem Spec.StatementBuilt.ok [DecidableEq P] [Zero P] {E : Env F P} {s : Statement P} (h : StatementBuilt E s) :
    StatementOK s := by
  obtain ⟨params, i, J, hp, hi, h⟩ := h
  obtain ⟨h1, h2, h3, h4, -, -⟩ := statementNew_ok E params i J s h
  subst h3 h4
  exact ⟨hp.ok, by rw [h1, hp.ok.getN], h2⟩

end Triptych
