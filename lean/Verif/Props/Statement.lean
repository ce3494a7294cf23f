import Verif.Props.Parameters

/-! # Properties of input sets and statements: C04, C05, C06, C07 -/
set_option autoImplicit false
set_option linter.unusedSectionVars false

namespace Triptych
open Spec

variable {F P : Type}

/-- C04: `TriptychInputSet::new` succeeds exactly when the number of keys fits `u32`, and keeps the keys unchanged. -/
theorem C04_new (E : Env F P) (M : List P) :
    (M.length < 2 ^ 32 → ∃ i, InputSet.new E M = .ok i ∧ i.M = M) ∧
    (2 ^ 32 ≤ M.length →
      InputSet.new E M = .err (.InvalidParameter "unpadded size overflowed `u32`")) := by
  constructor
  · intro h
    rw [InputSet.new, InputSet.newInternal, if_pos (by rw [u32Max]; omega)]
    exact ⟨_, rfl, rfl⟩
  · intro h
    rw [InputSet.new, InputSet.newInternal, if_neg (by rw [u32Max]; omega)]

/-- C04: the exact behaviour of `new_with_padding`. -/
theorem C04_padding (E : Env F P) (M : List P) (params : Params P) (hp : ParamsBuilt E params) :
    (params.n ^ params.m < M.length →
      InputSet.newWithPadding E M params = .err (.InvalidParameter "unpadded size exceeded `N`")) ∧
    (M = [] → InputSet.newWithPadding E M params = .err (.InvalidParameter "`M` is empty")) ∧
    (∀ last, M.length ≤ params.n ^ params.m → M.getLast? = some last →
      ∃ i, InputSet.newWithPadding E M params = .ok i ∧
        i.M = M ++ List.replicate (params.n ^ params.m - M.length) last ∧ i.M.length = params.n ^ params.m) := by
  have hN := hp.ok.getN
  refine ⟨?_, ?_, ?_⟩
  · intro h
    rw [InputSet.newWithPadding]
    simp only [hN]
    rw [if_pos h]
  · rintro rfl
    rw [InputSet.newWithPadding]
    simp
  · intro last h1 h2
    have h3 := hp.ok.N
    rw [InputSet.newWithPadding]
    simp only [hN, h2]
    rw [if_neg (by omega), InputSet.newInternal, if_pos (by omega), List.take_of_length_le h1]
    refine ⟨_, rfl, rfl, ?_⟩
    simp
    omega

/-- C04: with a full-size key vector, padding changes nothing. -/
theorem C04_no_padding (E : Env F P) (M : List P) (params : Params P) (hp : ParamsBuilt E params)
    (h : M.length = params.n ^ params.m) : InputSet.newWithPadding E M params = InputSet.new E M := by
  have hN := hp.ok.getN
  have hn := hp.ok.n
  have hpos : 0 < params.n ^ params.m := Nat.pow_pos (by omega)
  rw [InputSet.newWithPadding, InputSet.new]
  simp only [hN]
  rw [if_neg (by omega), List.take_of_length_le (by omega), h, Nat.sub_self]
  cases hl : M.getLast? with
  | none =>
    rw [List.getLast?_eq_none_iff] at hl
    subst hl
    simp at h
    omega
  | some last => simp

/-- `C04_padding` applied to three keys and a ring of four; `C04_new` has no hypotheses, that of `C04_no_padding` is met by
four keys. -/
example : ∃ i, InputSet.newWithPadding (Toy.env 101) [(3 : ZMod 101), 5, 7] Toy.params = .ok i ∧ i.M = [3, 5, 7, 7] := by
  obtain ⟨i, h1, h2, -⟩ := (C04_padding (Toy.env 101) [(3 : ZMod 101), 5, 7] Toy.params
    ⟨_, _, _, _, Toy.params_new⟩).2.2 7 (by decide +kernel) (by decide +kernel)
  exact ⟨i, h1, by rw [h2]; decide +kernel⟩

example : ParamsBuilt (Toy.env 101) Toy.params ∧ Toy.keys.length = Toy.params.n ^ Toy.params.m :=
  ⟨⟨_, _, _, _, Toy.params_new⟩, by decide +kernel⟩

/-- The number of keys given to the constructor that built an input set. -/
def BuiltFrom (E : Env F P) (i : InputSet P) (unpadded : List P) : Prop :=
  InputSet.new E unpadded = .ok i ∨
    ∃ params, ParamsBuilt E params ∧ InputSet.newWithPadding E unpadded params = .ok i

theorem inputSetBuilt_iff (E : Env F P) [DecidableEq F] [DecidableEq P] (i : InputSet P) :
    InputSetBuilt E i ↔ ∃ M, BuiltFrom E i M := by
  simp only [InputSetBuilt, BuiltFrom]
  constructor
  · rintro (⟨M, h⟩ | ⟨M, p, h⟩)
    · exact ⟨M, Or.inl h⟩
    · exact ⟨M, Or.inr ⟨p, h⟩⟩
  · rintro ⟨M, h | ⟨p, h⟩⟩
    · exact Or.inl ⟨M, h⟩
    · exact Or.inr ⟨M, p, h⟩

/-- C05: the hash of an input set is the Merlin challenge of a transcript listing the unpadded size and the keys. -/
theorem C05_hash (E : Env F P) (i : InputSet P) (M : List P) (h : BuiltFrom E i M) :
    M.length < 2 ^ 32 ∧ M <+: i.M ∧ i.hash = E.challenge (inputSetTranscript E i.M M.length) := by
  have key : ∀ M' k, InputSet.newInternal E M' k = .ok i →
      k < 2 ^ 32 ∧ i.M = M' ∧ i.hash = E.challenge (inputSetTranscript E M' k) := by
    intro M' k hk
    rw [InputSet.newInternal] at hk
    split at hk
    · rename_i hle
      simp only [Outcome.ok.injEq] at hk
      subst hk
      rw [u32Max] at hle
      refine ⟨by omega, rfl, ?_⟩
      rw [← inputSet_hashTranscript_eq]
      rfl
    · simp at hk
  rcases h with h | ⟨params, hp, h⟩
  · obtain ⟨h1, h2, h3⟩ := key M M.length h
    exact ⟨h1, by rw [h2], by rw [h2]; exact h3⟩
  · rw [InputSet.newWithPadding] at h
    simp only [] at h
    split at h
    · simp at h
    · rename_i hle
      cases hl : M.getLast? with
      | none => rw [hl] at h; simp at h
      | some last =>
        rw [hl] at h
        obtain ⟨h1, h2, h3⟩ := key _ _ h
        refine ⟨h1, ?_, by rw [h2]; exact h3⟩
        rw [h2, List.take_of_length_le (by omega)]
        exact List.prefix_append _ _

/-- C05: input sets with equal hashes have the same keys and the same number of unpadded keys (hence were built from the same
keys), or the two given distinct transcripts collide. -/
theorem C05_binding (E : Env F P) (hE : E.Lawful) (i i' : InputSet P) (M M' : List P) (h : BuiltFrom E i M)
    (h' : BuiltFrom E i' M') (heq : i.hash = i'.hash) :
    (i.M = i'.M ∧ M = M') ∨
      (inputSetTranscript E i.M M.length ≠ inputSetTranscript E i'.M M'.length ∧
        E.challenge (inputSetTranscript E i.M M.length) = E.challenge (inputSetTranscript E i'.M M'.length)) := by
  obtain ⟨l1, p1, h1⟩ := C05_hash E i M h
  obtain ⟨l2, p2, h2⟩ := C05_hash E i' M' h'
  by_cases ht : inputSetTranscript E i.M M.length = inputSetTranscript E i'.M M'.length
  · left
    obtain ⟨e1, e2⟩ := inputSetTranscript_inj hE _ _ _ _ (by rw [u32Max]; omega) (by rw [u32Max]; omega) ht
    refine ⟨e1, ?_⟩
    rw [List.prefix_iff_eq_take.1 p1, List.prefix_iff_eq_take.1 p2, e1, e2]
  · right
    exact ⟨ht, by rw [← h1, ← h2, heq]⟩

/-- C05: a padded set and a full-size set with the same resulting keys are hashed over different transcripts. -/
theorem C05_padding_visible (E : Env F P) (hE : E.Lawful) (i i' : InputSet P) (M M' : List P) (h : BuiltFrom E i M)
    (h' : BuiltFrom E i' M') (hlen : M.length ≠ M'.length) :
    inputSetTranscript E i.M M.length ≠ inputSetTranscript E i'.M M'.length := by
  obtain ⟨l1, -, -⟩ := C05_hash E i M h
  obtain ⟨l2, -, -⟩ := C05_hash E i' M' h'
  intro ht
  exact hlen (inputSetTranscript_inj hE _ _ _ _ (by rw [u32Max]; omega) (by rw [u32Max]; omega) ht).2

/-- The hypotheses of `C05_hash` and `C05_binding` are met. -/
example : BuiltFrom (Toy.env 101) Toy.inputSet Toy.keys := Or.inl Toy.inputSet_new

/-- Two sets with the same ring, one of them padded, as in `C05_padding_visible`. -/
example : ∃ i i', BuiltFrom (Toy.env 101) i [(3 : ZMod 101), 5, 7] ∧ BuiltFrom (Toy.env 101) i' [(3 : ZMod 101), 5, 7, 7] ∧
    i.M = i'.M ∧ i.hash ≠ i'.hash := by
  refine ⟨Toy.get ⟨[], []⟩ (InputSet.newWithPadding (Toy.env 101) [(3 : ZMod 101), 5, 7] Toy.params),
    Toy.get ⟨[], []⟩ (InputSet.new (Toy.env 101) [(3 : ZMod 101), 5, 7, 7]), Or.inr ⟨Toy.params, ⟨_, _, _, _, Toy.params_new⟩, ?_⟩,
    Or.inl ?_, ?_, ?_⟩ <;> decide +kernel

section
variable [DecidableEq F] [DecidableEq P] [Zero P]

/-- C06: the exact behaviour of `TriptychStatement::new`. -/
theorem C06_new (E : Env F P) (params : Params P) (i : InputSet P) (J : P) (hp : ParamsBuilt E params) :
    (i.M.length ≠ params.n ^ params.m →
      Statement.new E params i J = .err (.InvalidParameter "input vector length was not `N`")) ∧
    (i.M.length = params.n ^ params.m → 0 ∈ i.M →
      Statement.new E params i J = .err (.InvalidParameter "input vector contained the identity point")) ∧
    (i.M.length = params.n ^ params.m → 0 ∉ i.M →
      ∃ st, Statement.new E params i J = .ok st ∧ st.params = params ∧ st.inputSet = i ∧ st.J = J) := by
  have hN := hp.ok.getN
  refine ⟨?_, ?_, ?_⟩
  · intro h; rw [Statement.new, if_pos (by rw [hN]; exact h)]
  · intro h1 h2; rw [Statement.new, if_neg (by rw [hN]; exact not_not.2 h1), if_pos h2]
  · intro h1 h2
    rw [Statement.new, if_neg (by rw [hN]; exact not_not.2 h1), if_neg h2]
    exact ⟨_, rfl, rfl, rfl, rfl⟩

/-- C06: every statement that exists has a full ring without the identity. -/
theorem C06_exists (E : Env F P) (st : Statement P) (h : StatementBuilt E st) :
    st.inputSet.M.length = st.params.n ^ st.params.m ∧ ∀ k ∈ st.inputSet.M, k ≠ 0 := by
  have := h.ok
  exact ⟨this.length, fun k hk h0 => this.nonzero (h0 ▸ hk)⟩

/-- The hypotheses of `C06_new`, `C06_exists` and `C07_hash` are met. -/
example : StatementBuilt (Toy.env 101) Toy.statement :=
  ⟨_, _, _, ⟨_, _, _, _, Toy.params_new⟩, Or.inl ⟨_, Toy.inputSet_new⟩, Toy.statement_new⟩

/-- C07: the statement hash is the Merlin challenge of a transcript of the parameter hash, input-set hash and tag. -/
theorem C07_hash (E : Env F P) (st : Statement P) (h : StatementBuilt E st) :
    st.hash = E.challenge (statementTranscript E st.params.hash st.inputSet.hash st.J) := by
  obtain ⟨params, i, J, hp, hi, h⟩ := h
  obtain ⟨-, -, h3, h4, h5, h6⟩ := statementNew_ok E params i J st h
  rw [h6, statement_hashTranscript_eq, h3, h4, h5]

/-- C07: statements with equal hashes are equal in everything they consist of, or one of three pairs of distinct
transcripts collides. -/
theorem C07_binding (E : Env F P) (hE : E.Lawful) (st st' : Statement P) (h : StatementBuilt E st)
    (h' : StatementBuilt E st') (M M' : List P) (hM : BuiltFrom E st.inputSet M) (hM' : BuiltFrom E st'.inputSet M')
    (heq : st.hash = st'.hash) :
    (st.params = st'.params ∧ st.inputSet.M = st'.inputSet.M ∧ M = M' ∧ st.J = st'.J) ∨
    (statementTranscript E st.params.hash st.inputSet.hash st.J
        ≠ statementTranscript E st'.params.hash st'.inputSet.hash st'.J ∧
      E.challenge (statementTranscript E st.params.hash st.inputSet.hash st.J)
        = E.challenge (statementTranscript E st'.params.hash st'.inputSet.hash st'.J)) ∨
    (paramsTranscript E st.params.n st.params.m st.params.G st.params.U st.params.CommitmentG st.params.CommitmentH
        ≠ paramsTranscript E st'.params.n st'.params.m st'.params.G st'.params.U st'.params.CommitmentG
          st'.params.CommitmentH ∧
      E.challenge (paramsTranscript E st.params.n st.params.m st.params.G st.params.U st.params.CommitmentG
          st.params.CommitmentH)
        = E.challenge (paramsTranscript E st'.params.n st'.params.m st'.params.G st'.params.U st'.params.CommitmentG
          st'.params.CommitmentH)) ∨
    (inputSetTranscript E st.inputSet.M M.length ≠ inputSetTranscript E st'.inputSet.M M'.length ∧
      E.challenge (inputSetTranscript E st.inputSet.M M.length)
        = E.challenge (inputSetTranscript E st'.inputSet.M M'.length)) := by
  have e := C07_hash E st h
  have e' := C07_hash E st' h'
  by_cases ht : statementTranscript E st.params.hash st.inputSet.hash st.J
      = statementTranscript E st'.params.hash st'.inputSet.hash st'.J
  · obtain ⟨i1, i2, i3⟩ := statementTranscript_inj hE _ _ _ _ _ _ ht
    have hp : ParamsBuilt E st.params := by
      obtain ⟨params, i, J, hp, hi, h⟩ := h
      obtain ⟨-, -, h3, -⟩ := statementNew_ok E params i J st h
      rwa [h3]
    have hp' : ParamsBuilt E st'.params := by
      obtain ⟨params, i, J, hp, hi, h⟩ := h'
      obtain ⟨-, -, h3, -⟩ := statementNew_ok E params i J st' h
      rwa [h3]
    rcases C03_binding E hE _ _ hp hp' i1 with c1 | c1
    · rcases C05_binding E hE _ _ M M' hM hM' i2 with c2 | c2
      · exact Or.inl ⟨c1, c2.1, c2.2, i3⟩
      · exact Or.inr (Or.inr (Or.inr c2))
    · exact Or.inr (Or.inr (Or.inl c1))
  · exact Or.inr (Or.inl ⟨ht, by rw [← e, ← e', heq]⟩)

end

/-- The hypotheses of `C07_binding` are met by a statement and itself; statements with different tags have different hashes
here. -/
example : ∃ M, BuiltFrom (Toy.env 101) Toy.statement.inputSet M ∧ Toy.statement.hash ≠ Toy.statement'.hash :=
  ⟨Toy.keys, Or.inl (by decide +kernel), by decide +kernel⟩

end Triptych
