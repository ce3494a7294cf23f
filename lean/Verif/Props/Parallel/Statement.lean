import Verif.Props.Parallel.Parameters

/-! # Properties of parallel input sets and statements: C46 -/
set_option autoImplicit false
set_option linter.unusedSectionVars false

namespace Triptych.Parallel
open Triptych.Parallel.Spec
open Triptych.Spec (versionBytes points scalars)

variable {F P : Type}

/-- C46: `TriptychInputSet::new` succeeds exactly when both vectors have the same length, which fits `u32`, and keeps the keys
unchanged. The lengths are compared first. -/
theorem C46_input_set_new (E : Env F P) (M M1 : List P) :
    (M.length ≠ M1.length →
      InputSet.new E M M1 = .err (.InvalidParameter "`M` and `M1` did not have matching lengths")) ∧
    (M.length = M1.length → 2 ^ 32 ≤ M.length →
      InputSet.new E M M1 = .err (.InvalidParameter "unpadded size overflowed `u32`")) ∧
    (M.length = M1.length → M.length < 2 ^ 32 → ∃ i, InputSet.new E M M1 = .ok i ∧ i.M = M ∧ i.M1 = M1) := by
  refine ⟨?_, ?_, ?_⟩
  · intro h; rw [InputSet.new, if_pos h]
  · intro h1 h
    rw [InputSet.new, if_neg (not_not.2 h1), InputSet.newInternal, if_neg (by rw [u32Max]; omega)]
  · intro h1 h
    rw [InputSet.new, if_neg (not_not.2 h1), InputSet.newInternal, if_pos (by rw [u32Max]; omega)]
    exact ⟨_, rfl, rfl, rfl⟩

/-- C46: the exact behaviour of `new_with_padding`: both vectors are extended with their own last element. -/
theorem C46_padding (E : Env F P) (M M1 : List P) (params : Params P) (hp : ParamsBuilt E params) :
    (M.length ≠ M1.length →
      InputSet.newWithPadding E M M1 params = .err (.InvalidParameter "`M` and `M1` did not have matching lengths")) ∧
    (M.length = M1.length → params.n ^ params.m < M.length →
      InputSet.newWithPadding E M M1 params = .err (.InvalidParameter "unpadded size exceeded `N`")) ∧
    (M = [] → M1 = [] → InputSet.newWithPadding E M M1 params = .err (.InvalidParameter "`M` was empty")) ∧
    (∀ last last1, M.length = M1.length → M.length ≤ params.n ^ params.m → M.getLast? = some last →
      M1.getLast? = some last1 → ∃ i, InputSet.newWithPadding E M M1 params = .ok i ∧
        i.M = M ++ List.replicate (params.n ^ params.m - M.length) last ∧
        i.M1 = M1 ++ List.replicate (params.n ^ params.m - M1.length) last1 ∧
        i.M.length = params.n ^ params.m ∧ i.M1.length = params.n ^ params.m) := by
  have hN := hp.ok.getN
  refine ⟨?_, ?_, ?_, ?_⟩
  · intro h; rw [InputSet.newWithPadding, if_pos h]
  · intro h1 h
    rw [InputSet.newWithPadding, if_neg (not_not.2 h1)]
    simp only [hN]
    rw [if_pos h]
  · rintro rfl rfl
    rw [InputSet.newWithPadding]
    simp
  · intro last last1 h0 h1 h2 h2'
    have h3 := hp.ok.N
    rw [InputSet.newWithPadding, if_neg (not_not.2 h0)]
    simp only [hN, h2, h2']
    rw [if_neg (by omega), InputSet.newInternal, if_pos (by omega), List.take_of_length_le h1,
      List.take_of_length_le (by omega)]
    refine ⟨_, rfl, rfl, rfl, ?_, ?_⟩
    · simp; omega
    · simp; omega

/-- C46: with full-size vectors, padding changes nothing. -/
theorem C46_no_padding (E : Env F P) (M M1 : List P) (params : Params P) (hp : ParamsBuilt E params)
    (h : M.length = params.n ^ params.m) (h1 : M1.length = params.n ^ params.m) :
    InputSet.newWithPadding E M M1 params = InputSet.new E M M1 := by
  have hN := hp.ok.getN
  have hn := hp.ok.n
  have hpos : 0 < params.n ^ params.m := Nat.pow_pos (by omega)
  rw [InputSet.newWithPadding, InputSet.new, if_neg (not_not.2 (h.trans h1.symm)), if_neg (not_not.2 (h.trans h1.symm))]
  simp only [hN]
  rw [if_neg (by omega), List.take_of_length_le (by omega), List.take_of_length_le (by omega), h, h1, Nat.sub_self]
  cases hl : M.getLast? with
  | none =>
    rw [List.getLast?_eq_none_iff] at hl
    subst hl
    simp at h
    omega
  | some last =>
    cases hl1 : M1.getLast? with
    | none =>
      rw [List.getLast?_eq_none_iff] at hl1
      subst hl1
      simp at h1
      omega
    | some last1 => simp

/-- `C46_padding` applied to three keys and a ring of four; `C46_input_set_new` has no hypotheses, that of `C46_no_padding` is
met by four keys. -/
example : ∃ i, InputSet.newWithPadding (Toy.env 101) [(3 : ZMod 101), 5, 7] [8, 9, 10] Toy.params = .ok i ∧
    i.M = [3, 5, 7, 7] ∧ i.M1 = [8, 9, 10, 10] := by
  obtain ⟨i, h1, h2, h3, -⟩ := (C46_padding (Toy.env 101) [(3 : ZMod 101), 5, 7] [8, 9, 10] Toy.params
    ⟨_, _, _, _, _, Toy.params_new⟩).2.2.2 7 10 rfl (by decide +kernel) (by decide +kernel) (by decide +kernel)
  exact ⟨i, h1, by rw [h2]; decide +kernel, by rw [h3]; decide +kernel⟩

example : ParamsBuilt (Toy.env 101) Toy.params ∧ Toy.keys.length = Toy.params.n ^ Toy.params.m ∧
    Toy.keys1.length = Toy.params.n ^ Toy.params.m :=
  ⟨⟨_, _, _, _, _, Toy.params_new⟩, by decide +kernel, by decide +kernel⟩

/-- The keys given to the constructor that built an input set. -/
def BuiltFrom (E : Env F P) (i : InputSet P) (unpadded unpadded1 : List P) : Prop :=
  InputSet.new E unpadded unpadded1 = .ok i ∨
    ∃ params, ParamsBuilt E params ∧ InputSet.newWithPadding E unpadded unpadded1 params = .ok i

theorem inputSetBuilt_iff (E : Env F P) [DecidableEq F] [DecidableEq P] (i : InputSet P) :
    InputSetBuilt E i ↔ ∃ M M1, BuiltFrom E i M M1 := by
  simp only [InputSetBuilt, BuiltFrom]
  constructor
  · rintro (⟨M, M1, h⟩ | ⟨M, M1, p, h⟩)
    · exact ⟨M, M1, Or.inl h⟩
    · exact ⟨M, M1, Or.inr ⟨p, h⟩⟩
  · rintro ⟨M, M1, h | ⟨p, h⟩⟩
    · exact Or.inl ⟨M, M1, h⟩
    · exact Or.inr ⟨M, M1, p, h⟩

/-- C46: the hash of an input set is the Merlin challenge of a transcript listing the unpadded size and both vectors. -/
theorem C46_input_set_hash (E : Env F P) (i : InputSet P) (M M1 : List P) (h : BuiltFrom E i M M1) :
    M.length < 2 ^ 32 ∧ M.length = M1.length ∧ M <+: i.M ∧ M1 <+: i.M1 ∧
      i.hash = E.challenge (inputSetTranscript E i.M i.M1 M.length) := by
  have key : ∀ M' M1' k, InputSet.newInternal E M' M1' k = .ok i →
      k < 2 ^ 32 ∧ i.M = M' ∧ i.M1 = M1' ∧ i.hash = E.challenge (inputSetTranscript E M' M1' k) := by
    intro M' M1' k hk
    rw [InputSet.newInternal] at hk
    split at hk
    · rename_i hle
      simp only [Outcome.ok.injEq] at hk
      subst hk
      rw [u32Max] at hle
      refine ⟨by omega, rfl, rfl, ?_⟩
      rw [← inputSet_hashTranscript_eq]
      rfl
    · simp at hk
  rcases h with h | ⟨params, hp, h⟩
  · rw [InputSet.new] at h
    split at h
    · simp at h
    · rename_i hlen
      obtain ⟨h1, h2, h2', h3⟩ := key M M1 M.length h
      exact ⟨h1, not_not.1 hlen, by rw [h2], by rw [h2'], by rw [h2, h2']; exact h3⟩
  · rw [InputSet.newWithPadding] at h
    split at h
    · simp at h
    · rename_i hlen
      simp only [] at h
      split at h
      · simp at h
      · rename_i hle
        cases hl : M.getLast? with
        | none => rw [hl] at h; simp at h
        | some last =>
          cases hl1 : M1.getLast? with
          | none => rw [hl, hl1] at h; simp at h
          | some last1 =>
            rw [hl, hl1] at h
            obtain ⟨h1, h2, h2', h3⟩ := key _ _ _ h
            refine ⟨h1, not_not.1 hlen, ?_, ?_, by rw [h2, h2']; exact h3⟩
            · rw [h2, List.take_of_length_le (by omega)]
              exact List.prefix_append _ _
            · rw [h2', List.take_of_length_le (by omega)]
              exact List.prefix_append _ _

/-- C46: input sets with equal hashes have the same keys and the same number of unpadded keys (hence were built from the same
keys), or the two given distinct transcripts collide. -/
theorem C46_input_set_binding (E : Env F P) (hE : E.Lawful) (i i' : InputSet P) (M M1 M' M1' : List P)
    (h : BuiltFrom E i M M1) (h' : BuiltFrom E i' M' M1') (heq : i.hash = i'.hash) :
    (i.M = i'.M ∧ i.M1 = i'.M1 ∧ M = M' ∧ M1 = M1') ∨
      (inputSetTranscript E i.M i.M1 M.length ≠ inputSetTranscript E i'.M i'.M1 M'.length ∧
        E.challenge (inputSetTranscript E i.M i.M1 M.length)
          = E.challenge (inputSetTranscript E i'.M i'.M1 M'.length)) := by
  obtain ⟨l1, k1, p1, q1, h1⟩ := C46_input_set_hash E i M M1 h
  obtain ⟨l2, k2, p2, q2, h2⟩ := C46_input_set_hash E i' M' M1' h'
  by_cases ht : inputSetTranscript E i.M i.M1 M.length = inputSetTranscript E i'.M i'.M1 M'.length
  · left
    obtain ⟨e1, e1', e2⟩ := inputSetTranscript_inj hE _ _ _ _ _ _ (by rw [u32Max]; omega) (by rw [u32Max]; omega) ht
    refine ⟨e1, e1', ?_, ?_⟩
    · rw [List.prefix_iff_eq_take.1 p1, List.prefix_iff_eq_take.1 p2, e1, e2]
    · rw [List.prefix_iff_eq_take.1 q1, List.prefix_iff_eq_take.1 q2, e1', ← k1, ← k2, e2]
  · right
    exact ⟨ht, by rw [← h1, ← h2, heq]⟩

/-- C46: a padded set and a full-size set with the same resulting keys are hashed over different transcripts. -/
theorem C46_padding_visible (E : Env F P) (hE : E.Lawful) (i i' : InputSet P) (M M1 M' M1' : List P)
    (h : BuiltFrom E i M M1) (h' : BuiltFrom E i' M' M1') (hlen : M.length ≠ M'.length) :
    inputSetTranscript E i.M i.M1 M.length ≠ inputSetTranscript E i'.M i'.M1 M'.length := by
  obtain ⟨l1, -, -⟩ := C46_input_set_hash E i M M1 h
  obtain ⟨l2, -, -⟩ := C46_input_set_hash E i' M' M1' h'
  intro ht
  exact hlen (inputSetTranscript_inj hE _ _ _ _ _ _ (by rw [u32Max]; omega) (by rw [u32Max]; omega) ht).2.2

/-- The hypotheses of `C46_input_set_hash` and `C46_input_set_binding` are met. -/
example : BuiltFrom (Toy.env 101) Toy.inputSet Toy.keys Toy.keys1 := Or.inl Toy.inputSet_new

/-- Two sets with the same ring, one of them padded, as in `C46_padding_visible`. -/
example : ∃ i i', BuiltFrom (Toy.env 101) i [(3 : ZMod 101), 5, 7] [8, 9, 10] ∧
    BuiltFrom (Toy.env 101) i' [(3 : ZMod 101), 5, 7, 7] [8, 9, 10, 10] ∧ i.M = i'.M ∧ i.M1 = i'.M1 ∧ i.hash ≠ i'.hash := by
  refine ⟨Triptych.Toy.get ⟨[], [], []⟩ (InputSet.newWithPadding (Toy.env 101) [(3 : ZMod 101), 5, 7] [8, 9, 10] Toy.params),
    Triptych.Toy.get ⟨[], [], []⟩ (InputSet.new (Toy.env 101) [(3 : ZMod 101), 5, 7, 7] [8, 9, 10, 10]),
    Or.inr ⟨Toy.params, ⟨_, _, _, _, _, Toy.params_new⟩, ?_⟩, Or.inl ?_, ?_, ?_, ?_⟩ <;> decide +kernel

section
variable [DecidableEq F] [DecidableEq P] [AddCommGroup P]

/-- C46: the exact behaviour of `TriptychStatement::new`. Only the first vector's length is compared with `N`; the second has
the same length because the input set was built. -/
theorem C46_statement_new (E : Env F P) (params : Params P) (i : InputSet P) (offset J : P) (hp : ParamsBuilt E params) :
    (i.M.length ≠ params.n ^ params.m →
      Statement.new E params i offset J = .err (.InvalidParameter "input vector size was not `N`")) ∧
    (i.M.length = params.n ^ params.m → (0 ∈ i.M ∨ offset ∈ i.M1) →
      Statement.new E params i offset J = .err (.InvalidParameter "input vector contained the identity point")) ∧
    (i.M.length = params.n ^ params.m → 0 ∉ i.M → offset ∉ i.M1 →
      ∃ st, Statement.new E params i offset J = .ok st ∧ st.params = params ∧ st.inputSet = i ∧ st.offset = offset ∧
        st.J = J) := by
  have hN := hp.ok.getN
  have hoff : (0 : P) ∈ i.M1.map (fun p => p - offset) ↔ offset ∈ i.M1 := by
    rw [List.mem_map]
    constructor
    · rintro ⟨x, hx, h⟩
      rwa [← sub_eq_zero.1 h]
    · intro h
      exact ⟨offset, h, sub_self _⟩
  refine ⟨?_, ?_, ?_⟩
  · intro h; rw [Statement.new, if_pos (by rw [hN]; exact h)]
  · intro h1 h2
    rw [Statement.new, if_neg (by rw [hN]; exact not_not.2 h1)]
    rcases h2 with h2 | h2
    · rw [if_pos h2]
    · split
      · rfl
      · rw [if_pos (hoff.2 h2)]
  · intro h1 h2 h3
    rw [Statement.new, if_neg (by rw [hN]; exact not_not.2 h1), if_neg h2, if_neg (fun h => h3 (hoff.1 h))]
    exact ⟨_, rfl, rfl, rfl, rfl, rfl⟩

/-- C46: every statement that exists has two full vectors; no key is the identity and no auxiliary key equals the offset. -/
theorem C46_exists (E : Env F P) (st : Statement P) (h : StatementBuilt E st) :
    st.inputSet.M.length = st.params.n ^ st.params.m ∧ st.inputSet.M1.length = st.params.n ^ st.params.m ∧
      (∀ k ∈ st.inputSet.M, k ≠ 0) ∧ ∀ k ∈ st.inputSet.M1, k - st.offset ≠ 0 := by
  have := h.ok
  exact ⟨this.length, this.length1, fun k hk h0 => this.nonzero (h0 ▸ hk),
    fun k hk h0 => this.nonzero1 (sub_eq_zero.1 h0 ▸ hk)⟩

/-- The hypotheses of `C46_statement_new`, `C46_exists` and `C46_statement_hash` are met. -/
example : StatementBuilt (Toy.env 101) Toy.statement :=
  ⟨_, _, _, _, ⟨_, _, _, _, _, Toy.params_new⟩, Or.inl ⟨_, _, Toy.inputSet_new⟩, Toy.statement_new⟩

/-- C46: the statement hash is the Merlin challenge of a transcript of the parameter hash, input-set hash, offset and tag. -/
theorem C46_statement_hash (E : Env F P) (st : Statement P) (h : StatementBuilt E st) :
    st.hash = E.challenge (statementTranscript E st.params.hash st.inputSet.hash st.offset st.J) := by
  obtain ⟨params, i, offset, J, hp, hi, h⟩ := h
  have := statementNew_ok E params i offset J st h
  obtain ⟨-, -, -, h3, h4, h4', h5, h6⟩ := this
  rw [h6, statement_hashTranscript_eq, h3, h4, h4', h5]

/-- C46: statements with equal hashes are equal in everything they consist of, or one of three pairs of distinct
transcripts collides. -/
theorem C46_statement_binding (E : Env F P) (hE : E.Lawful) (st st' : Statement P) (h : StatementBuilt E st)
    (h' : StatementBuilt E st') (M M1 M' M1' : List P) (hM : BuiltFrom E st.inputSet M M1)
    (hM' : BuiltFrom E st'.inputSet M' M1') (heq : st.hash = st'.hash) :
    (st.params = st'.params ∧ st.inputSet.M = st'.inputSet.M ∧ st.inputSet.M1 = st'.inputSet.M1 ∧ M = M' ∧ M1 = M1' ∧
      st.offset = st'.offset ∧ st.J = st'.J) ∨
    (statementTranscript E st.params.hash st.inputSet.hash st.offset st.J
        ≠ statementTranscript E st'.params.hash st'.inputSet.hash st'.offset st'.J ∧
      E.challenge (statementTranscript E st.params.hash st.inputSet.hash st.offset st.J)
        = E.challenge (statementTranscript E st'.params.hash st'.inputSet.hash st'.offset st'.J)) ∨
    (paramsTranscript E st.params.n st.params.m st.params.G st.params.G1 st.params.U st.params.CommitmentG
        st.params.CommitmentH
        ≠ paramsTranscript E st'.params.n st'.params.m st'.params.G st'.params.G1 st'.params.U st'.params.CommitmentG
          st'.params.CommitmentH ∧
      E.challenge (paramsTranscript E st.params.n st.params.m st.params.G st.params.G1 st.params.U st.params.CommitmentG
          st.params.CommitmentH)
        = E.challenge (paramsTranscript E st'.params.n st'.params.m st'.params.G st'.params.G1 st'.params.U
          st'.params.CommitmentG st'.params.CommitmentH)) ∨
    (inputSetTranscript E st.inputSet.M st.inputSet.M1 M.length
        ≠ inputSetTranscript E st'.inputSet.M st'.inputSet.M1 M'.length ∧
      E.challenge (inputSetTranscript E st.inputSet.M st.inputSet.M1 M.length)
        = E.challenge (inputSetTranscript E st'.inputSet.M st'.inputSet.M1 M'.length)) := by
  have e := C46_statement_hash E st h
  have e' := C46_statement_hash E st' h'
  by_cases ht : statementTranscript E st.params.hash st.inputSet.hash st.offset st.J
      = statementTranscript E st'.params.hash st'.inputSet.hash st'.offset st'.J
  · obtain ⟨i1, i2, i3, i4⟩ := statementTranscript_inj hE _ _ _ _ _ _ _ _ ht
    have hp : ParamsBuilt E st.params := by
      obtain ⟨params, i, offset, J, hp, hi, h⟩ := h
      obtain ⟨-, -, -, h3, -⟩ := statementNew_ok E params i offset J st h
      rwa [h3]
    have hp' : ParamsBuilt E st'.params := by
      obtain ⟨params, i, offset, J, hp, hi, h⟩ := h'
      obtain ⟨-, -, -, h3, -⟩ := statementNew_ok E params i offset J st' h
      rwa [h3]
    rcases C45_binding E hE _ _ hp hp' i1 with c1 | c1
    · rcases C46_input_set_binding E hE _ _ M M1 M' M1' hM hM' i2 with c2 | c2
      · exact Or.inl ⟨c1, c2.1, c2.2.1, c2.2.2.1, c2.2.2.2, i3, i4⟩
      · exact Or.inr (Or.inr (Or.inr c2))
    · exact Or.inr (Or.inr (Or.inl c1))
  · exact Or.inr (Or.inl ⟨ht, by rw [← e, ← e', heq]⟩)

end

/-- The hypotheses of `C46_statement_binding` are met by a statement and itself; different statements have different hashes
here. -/
example : ∃ M M1, BuiltFrom (Toy.env 101) Toy.statement.inputSet M M1 ∧ Toy.statement.hash ≠ Toy.statement'.hash :=
  ⟨Toy.keys, Toy.keys1, Or.inl (by decide +kernel), by decide +kernel⟩

end Triptych.Parallel
