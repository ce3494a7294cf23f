import Verif.Model.Compare
import Verif.Props.Parallel.Statement
import Verif.Props.Parallel.Serialize

/-! # What `==` compares in the parallel module: C121 -/
set_option autoImplicit false
set_option linter.unusedSectionVars false
set_option linter.unusedVariables false

namespace Triptych.Parallel
open Triptych.Parallel.Spec

variable {F P : Type} [Field F] [AddCommGroup P] [Module F P] [DecidableEq F] [DecidableEq P]

theorem Params.eq_iff (a b : Params P) : a.eq b = true ↔ a = b := by
  obtain ⟨a1, a2, a3, a4, a5, a6, a7, a8⟩ := a
  obtain ⟨b1, b2, b3, b4, b5, b6, b7, b8⟩ := b
  simp [Params.eq, and_assoc]

theorem InputSet.eq_iff (a b : InputSet P) : a.eq b = true ↔ a = b := by
  obtain ⟨a1, a2, a3⟩ := a
  obtain ⟨b1, b2, b3⟩ := b
  simp [InputSet.eq, and_assoc]

theorem Statement.eq_iff (a b : Statement P) : a.eq b = true ↔ a = b := by
  obtain ⟨a1, a2, a3, a4, a5⟩ := a
  obtain ⟨b1, b2, b3, b4, b5⟩ := b
  simp [Statement.eq, and_assoc, Params.eq_iff, InputSet.eq_iff]

theorem Proof.eq_iff (a b : Proof F P) : a.eq b = true ↔ a = b := by
  obtain ⟨a1, a2, a3, a4, a5, a6, a7, a8, a9, a10, a11, a12⟩ := a
  obtain ⟨b1, b2, b3, b4, b5, b6, b7, b8, b9, b10, b11, b12⟩ := b
  simp [Proof.eq, and_assoc]

/-- C121: two accepted parameter sets compare equal exactly if they were made from the same `n`, `m`, `G`, `G1` and `U`. -/
theorem C121_params_parallel (E : Env F P) (n m n' m' : ℕ) (G G1 U G' G1' U' : P) (p p' : Params P)
    (h : Params.newWithGenerators E n m G G1 U = .ok p) (h' : Params.newWithGenerators E n' m' G' G1' U' = .ok p') :
    p.eq p' = true ↔ n = n' ∧ m = m' ∧ G = G' ∧ G1 = G1' ∧ U = U' := by
  have key : ∀ (n m : ℕ) (G G1 U : P) (p : Params P), Params.newWithGenerators E n m G G1 U = .ok p →
      p.n = n ∧ p.m = m ∧ p.G = G ∧ p.G1 = G1 ∧ p.U = U := by
    intro n m G G1 U p h
    rw [Params.newWithGenerators] at h
    split at h
    · simp at h
    split at h
    · simp at h
    split at h
    · simp at h
    split at h
    · simp at h
    · simp only [Outcome.ok.injEq] at h
      subst h
      exact ⟨rfl, rfl, rfl, rfl, rfl⟩
  rw [Params.eq_iff]
  obtain ⟨a1, a2, a3, a4, a5⟩ := key _ _ _ _ _ _ h
  obtain ⟨b1, b2, b3, b4, b5⟩ := key _ _ _ _ _ _ h'
  constructor
  · rintro rfl
    exact ⟨a1.symm.trans b1, a2.symm.trans b2, a3.symm.trans b3, a4.symm.trans b4, a5.symm.trans b5⟩
  · rintro ⟨rfl, rfl, rfl, rfl, rfl⟩
    rw [h] at h'
    simpa using h'

theorem BuiltFrom.padded {E : Env F P} {i : InputSet P} {M M1 : List P} (h : BuiltFrom E i M M1) :
    i.M = M ++ List.replicate (i.M.length - M.length) (M.getLast?.getD 0) ∧
      i.M1 = M1 ++ List.replicate (i.M.length - M.length) (M1.getLast?.getD 0) := by
  rcases h with h | ⟨params, hp, h⟩
  · rw [InputSet.new, InputSet.newInternal] at h
    split at h
    · simp at h
    split at h
    · simp only [Outcome.ok.injEq] at h
      subst h
      simp
    · simp at h
  · obtain ⟨k0, k1, k2, k3⟩ := C46_padding E M M1 params hp
    by_cases hl : M.length = M1.length
    swap
    · rw [k0 hl] at h
      simp at h
    rcases M.eq_nil_or_concat with hM | ⟨L, last, hM⟩
    · rw [k2 hM (by rw [hM] at hl; exact List.length_eq_zero_iff.1 hl.symm)] at h
      simp at h
    rcases M1.eq_nil_or_concat with hM1 | ⟨L1, last1, hM1⟩
    · rw [hM, hM1] at hl
      simp at hl
    · have g : M.getLast? = some last := by rw [hM]; simp
      have g1 : M1.getLast? = some last1 := by rw [hM1]; simp
      rcases Nat.lt_or_ge (params.n ^ params.m) M.length with hlt | hle
      · rw [k1 hl hlt] at h
        simp at h
      · obtain ⟨i', e, e1, e2, e3, e4⟩ := k3 last last1 hl hle g g1
        rw [h, Outcome.ok.injEq] at e
        subst e
        rw [e3, g, g1]
        exact ⟨e1, by rw [hl]; exact e2⟩

/-- C121: input sets made by `new` compare equal exactly if their keys and auxiliary keys do. -/
theorem C121_new_parallel (E : Env F P) (M M1 M' M1' : List P) (i i' : InputSet P) (h : InputSet.new E M M1 = .ok i)
    (h' : InputSet.new E M' M1' = .ok i') : i.eq i' = true ↔ M = M' ∧ M1 = M1' := by
  have key : ∀ (M M1 : List P) (i : InputSet P), InputSet.new E M M1 = .ok i → i.M = M ∧ i.M1 = M1 := by
    intro M M1 i h
    rw [InputSet.new, InputSet.newInternal] at h
    split at h
    · simp at h
    split at h
    · simp only [Outcome.ok.injEq] at h
      subst h
      exact ⟨rfl, rfl⟩
    · simp at h
  rw [InputSet.eq_iff]
  constructor
  · rintro rfl
    exact ⟨(key _ _ _ h).1.symm.trans (key _ _ _ h').1, (key _ _ _ h).2.symm.trans (key _ _ _ h').2⟩
  · rintro ⟨rfl, rfl⟩
    rw [h] at h'
    simpa using h'

/-- C121: input sets made by `new` or `new_with_padding`, in any combination: if they were made from the same keys and auxiliary keys
before padding and have the same size after it, they compare equal, and if they compare equal, their vectors after padding are equal
and they were made from the same keys before padding, unless two explicit, different transcripts collide. -/
theorem C121_input_set_parallel (E : Env F P) (hE : E.Lawful) (i i' : InputSet P) (M M1 M' M1' : List P)
    (h : BuiltFrom E i M M1) (h' : BuiltFrom E i' M' M1') :
    (M = M' ∧ M1 = M1' ∧ i.M.length = i'.M.length → i.eq i' = true) ∧
    (i.eq i' = true → i.M = i'.M ∧ i.M1 = i'.M1 ∧ ((M = M' ∧ M1 = M1') ∨
      (inputSetTranscript E i.M i.M1 M.length ≠ inputSetTranscript E i'.M i'.M1 M'.length ∧
        E.challenge (inputSetTranscript E i.M i.M1 M.length) = E.challenge (inputSetTranscript E i'.M i'.M1 M'.length)))) := by
  rw [InputSet.eq_iff]
  refine ⟨?_, ?_⟩
  · rintro ⟨rfl, rfl, hl⟩
    have e : i.M = i'.M := by rw [h.padded.1, h'.padded.1, hl]
    have e1 : i.M1 = i'.M1 := by rw [h.padded.2, h'.padded.2, hl]
    have e2 : i.hash = i'.hash := by
      rw [(C46_input_set_hash E i M M1 h).2.2.2.2, (C46_input_set_hash E i' M M1 h').2.2.2.2, e, e1]
    obtain ⟨a, b, c⟩ := i
    obtain ⟨a', b', c'⟩ := i'
    simp only at e e1 e2
    rw [e, e1, e2]
  · rintro rfl
    rcases C46_input_set_binding E hE i i M M1 M' M1' h h' rfl with c | c
    · exact ⟨rfl, rfl, .inl c.2.2⟩
    · exact ⟨rfl, rfl, .inr c⟩

/-- C121: statements compare equal exactly if their parameters, input sets, offsets and linking tags do. -/
theorem C121_statement_parallel (E : Env F P) (params params' : Params P) (i i' : InputSet P) (offset J offset' J' : P)
    (st st' : Statement P) (h : Statement.new E params i offset J = .ok st) (h' : Statement.new E params' i' offset' J' = .ok st') :
    st.eq st' = true ↔ params.eq params' = true ∧ i.eq i' = true ∧ offset = offset' ∧ J = J' := by
  have key : ∀ (params : Params P) (i : InputSet P) (offset J : P) (st : Statement P), Statement.new E params i offset J = .ok st →
      st.params = params ∧ st.inputSet = i ∧ st.offset = offset ∧ st.J = J := by
    intro params i offset J st h
    rw [Statement.new] at h
    repeat' split at h
    all_goals first
      | (simp at h; done)
      | (simp only [Outcome.ok.injEq] at h
         subst h
         exact ⟨rfl, rfl, rfl, rfl⟩)
  rw [Statement.eq_iff, Params.eq_iff, InputSet.eq_iff]
  obtain ⟨a1, a2, a3, a4⟩ := key _ _ _ _ _ h
  obtain ⟨b1, b2, b3, b4⟩ := key _ _ _ _ _ h'
  constructor
  · rintro rfl
    exact ⟨a1.symm.trans b1, a2.symm.trans b2, a3.symm.trans b3, a4.symm.trans b4⟩
  · rintro ⟨rfl, rfl, rfl, rfl⟩
    rw [h] at h'
    simpa using h'

/-- C121: proofs that were decoded compare equal exactly if they were decoded from the same bytes, and any two proofs that can be
encoded compare equal exactly if their encodings do. -/
theorem C121_proof_parallel (E : Env F P) (hE : E.Lawful) (p p' : Proof F P) :
    (∀ b b', Proof.fromBytes E b = .ok p → Proof.fromBytes E b' = .ok p' → (p.eq p' = true ↔ b = b')) ∧
    (∀ cols cols', Encodable p cols → Encodable p' cols' →
      (p.eq p' = true ↔ (Proof.toBytes E p : Outcome Unit Bytes) = Proof.toBytes E p')) := by
  simp only [Proof.eq_iff]
  refine ⟨fun b b' h h' => ⟨?_, ?_⟩, fun cols cols' h h' => ⟨?_, ?_⟩⟩
  · rintro rfl
    exact ((C52_canonical E hE b p h).2 b' h').symm
  · rintro rfl
    rw [h] at h'
    simpa using h'
  · rintro rfl
    rfl
  · intro e
    have k := C52_round_trip E hE p cols h
    have k' := C52_round_trip E hE p' cols' h'
    rw [h.toBytes, Outcome.bind_ok] at k
    rw [h'.toBytes, Outcome.bind_ok] at k'
    rw [h.toBytes, h'.toBytes, Outcome.ok.injEq] at e
    rw [e, k', Outcome.ok.injEq] at k
    exact k.symm

/-! ## Examples -/

/-- Parameters as in `C121_params_parallel` and `C121_new_parallel`. -/
example : Params.newWithGenerators (Triptych.Toy.env 101) 2 2 Toy.params.G Toy.params.G1 Toy.params.U = .ok Toy.params ∧
    (match Params.newWithGenerators (Triptych.Toy.env 101) 2 2 Toy.params.G (Toy.params.G1 + 1) Toy.params.U with
      | .ok p => Toy.params.eq p == false
      | _ => false) = true :=
  ⟨by decide +kernel, by decide +kernel⟩

/-- The hypotheses of `C121_input_set_parallel` are met: the same keys after padding, but not before, are different input
sets. -/
example : (Triptych.Toy.env 101).Lawful ∧
    (match InputSet.newWithPadding (Triptych.Toy.env 101) [(3 : ZMod 101), 5, 7] [8, 9, 10] Toy.params,
        InputSet.new (Triptych.Toy.env 101) [(3 : ZMod 101), 5, 7, 7] [8, 9, 10, 10] with
      | .ok i, .ok i' => i.M == i'.M && i.M1 == i'.M1 && (i.eq i' == false) && i.eq i
      | _, _ => false) = true :=
  ⟨Triptych.Toy.env_lawful 101 (by norm_num), by decide +kernel⟩

/-- Statements as in `C121_statement_parallel`. -/
example : Statement.new (Triptych.Toy.env 101) Toy.params Toy.inputSet Toy.statement.offset Toy.statement.J = .ok Toy.statement ∧
    (match Statement.new (Triptych.Toy.env 101) Toy.params Toy.inputSet (Toy.statement.offset + 1) Toy.statement.J with
      | .ok st => Toy.statement.eq st == false
      | _ => false) = true :=
  ⟨by decide +kernel, by decide +kernel⟩

/-- The hypotheses of `C121_proof_parallel` are met. -/
example : (Triptych.Toy.env 101).Lawful ∧ Encodable Toy.proof 1 ∧ Encodable Toy.proof' 1 ∧ Toy.proof.eq Toy.proof' = false :=
  ⟨Triptych.Toy.env_lawful 101 (by norm_num),
    ⟨by decide +kernel, by decide, by decide +kernel, by decide +kernel, by decide +kernel, by decide +kernel⟩,
    ⟨by decide +kernel, by decide, by decide +kernel, by decide +kernel, by decide +kernel, by decide +kernel⟩, by decide +kernel⟩

end Triptych.Parallel
