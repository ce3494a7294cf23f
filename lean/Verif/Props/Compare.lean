import Verif.Model.Compare
import Verif.Props.Statement
import Verif.Props.Serialize

/-! # What `==` compares: C121 -/
set_option autoImplicit false
set_option linter.unusedSectionVars false
set_option linter.unusedVariables false

namespace Triptych
open Spec

variable {F P : Type} [Field F] [AddCommGroup P] [Module F P] [DecidableEq F] [DecidableEq P]

theorem Params.eq_iff (a b : Params P) : a.eq b = true ↔ a = b := by
  obtain ⟨a1, a2, a3, a4, a5, a6, a7⟩ := a
  obtain ⟨b1, b2, b3, b4, b5, b6, b7⟩ := b
  simp [Params.eq, and_assoc]

theorem InputSet.eq_iff (a b : InputSet P) : a.eq b = true ↔ a = b := by
  obtain ⟨a1, a2⟩ := a
  obtain ⟨b1, b2⟩ := b
  simp [InputSet.eq]

theorem Statement.eq_iff (a b : Statement P) : a.eq b = true ↔ a = b := by
  obtain ⟨a1, a2, a3, a4⟩ := a
  obtain ⟨b1, b2, b3, b4⟩ := b
  simp [Statement.eq, and_assoc, Params.eq_iff, InputSet.eq_iff]

theorem Proof.eq_iff (a b : Proof F P) : a.eq b = true ↔ a = b := by
  obtain ⟨a1, a2, a3, a4, a5, a6, a7, a8, a9, a10⟩ := a
  obtain ⟨b1, b2, b3, b4, b5, b6, b7, b8, b9, b10⟩ := b
  simp [Proof.eq, and_assoc]

/-- C121: two accepted parameter sets compare equal exactly if they were made from the same `n`, `m`, `G` and `U`. -/
theorem C121_params (E : Env F P) (n m n' m' : ℕ) (G U G' U' : P) (p p' : Params P)
    (h : Params.newWithGenerators E n m G U = .ok p) (h' : Params.newWithGenerators E n' m' G' U' = .ok p') :
    p.eq p' = true ↔ n = n' ∧ m = m' ∧ G = G' ∧ U = U' := by
  have key : ∀ (n m : ℕ) (G U : P) (p : Params P), Params.newWithGenerators E n m G U = .ok p →
      p.n = n ∧ p.m = m ∧ p.G = G ∧ p.U = U := by
    intro n m G U p h
    rw [Params.newWithGenerators] at h
    split at h
    · simp at h
    split at h
    · simp at h
    split at h
    · simp at h
    split at h
    · simp at h
    · simp only [Outcome.ok.injEq] at h
      subst h
      exact ⟨rfl, rfl, rfl, rfl⟩
  rw [Params.eq_iff]
  obtain ⟨a1, a2, a3, a4⟩ := key _ _ _ _ _ h
  obtain ⟨b1, b2, b3, b4⟩ := key _ _ _ _ _ h'
  constructor
  · rintro rfl
    exact ⟨a1.symm.trans b1, a2.symm.trans b2, a3.symm.trans b3, a4.symm.trans b4⟩
  · rintro ⟨rfl, rfl, rfl, rfl⟩
    rw [h] at h'
    simpa using h'

theorem BuiltFrom.padded {E : Env F P} {i : InputSet P} {M : List P} (h : BuiltFrom E i M) :
    i.M = M ++ List.replicate (i.M.length - M.length) (M.getLast?.getD 0) := by
  rcases h with h | ⟨params, hp, h⟩
  · rw [InputSet.new, InputSet.newInternal] at h
    split at h
    · simp only [Outcome.ok.injEq] at h
      subst h
      simp
    · simp at h
  · obtain ⟨k1, k2, k3⟩ := C04_padding E M params hp
    rcases M.eq_nil_or_concat with hM | ⟨L, last, hM⟩
    · rw [k2 hM] at h
      simp at h
    · have hl : M.getLast? = some last := by rw [hM]; simp
      rcases Nat.lt_or_ge (params.n ^ params.m) M.length with hlt | hle
      · rw [k1 hlt] at h
        simp at h
      · obtain ⟨i', e, e1, e2⟩ := k3 last hle hl
        rw [h, Outcome.ok.injEq] at e
        subst e
        rw [e2, hl]
        exact e1

/-- C121: input sets made by `new` compare equal exactly if their keys do. -/
theorem C121_new (E : Env F P) (M M' : List P) (i i' : InputSet P) (h : InputSet.new E M = .ok i)
    (h' : InputSet.new E M' = .ok i') : i.eq i' = true ↔ M = M' := by
  have key : ∀ (M : List P) (i : InputSet P), InputSet.new E M = .ok i → i.M = M := by
    intro M i h
    rw [InputSet.new, InputSet.newInternal] at h
    split at h
    · simp only [Outcome.ok.injEq] at h
      subst h
      rfl
    · simp at h
  rw [InputSet.eq_iff]
  constructor
  · rintro rfl
    exact (key _ _ h).symm.trans (key _ _ h')
  · rintro rfl
    rw [h] at h'
    simpa using h'

/-- C121: input sets made by `new` or `new_with_padding`, in any combination: they compare equal exactly if the vectors after padding
are equal and the hashes are; so if they were made from the same keys before padding and have the same size after it, they compare
equal, and if they compare equal they were made from the same keys before padding, unless two explicit, different transcripts
collide. -/
theorem C121_input_set (E : Env F P) (hE : E.Lawful) (i i' : InputSet P) (M M' : List P) (h : BuiltFrom E i M)
    (h' : BuiltFrom E i' M') :
    (M = M' ∧ i.M.length = i'.M.length → i.eq i' = true) ∧
    (i.eq i' = true → i.M = i'.M ∧ (M = M' ∨
      (inputSetTranscript E i.M M.length ≠ inputSetTranscript E i'.M M'.length ∧
        E.challenge (inputSetTranscript E i.M M.length) = E.challenge (inputSetTranscript E i'.M M'.length)))) := by
  rw [InputSet.eq_iff]
  refine ⟨?_, ?_⟩
  · rintro ⟨rfl, hl⟩
    have e : i.M = i'.M := by rw [h.padded, h'.padded, hl]
    have e2 : i.hash = i'.hash := by rw [(C05_hash E i M h).2.2, (C05_hash E i' M h').2.2, e]
    obtain ⟨a, b⟩ := i
    obtain ⟨a', b'⟩ := i'
    simp only at e e2
    rw [e, e2]
  · rintro rfl
    rcases C05_binding E hE i i M M' h h' rfl with c | c
    · exact ⟨rfl, .inl c.2⟩
    · exact ⟨rfl, .inr c⟩

/-- C121: statements compare equal exactly if their parameters, input sets and linking tags do. -/
theorem C121_statement (E : Env F P) (params params' : Params P) (i i' : InputSet P) (J J' : P) (st st' : Statement P)
    (h : Statement.new E params i J = .ok st) (h' : Statement.new E params' i' J' = .ok st') :
    st.eq st' = true ↔ params.eq params' = true ∧ i.eq i' = true ∧ J = J' := by
  have key : ∀ (params : Params P) (i : InputSet P) (J : P) (st : Statement P), Statement.new E params i J = .ok st →
      st.params = params ∧ st.inputSet = i ∧ st.J = J := by
    intro params i J st h
    rw [Statement.new] at h
    split at h
    · simp at h
    split at h
    · simp at h
    · simp only [Outcome.ok.injEq] at h
      subst h
      exact ⟨rfl, rfl, rfl⟩
  rw [Statement.eq_iff, Params.eq_iff, InputSet.eq_iff]
  obtain ⟨a1, a2, a3⟩ := key _ _ _ _ h
  obtain ⟨b1, b2, b3⟩ := key _ _ _ _ h'
  constructor
  · rintro rfl
    exact ⟨a1.symm.trans b1, a2.symm.trans b2, a3.symm.trans b3⟩
  · rintro ⟨rfl, rfl, rfl⟩
    rw [h] at h'
    simpa using h'

/-- C121: proofs that were decoded compare equal exactly if they were decoded from the same bytes, and any two proofs that can be
encoded compare equal exactly if their encodings do. -/
theorem C121_proof (E : Env F P) (hE : E.Lawful) (p p' : Proof F P) :
    (∀ b b', Proof.fromBytes E b = .ok p → Proof.fromBytes E b' = .ok p' → (p.eq p' = true ↔ b = b')) ∧
    (∀ cols cols', Encodable p cols → Encodable p' cols' →
      (p.eq p' = true ↔ (Proof.toBytes E p : Outcome Unit Bytes) = Proof.toBytes E p')) := by
  simp only [Proof.eq_iff]
  refine ⟨fun b b' h h' => ⟨?_, ?_⟩, fun cols cols' h h' => ⟨?_, ?_⟩⟩
  · rintro rfl
    exact ((C35_canonical E hE b p h).2 b' h').symm
  · rintro rfl
    rw [h] at h'
    simpa using h'
  · rintro rfl
    rfl
  · intro e
    have k := C34_round_trip E hE p cols h
    have k' := C34_round_trip E hE p' cols' h'
    rw [h.toBytes, Outcome.bind_ok] at k
    rw [h'.toBytes, Outcome.bind_ok] at k'
    rw [h.toBytes, h'.toBytes, Outcome.ok.injEq] at e
    rw [e, k', Outcome.ok.injEq] at k
    exact k.symm

/-! ## Examples -/

/-- Parameters as in `C121_params` and `C121_new`. -/
example : Params.newWithGenerators (Toy.env 101) 2 2 Toy.params.G Toy.params.U = .ok Toy.params ∧
    (match Params.newWithGenerators (Toy.env 101) 2 2 Toy.params.G (Toy.params.U + 1) with
      | .ok p => Toy.params.eq p == false
      | _ => false) = true :=
  ⟨by decide +kernel, by decide +kernel⟩

/-- The hypotheses of `C121_input_set` are met: the same keys after padding, but not before, are different input sets. -/
example : (Toy.env 101).Lawful ∧
    (match InputSet.newWithPadding (Toy.env 101) [(3 : ZMod 101), 5, 7] Toy.params, InputSet.new (Toy.env 101) [3, 5, 7, 7] with
      | .ok i, .ok i' => i.M == i'.M && (i.eq i' == false) && i.eq i
      | _, _ => false) = true :=
  ⟨Toy.env_lawful 101 (by norm_num), by decide +kernel⟩

/-- Statements as in `C121_statement`. -/
example : Statement.new (Toy.env 101) Toy.params Toy.inputSet Toy.statement.J = .ok Toy.statement ∧
    (match Statement.new (Toy.env 101) Toy.params Toy.inputSet (Toy.statement.J + 1) with
      | .ok st => Toy.statement.eq st == false
      | _ => false) = true :=
  ⟨by decide +kernel, by decide +kernel⟩

/-- The hypotheses of `C121_proof` are met. -/
example : (Toy.env 101).Lawful ∧ Encodable Toy.proof 1 ∧ Encodable Toy.proof' 1 ∧ Toy.proof.eq Toy.proof' = false :=
  ⟨Toy.env_lawful 101 (by norm_num), ⟨by decide +kernel, by decide, by decide +kernel, by decide +kernel, by decide +kernel⟩, 
    ⟨by decide +kernel, by decide, by decide +kernel, by decide +kernel, by decide +kernel⟩, by decide +kernel⟩

end Triptych
