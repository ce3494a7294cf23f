import Verif.Lemmas.Built

/-! # Transcripts determine what was appended to them -/
set_option autoImplicit false
set_option linter.unusedSectionVars false
set_option linter.unusedVariables false

namespace Triptych
open Spec

variable {F P : Type}

theorem leBytes_length (k x : ℕ) : (leBytes k x).length = k := by
  induction k generalizing x with
  | zero => rfl
  | succ k ih => simp [leBytes, ih]

theorem leNat_leBytes (k x : ℕ) (h : x < 256 ^ k) : leNat (leBytes k x) = x := by
  induction k generalizing x with
  | zero => simp at h; simp [leBytes, leNat, h]
  | succ k ih =>
    have hx : x / 256 < 256 ^ k := by
      rw [Nat.div_lt_iff_lt_mul (by omega), ← pow_succ]; exact h
    rw [leBytes, leNat, ih _ hx]
    simp only [UInt8.toNat_ofNat']
    omega

theorem leBytes_leNat (b : Bytes) : leBytes b.length (leNat b) = b := by
  induction b with
  | nil => rfl
  | cons x b ih =>
    have hx : x.toNat < 256 := x.toNat_lt
    rw [List.length_cons, leBytes, leNat]
    have h1 : (x.toNat + 256 * leNat b) % 256 = x.toNat := by omega
    have h2 : (x.toNat + 256 * leNat b) / 256 = leNat b := by omega
    rw [h1, h2, ih]
    simp

theorem leNat_lt (b : Bytes) : leNat b < 256 ^ b.length := by
  induction b with
  | nil => simp [leNat]
  | cons x b ih =>
    have hx : x.toNat < 256 := x.toNat_lt
    rw [leNat, List.length_cons, pow_succ]
    omega

theorem leBytes_inj (k x y : ℕ) (hx : x < 256 ^ k) (hy : y < 256 ^ k) (h : leBytes k x = leBytes k y) : x = y := by
  rw [← leNat_leBytes k x hx, ← leNat_leBytes k y hy, h]

theorem leBytes4_inj (x y : ℕ) (hx : x ≤ u32Max) (hy : y ≤ u32Max) (h : leBytes 4 x = leBytes 4 y) : x = y := by
  rw [u32Max] at hx hy
  exact leBytes_inj 4 x y (by omega) (by omega) h

theorem Env.Lawful.compress_inj {E : Env F P} (hE : E.Lawful) (p q : P) (h : E.compress p = E.compress q) : p = q := by
  have h1 := hE.point_decode_encode p
  have h2 := hE.point_decode_encode q
  rw [h] at h1
  rw [h1] at h2
  exact Option.some.inj h2

theorem Env.Lawful.scalarBytes_inj {E : Env F P} (hE : E.Lawful) (p q : F) (h : E.scalarBytes p = E.scalarBytes q) :
    p = q := by
  have h1 := hE.scalar_decode_encode p
  have h2 := hE.scalar_decode_encode q
  rw [h] at h1
  rw [h1] at h2
  exact Option.some.inj h2

/-- A run of appends under one label is determined by the transcript if what follows starts differently. -/
theorem points_append_inj {E : Env F P} (hE : E.Lawful) (label : String) (l l' : List P) (r r' : Transcript)
    (hr : ∀ b, r.head? ≠ some (.append label b)) (hr' : ∀ b, r'.head? ≠ some (.append label b))
    (h : points E label l ++ r = points E label l' ++ r') : l = l' ∧ r = r' := by
  induction l generalizing l' with
  | nil =>
    cases l' with
    | nil => exact ⟨rfl, h⟩
    | cons y l' =>
      exfalso
      simp only [points, List.map_nil, List.nil_append, List.map_cons, List.cons_append] at h
      exact hr (E.compress y) (by rw [h]; rfl)
  | cons x l ih =>
    cases l' with
    | nil =>
      exfalso
      simp only [points, List.map_nil, List.nil_append, List.map_cons, List.cons_append] at h
      exact hr' (E.compress x) (by rw [← h]; rfl)
    | cons y l' =>
      simp only [points, List.map_cons, List.cons_append, List.cons.injEq, Op.append.injEq, true_and] at h
      obtain ⟨h1, h2⟩ := ih l' h.2
      exact ⟨by rw [hE.compress_inj x y h.1, h1], h2⟩

/-! ## The model's hash transcripts are those of the specification -/

theorem params_hashTranscript_eq (E : Env F P) (n m : ℕ) (G U : P) (CG : List P) (H : P) :
    Params.hashTranscript E n m G U CG H ++ [.challenge "hash" 32] = paramsTranscript E n m G U CG H := by
  rw [Params.hashTranscript]
  simp only [foldl_append_eq]
  simp [ version_append, Transcript.appendMessage, Transcript.new,
    paramsTranscript, TRANSCRIPT_PARAMETERS]

theorem inputSet_hashTranscript_eq (E : Env F P) (M : List P) (k : ℕ) :
    InputSet.hashTranscript E M k ++ [.challenge "hash" 32] = inputSetTranscript E M k := by
  rw [InputSet.hashTranscript]
  simp only [foldl_append_eq]
  simp [ version_append, Transcript.appendMessage, Transcript.new,
    inputSetTranscript, TRANSCRIPT_INPUT_SET]

theorem statement_hashTranscript_eq (E : Env F P) (a b : Bytes) (J : P) :
    Statement.hashTranscript E a b J ++ [.challenge "hash" 32] = statementTranscript E a b J := by
  simp [Statement.hashTranscript, version_append, Transcript.appendMessage, Transcript.new,
    statementTranscript, TRANSCRIPT_STATEMENT]

/-! ## Injectivity -/

theorem paramsTranscript_inj {E : Env F P} (hE : E.Lawful) (n m n' m' : ℕ) (G U G' U' : P) (CG CG' : List P) (H H' : P)
    (hn : n ≤ u32Max) (hm : m ≤ u32Max) (hn' : n' ≤ u32Max) (hm' : m' ≤ u32Max)
    (h : paramsTranscript E n m G U CG H = paramsTranscript E n' m' G' U' CG' H') :
    n = n' ∧ m = m' ∧ G = G' ∧ U = U' ∧ CG = CG' ∧ H = H' := by
  simp only [paramsTranscript, List.cons_append, List.nil_append, List.cons.injEq, Op.append.injEq, true_and] at h
  obtain ⟨h1, h2, h3, h4, h5⟩ := h
  obtain ⟨h6, h7⟩ := points_append_inj hE "CommitmentG" CG CG' _ _ (by simp) (by simp) h5
  simp only [List.cons.injEq, Op.append.injEq, true_and, and_true] at h7
  exact ⟨leBytes4_inj _ _ hn hn' h1, leBytes4_inj _ _ hm hm' h2, hE.compress_inj _ _ h3, hE.compress_inj _ _ h4, h6,
    hE.compress_inj _ _ h7⟩

theorem inputSetTranscript_inj {E : Env F P} (hE : E.Lawful) (M M' : List P) (k k' : ℕ) (hk : k ≤ u32Max)
    (hk' : k' ≤ u32Max) (h : inputSetTranscript E M k = inputSetTranscript E M' k') : M = M' ∧ k = k' := by
  simp only [inputSetTranscript, List.cons_append, List.nil_append, List.cons.injEq, Op.append.injEq, true_and] at h
  obtain ⟨h6, h7⟩ := points_append_inj hE "M" M M' _ _ (by simp) (by simp) h.2
  exact ⟨h6, leBytes4_inj _ _ hk hk' h.1⟩

theorem statementTranscript_inj {E : Env F P} (hE : E.Lawful) (a b a' b' : Bytes) (J J' : P)
    (h : statementTranscript E a b J = statementTranscript E a' b' J') : a = a' ∧ b = b' ∧ J = J' := by
  simp only [statementTranscript, List.cons.injEq, Op.append.injEq, true_and, and_true] at h
  exact ⟨h.1, h.2.1, hE.compress_inj _ _ h.2.2⟩

theorem le_u32_of_pow (n m : ℕ) (hn : 2 ≤ n) (hm : 2 ≤ m) (h : n ^ m ≤ u32Max) : n ≤ u32Max ∧ m ≤ u32Max := by
  have h1 : n ≤ n ^ m := Nat.le_self_pow (by omega) n
  have h2 : m < n ^ m := Nat.lt_pow_self (by omega)
  omega

end Triptych
