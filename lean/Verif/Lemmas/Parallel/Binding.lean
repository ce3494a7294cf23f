import Verif.Lemmas.Binding
import Verif.Lemmas.Parallel.Built

/-! # Parallel transcripts determine what was appended to them -/
set_option autoImplicit false
set_option linter.unusedSectionVars false
set_option linter.unusedVariables false

namespace Triptych.Parallel
open Triptych.Parallel.Spec
open Triptych.Spec (versionBytes points scalars)

variable {F P : Type}

theorem params_hashTranscript_eq (E : Env F P) (n m : ℕ) (G G1 U : P) (CG : List P) (H : P) :
    Params.hashTranscript E n m G G1 U CG H ++ [.challenge "hash" 32] = paramsTranscript E n m G G1 U CG H := by
  rw [Params.hashTranscript]
  simp only [foldl_append_eq]
  simp [ version_append, Transcript.appendMessage, Transcript.new,
    paramsTranscript, TRANSCRIPT_PARALLEL_PARAMETERS]

theorem inputSet_hashTranscript_eq (E : Env F P) (M M1 : List P) (k : ℕ) :
    InputSet.hashTranscript E M M1 k ++ [.challenge "hash" 32] = inputSetTranscript E M M1 k := by
  rw [InputSet.hashTranscript]
  simp only [foldl_append_eq]
  simp [ version_append, Transcript.appendMessage, Transcript.new,
    inputSetTranscript, TRANSCRIPT_PARALLEL_INPUT_SET]

theorem statement_hashTranscript_eq (E : Env F P) (a b : Bytes) (offset J : P) :
    Statement.hashTranscript E a b offset J ++ [.challenge "hash" 32] = statementTranscript E a b offset J := by
  simp [Statement.hashTranscript, version_append, Transcript.appendMessage, Transcript.new,
    statementTranscript, TRANSCRIPT_PARALLEL_STATEMENT]

/-! ## Injectivity -/

theorem paramsTranscript_inj {E : Env F P} (hE : E.Lawful) (n m n' m' : ℕ) (G G1 U G' G1' U' : P) (CG CG' : List P)
    (H H' : P) (hn : n ≤ u32Max) (hm : m ≤ u32Max) (hn' : n' ≤ u32Max) (hm' : m' ≤ u32Max)
    (h : paramsTranscript E n m G G1 U CG H = paramsTranscript E n' m' G' G1' U' CG' H') :
    n = n' ∧ m = m' ∧ G = G' ∧ G1 = G1' ∧ U = U' ∧ CG = CG' ∧ H = H' := by
  simp only [paramsTranscript, List.cons_append, List.nil_append, List.cons.injEq, Op.append.injEq, true_and] at h
  obtain ⟨h1, h2, h3, h31, h4, h5⟩ := h
  obtain ⟨h6, h7⟩ := points_append_inj hE "CommitmentG" CG CG' _ _ (by simp) (by simp) h5
  simp only [List.cons.injEq, Op.append.injEq, true_and, and_true] at h7
  exact ⟨leBytes4_inj _ _ hn hn' h1, leBytes4_inj _ _ hm hm' h2, hE.compress_inj _ _ h3, hE.compress_inj _ _ h31,
    hE.compress_inj _ _ h4, h6, hE.compress_inj _ _ h7⟩

theorem points_head (E : Env F P) (label label' : String) (hne : label' ≠ label) (l : List P) (r : Transcript)
    (hr : ∀ b, r.head? ≠ some (.append label b)) : ∀ b, (points E label' l ++ r).head? ≠ some (.append label b) := by
  intro b
  cases l with
  | nil => exact hr b
  | cons x l => simp [points, hne]

theorem inputSetTranscript_inj {E : Env F P} (hE : E.Lawful) (M M' M1 M1' : List P) (k k' : ℕ) (hk : k ≤ u32Max)
    (hk' : k' ≤ u32Max) (h : inputSetTranscript E M M1 k = inputSetTranscript E M' M1' k') :
    M = M' ∧ M1 = M1' ∧ k = k' := by
  simp only [inputSetTranscript, List.cons_append, List.nil_append, List.cons.injEq, Op.append.injEq, true_and,
    List.append_assoc] at h
  obtain ⟨h6, h7⟩ := points_append_inj hE "M" M M' _ _ (points_head E _ _ (by decide) _ _ (by simp))
    (points_head E _ _ (by decide) _ _ (by simp)) h.2
  obtain ⟨h8, -⟩ := points_append_inj hE "M1" M1 M1' _ _ (by simp) (by simp) h7
  exact ⟨h6, h8, leBytes4_inj _ _ hk hk' h.1⟩

theorem statementTranscript_inj {E : Env F P} (hE : E.Lawful) (a b a' b' : Bytes) (O J O' J' : P)
    (h : statementTranscript E a b O J = statementTranscript E a' b' O' J') : a = a' ∧ b = b' ∧ O = O' ∧ J = J' := by
  simp only [statementTranscript, List.cons.injEq, Op.append.injEq, true_and, and_true] at h
  exact ⟨h.1, h.2.1, hE.compress_inj _ _ h.2.2.1, hE.compress_inj _ _ h.2.2.2⟩

end Triptych.Parallel
