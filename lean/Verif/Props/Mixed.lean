import Verif.Props.Serialize
import Verif.Props.Parallel.Serialize
import Verif.Props.Serde
import Verif.Props.Parallel.Serde
import Verif.ToyParallel

/-! # Stored proofs of the two kinds cannot be mixed up: C119 -/
set_option autoImplicit false
set_option linter.unusedSectionVars false
set_option linter.unusedVariables false

namespace Triptych
open Spec

variable {F P : Type}

/-- C119: no byte string decodes both as a proof and as a parallel proof. -/
theorem C119_bytes (E : Env F P) (hE : E.Lawful) (b : Bytes) (p : Proof F P) (q : Parallel.Proof F P) :
    ¬ (Proof.fromBytes E b = .ok p ∧ Parallel.Proof.fromBytes E b = .ok q) := by
  rintro ⟨h, h'⟩
  obtain ⟨cols, he, hb⟩ := ((C36_exact E hE b).1 p).1 h
  obtain ⟨cols', he', hb'⟩ := ((Parallel.C52_exact E hE b).1 q).1 h'
  have hu : parseU32 b = some (cols, leBytes 4 p.f.length ++ (blocks E p).flatten) :=
    (parseU32_iff _ _ _).2 ⟨by have := he.width; omega, by rw [hb, encoding]; simp⟩
  have hu' : parseU32 b = some (cols', leBytes 4 q.f.length ++ (Parallel.Spec.blocks E q).flatten) :=
    (parseU32_iff _ _ _).2 ⟨by have := he'.width; omega, by rw [hb', Parallel.Spec.encoding]; simp⟩
  rw [hu] at hu'
  simp only [Option.some.injEq, Prod.mk.injEq] at hu'
  obtain ⟨rfl, hrest⟩ := hu'
  have hv : parseU32 (leBytes 4 p.f.length ++ (blocks E p).flatten) = some (p.f.length, (blocks E p).flatten) :=
    (parseU32_iff _ _ _).2 ⟨he.rows.2, rfl⟩
  have hv' : parseU32 (leBytes 4 p.f.length ++ (blocks E p).flatten) = some (q.f.length, (Parallel.Spec.blocks E q).flatten) :=
    (parseU32_iff _ _ _).2 ⟨he'.rows.2, hrest⟩
  rw [hv] at hv'
  simp only [Option.some.injEq, Prod.mk.injEq] at hv'
  have l1 := encoding_length E hE p cols he
  have l2 := Parallel.encoding_length E hE q cols he'
  rw [← hb] at l1
  rw [← hb', ← hv'.1] at l2
  omega

/-- C119: no stream decodes both as a proof and as a parallel proof through Borsh. -/
theorem C119_borsh (E : Env F P) (hE : E.Lawful) (input : Bytes) (p : Proof F P) (q : Parallel.Proof F P) (rest rest' : Bytes) :
    ¬ (Proof.borshDeserialize E input = .ok (p, rest) ∧ Parallel.Proof.borshDeserialize E input = .ok (q, rest')) := by
  rintro ⟨h, h'⟩
  rw [Proof.borshDeserialize] at h
  rw [Parallel.Proof.borshDeserialize] at h'
  cases hr : borshReadBytes input with
  | none => rw [hr] at h; cases h
  | some x =>
    obtain ⟨bytes, r⟩ := x
    rw [hr] at h h'
    simp only at h h'
    cases hf : Proof.fromBytes E bytes with
    | ok p' =>
      cases hf' : Parallel.Proof.fromBytes E bytes with
      | ok q' => exact C119_bytes E hE bytes p' q' ⟨hf, hf'⟩
      | err => rw [hf'] at h'; cases h'
      | panic => rw [hf'] at h'; cases h'
      | diverge => rw [hf'] at h'; cases h'
    | err => rw [hf] at h; cases h
    | panic => rw [hf] at h; cases h
    | diverge => rw [hf] at h; cases h

/-- C119: through serde, in formats that render structs as sequences, nothing decodes both as a proof and as a parallel proof; in
formats that render them as maps, a serialized proof does not decode as a parallel proof, while a serialized parallel proof decodes as
the proof that consists of the common fields. -/
theorem C119_serde (E : Env F P) (hE : E.Lawful) (p : Proof F P) (q : Parallel.Proof F P) :
    (∀ l, ¬ ((Proof.deserialize E (.seq l)).isSome ∧ (Parallel.Proof.deserialize E (.seq l)).isSome)) ∧
    Parallel.Proof.deserialize E (Proof.serializeMap E p) = none ∧ Parallel.Proof.deserialize E (Proof.serializeSeq E p) = none ∧
    Proof.deserialize E (Parallel.Proof.serializeSeq E q) = none ∧
    Proof.deserialize E (Parallel.Proof.serializeMap E q) =
      some { A := q.A, B := q.B, C := q.C, D := q.D, X := q.X, Y := q.Y, f := q.f, zA := q.zA, zC := q.zC, z := q.z } := by
  have hseq : ∀ l, ¬ ((Proof.deserialize E (.seq l)).isSome ∧ (Parallel.Proof.deserialize E (.seq l)).isSome) := by
    rintro l ⟨h1, h2⟩
    by_cases hl : l.length = 10
    · rw [(Parallel.C85_reject E hE).2.1 l (by omega)] at h2
      cases h2
    · rw [(C84_reject E hE).2.1 l hl] at h1
      cases h1
  refine ⟨hseq, ?_, ?_, ?_, ?_⟩
  · refine (Parallel.C85_reject E hE).1 _ 5 (by decide) ?_
    rw [show (List.filter _ _ : List (Serde.Key × Serde.Value)) = [] from rfl]
    decide
  · exact (Parallel.C85_reject E hE).2.1 _ (by simp [Proof.serdeFields])
  · exact (C84_reject E hE).2.1 _ (by simp [Parallel.Proof.serdeFields])
  · rw [C84_exact E hE]
    refine Or.inr ⟨_, rfl, (mapRepresents_iff E _ _).2 ⟨?_, rfl, rfl, rfl, rfl, rfl, rfl, rfl, rfl, rfl, rfl⟩⟩
    intro e he
    have h1 := List.of_mem_zip (show (e.1, e.2) ∈ _ from he)
    obtain ⟨s, -, hs⟩ := List.mem_map.1 h1.1
    rw [← hs]
    simp

/-- The encodings of a toy proof and of a toy parallel proof decode, each as its own kind. -/
example : (Toy.env 101).Lawful ∧ (Proof.toBytes (Toy.env 101) Toy.proof >>= Proof.fromBytes (Toy.env 101)).isOk = true ∧
    (Proof.toBytes (Toy.env 101) Toy.proof >>= Parallel.Proof.fromBytes (Toy.env 101)).isOk = false ∧
    (Parallel.Proof.toBytes (Toy.env 101) Parallel.Toy.proof >>= Parallel.Proof.fromBytes (Toy.env 101)).isOk = true ∧
    (Parallel.Proof.toBytes (Toy.env 101) Parallel.Toy.proof >>= Proof.fromBytes (Toy.env 101)).isOk = false :=
  ⟨Toy.env_lawful 101 (by norm_num), by decide +kernel, by decide +kernel, by decide +kernel, by decide +kernel⟩

end Triptych
