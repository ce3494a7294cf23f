import Verif.Spec.Hashing
import Verif.Lemmas.Birthday
import Verif.Props.Parameters
import Verif.Props.Statement
import Verif.Props.Parallel.Parameters
import Verif.Props.Parallel.Statement

/-! # Different objects have different hashes (C108) -/
set_option autoImplicit false
set_option linter.unusedSectionVars false
set_option linter.unusedVariables false

namespace Triptych
open Spec Finset

variable {F P : Type} [AddCommGroup P] [DecidableEq F] [DecidableEq P]

namespace Spec.Hashed

/-- The object's own transcript. -/
def top (E : Env F P) (a : Hashed P) : Transcript := (a.transcripts E).headD []

/-- The domain separator of the object. -/
def label : Hashed P → String
  | params _ => "Triptych parameters"
  | inputSet _ _ => "Triptych input set"
  | statement _ _ => "Triptych statement"
  | parallelParams _ => "Parallel Triptych parameters"
  | parallelInputSet _ _ _ => "Parallel Triptych input set"
  | parallelStatement _ _ _ => "Parallel Triptych statement"

theorem top_mem (E : Env F P) (a : Hashed P) : a.top E ∈ a.transcripts E := by
  cases a <;> simp [top, transcripts]

theorem top_head (E : Env F P) (a : Hashed P) : (a.top E).head? = some (.append "dom-sep" (asciiBytes a.label)) := by
  cases a <;> rfl

theorem length_transcripts (E : Env F P) (a : Hashed P) : (a.transcripts E).length ≤ 3 := by
  cases a <;> simp [transcripts]

theorem hash_top (E : Env F P) (a : Hashed P) (h : a.Built E) : a.hash = E.challenge (a.top E) := by
  cases a with
  | params p => exact C03_hash E p h
  | inputSet i M => exact (C05_hash E i M h).2.2
  | statement st M => exact C07_hash E st h.1
  | parallelParams p => exact Parallel.C45_hash E p h
  | parallelInputSet i M M1 => exact (Parallel.C46_input_set_hash E i M M1 h).2.2.2.2
  | parallelStatement st M M1 => exact Parallel.C46_statement_hash E st h.1

theorem collision (E : Env F P) (hE : E.Lawful) (a b : Hashed P) (ha : a.Built E) (hb : b.Built E) (hne : a ≠ b)
    (hh : a.hash = b.hash) :
    ∃ t ∈ a.transcripts E, ∃ t' ∈ b.transcripts E, t ≠ t' ∧ E.challenge t = E.challenge t' := by
  by_cases hl : a.label = b.label
  · cases a <;> cases b <;> first | (exfalso; revert hl; simp only [label]; decide +kernel) | skip
    case params.params p p' =>
      rcases C03_binding E hE p p' ha hb hh with e | ⟨h1, h2⟩
      · exact absurd (congrArg _ e) hne
      · exact ⟨_, by simp [transcripts], _, by simp [transcripts], h1, h2⟩
    case inputSet.inputSet i M i' M' =>
      rcases C05_binding E hE i i' M M' ha hb hh with ⟨e1, e2⟩ | ⟨h1, h2⟩
      · refine absurd ?_ hne
        obtain ⟨_, _⟩ := i
        obtain ⟨_, _⟩ := i'
        simp only [hash] at hh
        simp_all
      · exact ⟨_, by simp [transcripts], _, by simp [transcripts], h1, h2⟩
    case statement.statement st M st' M' =>
      rcases C07_binding E hE st st' ha.1 hb.1 M M' ha.2 hb.2 hh with ⟨e1, e2, e3, e4⟩ | ⟨h1, h2⟩ | ⟨h1, h2⟩ | ⟨h1, h2⟩
      · refine absurd ?_ hne
        have i1 := (C05_hash E _ M ha.2).2.2
        have i2 := (C05_hash E _ M' hb.2).2.2
        rw [e2, e3, ← i2] at i1
        obtain ⟨_, ⟨_, _⟩, _, _⟩ := st
        obtain ⟨_, ⟨_, _⟩, _, _⟩ := st'
        simp only [hash] at hh
        simp_all
      · exact ⟨_, by simp [transcripts], _, by simp [transcripts], h1, h2⟩
      · exact ⟨_, by simp [transcripts], _, by simp [transcripts], h1, h2⟩
      · exact ⟨_, by simp [transcripts], _, by simp [transcripts], h1, h2⟩
    case parallelParams.parallelParams p p' =>
      rcases Parallel.C45_binding E hE p p' ha hb hh with e | ⟨h1, h2⟩
      · exact absurd (congrArg _ e) hne
      · exact ⟨_, by simp [transcripts], _, by simp [transcripts], h1, h2⟩
    case parallelInputSet.parallelInputSet i M M1 i' M' M1' =>
      rcases Parallel.C46_input_set_binding E hE i i' M M1 M' M1' ha hb hh with ⟨e1, e2, e3, e4⟩ | ⟨h1, h2⟩
      · refine absurd ?_ hne
        obtain ⟨_, _, _⟩ := i
        obtain ⟨_, _, _⟩ := i'
        simp only [hash] at hh
        simp_all
      · exact ⟨_, by simp [transcripts], _, by simp [transcripts], h1, h2⟩
    case parallelStatement.parallelStatement st M M1 st' M' M1' =>
      rcases Parallel.C46_statement_binding E hE st st' ha.1 hb.1 M M1 M' M1' ha.2 hb.2 hh with
        ⟨e1, e2, e3, e4, e5, e6, e7⟩ | ⟨h1, h2⟩ | ⟨h1, h2⟩ | ⟨h1, h2⟩
      · refine absurd ?_ hne
        have i1 := (Parallel.C46_input_set_hash E _ M M1 ha.2).2.2.2.2
        have i2 := (Parallel.C46_input_set_hash E _ M' M1' hb.2).2.2.2.2
        rw [e2, e3, e4, ← i2] at i1
        obtain ⟨_, ⟨_, _, _⟩, _, _, _⟩ := st
        obtain ⟨_, ⟨_, _, _⟩, _, _, _⟩ := st'
        simp only [hash] at hh
        simp_all
      · exact ⟨_, by simp [transcripts], _, by simp [transcripts], h1, h2⟩
      · exact ⟨_, by simp [transcripts], _, by simp [transcripts], h1, h2⟩
      · exact ⟨_, by simp [transcripts], _, by simp [transcripts], h1, h2⟩
  · refine ⟨a.top E, a.top_mem E, b.top E, b.top_mem E, fun e => hl ?_, by rw [← hash_top E a ha, ← hash_top E b hb, hh]⟩
    have h1 := a.top_head E
    rw [e, b.top_head E] at h1
    cases a <;> cases b <;> first | rfl | (exfalso; revert h1; simp only [label]; decide +kernel)

theorem transcripts_withHash (E : Env F P) (S : Finset Transcript) (O : S → Digest) (a : Hashed P) :
    a.transcripts (withHash E S O) = a.transcripts E := by
  cases a <;> rfl

/-- The questions for the objects of an output. -/
def points (E : Env F P) (S : Finset Transcript) (out : List (Hashed P)) : List S :=
  (out.flatMap fun a => a.transcripts E).filterMap fun t => if h : t ∈ S then some ⟨t, h⟩ else none

/-- The objects' own questions. -/
def tops (E : Env F P) (S : Finset Transcript) (out : List (Hashed P)) : List S :=
  (out.map fun a => a.top E).filterMap fun t => if h : t ∈ S then some ⟨t, h⟩ else none

theorem length_points (E : Env F P) (S : Finset Transcript) (out : List (Hashed P)) : (points E S out).length ≤ 3 * out.length := by
  refine (List.length_filterMap_le _ _).trans ?_
  induction out with
  | nil => simp
  | cons a out ih =>
    rw [List.flatMap_cons, List.length_append, List.length_cons]
    have := a.length_transcripts E
    omega

theorem length_tops (E : Env F P) (S : Finset Transcript) (out : List (Hashed P)) : (tops E S out).length ≤ out.length := by
  refine (List.length_filterMap_le _ _).trans ?_
  rw [List.length_map]

theorem mem_points (E : Env F P) (S : Finset Transcript) (out : List (Hashed P)) (a : Hashed P) (ha : a ∈ out) (t : Transcript)
    (ht : t ∈ a.transcripts E) (h : t ∈ S) : (⟨t, h⟩ : S) ∈ points E S out := by
  rw [points, List.mem_filterMap]
  exact ⟨t, List.mem_flatMap.2 ⟨a, ha, ht⟩, by rw [dif_pos h]⟩

theorem mem_tops (E : Env F P) (S : Finset Transcript) (out : List (Hashed P)) (a : Hashed P) (ha : a ∈ out)
    (h : a.top E ∈ S) : (⟨a.top E, h⟩ : S) ∈ tops E S out := by
  rw [tops, List.mem_filterMap]
  exact ⟨a.top E, List.mem_map.2 ⟨a, ha, rfl⟩, by rw [dif_pos h]⟩

end Spec.Hashed

theorem withHash_lawful (E : Env F P) (hE : E.Lawful) (S : Finset Transcript) (O : S → Digest) : (withHash E S O).Lawful :=
  ⟨hE.1, hE.2, hE.3, hE.4, hE.5, hE.6⟩

theorem withHash_challenge (E : Env F P) (S : Finset Transcript) (O : S → Digest) (t : Transcript) (h : t ∈ S) :
    (withHash E S O).challenge t = (O ⟨t, h⟩).bytes := by
  rw [withHash]
  exact dif_pos h

theorem digest_bytes_injective : Function.Injective Digest.bytes := by
  intro a b h
  have h1 := List.ofFn_injective h
  funext i
  have h2 := congrArg UInt8.toNat (congrFun h1 i)
  rw [UInt8.toNat_ofNat', UInt8.toNat_ofNat'] at h2
  have := (a i).isLt
  have := (b i).isLt
  exact Fin.ext (by omega)

theorem card_digest : (Fintype.card Digest : ℚ) = 2 ^ 256 := by
  rw [Fintype.card_pi]
  simp only [Fintype.card_fin, prod_const, card_univ]
  norm_num

open Classical in
/-- C108: a program that asks for `Q` hashes and outputs `k` objects finds two different ones with the same hash with probability
at most `(Q + 3 k) (Q + 3 k - 1) / 2 ^ 257`. -/
theorem C108_collision (E : Env F P) (hE : E.Lawful) (S : Finset Transcript) (c : OracleProgram S Digest (List (Hashed P)))
    (Q k : ℕ) (hQ : ∀ O, (c.asked O).length ≤ Q) (hk : ∀ O, (c.run O).length ≤ k) :
    (#{O : S → Digest | Hashed.Clash E S O (c.run O)} : ℚ) / Fintype.card (S → Digest)
      ≤ ((Q + 3 * k : ℕ) : ℚ) * (((Q + 3 * k : ℕ) : ℚ) - 1) / 2 ^ 257 := by
  rw [← avg_ind']
  refine (birthday c (Hashed.points E S) Q (3 * k) hQ (fun O => ?_) _ fun O hO => ?_).trans (le_of_eq ?_)
  · exact (Hashed.length_points E S _).trans (Nat.mul_le_mul_left _ (hk O))
  · obtain ⟨a, ha, b, hb, ⟨a1, a2⟩, ⟨b1, b2⟩, hne, hh⟩ := hO
    obtain ⟨t, ht, t', ht', hn, he⟩ := Hashed.collision (withHash E S O) (withHash_lawful E hE S O) a b a1 b1 hne hh
    rw [Hashed.transcripts_withHash] at ht ht'
    refine ⟨⟨t, a2 t ht⟩, Hashed.mem_points E S _ a ha t ht _, ⟨t', b2 t' ht'⟩, Hashed.mem_points E S _ b hb t' ht' _,
      fun e => hn (congrArg Subtype.val e), digest_bytes_injective ?_⟩
    rw [← withHash_challenge E S O t, ← withHash_challenge E S O t', he]
  · rw [card_digest, div_div, pow_succ (2 : ℚ) 256, mul_comm ((2 : ℚ) ^ 256) 2]

open Classical in
/-- C108: a program that asks for `Q` hashes and outputs `k` objects finds one with one of `T` hashes chosen in advance with
probability at most `(Q + k) T / 2 ^ 256`. -/
theorem C108_preimage (E : Env F P) (S : Finset Transcript) (c : OracleProgram S Digest (List (Hashed P)))
    (targets : Finset Bytes) (Q k : ℕ) (hQ : ∀ O, (c.asked O).length ≤ Q) (hk : ∀ O, (c.run O).length ≤ k) :
    (#{O : S → Digest | Hashed.Hits E S O targets (c.run O)} : ℚ) / Fintype.card (S → Digest)
      ≤ ((Q + k : ℕ) : ℚ) * #targets / 2 ^ 256 := by
  rw [← avg_ind']
  refine (preimage_bound_image Digest.bytes digest_bytes_injective targets c (Hashed.tops E S) Q k hQ (fun O => ?_) _
    fun O hO => ?_).trans (le_of_eq ?_)
  · exact (Hashed.length_tops E S _).trans (hk O)
  · obtain ⟨a, ha, ⟨a1, a2⟩, hh⟩ := hO
    refine ⟨⟨a.top E, a2 _ (a.top_mem E)⟩, Hashed.mem_tops E S _ a ha _, ?_⟩
    rw [← withHash_challenge E S O]
    have := Hashed.hash_top _ a a1
    rw [Hashed.top, Hashed.transcripts_withHash] at this
    rw [Hashed.top, ← this]
    exact hh
  · rw [card_digest]

section example_
variable (E : Env F P) (M M' : List P)

/-- The transcripts of two input sets. -/
def twoSets : Finset Transcript := {inputSetTranscript E M M.length, inputSetTranscript E M' M'.length}

/-- A program that makes two input sets. -/
def twoSetsProgram : OracleProgram (twoSets E M M') Digest (List (Hashed P)) :=
  .ask ⟨inputSetTranscript E M M.length, mem_insert_self _ _⟩ fun b =>
    .ask ⟨inputSetTranscript E M' M'.length, mem_insert_of_mem (mem_singleton_self _)⟩ fun b' =>
      .done [.inputSet ⟨M, b.bytes⟩ M, .inputSet ⟨M', b'.bytes⟩ M']

theorem twoSets_made (h : M.length < 2 ^ 32) (h' : M'.length < 2 ^ 32) (O : twoSets E M M' → Digest) :
    ∀ a ∈ (twoSetsProgram E M M').run O, a.Made E (twoSets E M M') O := by
  have key : ∀ (M0 : List P) (hl : M0.length < 2 ^ 32) (hm : inputSetTranscript E M0 M0.length ∈ twoSets E M M'),
      (Hashed.inputSet ⟨M0, (O ⟨_, hm⟩).bytes⟩ M0).Made E (twoSets E M M') O := by
    intro M0 hl hm
    obtain ⟨i, hi, hiM⟩ := (C04_new (withHash E (twoSets E M M') O) M0).1 hl
    have h2 := (C05_hash _ i M0 (.inl hi)).2.2
    rw [hiM] at h2
    have h3 : i.hash = (O ⟨_, hm⟩).bytes := h2.trans (withHash_challenge E (twoSets E M M') O _ hm)
    refine ⟨.inl ?_, ?_⟩
    · rw [hi, ← h3, ← hiM]
    · intro t ht
      rw [Hashed.transcripts, List.mem_singleton] at ht
      rwa [ht]
  intro a ha
  rw [twoSetsProgram, OracleProgram.run, OracleProgram.run, OracleProgram.run, List.mem_cons, List.mem_singleton] at ha
  rcases ha with rfl | rfl
  · exact key M h _
  · exact key M' h' _

/-- It finds a collision if the oracle gives all transcripts the same hash. -/
theorem twoSets_clash (h : M.length < 2 ^ 32) (h' : M'.length < 2 ^ 32) (hne : M ≠ M') (b : Digest) :
    Hashed.Clash E (twoSets E M M') (fun _ => b) ((twoSetsProgram E M M').run fun _ => b) := by
  have hm := twoSets_made E M M' h h' fun _ => b
  refine ⟨.inputSet ⟨M, b.bytes⟩ M, by simp [twoSetsProgram, OracleProgram.run], .inputSet ⟨M', b.bytes⟩ M',
    by simp [twoSetsProgram, OracleProgram.run], hm _ (by simp [twoSetsProgram, OracleProgram.run]),
    hm _ (by simp [twoSetsProgram, OracleProgram.run]), ?_, rfl⟩
  intro e
  injection e with e1 e2
  exact hne e2

end example_

/-- The program above meets the hypotheses, its objects are made by the library with every oracle, and it succeeds with some. -/
example : (Toy.env 101).Lawful ∧ (∀ O, ((twoSetsProgram (Toy.env 101) Toy.keys [(1 : ZMod 101)]).asked O).length ≤ 2) ∧
    (∀ O, ((twoSetsProgram (Toy.env 101) Toy.keys [(1 : ZMod 101)]).run O).length ≤ 2) ∧
    (∀ O, ∀ a ∈ (twoSetsProgram (Toy.env 101) Toy.keys [(1 : ZMod 101)]).run O, a.Made (Toy.env 101) _ O) ∧
    (∃ O, Hashed.Clash (Toy.env 101) _ O ((twoSetsProgram (Toy.env 101) Toy.keys [(1 : ZMod 101)]).run O)) ∧
    ∃ O T, Hashed.Hits (Toy.env 101) _ O T ((twoSetsProgram (Toy.env 101) Toy.keys [(1 : ZMod 101)]).run O) := by
  refine ⟨Toy.env_lawful 101 (by norm_num), fun O => le_rfl, fun O => le_rfl, fun O => ?_, ⟨fun _ => fun _ => 0, ?_⟩,
    fun _ => fun _ => 0, {Digest.bytes fun _ => 0}, ?_⟩
  · exact twoSets_made _ _ _ (by decide +kernel) (by decide +kernel) O
  · exact twoSets_clash _ _ _ (by decide +kernel) (by decide +kernel) (by decide +kernel) _
  · exact ⟨_, List.mem_cons_self, twoSets_made _ _ _ (by decide +kernel) (by decide +kernel) _ _ List.mem_cons_self,
      mem_singleton_self _⟩

end Triptych
