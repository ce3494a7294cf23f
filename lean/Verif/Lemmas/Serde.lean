import Verif.Spec.Serde
import Mathlib.Data.List.Nodup
import Mathlib.Tactic.Ring

/-! # Lemmas about the serde model -/
set_option autoImplicit false
set_option linter.unusedSectionVars false
set_option linter.unusedVariables false
set_option linter.unusedSimpArgs false

namespace Triptych
namespace Serde
variable {F P : Type}

/-- Decoding succeeds exactly on encodings. -/
def Exact {α : Type} (enc : α → Value) (dec : Value → Option α) : Prop := ∀ v x, dec v = some x ↔ v = enc x

theorem byte_exact : Exact ofByte toByte := by
  intro v b
  cases v with
  | num n =>
    simp only [toByte, ofByte, Value.num.injEq]
    split
    · rename_i h
      rw [Option.some.injEq]
      constructor
      · rintro rfl
        rw [UInt8.toNat_ofNat']
        omega
      · rintro rfl
        simp
    · rename_i h
      simp only [reduceCtorEq, false_iff]
      rintro rfl
      have := b.toNat_lt
      omega
  | seq l => simp [toByte, ofByte]
  | map l => simp [toByte, ofByte]
  | other => simp [toByte, ofByte]

theorem elements_exact {α : Type} {enc : α → Value} {dec : Value → Option α} (h : Exact enc dec) (l : List Value)
    (xs : List α) : elements dec l = some xs ↔ l = xs.map enc := by
  induction l generalizing xs with
  | nil => cases xs <;> simp [elements]
  | cons v l ih =>
    simp only [elements, Option.bind_eq_bind, Option.bind_eq_some_iff, Option.some.injEq]
    constructor
    · rintro ⟨x, hx, ys, hy, rfl⟩
      rw [List.map_cons, (h v x).1 hx, (ih ys).1 hy]
    · intro he
      cases xs with
      | nil => simp at he
      | cons x xs =>
        rw [List.map_cons, List.cons.injEq] at he
        exact ⟨x, (h v x).2 he.1, xs, (ih xs).2 he.2, rfl⟩

theorem toBytes32_iff (v : Value) (b : Bytes) :
    toBytes32 v = some b ↔ v = .seq (b.map ofByte) ∧ b.length = 32 := by
  cases v with
  | seq l =>
    simp only [toBytes32, Value.seq.injEq]
    split
    · rename_i h
      rw [elements_exact byte_exact]
      constructor
      · rintro rfl
        exact ⟨rfl, by simpa using h⟩
      · exact fun h => h.1
    · rename_i h
      simp only [reduceCtorEq, false_iff]
      rintro ⟨rfl, h2⟩
      exact h (by simpa using h2)
  | num n => simp [toBytes32]
  | map l => simp [toBytes32]
  | other => simp [toBytes32]

theorem map_ofByte_inj {b c : Bytes} (h : b.map ofByte = c.map ofByte) : b = c := by
  have h1 := (elements_exact byte_exact (b.map ofByte) b).2 rfl
  have h2 := (elements_exact byte_exact (b.map ofByte) c).2 h
  rw [h1] at h2
  exact Option.some.inj h2

theorem scalar_exact (E : Env F P) (hE : E.Lawful) : Exact (ofScalar E) (toScalar E) := by
  intro v x
  simp only [toScalar, Option.bind_eq_bind, Option.bind_eq_some_iff, toBytes32_iff, ofScalar]
  constructor
  · rintro ⟨b, ⟨rfl, -⟩, h⟩
    rw [hE.scalar_encode_decode b x h]
  · rintro rfl
    exact ⟨_, ⟨rfl, hE.scalarBytes_length x⟩, hE.scalar_decode_encode x⟩

theorem point_exact (E : Env F P) (hE : E.Lawful) : Exact (ofPoint E) (toPoint E) := by
  intro v x
  simp only [toPoint, Option.bind_eq_bind, Option.bind_eq_some_iff, toBytes32_iff, ofPoint]
  constructor
  · rintro ⟨b, ⟨rfl, -⟩, h⟩
    rw [hE.point_encode_decode b x h]
  · rintro rfl
    exact ⟨_, ⟨rfl, hE.compress_length x⟩, hE.point_decode_encode x⟩

theorem vec_exact {α : Type} {enc : α → Value} {dec : Value → Option α} (h : Exact enc dec) :
    Exact (ofVec enc) (toVec dec) := by
  intro v xs
  cases v with
  | seq l => rw [toVec, elements_exact h, ofVec, Value.seq.injEq]
  | num n => simp [toVec, ofVec]
  | map l => simp [toVec, ofVec]
  | other => simp [toVec, ofVec]

/-! ## Maps -/

/-- The values of the entries identified with position `i`, in order. -/
def vals (names : List String) (i : ℕ) (es : List (Key × Value)) : List Value :=
  (es.filter fun e => identify names e.1 = some (some i)).map Prod.snd

/-- What the loop of `visit_map` does to one slot. -/
def collect {α : Type} (dec : Value → Option α) : Option α → List Value → Option (Option α)
  | s, [] => some s
  | s, v :: vs => do
    let s ← setOnce dec s v
    collect dec s vs

theorem collect_none {α : Type} (dec : Value → Option α) (vs : List Value) (x : α) :
    collect dec none vs = some (some x) ↔ ∃ v, vs = [v] ∧ dec v = some x := by
  cases vs with
  | nil => simp [collect]
  | cons v vs =>
    cases hd : dec v with
    | none => simp [collect, setOnce, hd]
    | some y =>
      cases vs with
      | nil => simp [collect, setOnce, hd]
      | cons w ws => simp [collect, setOnce, hd]

theorem collect_exact {α : Type} {enc : α → Value} {dec : Value → Option α} (h : Exact enc dec) (vs : List Value) (x : α) :
    collect dec none vs = some (some x) ↔ vs = [enc x] := by
  rw [collect_none]
  constructor
  · rintro ⟨v, rfl, hv⟩
    rw [(h v x).1 hv]
  · rintro rfl
    exact ⟨_, rfl, (h _ x).2 rfl⟩

theorem identify_iff (names : List String) (h1 : names.Nodup) (h2 : (names.map asciiBytes).Nodup) (k : Key) (i : ℕ)
    (hi : i < names.length) : identify names k = some (some i) ↔ Spec.Denotes k i names[i] := by
  cases k with
  | name s =>
    simp only [identify, Option.some.injEq, Spec.Denotes, reduceCtorEq, Key.name.injEq, false_or, or_false,
      List.findIdx?_eq_some_iff_getElem, decide_eq_true_eq, decide_eq_false_iff_not, Bool.not_eq_true]
    constructor
    · rintro ⟨_, h, -⟩
      exact h.symm
    · rintro rfl
      refine ⟨hi, rfl, fun j hj he => ?_⟩
      have := (h1.getElem_inj_iff (hi := by omega) (hj := hi)).1 he
      omega
  | index k =>
    simp only [identify, Option.some.injEq, Spec.Denotes, reduceCtorEq, Key.index.injEq, or_false]
    split
    · simp
    · simp only [reduceCtorEq, false_iff]; omega
  | bytes b =>
    simp only [identify, Option.some.injEq, Spec.Denotes, reduceCtorEq, Key.bytes.injEq, false_or,
      List.findIdx?_eq_some_iff_getElem, decide_eq_true_eq, decide_eq_false_iff_not, Bool.not_eq_true]
    constructor
    · rintro ⟨_, h, -⟩
      exact h.symm
    · rintro rfl
      refine ⟨hi, rfl, fun j hj he => ?_⟩
      have hj' : j < names.length := by omega
      have e : (names.map asciiBytes)[j]'(by simpa using hj') = (names.map asciiBytes)[i]'(by simpa using hi) := by
        simpa using he
      have := (h2.getElem_inj_iff).1 e
      omega
  | other => simp [identify, Spec.Denotes]

theorem identify_none (names : List String) (k : Key) : identify names k = none ↔ k = .other := by
  cases k <;> simp [identify]

theorem vals_cons (names : List String) (i : ℕ) (k : Key) (v : Value) (es : List (Key × Value)) :
    vals names i ((k, v) :: es) = if identify names k = some (some i) then v :: vals names i es else vals names i es := by
  rw [vals, List.filter_cons]
  split
  · rename_i h
    rw [if_pos (by simpa using h)]; rfl
  · rename_i h
    rw [if_neg (by simpa using h)]; rfl

theorem vals_eq (names : List String) (h1 : names.Nodup) (h2 : (names.map asciiBytes).Nodup) (i : ℕ)
    (hi : i < names.length) (es : List (Key × Value)) :
    vals names i es = (es.filter fun e => Spec.Denotes e.1 i names[i]).map Prod.snd := by
  rw [vals]
  congr 1
  apply List.filter_congr
  intro e _
  rw [decide_eq_decide]
  exact identify_iff names h1 h2 e.1 i hi

end Serde

namespace Proof
open Serde
variable {F P : Type}

theorem visitEntries_iff (E : Env F P) (es : List (Key × Value)) (s s' : Slots F P) :
    visitEntries E s es = some s' ↔ (∀ e ∈ es, e.1 ≠ Key.other) ∧
      collect (toPoint E) s.A (vals fieldNames 0 es) = some s'.A ∧
      collect (toPoint E) s.B (vals fieldNames 1 es) = some s'.B ∧
      collect (toPoint E) s.C (vals fieldNames 2 es) = some s'.C ∧
      collect (toPoint E) s.D (vals fieldNames 3 es) = some s'.D ∧
      collect (toVec (toPoint E)) s.X (vals fieldNames 4 es) = some s'.X ∧
      collect (toVec (toPoint E)) s.Y (vals fieldNames 5 es) = some s'.Y ∧
      collect (toVec (toVec (toScalar E))) s.f (vals fieldNames 6 es) = some s'.f ∧
      collect (toScalar E) s.zA (vals fieldNames 7 es) = some s'.zA ∧
      collect (toScalar E) s.zC (vals fieldNames 8 es) = some s'.zC ∧
      collect (toScalar E) s.z (vals fieldNames 9 es) = some s'.z := by
  induction es generalizing s with
  | nil =>
    cases s; cases s'
    simp [visitEntries, vals, collect]
  | cons e es ih =>
    obtain ⟨k, v⟩ := e
    simp only [visitEntries, vals_cons, List.forall_mem_cons]
    cases hk : identify fieldNames k with
    | none =>
      have := (identify_none _ _).1 hk
      simp [this]
    | some o =>
      have hko : k ≠ Key.other := fun h => by rw [(identify_none _ _).2 h] at hk; simp at hk
      simp only [Option.bind_eq_bind, Option.bind_some, hko, ne_eq, not_false_eq_true, true_and]
      unfold visitEntry
      split
      · rcases ho : setOnce (toPoint E) s.A v with _ | x <;> simp [ho, ih, collect]
      · rcases ho : setOnce (toPoint E) s.B v with _ | x <;> simp [ho, ih, collect]
      · rcases ho : setOnce (toPoint E) s.C v with _ | x <;> simp [ho, ih, collect]
      · rcases ho : setOnce (toPoint E) s.D v with _ | x <;> simp [ho, ih, collect]
      · rcases ho : setOnce (toVec (toPoint E)) s.X v with _ | x <;> simp [ho, ih, collect]
      · rcases ho : setOnce (toVec (toPoint E)) s.Y v with _ | x <;> simp [ho, ih, collect]
      · rcases ho : setOnce (toVec (toVec (toScalar E))) s.f v with _ | x <;> simp [ho, ih, collect]
      · rcases ho : setOnce (toScalar E) s.zA v with _ | x <;> simp [ho, ih, collect]
      · rcases ho : setOnce (toScalar E) s.zC v with _ | x <;> simp [ho, ih, collect]
      · rcases ho : setOnce (toScalar E) s.z v with _ | x <;> simp [ho, ih, collect]
      · rename_i h0 h1 h2 h3 h4 h5 h6 h7 h8 h9
        have hne : ∀ i : ℕ, ¬ o = some i → ¬ some o = some (some i) := fun i h h' => h (Option.some.inj h')
        rw [Option.bind_some, ih, if_neg (hne _ h0), if_neg (hne _ h1), if_neg (hne _ h2), if_neg (hne _ h3),
          if_neg (hne _ h4), if_neg (hne _ h5), if_neg (hne _ h6), if_neg (hne _ h7), if_neg (hne _ h8), if_neg (hne _ h9)]

end Proof
end Triptych
