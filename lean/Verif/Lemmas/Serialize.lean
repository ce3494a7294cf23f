import Verif.Spec.Serialize
import Verif.Lemmas.Binding

/-! # Parsing -/
set_option autoImplicit false
set_option linter.unusedVariables false

namespace Triptych
open Spec

variable {F P : Type}

theorem parseU32_iff (b : Bytes) (x : ℕ) (rest : Bytes) :
    parseU32 b = some (x, rest) ↔ x ≤ u32Max ∧ b = leBytes 4 x ++ rest := by
  rw [parseU32]
  constructor
  · intro h
    split at h
    · simp at h
    · rename_i hl
      rw [not_not] at hl
      simp only [Option.some.injEq, Prod.mk.injEq] at h
      obtain ⟨rfl, rfl⟩ := h
      have h1 := leNat_lt (b.take 4)
      have h2 := leBytes_leNat (b.take 4)
      rw [hl] at h1 h2
      refine ⟨by rw [u32Max]; norm_num at h1 ⊢; omega, ?_⟩
      rw [h2, List.take_append_drop]
  · rintro ⟨hx, rfl⟩
    have hl := leBytes_length 4 x
    have ht : (leBytes 4 x ++ rest).take 4 = leBytes 4 x := by
      rw [List.take_append_of_le_length (by omega), List.take_of_length_le (by omega)]
    have hd : (leBytes 4 x ++ rest).drop 4 = rest := by
      rw [List.drop_append_of_le_length (by omega), List.drop_of_length_le (by omega)]; rfl
    rw [ht, hd, if_neg (by omega), leNat_leBytes 4 x (by rw [u32Max] at hx; norm_num; omega)]

theorem parsePoint_iff (E : Env F P) (hE : E.Lawful) (cs cs' : List Bytes) (p : P) :
    parsePoint E cs = some (p, cs') ↔ cs = E.compress p :: cs' := by
  rw [parsePoint.eq_def]
  cases cs with
  | nil => simp
  | cons c cs =>
    dsimp only
    constructor
    · intro h
      split at h
      · simp at h
      · cases hd : E.decompress c with
        | none => rw [hd] at h; simp at h
        | some q =>
          rw [hd] at h
          simp only [Option.bind_eq_bind, Option.bind_some, Option.some.injEq, Prod.mk.injEq] at h
          obtain ⟨rfl, rfl⟩ := h
          rw [hE.point_encode_decode c q hd]
    · intro h
      simp only [List.cons.injEq] at h
      obtain ⟨rfl, rfl⟩ := h
      rw [if_neg (show ¬ List.length (E.compress p) ≠ SERIALIZED_BYTES from not_not.2 (hE.compress_length p)), hE.point_decode_encode]
      rfl

theorem parseScalar_iff (E : Env F P) (hE : E.Lawful) (cs cs' : List Bytes) (s : F) :
    parseScalar E cs = some (s, cs') ↔ cs = E.scalarBytes s :: cs' := by
  rw [parseScalar.eq_def]
  cases cs with
  | nil => simp
  | cons c cs =>
    dsimp only
    constructor
    · intro h
      split at h
      · simp at h
      · cases hd : E.scalarOfCanonical c with
        | none => rw [hd] at h; simp at h
        | some q =>
          rw [hd] at h
          simp only [Option.bind_eq_bind, Option.bind_some, Option.some.injEq, Prod.mk.injEq] at h
          obtain ⟨rfl, rfl⟩ := h
          rw [hE.scalar_encode_decode c q hd]
    · intro h
      simp only [List.cons.injEq] at h
      obtain ⟨rfl, rfl⟩ := h
      rw [if_neg (show ¬ List.length (E.scalarBytes s) ≠ SERIALIZED_BYTES from not_not.2 (hE.scalarBytes_length s)), hE.scalar_decode_encode]
      rfl

/-- Repeated parsing, for a parser that accepts exactly the encodings of the values satisfying `ok`. -/
theorem parseMany_iff {α : Type} (parse : List Bytes → Option (α × List Bytes)) (enc : α → List Bytes) (ok : α → Prop)
    (h : ∀ cs cs' x, parse cs = some (x, cs') ↔ ok x ∧ cs = enc x ++ cs') (k : ℕ) (cs cs' : List Bytes) (xs : List α) :
    parseMany parse k cs = some (xs, cs') ↔ xs.length = k ∧ (∀ x ∈ xs, ok x) ∧ cs = xs.flatMap enc ++ cs' := by
  induction k generalizing cs xs with
  | zero =>
    rw [parseMany]
    simp only [Option.some.injEq, Prod.mk.injEq, List.length_eq_zero_iff]
    constructor
    · rintro ⟨rfl, rfl⟩; simp
    · rintro ⟨rfl, -, h⟩; exact ⟨rfl, by simpa using h⟩
  | succ k ih =>
    rw [parseMany]
    constructor
    · intro hh
      cases h1 : parse cs with
      | none => rw [h1] at hh; simp at hh
      | some r =>
        obtain ⟨x, c1⟩ := r
        rw [h1] at hh
        simp only [Option.bind_eq_bind, Option.bind_some] at hh
        cases h2 : parseMany parse k c1 with
        | none => rw [h2] at hh; simp at hh
        | some r =>
          obtain ⟨ys, c2⟩ := r
          rw [h2] at hh
          simp only [Option.bind_some, Option.some.injEq, Prod.mk.injEq] at hh
          obtain ⟨rfl, rfl⟩ := hh
          obtain ⟨a1, a2⟩ := (h cs c1 x).1 h1
          obtain ⟨b1, b2, b3⟩ := (ih c1 ys).1 h2
          refine ⟨by simp [b1], ?_, ?_⟩
          · intro y hy
            rcases List.mem_cons.1 hy with rfl | hy
            · exact a1
            · exact b2 y hy
          · rw [a2, b3, List.flatMap_cons, List.append_assoc]
    · rintro ⟨hl, hok, rfl⟩
      cases xs with
      | nil => simp at hl
      | cons x xs =>
        have h1 : parse ((x :: xs).flatMap enc ++ cs') = some (x, xs.flatMap enc ++ cs') :=
          (h _ _ _).2 ⟨hok x (by simp), by rw [List.flatMap_cons, List.append_assoc]⟩
        have h2 : parseMany parse k (xs.flatMap enc ++ cs') = some (xs, cs') :=
          (ih _ _).2 ⟨by simpa using hl, fun y hy => hok y (by simp [hy]), rfl⟩
        rw [h1]
        simp only [Option.bind_eq_bind, Option.bind_some, h2]

theorem parsePoints_iff (E : Env F P) (hE : E.Lawful) (k : ℕ) (cs cs' : List Bytes) (xs : List P) :
    parseMany (parsePoint E) k cs = some (xs, cs') ↔ xs.length = k ∧ cs = xs.map E.compress ++ cs' := by
  rw [parseMany_iff (parsePoint E) (fun x => [E.compress x]) (fun _ => True)
    (fun cs cs' x => by rw [parsePoint_iff E hE]; simp)]
  simp [← List.map_eq_flatMap]

theorem parseScalars_iff (E : Env F P) (hE : E.Lawful) (k : ℕ) (cs cs' : List Bytes) (xs : List F) :
    parseMany (parseScalar E) k cs = some (xs, cs') ↔ xs.length = k ∧ cs = xs.map E.scalarBytes ++ cs' := by
  rw [parseMany_iff (parseScalar E) (fun x => [E.scalarBytes x]) (fun _ => True)
    (fun cs cs' x => by rw [parseScalar_iff E hE]; simp)]
  simp [← List.map_eq_flatMap]

theorem flatMap_map_flatten {α β : Type} (g : α → β) (f : List (List α)) :
    f.flatMap (fun row => row.map g) = f.flatten.map g := by
  induction f with
  | nil => rfl
  | cons a f ih => simp [ih]

theorem parseMatrix_iff (E : Env F P) (hE : E.Lawful) (n1 m : ℕ) (cs cs' : List Bytes) (f : List (List F)) :
    parseMany (parseMany (parseScalar E) n1) m cs = some (f, cs') ↔
      f.length = m ∧ (∀ row ∈ f, row.length = n1) ∧ cs = f.flatten.map E.scalarBytes ++ cs' := by
  rw [parseMany_iff (parseMany (parseScalar E) n1) (fun row => row.map E.scalarBytes) (fun row => row.length = n1)
    (fun cs cs' x => parseScalars_iff E hE n1 cs cs' x), flatMap_map_flatten]

/-! ## Chunks -/

theorem flatten_length32 (cs : List Bytes) (h : ∀ c ∈ cs, c.length = 32) : cs.flatten.length = cs.length * 32 := by
  induction cs with
  | nil => rfl
  | cons c cs ih =>
    rw [List.flatten_cons, List.length_append, ih fun c hc => h c (by simp [hc]), h c (by simp), List.length_cons]
    ring

theorem chunk_flatten (cs : List Bytes) (h : ∀ c ∈ cs, c.length = 32) (i : ℕ) (hi : i < cs.length) :
    (cs.flatten.drop (i * 32)).take 32 = cs[i] := by
  induction cs generalizing i with
  | nil => simp at hi
  | cons c cs ih =>
    have hc := h c (by simp)
    cases i with
    | zero => simp [hc]
    | succ i =>
      rw [List.flatten_cons, List.getElem_cons_succ, ← ih (fun c hc => h c (by simp [hc])) i (by simpa using hi)]
      congr 1
      rw [show (i + 1) * 32 = c.length + i * 32 by rw [hc]; ring, List.drop_append]
      simp

theorem chunks32_flatten (cs : List Bytes) (h : ∀ c ∈ cs, c.length = 32) :
    chunks32 cs.flatten = cs ∧ remainder32 cs.flatten = [] := by
  have hl := flatten_length32 cs h
  constructor
  · apply List.ext_getElem
    · simp [chunks32, hl]
    · intro i h1 h2
      simp only [chunks32, List.getElem_map, List.getElem_range]
      exact chunk_flatten cs h i h2
  · rw [remainder32, List.drop_eq_nil_iff, hl]
    simp

theorem chunks32_spec (b : Bytes) : (chunks32 b).flatten ++ remainder32 b = b ∧ ∀ c ∈ chunks32 b, c.length = 32 := by
  constructor
  · have key : ∀ k ≤ b.length / 32, ((List.range k).map fun i => (b.drop (i * 32)).take 32).flatten = b.take (k * 32) := by
      intro k hk
      induction k with
      | zero => simp
      | succ k ih =>
        rw [List.range_succ, List.map_append, List.flatten_append, ih (by omega), add_mul, one_mul, List.take_add]
        simp
    rw [chunks32, key _ le_rfl, remainder32, List.take_append_drop]
  · intro c hc
    rw [chunks32, List.mem_map] at hc
    obtain ⟨i, hi, rfl⟩ := hc
    rw [List.mem_range] at hi
    have : i * 32 + 32 ≤ b.length := by omega
    simp
    omega

theorem compress_flatMap (E : Env F P) (l : List P) : l.flatMap E.compress = (l.map E.compress).flatten := by
  rw [List.flatMap_def]

/-! ## Borsh -/

theorem borshReadBytes_iff (input b rest : Bytes) :
    borshReadBytes input = some (b, rest) ↔ b.length ≤ u32Max ∧ input = leBytes 4 b.length ++ b ++ rest := by
  rw [borshReadBytes]
  constructor
  · intro h
    cases h1 : parseU32 input with
    | none => rw [h1] at h; simp at h
    | some r =>
      obtain ⟨len, r⟩ := r
      rw [h1] at h
      simp only [Option.bind_eq_bind, Option.bind_some] at h
      split at h
      · rename_i hl
        simp only [Option.some.injEq, Prod.mk.injEq] at h
        obtain ⟨rfl, rfl⟩ := h
        obtain ⟨a, rfl⟩ := (parseU32_iff _ _ _).1 h1
        have : (r.take len).length = len := by simp; omega
        rw [this, List.append_assoc, List.take_append_drop]
        exact ⟨a, rfl⟩
      · simp at h
  · rintro ⟨hb, rfl⟩
    rw [List.append_assoc, (parseU32_iff _ _ _).2 ⟨hb, rfl⟩]
    simp

end Triptych
