import Verif.Props.Parallel.Batch
import Verif.Lemmas.Serialize

/-! # Properties of serialization: C52 -/
set_option autoImplicit false
set_option linter.unusedSectionVars false
set_option linter.unusedVariables false

namespace Triptych.Parallel
open Triptych.Parallel.Spec
open Triptych.Spec (grayDigit digit commit fullF ringCoeff NonzeroF maskA selector ringPoly versionBytes points scalars
  weightTranscript weightScalar queryPoint drawn)

variable {F P : Type}

theorem blocks_length32 (E : Env F P) (hE : E.Lawful) (p : Proof F P) : ∀ c ∈ blocks E p, c.length = 32 := by
  intro c hc
  simp only [blocks, List.mem_append, List.mem_map] at hc
  rcases hc with ((((⟨x, -, rfl⟩ | ⟨x, -, rfl⟩) | ⟨x, -, rfl⟩) | ⟨x, -, rfl⟩) | ⟨x, -, rfl⟩) | ⟨x, -, rfl⟩
  · exact hE.compress_length x
  · exact hE.scalarBytes_length x
  · exact hE.compress_length x
  · exact hE.compress_length x
  · exact hE.compress_length x
  · exact hE.scalarBytes_length x

theorem toBytes_eq {ε : Type} (E : Env F P) (p : Proof F P) (row : List F) (rows : List (List F)) (h : p.f = row :: rows) :
    (Proof.toBytes E p : Outcome ε Bytes) = .ok (leBytes 4 (row.length % 2 ^ 32) ++ leBytes 4 (p.f.length % 2 ^ 32)
      ++ (blocks E p).flatten) := by
  have hi : (idx p.f 0 : Outcome ε (List F)) = .ok row := by rw [h]; rfl
  rw [Proof.toBytes, hi]
  simp only [Outcome.bind_ok, blocks, List.flatten_append, List.map_cons, List.map_nil, List.flatten_cons,
    List.flatten_nil, List.append_nil, List.append_assoc, List.flatMap_def]
  congr 14
  clear hi h
  induction p.f with
  | nil => rfl
  | cons a f ih => simp only [List.map_cons, List.flatten_cons, List.map_append, List.flatten_append, ih]

theorem Spec.Encodable.toBytes {ε : Type} {E : Env F P} {p : Proof F P} {cols : ℕ} (h : Encodable p cols) :
    (Proof.toBytes E p : Outcome ε Bytes) = .ok (encoding E p cols) := by
  have hr := h.rows
  have hw := h.width
  cases hf : p.f with
  | nil => rw [hf] at hr; simp at hr
  | cons row rows =>
    rw [toBytes_eq E p row rows hf, encoding, h.row row (by rw [hf]; simp), Nat.mod_eq_of_lt (by rw [u32Max] at hw; omega),
      Nat.mod_eq_of_lt (by rw [u32Max] at hr; omega)]

/-- C52: `from_bytes` never panics, and returns a proof exactly if the input is the encoding of that proof, which must have
acceptable dimensions; anything else is `FailedDeserialization`. -/
theorem C52_exact (E : Env F P) (hE : E.Lawful) (b : Bytes) :
    (∀ p, Proof.fromBytes E b = .ok p ↔ ∃ cols, Encodable p cols ∧ b = encoding E p cols) ∧
    ((∀ p, Proof.fromBytes E b ≠ .ok p) → Proof.fromBytes E b = .err .FailedDeserialization) := by
  have hopt : ∀ p, Proof.fromBytes E b = .ok p ↔ Proof.fromBytesOption E b = some p := by
    intro p
    rw [Proof.fromBytes]
    cases Proof.fromBytesOption E b <;> simp [Outcome.ofOption]
  constructor
  · intro p
    rw [hopt]
    constructor
    · intro h
      rw [Proof.fromBytesOption] at h
      obtain ⟨⟨n1, r1⟩, hu1, h⟩ := Option.bind_eq_some_iff.1 h
      obtain ⟨n, hn, h⟩ := Option.bind_eq_some_iff.1 h
      obtain ⟨hn1, hb1⟩ := (parseU32_iff _ _ _).1 hu1
      have hn' : n = n1 + 1 ∧ n1 + 1 ≤ u32Max := by
        rw [checkedAdd] at hn
        split at hn
        · simp only [Option.some.injEq] at hn; exact ⟨hn.symm, by assumption⟩
        · simp at hn
      dsimp only at h
      split at h
      · simp at h
      rename_i hn2
      obtain ⟨⟨m, r2⟩, hu2, h⟩ := Option.bind_eq_some_iff.1 h
      obtain ⟨hm1, hb2⟩ := (parseU32_iff _ _ _).1 hu2
      dsimp only at h
      split at h
      · simp at h
      rename_i hm2
      obtain ⟨⟨A, c1⟩, h1, h⟩ := Option.bind_eq_some_iff.1 h
      obtain ⟨⟨B, c2⟩, h2, h⟩ := Option.bind_eq_some_iff.1 h
      obtain ⟨⟨C, c3⟩, h3, h⟩ := Option.bind_eq_some_iff.1 h
      obtain ⟨⟨D, c4⟩, h4, h⟩ := Option.bind_eq_some_iff.1 h
      obtain ⟨⟨zA, c5⟩, h5, h⟩ := Option.bind_eq_some_iff.1 h
      obtain ⟨⟨zC, c6⟩, h6, h⟩ := Option.bind_eq_some_iff.1 h
      obtain ⟨⟨z, c7⟩, h7, h⟩ := Option.bind_eq_some_iff.1 h
      obtain ⟨⟨z1, d7⟩, g7, h⟩ := Option.bind_eq_some_iff.1 h
      obtain ⟨⟨X, c8⟩, h8, h⟩ := Option.bind_eq_some_iff.1 h
      obtain ⟨⟨X1, d8⟩, g8, h⟩ := Option.bind_eq_some_iff.1 h
      obtain ⟨⟨Y, c9⟩, h9, h⟩ := Option.bind_eq_some_iff.1 h
      obtain ⟨⟨f, c10⟩, h10, h⟩ := Option.bind_eq_some_iff.1 h
      dsimp only at h h2 h3 h4 h5 h6 h7 g7 h8 g8 h9 h10
      rw [parsePoint_iff E hE] at h1 h2 h3 h4
      rw [parseScalar_iff E hE] at h5 h6 h7 g7
      rw [parsePoints_iff E hE] at h8 g8 h9
      rw [parseMatrix_iff E hE] at h10
      split at h
      · simp at h
      rename_i hrem
      rw [not_not] at hrem
      split at h
      · simp at h
      rename_i hleft
      rw [not_not] at hleft
      split at h
      · simp at h
      split at h
      · simp at h
      split at h
      · simp at h
      simp only [Option.some.injEq] at h
      obtain ⟨hX, e8⟩ := h8
      obtain ⟨hX1, f8⟩ := g8
      obtain ⟨hY, e9⟩ := h9
      obtain ⟨hf, hrow, e10⟩ := h10
      rw [← h]
      refine ⟨n1, ⟨⟨by dsimp only; omega, by dsimp only; omega⟩, ⟨by omega, by omega⟩, hrow, ?_, ?_, ?_⟩, ?_⟩
      · exact hX.trans hf.symm
      · exact hX1.trans hf.symm
      · exact hY.trans hf.symm
      · have hc := (chunks32_spec r2).1
        rw [hrem, List.append_nil, h1, h2, h3, h4, h5, h6, h7, g7, e8, f8, e9, e10, hleft] at hc
        rw [hb1, hb2, encoding, hf, ← hc]
        simp only [blocks, List.append_assoc, List.map_cons, List.map_nil, List.cons_append, List.nil_append,
          List.append_nil]
    · rintro ⟨cols, he, rfl⟩
      have hr := he.rows
      have hw := he.width
      obtain ⟨k1, k2⟩ := chunks32_flatten (blocks E p) (blocks_length32 E hE p)
      have e1 : parseU32 (encoding E p cols) = some (cols, leBytes 4 p.f.length ++ (blocks E p).flatten) :=
        (parseU32_iff _ _ _).2 ⟨by omega, by rw [encoding, List.append_assoc]⟩
      have e2 : parseU32 (leBytes 4 p.f.length ++ (blocks E p).flatten) = some (p.f.length, (blocks E p).flatten) :=
        (parseU32_iff _ _ _).2 ⟨by omega, rfl⟩
      have e3 : checkedAdd cols 1 = some (cols + 1) := by rw [checkedAdd, if_pos (by omega)]
      rw [Proof.fromBytesOption]
      refine Option.bind_eq_some_iff.2 ⟨_, e1, Option.bind_eq_some_iff.2 ⟨_, e3, ?_⟩⟩
      rw [if_neg (show ¬ cols + 1 < 2 by omega)]
      refine Option.bind_eq_some_iff.2 ⟨_, e2, ?_⟩
      dsimp only
      rw [if_neg (show ¬ p.f.length < 2 by omega), k1, k2]
      refine Option.bind_eq_some_iff.2 ⟨(p.A, _), (parsePoint_iff E hE _ _ _).2 rfl, ?_⟩
      refine Option.bind_eq_some_iff.2 ⟨(p.B, _), (parsePoint_iff E hE _ _ _).2 rfl, ?_⟩
      refine Option.bind_eq_some_iff.2 ⟨(p.C, _), (parsePoint_iff E hE _ _ _).2 rfl, ?_⟩
      refine Option.bind_eq_some_iff.2 ⟨(p.D, _), (parsePoint_iff E hE _ _ _).2 rfl, ?_⟩
      refine Option.bind_eq_some_iff.2 ⟨(p.zA, _), (parseScalar_iff E hE _ _ _).2 rfl, ?_⟩
      refine Option.bind_eq_some_iff.2 ⟨(p.zC, _), (parseScalar_iff E hE _ _ _).2 rfl, ?_⟩
      refine Option.bind_eq_some_iff.2 ⟨(p.z, _), (parseScalar_iff E hE _ _ _).2 rfl, ?_⟩
      refine Option.bind_eq_some_iff.2 ⟨(p.z1, _), (parseScalar_iff E hE _ _ _).2 rfl, ?_⟩
      refine Option.bind_eq_some_iff.2 ⟨(p.X, p.X1.map E.compress ++ (p.Y.map E.compress ++ p.f.flatten.map E.scalarBytes)),
        (parsePoints_iff E hE _ _ _ _).2 ⟨he.X, by simp⟩, ?_⟩
      refine Option.bind_eq_some_iff.2 ⟨(p.X1, p.Y.map E.compress ++ p.f.flatten.map E.scalarBytes),
        (parsePoints_iff E hE _ _ _ _).2 ⟨he.X1, rfl⟩, ?_⟩
      refine Option.bind_eq_some_iff.2 ⟨(p.Y, p.f.flatten.map E.scalarBytes),
        (parsePoints_iff E hE _ _ _ _).2 ⟨he.Y, rfl⟩, ?_⟩
      refine Option.bind_eq_some_iff.2 ⟨(p.f, []), (parseMatrix_iff E hE _ _ _ _ _).2 ⟨rfl, he.row, by simp⟩, ?_⟩
      have hany : (p.f.any fun row => decide (row.length ≠ cols)) = false := by
        rw [List.any_eq_false]
        intro row hrow
        simp [he.row row hrow]
      simp only [ne_eq, not_true_eq_false, if_false, he.X, he.X1, he.Y, or_self, hany, Bool.false_eq_true]
  · intro h
    rw [Proof.fromBytes] at h ⊢
    cases ho : Proof.fromBytesOption E b with
    | none => rfl
    | some p => rw [ho] at h; exact absurd rfl (h p)

/-- C52: round trip. -/
theorem C52_round_trip (E : Env F P) (hE : E.Lawful) (p : Proof F P) (cols : ℕ) (h : Encodable p cols) :
    (Proof.toBytes E p >>= Proof.fromBytes E) = .ok p := by
  rw [h.toBytes, Outcome.bind_ok]
  exact ((C52_exact E hE _).1 p).2 ⟨cols, h, rfl⟩

/-- C52: every proof of the dimensions of an accepted parameter set has an encoding. -/
theorem Spec.Shape.encodable [Field F] [AddCommGroup P] [Module F P] [DecidableEq F] [DecidableEq P] {E : Env F P}
    {params : Params P} (hp : ParamsBuilt E params) {p : Proof F P} (h : Shape params p) :
    Encodable p (params.n - 1) := by
  have hok := hp.ok
  have hn := hok.n
  have hm := hok.m
  have hN := hok.N
  have h1 : params.m < 2 ^ params.m := Nat.lt_two_pow_self
  have h2 : 2 ^ params.m ≤ params.n ^ params.m := Nat.pow_le_pow_left hn _
  have h3 : params.n ≤ params.n ^ params.m := Nat.le_self_pow (by omega) _
  have h4 : params.n * 2 ≤ params.n ^ params.m := by
    calc params.n * 2 ≤ params.n * params.n := Nat.mul_le_mul_left _ hn
      _ = params.n ^ 2 := (sq _).symm
      _ ≤ params.n ^ params.m := Nat.pow_le_pow_right (by omega) hm
  exact ⟨⟨by rw [h.f]; omega, by rw [h.f]; omega⟩, ⟨by omega, by omega⟩, h.row, by rw [h.X, h.f], by rw [h.X1, h.f], by rw [h.Y, h.f]⟩

/-- C52: proofs returned by the prover survive the round trip. -/
theorem C52_prover [Field F] [AddCommGroup P] [Module F P] [DecidableEq F] [DecidableEq P] (E : Env F P) (hE : E.Lawful)
    (st : Statement P) (t : Transcript) (p : Proof F P) (hst : StatementBuilt E st) (hp : Honest E st t p) :
    (Proof.toBytes E p >>= Proof.fromBytes E) = .ok p :=
  C52_round_trip E hE p _ ((hp.facts hst).1.encodable hst.params_built)

/-- C52: proofs returned by `from_bytes` survive the round trip. -/
theorem C52_decoded (E : Env F P) (hE : E.Lawful) (b : Bytes) (p : Proof F P) (h : Proof.fromBytes E b = .ok p) :
    (Proof.toBytes E p >>= Proof.fromBytes E) = .ok p := by
  obtain ⟨cols, he, -⟩ := ((C52_exact E hE b).1 p).1 h
  exact C52_round_trip E hE p cols he

/-- C52: deserialization is canonical, so distinct byte strings never decode to the same proof. -/
theorem C52_canonical (E : Env F P) (hE : E.Lawful) (b : Bytes) (p : Proof F P) (h : Proof.fromBytes E b = .ok p) :
    (Proof.toBytes E p : Outcome Unit Bytes) = .ok b ∧ ∀ b', Proof.fromBytes E b' = .ok p → b' = b := by
  obtain ⟨cols, he, rfl⟩ := ((C52_exact E hE b).1 p).1 h
  refine ⟨he.toBytes, fun b' h' => ?_⟩
  obtain ⟨cols', he', rfl⟩ := ((C52_exact E hE b').1 p).1 h'
  have : cols' = cols := by
    have hr := he.rows
    cases hf : p.f with
    | nil => rw [hf] at hr; simp at hr
    | cons row rows =>
      rw [← he.row row (by rw [hf]; simp), ← he'.row row (by rw [hf]; simp)]
  rw [this]

theorem encoding_length (E : Env F P) (hE : E.Lawful) (p : Proof F P) (cols : ℕ) (h : Encodable p cols) :
    (encoding E p cols).length = 8 + 32 * (8 + 3 * p.f.length + p.f.length * cols) := by
  have hf : p.f.flatten.length = p.f.length * cols := by
    have : ∀ f : List (List F), (∀ row ∈ f, row.length = cols) → f.flatten.length = f.length * cols := by
      intro f hf
      induction f with
      | nil => simp
      | cons a f ih =>
        rw [List.flatten_cons, List.length_append, ih fun r hr => hf r (by simp [hr]), hf a (by simp), List.length_cons]
        ring
    exact this p.f h.row
  rw [encoding, List.length_append, List.length_append, leBytes_length, leBytes_length,
    flatten_length32 _ (blocks_length32 E hE p)]
  simp only [blocks, List.length_append, List.length_map, List.length_cons, List.length_nil, hf, h.X, h.X1, h.Y]
  ring

/-- C52: the length of an encoding. -/
theorem C52_length (E : Env F P) (hE : E.Lawful) (p : Proof F P) (cols : ℕ) (h : Encodable p cols) (b : Bytes)
    (hb : (Proof.toBytes E p : Outcome Unit Bytes) = .ok b) :
    b.length = 8 + 32 * (8 + 3 * p.f.length + p.f.length * cols) := by
  rw [h.toBytes] at hb
  simp only [Outcome.ok.injEq] at hb
  rw [← hb, encoding_length E hE p cols h]

/-- C52: no proper extension (so also no proper prefix) of an accepted input is accepted. -/
theorem C52_prefix_free (E : Env F P) (hE : E.Lawful) (b c : Bytes) (p q : Proof F P) (h : Proof.fromBytes E b = .ok p)
    (h' : Proof.fromBytes E (b ++ c) = .ok q) : c = [] ∧ q = p := by
  obtain ⟨cols, he, hb⟩ := ((C52_exact E hE b).1 p).1 h
  obtain ⟨cols', he', hb'⟩ := ((C52_exact E hE (b ++ c)).1 q).1 h'
  have hu : parseU32 (b ++ c) = some (cols, leBytes 4 p.f.length ++ ((blocks E p).flatten ++ c)) :=
    (parseU32_iff _ _ _).2 ⟨by have := he.width; omega, by rw [hb, encoding]; simp⟩
  have hu' : parseU32 (b ++ c) = some (cols', leBytes 4 q.f.length ++ (blocks E q).flatten) :=
    (parseU32_iff _ _ _).2 ⟨by have := he'.width; omega, by rw [hb', encoding]; simp⟩
  rw [hu] at hu'
  simp only [Option.some.injEq, Prod.mk.injEq] at hu'
  obtain ⟨rfl, hrest⟩ := hu'
  have hv : parseU32 (leBytes 4 p.f.length ++ ((blocks E p).flatten ++ c)) = some (p.f.length, (blocks E p).flatten ++ c) :=
    (parseU32_iff _ _ _).2 ⟨he.rows.2, rfl⟩
  have hv' : parseU32 (leBytes 4 p.f.length ++ ((blocks E p).flatten ++ c)) = some (q.f.length, (blocks E q).flatten) :=
    (parseU32_iff _ _ _).2 ⟨he'.rows.2, hrest⟩
  rw [hv] at hv'
  simp only [Option.some.injEq, Prod.mk.injEq] at hv'
  have l1 := encoding_length E hE p cols he
  have l2 := encoding_length E hE q cols he'
  rw [← hb] at l1
  rw [← hb', List.length_append, ← hv'.1] at l2
  have hc : c = [] := List.length_eq_zero_iff.1 (by omega)
  subst hc
  rw [List.append_nil, h] at h'
  simp only [Outcome.ok.injEq] at h'
  exact ⟨rfl, h'.symm⟩

/-- C52: acceptance in terms of bytes alone: two dimensions within bounds, followed by exactly the right number of 32-byte
blocks, all of which decode, as points or as scalars according to their position. -/
theorem C52_blocks (E : Env F P) (hE : E.Lawful) (b : Bytes) :
    (∃ p, Proof.fromBytes E b = .ok p) ↔
      ∃ (cols rows : ℕ) (points4 scalars4 pointsX pointsX1 pointsY scalarsF : List Bytes),
        1 ≤ cols ∧ cols < u32Max ∧ 2 ≤ rows ∧ rows ≤ u32Max ∧
        b = leBytes 4 cols ++ leBytes 4 rows ++ points4.flatten ++ scalars4.flatten ++ pointsX.flatten ++ pointsX1.flatten ++ pointsY.flatten
          ++ scalarsF.flatten ∧
        points4.length = 4 ∧ scalars4.length = 4 ∧ pointsX.length = rows ∧ pointsX1.length = rows ∧ pointsY.length = rows ∧
        scalarsF.length = rows * cols ∧
        (∀ c ∈ points4 ++ pointsX ++ pointsX1 ++ pointsY, (E.decompress c).isSome) ∧
        (∀ c ∈ scalars4 ++ scalarsF, (E.scalarOfCanonical c).isSome) := by
  constructor
  · rintro ⟨p, h⟩
    obtain ⟨cols, he, rfl⟩ := ((C52_exact E hE b).1 p).1 h
    refine ⟨cols, p.f.length, [p.A, p.B, p.C, p.D].map E.compress, [p.zA, p.zC, p.z, p.z1].map E.scalarBytes,
      p.X.map E.compress, p.X1.map E.compress,
      p.Y.map E.compress, p.f.flatten.map E.scalarBytes, he.width.1, he.width.2, he.rows.1, he.rows.2, ?_, by simp, by simp,
      by simp [he.X], by simp [he.X1], by simp [he.Y], ?_, ?_, ?_⟩
    · simp only [encoding, blocks, List.flatten_append, List.append_assoc]
    · have l := encoding_length E hE p cols he
      rw [encoding, List.length_append, List.length_append, leBytes_length, leBytes_length,
        flatten_length32 _ (blocks_length32 E hE p)] at l
      simp only [blocks, List.length_append, List.length_map, List.length_cons, List.length_nil, he.X, he.X1, he.Y] at l
      rw [List.length_map]
      omega
    · intro c hc
      rw [← List.map_append, ← List.map_append, ← List.map_append, List.mem_map] at hc
      obtain ⟨x, -, rfl⟩ := hc
      rw [hE.point_decode_encode]; rfl
    · intro c hc
      rw [← List.map_append, List.mem_map] at hc
      obtain ⟨x, -, rfl⟩ := hc
      rw [hE.scalar_decode_encode]; rfl
  · rintro ⟨cols, rows, p4, s3, pX, pX1, pY, sF, c1, c2, r1, r2, rfl, l1, l2, l3, l3b, l4, l5, hp, hs⟩
    have decP : ∀ l : List Bytes, (∀ c ∈ l, (E.decompress c).isSome) → ∃ xs : List P, l = xs.map E.compress := by
      intro l hl
      induction l with
      | nil => exact ⟨[], rfl⟩
      | cons c l ih =>
        obtain ⟨xs, rfl⟩ := ih fun c hc => hl c (by simp [hc])
        obtain ⟨x, hx⟩ := Option.isSome_iff_exists.1 (hl c (by simp))
        exact ⟨x :: xs, by rw [List.map_cons, hE.point_encode_decode c x hx]⟩
    have decS : ∀ l : List Bytes, (∀ c ∈ l, (E.scalarOfCanonical c).isSome) → ∃ xs : List F, l = xs.map E.scalarBytes := by
      intro l hl
      induction l with
      | nil => exact ⟨[], rfl⟩
      | cons c l ih =>
        obtain ⟨xs, rfl⟩ := ih fun c hc => hl c (by simp [hc])
        obtain ⟨x, hx⟩ := Option.isSome_iff_exists.1 (hl c (by simp))
        exact ⟨x :: xs, by rw [List.map_cons, hE.scalar_encode_decode c x hx]⟩
    obtain ⟨P4, rfl⟩ := decP p4 fun c hc => hp c (by simp [hc])
    obtain ⟨PX, rfl⟩ := decP pX fun c hc => hp c (by simp [hc])
    obtain ⟨PX1, rfl⟩ := decP pX1 fun c hc => hp c (by simp [hc])
    obtain ⟨PY, rfl⟩ := decP pY fun c hc => hp c (by simp [hc])
    obtain ⟨S3, rfl⟩ := decS s3 fun c hc => hs c (by simp [hc])
    obtain ⟨SF, rfl⟩ := decS sF fun c hc => hs c (by simp [hc])
    rw [List.length_map] at l1 l2 l3 l3b l4 l5
    have hmat : ∀ (k : ℕ) (l : List F), l.length = k * cols →
        ∃ f : List (List F), f.length = k ∧ (∀ row ∈ f, row.length = cols) ∧ f.flatten = l := by
      intro k
      induction k with
      | zero => intro l hl; exact ⟨[], rfl, by simp, by simpa using (List.length_eq_zero_iff.1 (by simpa using hl)).symm⟩
      | succ k ih =>
        intro l hl
        rw [add_mul, one_mul] at hl
        obtain ⟨f, f1, f2, f3⟩ := ih (l.drop cols) (by rw [List.length_drop]; omega)
        refine ⟨l.take cols :: f, by simp [f1], ?_, by rw [List.flatten_cons, f3, List.take_append_drop]⟩
        intro row hrow
        rcases List.mem_cons.1 hrow with rfl | hrow
        · rw [List.length_take]; omega
        · exact f2 row hrow
    obtain ⟨f, f1, f2, rfl⟩ := hmat rows SF l5
    obtain ⟨A, B, C, D, rfl⟩ : ∃ A B C D, P4 = [A, B, C, D] := by
      match P4, l1 with
      | [A, B, C, D], _ => exact ⟨A, B, C, D, rfl⟩
    obtain ⟨zA, zC, z, z1, rfl⟩ : ∃ a b c d, S3 = [a, b, c, d] := by
      match S3, l2 with
      | [A, B, C, D], _ => exact ⟨A, B, C, D, rfl⟩
    refine ⟨⟨A, B, C, D, PX, PX1, PY, f, zA, zC, z, z1⟩, ((C52_exact E hE _).1 _).2 ⟨cols, ⟨⟨by dsimp only; omega, by dsimp only; omega⟩,
      ⟨c1, c2⟩, f2, by dsimp only; omega, by dsimp only; omega, by dsimp only; omega⟩, ?_⟩⟩
    simp only [encoding, blocks, List.flatten_append, List.append_assoc, f1]

/-- C52: the borsh encoding is the length followed by the canonical encoding, and is an error if the length does not fit. -/
theorem C52_serialize (E : Env F P) (hE : E.Lawful) (p : Proof F P) (cols : ℕ) (h : Encodable p cols) :
    Proof.borshSerialize E p =
      if (encoding E p cols).length ≤ u32Max
      then .ok (leBytes 4 (encoding E p cols).length ++ encoding E p cols) else .err () := by
  rw [Proof.borshSerialize, h.toBytes, Outcome.bind_ok, borshBytes]
  split <;> rfl

/-- C52: reading a proof back from a stream with arbitrary following data leaves exactly the following data. -/
theorem C52_borsh_round_trip (E : Env F P) (hE : E.Lawful) (p : Proof F P) (cols : ℕ) (h : Encodable p cols) (b rest : Bytes)
    (hb : Proof.borshSerialize E p = .ok b) : Proof.borshDeserialize E (b ++ rest) = .ok (p, rest) := by
  rw [C52_serialize E hE p cols h] at hb
  split at hb
  · rename_i hl
    simp only [Outcome.ok.injEq] at hb
    rw [Proof.borshDeserialize, (borshReadBytes_iff (b ++ rest) (encoding E p cols) rest).2 ⟨hl, by rw [hb]⟩]
    simp only [((C52_exact E hE (encoding E p cols)).1 p).2 ⟨cols, h, rfl⟩]
  · simp at hb

/-- C52: deserialization only succeeds on such encodings, and never panics. -/
theorem C52_borsh_exact (E : Env F P) (hE : E.Lawful) (input : Bytes) :
    (∀ p rest, Proof.borshDeserialize E input = .ok (p, rest) ↔ ∃ b, Proof.borshSerialize E p = .ok b ∧
      (∃ cols, Encodable p cols) ∧ input = b ++ rest) ∧
    Proof.borshDeserialize E input ≠ .panic ∧ Proof.borshDeserialize E input ≠ .diverge := by
  refine ⟨fun p rest => ⟨fun h => ?_, ?_⟩, ?_⟩
  · rw [Proof.borshDeserialize] at h
    split at h
    · simp at h
    · rename_i bytes r hr
      obtain ⟨h1, rfl⟩ := (borshReadBytes_iff _ _ _).1 hr
      cases hf : Proof.fromBytes E bytes with
      | err e => rw [hf] at h; simp at h
      | panic => rw [hf] at h; simp at h
      | diverge => rw [hf] at h; simp at h
      | ok q =>
        rw [hf] at h
        simp only [Outcome.ok.injEq, Prod.mk.injEq] at h
        obtain ⟨rfl, rfl⟩ := h
        obtain ⟨cols, he, rfl⟩ := ((C52_exact E hE bytes).1 q).1 hf
        exact ⟨_, by rw [C52_serialize E hE q cols he, if_pos h1], ⟨cols, he⟩, rfl⟩
  · rintro ⟨b, hb, ⟨cols, he⟩, rfl⟩
    exact C52_borsh_round_trip E hE p cols he b rest hb
  · have hne : ∀ b, Proof.fromBytes E b ≠ .panic ∧ Proof.fromBytes E b ≠ .diverge := by
      intro b
      rw [Proof.fromBytes]
      cases Proof.fromBytesOption E b <;> simp [Outcome.ofOption]
    rw [Proof.borshDeserialize]
    split
    · simp
    · rename_i bytes r hr
      have := hne bytes
      cases hf : Proof.fromBytes E bytes with
      | err e => simp
      | ok q => simp
      | panic => exact absurd hf this.1
      | diverge => exact absurd hf this.2

/-- C52: `to_bytes` panics exactly on proofs whose `f` has no rows (which the serde decoder lets through). -/
theorem C52_panic (E : Env F P) (p : Proof F P) :
    ((Proof.toBytes E p : Outcome Unit Bytes) = .panic ↔ p.f = []) ∧
    (p.f ≠ [] → ∃ b, (Proof.toBytes E p : Outcome Unit Bytes) = .ok b) := by
  cases hf : p.f with
  | nil =>
    refine ⟨⟨fun _ => rfl, fun _ => ?_⟩, fun h => absurd rfl h⟩
    rw [Proof.toBytes, hf]; rfl
  | cons row rows =>
    rw [toBytes_eq E p row rows hf]
    simp

/-- C52: on a proof of any other unusual dimensions the bytes do not decode to the same proof. -/
theorem C52_lossy (E : Env F P) (hE : E.Lawful) (p : Proof F P) (h : ∀ cols, ¬ Encodable p cols) :
    (Proof.toBytes E p >>= Proof.fromBytes E) ≠ .ok p := by
  cases hb : (Proof.toBytes E p : Outcome ProofError Bytes) with
  | ok b =>
    rw [Outcome.bind_ok]
    intro hd
    obtain ⟨cols, he, -⟩ := ((C52_exact E hE b).1 p).1 hd
    exact h cols he
  | err e => simp
  | panic => simp
  | diverge => simp

/-- C52: proofs returned by the prover never make `to_bytes` panic. -/
theorem C52_prover_bytes [Field F] [AddCommGroup P] [Module F P] [DecidableEq F] [DecidableEq P] (E : Env F P)
    (st : Statement P) (t : Transcript) (p : Proof F P) (hst : StatementBuilt E st) (hp : Honest E st t p) :
    ∃ b, (Proof.toBytes E p : Outcome Unit Bytes) = .ok b :=
  ⟨_, ((hp.facts hst).1.encodable hst.params_built).toBytes⟩

/-! ## Examples -/

/-- An encoding of 520 bytes: the hypotheses of `C52_round_trip`, `C52_decoded`, `C52_canonical`, `C52_exact`, `C52_length`,
`C52_blocks`, `C52_serialize` and `C52_borsh_exact` are met. -/
example : Encodable Toy.proof 1 ∧ (Toy.env 101).Lawful ∧
    Proof.fromBytes (Toy.env 101) (encoding (Toy.env 101) Toy.proof 1) = .ok Toy.proof ∧
    (encoding (Toy.env 101) Toy.proof 1).length = 520 := by
  refine ⟨⟨by decide +kernel, by decide, by decide +kernel, by decide +kernel, by decide +kernel, by decide +kernel⟩,
    Toy.env_lawful 101 (by norm_num), by decide +kernel, by decide +kernel⟩

/-- A proof of the prover, as in `C52_prover` and `C52_prover_bytes`, and its Borsh encoding followed by other data, as in
`C52_borsh_round_trip`. `C52_prefix_free` is met by the empty suffix only, and says so; with a further byte decoding fails. -/
example : StatementBuilt (Toy.env 101) Toy.statement ∧ Honest (Toy.env 101) Toy.statement Toy.transcript Toy.proof ∧
    Proof.borshSerialize (Toy.env 101) Toy.proof = .ok (leBytes 4 520 ++ encoding (Toy.env 101) Toy.proof 1) ∧
    Proof.borshDeserialize (Toy.env 101) (leBytes 4 520 ++ encoding (Toy.env 101) Toy.proof 1 ++ [1, 2, 3])
      = .ok (Toy.proof, [1, 2, 3]) ∧
    Proof.fromBytes (Toy.env 101) (encoding (Toy.env 101) Toy.proof 1 ++ [0]) = .err .FailedDeserialization :=
  ⟨Toy.statement_built, ⟨Unit, nullRng, Toy.witness, (), .Constant, Toy.witness_built, Toy.proof_new⟩, by decide +kernel,
    by decide +kernel, by decide +kernel⟩

/-- A proof with rows of different lengths, as serde may produce: its bytes decode to a different proof. -/
def Toy.ragged : Proof (ZMod 101) (ZMod 101) := { Toy.proof with f := [[1, 2], [3], [4]], X := [1, 2], Y := [5, 6] }

/-- The hypothesis of `C52_lossy` is met by a proof with rows of different lengths; a proof without rows makes the encoder
panic, as in `C52_panic`. -/
example : (∀ cols, ¬ Encodable Toy.ragged cols) ∧
    (Proof.toBytes (Toy.env 101) { Toy.proof with f := [] } : Outcome Unit Bytes) = .panic := by
  refine ⟨fun cols h => ?_, by decide +kernel⟩
  have h1 := h.row [1, 2] (by simp [Toy.ragged])
  have h2 := h.row [3] (by simp [Toy.ragged])
  simp at h1 h2
  omega

end Triptych.Parallel
