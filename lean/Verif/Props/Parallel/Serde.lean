import Verif.Lemmas.Parallel.Serde
import Verif.Props.Parallel.Serialize
import Verif.Props.Parallel.Verify
import Verif.Props.Serde

/-! # Properties of the derived serde implementation: C85 -/
set_option autoImplicit false
set_option linter.unusedSectionVars false
set_option linter.unusedVariables false

namespace Triptych.Parallel
open Triptych.Parallel.Spec
open Triptych.Serde
open Triptych.Spec (tuple Denotes MapRepresents Represents)

variable {F P : Type}

theorem namedFields_snd (E : Env F P) (p : Proof F P) : (namedFields E p).map Prod.snd = Proof.serdeFields E p := rfl

theorem mapRepresents_iff (E : Env F P) (p : Proof F P) (es : List (Key × Value)) :
    MapRepresents (namedFields E p) es ↔ (∀ e ∈ es, e.1 ≠ .other) ∧
      vals Proof.fieldNames 0 es = [ofPoint E p.A] ∧
      vals Proof.fieldNames 1 es = [ofPoint E p.B] ∧
      vals Proof.fieldNames 2 es = [ofPoint E p.C] ∧
      vals Proof.fieldNames 3 es = [ofPoint E p.D] ∧
      vals Proof.fieldNames 4 es = [ofVec (ofPoint E) p.X] ∧
      vals Proof.fieldNames 5 es = [ofVec (ofPoint E) p.X1] ∧
      vals Proof.fieldNames 6 es = [ofVec (ofPoint E) p.Y] ∧
      vals Proof.fieldNames 7 es = [ofVec (ofVec (ofScalar E)) p.f] ∧
      vals Proof.fieldNames 8 es = [ofScalar E p.zA] ∧
      vals Proof.fieldNames 9 es = [ofScalar E p.zC] ∧
      vals Proof.fieldNames 10 es = [ofScalar E p.z] ∧
      vals Proof.fieldNames 11 es = [ofScalar E p.z1] := by
  have hv := vals_eq Proof.fieldNames (by decide) (by decide)
  rw [hv 0 (by decide), hv 1 (by decide), hv 2 (by decide), hv 3 (by decide),
    hv 4 (by decide), hv 5 (by decide), hv 6 (by decide), hv 7 (by decide),
    hv 8 (by decide), hv 9 (by decide), hv 10 (by decide), hv 11 (by decide), MapRepresents]
  refine and_congr_right fun _ => ?_
  constructor
  · intro h
    have hl : ∀ i, i < 12 → i < (namedFields E p).length := fun i h => h
    exact ⟨h 0 (hl _ (by decide)), h 1 (hl _ (by decide)), h 2 (hl _ (by decide)), h 3 (hl _ (by decide)),
      h 4 (hl _ (by decide)), h 5 (hl _ (by decide)), h 6 (hl _ (by decide)), h 7 (hl _ (by decide)),
      h 8 (hl _ (by decide)), h 9 (hl _ (by decide)), h 10 (hl _ (by decide)), h 11 (hl _ (by decide))⟩
  · rintro ⟨h0, h1, h2, h3, h4, h5, h6, h7, h8, h9, h10, h11⟩ i hi
    have hi' : i < 12 := hi
    match i, hi' with
    | 0, _ => exact h0
    | 1, _ => exact h1
    | 2, _ => exact h2
    | 3, _ => exact h3
    | 4, _ => exact h4
    | 5, _ => exact h5
    | 6, _ => exact h6
    | 7, _ => exact h7
    | 8, _ => exact h8
    | 9, _ => exact h9
    | 10, _ => exact h10
    | 11, _ => exact h11

/-- C85: the derived decoder returns a proof exactly on the values that represent the proof: the sequence of its twelve
fields, or a map in which every field occurs exactly once. -/
theorem C85_exact (E : Env F P) (hE : E.Lawful) (v : Value) (p : Proof F P) :
    Proof.deserialize E v = some p ↔ Represents (namedFields E p) v := by
  have eP := point_exact E hE
  have eS := scalar_exact E hE
  have eV := vec_exact eP
  have eM := vec_exact (vec_exact eS)
  cases v with
  | num n => simp [Proof.deserialize, Represents]
  | other => simp [Proof.deserialize, Represents]
  | map es =>
    have hr : Represents (namedFields E p) (.map es) ↔ MapRepresents (namedFields E p) es := by
      simp [Represents]
    rw [hr, mapRepresents_iff]
    simp (maxSteps := 1000000) only [Proof.deserialize, Option.bind_eq_bind, Option.bind_eq_some_iff, Proof.visitEntries_iff]
    constructor
    · rintro ⟨s, ⟨h, c0, c1, c2, c3, c4, c5, c6, c7, c8, c9, c10, c11⟩, A, hA, B, hB, C, hC, D, hD, X, hX, X1, hX1,
        Y, hY, f, hf, zA, hzA, zC, hzC, z, hz, z1, hz1, he⟩
      rw [hA, collect_exact eP] at c0
      rw [hB, collect_exact eP] at c1
      rw [hC, collect_exact eP] at c2
      rw [hD, collect_exact eP] at c3
      rw [hX, collect_exact eV] at c4
      rw [hX1, collect_exact eV] at c5
      rw [hY, collect_exact eV] at c6
      rw [hf, collect_exact eM] at c7
      rw [hzA, collect_exact eS] at c8
      rw [hzC, collect_exact eS] at c9
      rw [hz, collect_exact eS] at c10
      rw [hz1, collect_exact eS] at c11
      rw [← Option.some.inj he]
      exact ⟨h, c0, c1, c2, c3, c4, c5, c6, c7, c8, c9, c10, c11⟩
    · rintro ⟨h, c0, c1, c2, c3, c4, c5, c6, c7, c8, c9, c10, c11⟩
      exact ⟨⟨p.A, p.B, p.C, p.D, p.X, p.X1, p.Y, p.f, p.zA, p.zC, p.z, p.z1⟩,
        ⟨h, (collect_exact eP _ _).2 c0, (collect_exact eP _ _).2 c1, (collect_exact eP _ _).2 c2,
          (collect_exact eP _ _).2 c3, (collect_exact eV _ _).2 c4, (collect_exact eV _ _).2 c5,
          (collect_exact eV _ _).2 c6, (collect_exact eM _ _).2 c7, (collect_exact eS _ _).2 c8,
          (collect_exact eS _ _).2 c9, (collect_exact eS _ _).2 c10, (collect_exact eS _ _).2 c11⟩,
        p.A, rfl, p.B, rfl, p.C, rfl, p.D, rfl, p.X, rfl, p.X1, rfl, p.Y, rfl, p.f, rfl, p.zA, rfl, p.zC, rfl, p.z, rfl, p.z1, rfl, rfl⟩
  | seq l =>
    have hr : Represents (namedFields E p) (.seq l) ↔ l = Proof.serdeFields E p := by
      simp [Represents, namedFields_snd]
    rw [hr]
    constructor
    · intro h
      unfold Proof.deserialize at h
      split at h
      · rename_i heq; simp at heq
      · rename_i v0 v1 v2 v3 v4 v5 v6 v7 v8 v9 v10 v11 heq
        rw [Value.seq.injEq] at heq
        subst heq
        simp only [Option.bind_eq_bind, Option.bind_eq_some_iff] at h
        obtain ⟨A, hA, B, hB, C, hC, D, hD, X, hX, X1, hX1, Y, hY, f, hf, zA, hzA, zC, hzC, z, hz, z1, hz1, he⟩ := h
        rw [eP] at hA hB hC hD
        rw [eV] at hX hX1 hY
        rw [eM] at hf
        rw [eS] at hzA hzC hz hz1
        rw [← Option.some.inj he, hA, hB, hC, hD, hX, hX1, hY, hf, hzA, hzC, hz, hz1]
        rfl
      · simp at h
    · rintro rfl
      simp only [Proof.serdeFields, Proof.deserialize, (eP _ _).2 rfl, (eV _ _).2 rfl, (eM _ _).2 rfl, (eS _ _).2 rfl,
        Option.bind_eq_bind, Option.bind_some]

/-- C85: serialization followed by deserialization gives back the proof, whatever its dimensions, in formats that render
structs as maps as well as in those that render them as sequences. -/
theorem C85_round_trip (E : Env F P) (hE : E.Lawful) (p : Proof F P) :
    Proof.deserialize E (Proof.serializeMap E p) = some p ∧ Proof.deserialize E (Proof.serializeSeq E p) = some p := by
  constructor
  · rw [C85_exact E hE]
    refine Or.inr ⟨_, rfl, (mapRepresents_iff E p _).2 ⟨?_, rfl, rfl, rfl, rfl, rfl, rfl, rfl, rfl, rfl, rfl, rfl, rfl⟩⟩
    intro e he
    have h1 := List.of_mem_zip (show (e.1, e.2) ∈ _ from he)
    obtain ⟨s, -, hs⟩ := List.mem_map.1 h1.1
    rw [← hs]
    simp
  · rw [C85_exact E hE]
    exact Or.inl rfl

/-- C85: serialization writes the fields under their names, in order of declaration. -/
theorem C85_serialize (E : Env F P) (p : Proof F P) :
    Proof.serializeMap E p = .map ((namedFields E p).map fun x => (.name x.1, x.2)) ∧
    Proof.serializeSeq E p = .seq ((namedFields E p).map Prod.snd) := ⟨rfl, rfl⟩

/-- C85: as a sequence, a proof has only one representation. -/
theorem C85_canonical (E : Env F P) (hE : E.Lawful) (l : List Value) (p : Proof F P)
    (h : Proof.deserialize E (.seq l) = some p) : Value.seq l = Proof.serializeSeq E p := by
  rcases (C85_exact E hE _ p).1 h with h | ⟨es, h, -⟩
  · exact h
  · simp at h

/-- C85: the order of the entries of a map does not matter. -/
theorem C85_order (E : Env F P) (hE : E.Lawful) (es es' : List (Key × Value)) (h : es.Perm es') :
    Proof.deserialize E (.map es) = Proof.deserialize E (.map es') := by
  have key : ∀ (a b : List (Key × Value)), a.Perm b → ∀ p, Proof.deserialize E (.map a) = some p →
      Proof.deserialize E (.map b) = some p := by
    intro a b hab p
    rw [C85_exact E hE, C85_exact E hE]
    rintro (h | ⟨es, h, h1, h2⟩)
    · simp at h
    · rw [Value.map.injEq] at h
      subst h
      refine Or.inr ⟨b, rfl, fun e he => h1 e (hab.mem_iff.2 he), fun i hi => ?_⟩
      have := (hab.filter fun e => decide (Denotes e.1 i (namedFields E p)[i].1)).map Prod.snd
      rw [h2 i hi] at this
      exact (List.singleton_perm.1 this).symm
  apply Option.ext
  intro p
  exact ⟨key _ _ h p, key _ _ h.symm p⟩

/-- C85: entries with identifiers that denote no field are ignored. -/
theorem C85_unknown (E : Env F P) (hE : E.Lawful) (es extra : List (Key × Value)) (hk : ∀ e ∈ extra, e.1 ≠ .other)
    (h : ∀ e ∈ extra, ∀ i (hi : i < proofFields.length), ¬ Denotes e.1 i proofFields[i]) :
    Proof.deserialize E (.map (es ++ extra)) = Proof.deserialize E (.map es) := by
  have hr : ∀ p, MapRepresents (namedFields E p) (es ++ extra) ↔ MapRepresents (namedFields E p) es := by
    intro p
    rw [MapRepresents, MapRepresents]
    refine and_congr ⟨fun h e he => h e (by simp [he]), fun h e he => ?_⟩ (forall_congr' fun i => forall_congr' fun hi => ?_)
    · rcases List.mem_append.1 he with he | he
      · exact h e he
      · exact hk e he
    · have hn : (namedFields E p)[i].1 = proofFields[i]'hi := by
        have : (namedFields E p).map Prod.fst = proofFields := rfl
        have h2 := List.getElem_of_eq this (i := i) (by rw [List.length_map]; exact hi)
        rwa [List.getElem_map] at h2
      have he : (extra.filter fun e => decide (Denotes e.1 i (namedFields E p)[i].1)) = [] := by
        rw [List.filter_eq_nil_iff]
        intro e he hd
        rw [decide_eq_true_eq, hn] at hd
        exact h e he i hi hd
      rw [List.filter_append, he, List.append_nil]
  apply Option.ext
  intro p
  rw [C85_exact E hE, C85_exact E hE]
  simp [Represents, hr]

/-- C85: a map in which some field is missing or occurs more than once is rejected, as is a sequence of a different length
or any other kind of value. -/
theorem C85_reject (E : Env F P) (hE : E.Lawful) :
    (∀ es i (hi : i < proofFields.length), (es.filter fun e => Denotes e.1 i proofFields[i]).length ≠ 1 →
      Proof.deserialize E (.map es) = none) ∧
    (∀ l : List Value, l.length ≠ 12 → Proof.deserialize E (.seq l) = none) ∧
    (∀ n, Proof.deserialize E (.num n) = none) ∧ Proof.deserialize E .other = none := by
  refine ⟨fun es i hi h => ?_, fun l h => ?_, fun n => rfl, rfl⟩
  · by_contra hc
    obtain ⟨p, hp⟩ := Option.ne_none_iff_exists'.1 hc
    rcases (C85_exact E hE _ p).1 hp with h' | ⟨es', h', h1, h2⟩
    · simp at h'
    · rw [Value.map.injEq] at h'
      subst h'
      have hn : ((namedFields E p)[i]'hi).1 = proofFields[i] := by
        have : (namedFields E p).map Prod.fst = proofFields := rfl
        have h2 := List.getElem_of_eq this (i := i) (by rw [List.length_map]; exact hi)
        rwa [List.getElem_map] at h2
      have := congrArg List.length (h2 i hi)
      rw [List.length_map, hn] at this
      exact h this
  · by_contra hc
    obtain ⟨p, hp⟩ := Option.ne_none_iff_exists'.1 hc
    have := C85_canonical E hE l p hp
    rw [Proof.serializeSeq, Value.seq.injEq] at this
    rw [this] at h
    exact h rfl

/-- C85: the decoder does not look at the dimensions: whatever the numbers of entries of `X`, `X1`, `Y` and `f` and of the rows of
`f`, there are values that decode to a proof with these dimensions. -/
theorem C85_shapes (E : Env F P) (hE : E.Lawful) [Zero F] [Zero P] (x x1 y : ℕ) (rows : List ℕ) :
    ∃ v p, Proof.deserialize E v = some p ∧ p.X.length = x ∧ p.X1.length = x1 ∧ p.Y.length = y ∧ p.f.map List.length = rows := by
  refine ⟨_, ⟨0, 0, 0, 0, List.replicate x 0, List.replicate x1 0, List.replicate y 0,
    rows.map fun k => List.replicate k 0, 0, 0, 0, 0⟩,
    (C85_round_trip E hE _).1, by simp, by simp, by simp, ?_⟩
  simp [List.map_map, Function.comp_def]

/-- C85: passing a decoded proof to the verifier is safe: no panic, whatever was decoded (with overflow checks, unless the
parameters are too large for the size estimate), an error if the dimensions do not fit; and an accepted proof has a canonical
encoding, so that converting it with `to_bytes` neither panics nor changes it. -/
theorem C85_verify [Field F] [AddCommGroup P] [Module F P] [DecidableEq F] [DecidableEq P] (E : Env F P) (hE : E.Lawful)
    (cfg : Config) (v : Value) (p : Proof F P) (h : Proof.deserialize E v = some p) (st : Statement P) (t : Transcript)
    (hst : StatementBuilt E st) (hsz : cfg.overflowChecks = true → batchSize st.params 1 ≤ u32Max) :
    (Proof.verify E cfg p st t).1 ≠ .panic ∧
    (¬ Shape st.params p → ∃ msg, Proof.verify E cfg p st t = (Outcome.err (.InvalidParameter msg), [t])) ∧
    ((Proof.verify E cfg p st t).1 = .ok () → (Proof.toBytes E p >>= Proof.fromBytes E) = .ok p) := by
  refine ⟨?_, fun hs => ?_, fun hok => ?_⟩
  · refine (C50_no_panic E cfg [st] [p] [t] (by simpa using hst) fun first hf hc => ?_).1
    obtain rfl : st = first := by simpa using hf
    exact hsz hc
  · exact C50_shape E cfg st [] [p] [t] hst p (by simp) hs
  · have hs : Shape st.params p := by
      by_contra hs
      obtain ⟨msg, hm⟩ := C50_shape E cfg st [] [p] [t] hst p (by simp) hs
      rw [Proof.verify, hm] at hok
      simp at hok
    exact C52_round_trip E hE p _ (hs.encodable hst.params_built)

/-- C85: in formats that render structs as maps, a serialized parallel proof is also accepted by the decoder of non-parallel
proofs, which drops `X1` and `z1`; the converse, and both directions in formats that render structs as sequences, fail. -/
theorem C85_cross (E : Env F P) (hE : E.Lawful) (p : Proof F P) (q : Triptych.Proof F P) :
    Triptych.Proof.deserialize E (Proof.serializeMap E p) = some ⟨p.A, p.B, p.C, p.D, p.X, p.Y, p.f, p.zA, p.zC, p.z⟩ ∧
    Proof.deserialize E (Triptych.Proof.serializeMap E q) = none ∧
    Triptych.Proof.deserialize E (Proof.serializeSeq E p) = none ∧
    Proof.deserialize E (Triptych.Proof.serializeSeq E q) = none := by
  refine ⟨?_, ?_, ?_, ?_⟩
  · rw [C84_exact E hE]
    refine Or.inr ⟨_, rfl, (Triptych.mapRepresents_iff E _ _).2
      ⟨?_, rfl, rfl, rfl, rfl, rfl, rfl, rfl, rfl, rfl, rfl⟩⟩
    intro e he
    have h1 := List.of_mem_zip (show (e.1, e.2) ∈ _ from he)
    obtain ⟨s, -, hs⟩ := List.mem_map.1 h1.1
    rw [← hs]
    simp
  · exact (C85_reject E hE).1 _ 5 (by decide) (by rw [ne_eq, ← List.length_map (f := Prod.snd)]; exact Nat.zero_ne_one)
  · exact (C84_reject E hE).2.1 _ (show (12 : ℕ) ≠ 10 by decide)
  · exact (C85_reject E hE).2.1 _ (show (10 : ℕ) ≠ 12 by decide)

/-! ## Examples -/

/-- C85_exact, C85_round_trip, C85_verify: an accepted proof that went through serde. -/
example : (Triptych.Toy.env 101).Lawful ∧ StatementBuilt (Triptych.Toy.env 101) Toy.statement ∧
    Proof.deserialize (Triptych.Toy.env 101) (Proof.serializeMap (Triptych.Toy.env 101) Toy.proof) = some Toy.proof ∧
    (Proof.verify (Triptych.Toy.env 101) Triptych.Toy.cfg Toy.proof Toy.statement Triptych.Toy.transcript).1 = .ok () ∧
    (Triptych.Toy.cfg.overflowChecks = true → batchSize Toy.statement.params 1 ≤ u32Max) :=
  ⟨Triptych.Toy.env_lawful 101 (by norm_num), Toy.statement_built, by decide +kernel, Toy.verify_ok, by decide +kernel⟩

/-- C85_canonical: the sequence form decodes. -/
example : Proof.deserialize (Triptych.Toy.env 101) (.seq (Proof.serdeFields (Triptych.Toy.env 101) Toy.proof)) = some Toy.proof := by
  decide +kernel

/-- C85_order, C85_unknown: reversed entries, some named by position, and an unknown one. -/
example : Proof.deserialize (Triptych.Toy.env 101) (.map ((.name "w", .other) :: (.index 12, .num 3) :: (.index 11,
    ofScalar (Triptych.Toy.env 101) Toy.proof.z1) :: ((Proof.fieldNames.map Key.name).zip
      (Proof.serdeFields (Triptych.Toy.env 101) Toy.proof)).dropLast.reverse)) = some Toy.proof := by
  decide +kernel

/-- C85_unknown: a key that is an identifier and denotes no field. -/
example : ∀ i (hi : i < proofFields.length), ¬ Denotes (.name "X2") i proofFields[i] := by decide

/-- C85_reject: the same field by name and by position. -/
example : Proof.deserialize (Triptych.Toy.env 101) (.map ((.index 0, ofPoint (Triptych.Toy.env 101) Toy.proof.A) ::
    (Proof.fieldNames.map Key.name).zip (Proof.serdeFields (Triptych.Toy.env 101) Toy.proof))) = none := by
  decide +kernel

/-- C85_shapes, C85_verify: a ragged proof decodes, and is rejected by the verifier. -/
example : Proof.deserialize (Triptych.Toy.env 101) (Proof.serializeSeq (Triptych.Toy.env 101) Toy.ragged) = some Toy.ragged ∧
    ∃ msg, (Proof.verify (Triptych.Toy.env 101) Triptych.Toy.cfg Toy.ragged Toy.statement Triptych.Toy.transcript).1 =
      .err (.InvalidParameter msg) := by
  refine ⟨by decide +kernel, ?_⟩
  obtain ⟨msg, h⟩ := (C85_verify (Triptych.Toy.env 101) (Triptych.Toy.env_lawful 101 (by norm_num)) Triptych.Toy.cfg
    (Proof.serializeSeq (Triptych.Toy.env 101) Toy.ragged) Toy.ragged (by decide +kernel) Toy.statement Triptych.Toy.transcript
    Toy.statement_built (by decide +kernel)).2.1 (fun h => absurd h.f (by decide +kernel))
  exact ⟨msg, by rw [h]⟩

end Triptych.Parallel
