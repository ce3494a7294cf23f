import Verif.Lemmas.Cost
import Verif.Props.Cost
import Verif.Props.Parallel.Serialize
import Verif.Props.Parallel.Serde

/-! # The cost of decoding and encoding parallel proofs: C100, C101 -/
set_option autoImplicit false
set_option linter.unusedSectionVars false
set_option linter.unusedVariables false

namespace Triptych.Parallel
open Triptych.Parallel.Spec Traced

variable {F P : Type}

/-- C100: the recorded run of the decoder returns what `from_bytes` returns. -/
theorem C100_erase_parallel (E : Env F P) (b : Bytes) : (Proof.fromBytesT E b).out = Proof.fromBytes E b := by
  rw [Proof.fromBytesT, Proof.fromBytes, Proof.fromBytesOption]
  simp only [bind_out, parseU32T, step_out, lift_out, ofOption_bindO]
  refine congrArg _ (funext fun x => ?_)
  refine congrArg _ (funext fun n => ?_)
  split
  · rfl
  simp only [bind_out, step_out, ofOption_bindO]
  refine congrArg _ (funext fun y => ?_)
  split
  · rfl
  simp only [bind_out, parsePointT_out, parseScalarT_out, ofOption_bindO,
    parseManyT_out (parsePointT_out E), parseManyT_out (parseManyT_out (parseScalarT_out E) _)]
  repeat' (refine congrArg _ (funext fun z => ?_))
  split
  · rfl
  simp only [bind_out, leak_out, Outcome.bind_ok]
  split
  · rfl
  split
  · rfl
  split
  · rfl
  simp only [bind_out, checkColumnsT_out, pure_out]
  split
  · rfl
  · rfl

theorem Proof.fromBytesT_weight (E : Env F P) (w : Leak F → ℕ) (b : Bytes) :
    (Proof.fromBytesT E b).weight w ≤ 2 * w (.call "read u32" [])
      + (w (.call "ChunksExact::next" []) + w (.call "decode" []) + 3 * w (.call "iteration" [])) * (b.length / 32)
      + w (.call "ChunksExact::next" []) + 2 * w (.call "iteration" []) := by
  generalize hh : w (.call "read u32" []) = wh
  have hs := parseScalarT_cost w E
  have hp := parsePointT_cost w E
  generalize hn : w (.call "ChunksExact::next" []) = wn at *
  generalize hd : w (.call "decode" []) = wd at *
  generalize hi : w (.call "iteration" []) = wi at *
  have hp' : CostOf w (wn + wd + wi + wi) (wn + wi + wi) (parsePointT E) := hp.mono (by omega) (by omega)
  have hs' : CostOf w (wn + wd + wi + wi) (wn + wi + wi) (parseScalarT E) := hs.mono (by omega) (by omega)
  rw [Proof.fromBytesT]
  refine weight_bind_le w _ _ _ (fun x hx => ?_) (fun _ => by simp only [parseU32T, weight_step, hh]; omega)
  simp only [parseU32T, step_out] at hx
  rw [show (parseU32T b : Traced F ProofError _).weight w = wh by simp [parseU32T, hh]]
  cases hx' : parseU32 b with
  | none => rw [hx'] at hx; simp [Outcome.ofOption] at hx
  | some x' =>
  rw [hx', ofOption_some, Outcome.ok.injEq] at hx
  subst hx
  obtain ⟨x1, x2⟩ := x'
  have e1 := ((parseU32_iff b x1 x2).1 hx').2
  have l1 : b.length = 4 + x2.length := by rw [e1, List.length_append, leBytes_length]
  dsimp only
  suffices h : (lift (Outcome.ofOption (checkedAdd x1 1) ProofError.FailedDeserialization) >>= _).weight w ≤
      wh + (wn + wd + 3 * wi) * (b.length / 32) + wn + 2 * wi by
    refine le_trans (Nat.add_le_add_left h _) (by omega)
  refine weight_lift_bind_le w _ _ _ fun n hn1 => ?_
  split
  · simp
  rename_i hn2
  have hcols : 1 ≤ x1 := by
    rw [checkedAdd] at hn1
    split at hn1
    · simp only [Outcome.ofOption, Outcome.ok.injEq] at hn1; omega
    · simp [Outcome.ofOption] at hn1
  refine weight_bind_le w _ _ _ (fun y hy => ?_) (fun _ => by
    rw [show (parseU32T x2 : Traced F ProofError _).weight w = wh by simp [parseU32T, hh]]; omega)
  simp only [parseU32T, step_out] at hy
  rw [show (parseU32T x2 : Traced F ProofError _).weight w = wh by simp [parseU32T, hh]]
  cases hy' : parseU32 x2 with
  | none => rw [hy'] at hy; simp [Outcome.ofOption] at hy
  | some y' =>
  rw [hy', ofOption_some, Outcome.ok.injEq] at hy
  subst hy
  obtain ⟨m, rest⟩ := y'
  have e2 := ((parseU32_iff x2 m rest).1 hy').2
  have l2 : x2.length = 4 + rest.length := by rw [e2, List.length_append, leBytes_length]
  dsimp only
  split
  · simp only [weight_lift]; omega
  rename_i hm2
  have hm : 1 ≤ m := by omega
  have hk : (chunks32 rest).length ≤ b.length / 32 := by rw [chunks32_length]; omega
  generalize chunks32 rest = cs0 at hk ⊢
  generalize b.length / 32 = K at hk ⊢
  have hmany : CostOf w (wn + wd + wi + wi) (wn + wi + wi) (parseManyT (parsePointT E) m) :=
    (by simpa [hi] using parseManyT_cost w hp m hm : CostOf w (wn + wd + wi) (wn + wi) (parseManyT (parsePointT E) m)).mono
      (by omega) (by omega)
  have hrow : CostOf w (wn + wd + wi) (wn + wi) (parseManyT (parseScalarT E) x1) := by
    simpa [hi] using parseManyT_cost w hs x1 hcols
  have hrows : CostOf w (wn + wd + wi + wi) (wn + wi + wi) (parseManyT (parseManyT (parseScalarT E) x1) m) := by
    simpa [hi] using parseManyT_cost w hrow m hm
  suffices h : ∀ x : ℕ, x ≤ (wn + wd + wi + wi) * cs0.length + (wn + wi + wi + wi * K) →
      wh + x ≤ wh + (wn + wd + 3 * wi) * K + wn + 2 * wi by
    apply h
    refine hp'.bind _ _ _ (by omega) fun A cs1 _ k1 => ?_
    refine hp'.bind _ _ _ (by omega) fun B cs2 _ k2 => ?_
    refine hp'.bind _ _ _ (by omega) fun C cs3 _ k3 => ?_
    refine hp'.bind _ _ _ (by omega) fun D cs4 _ k4 => ?_
    refine hs'.bind _ _ _ (by omega) fun zA cs5 _ k5 => ?_
    refine hs'.bind _ _ _ (by omega) fun zC cs6 _ k6 => ?_
    refine hs'.bind _ _ _ (by omega) fun z cs7 _ k7 => ?_
    refine hs'.bind _ _ _ (by omega) fun z1 cs71 _ k71 => ?_
    refine hmany.bind _ _ _ (by omega) fun X cs8 _ k8 => ?_
    refine hmany.bind _ _ _ (by omega) fun X1 cs81 _ k81 => ?_
    refine hmany.bind _ _ _ (by omega) fun Y cs9 _ k9 => ?_
    refine hrows.bind _ _ _ (by omega) fun f cs10 hf k10 => ?_
    have hfl := parseManyT_ok w hrow m cs9 f cs10 hf
    dsimp only at k2 k3 k4 k5 k6 k7 k71 k8 k81 k9 ⊢
    split
    · simp
    rw [weight_leak_bind, hn]
    have hc : (checkColumnsT x1 f : Traced F ProofError Unit).weight w ≤ wi * K := by
      refine (checkColumnsT_weight w x1 f).trans ?_
      rw [hi]
      exact Nat.mul_le_mul_left _ (by omega)
    split
    · simp only [weight_lift]; omega
    split
    · simp only [weight_lift]; omega
    split
    · simp only [weight_lift]; omega
    have hq : ∀ q : Proof F P, (checkColumnsT x1 f >>= fun _ => (pure q : Traced F ProofError (Proof F P))).weight w ≤ wi * K :=
      fun q => weight_bind_le w _ _ _ (fun a _ => by simpa using hc) fun _ => hc
    refine le_trans (Nat.add_le_add_left (hq _) _) (by omega)
  intro x hx
  have h1 : (wn + wd + wi + wi) * cs0.length ≤ (wn + wd + wi + wi) * K := Nat.mul_le_mul_left _ hk
  have h2 : (wn + wd + wi + wi) * K + wi * K = (wn + wd + 3 * wi) * K := by ring
  omega

/-- C100: whatever dimensions an input declares, decoding performs at most `5 (len / 32) + 5` operations (reads, decodings of
elements, loop iterations); it attempts to decode at most `len / 32` points and scalars, and its loops, each iteration of which
stores at most one element, run at most `3 (len / 32) + 2` times. -/
theorem C100_cost_parallel [DecidableEq F] (E : Env F P) (b : Bytes) :
    (Proof.fromBytesT E b).trace.length ≤ 5 * (b.length / 32) + 5 ∧
    (Proof.fromBytesT E b).trace.count (.call "decode" []) ≤ b.length / 32 ∧
    (Proof.fromBytesT E b).trace.count (.call "ChunksExact::next" []) ≤ b.length / 32 + 1 ∧
    (Proof.fromBytesT E b).trace.count (.call "iteration" []) ≤ 3 * (b.length / 32) + 2 := by
  refine ⟨?_, ?_, ?_, ?_⟩
  · have := Proof.fromBytesT_weight E (fun _ => 1) b
    rw [weight_one] at this
    omega
  · have := Proof.fromBytesT_weight E (fun e => if e = .call "decode" [] then 1 else 0) b
    rw [weight_count] at this
    simpa using this
  · have := Proof.fromBytesT_weight E (fun e => if e = .call "ChunksExact::next" [] then 1 else 0) b
    rw [weight_count] at this
    simpa using this
  · have := Proof.fromBytesT_weight E (fun e => if e = .call "iteration" [] then 1 else 0) b
    rw [weight_count] at this
    simpa using this

/-- `C100_cost_parallel` and `C100_erase_parallel` have no further hypotheses: an input that declares the largest dimensions
is rejected after at most 60 operations. -/
example : (Proof.fromBytesT (Triptych.Toy.env 101) (leBytes 4 (2 ^ 32 - 2) ++ leBytes 4 (2 ^ 32 - 1) ++ (encoding (Triptych.Toy.env 101) Toy.proof 1).drop 8)).trace.length ≤ 60 ∧
    (Proof.fromBytesT (Triptych.Toy.env 101) (encoding (Triptych.Toy.env 101) Toy.proof 1)).out = .ok Toy.proof := by decide +kernel

/-- C101: the bytes are those of `to_bytes` whenever the size requested in advance is at most `isize::MAX`. -/
theorem C101_erase_parallel (E : Env F P) (cfg : Config) (p : Proof F P) (row0 : List F) (rows : List (List F)) (hf : p.f = row0 :: rows)
    (hsz : 8 + 32 * (8 + p.X.length + p.X1.length + p.Y.length + p.f.length * row0.length) ≤ cfg.usizeMax / 2) :
    ∃ b, (Proof.toBytes E p : Outcome Unit Bytes) = .ok b ∧
      (Proof.toBytesT E cfg p : Traced F Unit Bytes) = ⟨[.call "Vec::with_capacity"
        [8 + 32 * (8 + p.X.length + p.X1.length + p.Y.length + p.f.length * row0.length)], .call "write" [b.length]], .ok b⟩ := by
  obtain ⟨b, hb⟩ := (C52_panic E p).2 (by simp [hf])
  refine ⟨b, hb, ?_⟩
  have e : 8 + SERIALIZED_BYTES * (4 + p.X.length + p.X1.length + p.Y.length + 4 + p.f.length * row0.length) =
      8 + 32 * (8 + p.X.length + p.X1.length + p.Y.length + p.f.length * row0.length) := by rw [SERIALIZED_BYTES]; ring
  have hrow : (idx p.f 0 : Outcome Unit (List F)) = .ok row0 := by rw [hf]; rfl
  rw [Proof.toBytesT, hrow]
  refine Traced.ext' ?_ ?_
  · simp only [bind_trace, lift_out, lift_trace, e, uncheckedUsize, if_pos (hsz.trans (Nat.div_le_self _ _)), withCapacityT,
      if_pos hsz, step_out, step_trace, hb, leak_out, leak_trace, pure_trace, List.nil_append, List.append_nil,
      List.cons_append]
  · simp only [bind_out, lift_out, e, uncheckedUsize, if_pos (hsz.trans (Nat.div_le_self _ _)), withCapacityT,
      if_pos hsz, step_out, hb, leak_out, pure_out, Outcome.bind_ok]

/-- C101: for a proof with an encoding (of at most `isize::MAX` bytes, as every vector of bytes) the reserved memory is exactly
what is written: nothing overflows, nothing is reallocated, nothing is wasted. -/
theorem C101_exact_parallel (E : Env F P) (hE : E.Lawful) (cfg : Config) (p : Proof F P) (cols : ℕ) (h : Encodable p cols)
    (hsz : (encoding E p cols).length ≤ cfg.usizeMax / 2) :
    (Proof.toBytesT E cfg p : Traced F Unit Bytes) =
      ⟨[.call "Vec::with_capacity" [(encoding E p cols).length], .call "write" [(encoding E p cols).length]],
        .ok (encoding E p cols)⟩ := by
  obtain ⟨row0, rows, hf⟩ : ∃ row0 rows, p.f = row0 :: rows := by
    cases hf : p.f with
    | nil => have := h.rows.1; rw [hf] at this; simp at this
    | cons a l => exact ⟨a, l, rfl⟩
  have h0 : row0.length = cols := h.row row0 (by simp [hf])
  have hb : (Proof.toBytes E p : Outcome Unit Bytes) = .ok (encoding E p cols) := h.toBytes
  have hlen := C52_length E hE p cols h _ hb
  have e : 8 + 32 * (8 + p.X.length + p.X1.length + p.Y.length + p.f.length * row0.length) = (encoding E p cols).length := by
    rw [hlen, h.X, h.X1, h.Y, h0]; ring
  obtain ⟨b, hb', ht⟩ := C101_erase_parallel E cfg p row0 rows hf (by rw [e]; exact hsz)
  rw [hb, Outcome.ok.injEq] at hb'
  rw [ht, ← hb', e]

/-- C101: in particular a decoded proof is encoded in one allocation of as many bytes as it was decoded from. -/
theorem C101_decoded_parallel (E : Env F P) (hE : E.Lawful) (cfg : Config) (b : Bytes) (p : Proof F P)
    (h : Proof.fromBytes E b = .ok p) (hsz : b.length ≤ cfg.usizeMax / 2) :
    (Proof.toBytesT E cfg p : Traced F Unit Bytes) =
      ⟨[.call "Vec::with_capacity" [b.length], .call "write" [b.length]], .ok b⟩ := by
  obtain ⟨cols, hc, rfl⟩ := ((C52_exact E hE b).1 p).1 h
  exact C101_exact_parallel E hE cfg p cols hc hsz

/-- The hypotheses of `C101_exact_parallel`, `C101_decoded_parallel` and `C101_prover_parallel` are met. -/
example : Encodable Toy.proof 1 ∧ (encoding (Triptych.Toy.env 101) Toy.proof 1).length ≤ Triptych.Toy.cfg.usizeMax / 2 ∧
    Proof.fromBytes (Triptych.Toy.env 101) (encoding (Triptych.Toy.env 101) Toy.proof 1) = .ok Toy.proof :=
  ⟨⟨by decide +kernel, by decide, by decide +kernel, by decide +kernel, by decide +kernel, by decide +kernel⟩, by decide +kernel, by decide +kernel⟩

/-- C101: every proof returned by the prover is encoded, on 32- and 64-bit platforms alike, in one allocation of exactly the
bytes written, at most 128 MiB. -/
theorem C101_prover_parallel [Field F] [AddCommGroup P] [Module F P] [DecidableEq F] [DecidableEq P] (E : Env F P) (hE : E.Lawful)
    (cfg : Config) (hcfg : 2 ^ 32 ≤ cfg.usizeMax + 1) (st : Statement P) (t : Transcript) (p : Proof F P)
    (hst : StatementBuilt E st) (hp : Honest E st t p) :
    ∃ b, (Proof.toBytes E p : Outcome Unit Bytes) = .ok b ∧ b.length ≤ 2 ^ 27 ∧
      (Proof.toBytesT E cfg p : Traced F Unit Bytes) =
        ⟨[.call "Vec::with_capacity" [b.length], .call "write" [b.length]], .ok b⟩ := by
  have hs := (hp.facts hst).1
  have he := hs.encodable hst.params_built
  have hok := hst.ok.params
  have hlen := encoding_length E hE p _ he
  have hb := size_bound st.params.n st.params.m hok.n hok.m hok.N
  rw [hs.f] at hlen
  have hle : (encoding E p (st.params.n - 1)).length ≤ 2 ^ 27 := by
    rw [hlen]
    norm_num at hb ⊢
    omega
  refine ⟨_, he.toBytes, hle, C101_exact_parallel E hE cfg p _ he (hle.trans ?_)⟩
  have : 2 ^ 27 ≤ (2 ^ 32 - 1) / 2 := by norm_num
  refine this.trans (Nat.div_le_div_right ?_)
  omega

theorem toBytes_length (E : Env F P) (hE : E.Lawful) (p : Proof F P) (b : Bytes)
    (h : (Proof.toBytes E p : Outcome Unit Bytes) = .ok b) :
    b.length = 8 + 32 * (8 + p.X.length + p.X1.length + p.Y.length + p.f.flatten.length) := by
  rw [Proof.toBytes] at h
  cases hf : (idx p.f 0 : Outcome Unit (List F)) with
  | ok row0 =>
    rw [hf] at h
    simp only [Outcome.bind_ok, Outcome.ok.injEq] at h
    have hP : ∀ l : List P, (l.flatMap E.compress).length = 32 * l.length := by
      intro l
      induction l with
      | nil => rfl
      | cons a l ih => rw [List.flatMap_cons, List.length_append, ih, hE.compress_length, List.length_cons]; ring
    have hF : ∀ l : List F, (l.flatMap E.scalarBytes).length = 32 * l.length := by
      intro l
      induction l with
      | nil => rfl
      | cons a l ih => rw [List.flatMap_cons, List.length_append, ih, hE.scalarBytes_length, List.length_cons]; ring
    have hM : ∀ l : List (List F), (l.flatMap fun row => row.flatMap E.scalarBytes).length = 32 * l.flatten.length := by
      intro l
      induction l with
      | nil => rfl
      | cons a l ih =>
        rw [List.flatMap_cons, List.length_append, ih, hF, List.flatten_cons, List.length_append]; ring
    rw [← h]
    simp only [List.length_append, leBytes_length, hP, hM, hE.compress_length, hE.scalarBytes_length]
    ring
  | err e => rw [hf] at h; simp at h
  | panic => rw [hf] at h; simp at h
  | diverge => rw [hf] at h; simp at h

/-- C101: the source says that the computation of the capacity cannot overflow. Through serde it can: for all `k` there is a
serde value whose decoding succeeds with a proof of `k` responses only, for which `to_bytes` requests room for `k * k`. The
request panics when it exceeds `isize::MAX` (if it does not wrap), although the encoding has only `8 + 32 (8 + x + x1 + y + k)`
bytes. -/
theorem C101_ragged_parallel (E : Env F P) (hE : E.Lawful) [Zero F] [Zero P] (x x1 y k : ℕ) (hk : 1 ≤ k) :
    ∃ v p, Proof.deserialize E v = some p ∧ p.X.length = x ∧ p.X1.length = x1 ∧ p.Y.length = y ∧ p.f.flatten.length = k ∧
      (∃ b, (Proof.toBytes E p : Outcome Unit Bytes) = .ok b ∧ b.length = 8 + 32 * (8 + x + x1 + y + k)) ∧
      ∀ cfg : Config,
        (8 + 32 * (8 + x + x1 + y + k * k) ≤ cfg.usizeMax / 2 → (Proof.toBytesT E cfg p : Traced F Unit Bytes).trace =
          [.call "Vec::with_capacity" [8 + 32 * (8 + x + x1 + y + k * k)], .call "write" [8 + 32 * (8 + x + x1 + y + k)]]) ∧
        (cfg.usizeMax / 2 < 8 + 32 * (8 + x + x1 + y + k * k) → 8 + 32 * (8 + x + x1 + y + k * k) ≤ cfg.usizeMax →
          (Proof.toBytesT E cfg p : Traced F Unit Bytes).out = .panic) ∧
        (cfg.usizeMax < 8 + 32 * (8 + x + x1 + y + k * k) → cfg.overflowChecks = true →
          (Proof.toBytesT E cfg p : Traced F Unit Bytes).out = .panic) := by
  obtain ⟨v, p, hv, hx, hx1, hy, hrows⟩ := C85_shapes E hE x x1 y (k :: List.replicate (k - 1) 0)
  obtain ⟨row0, rows, hf⟩ : ∃ row0 rows, p.f = row0 :: rows := by
    cases hf : p.f with
    | nil => rw [hf] at hrows; simp at hrows
    | cons a l => exact ⟨a, l, rfl⟩
  have hlen : p.f.length = k := by
    have := congrArg List.length hrows
    rw [List.length_map, List.length_cons, List.length_replicate] at this
    omega
  have h0 : row0.length = k := by
    rw [hf, List.map_cons, List.cons.injEq] at hrows
    exact hrows.1
  have hflat : p.f.flatten.length = k := by
    rw [List.length_flatten, hrows, List.sum_cons, List.sum_replicate]
    simp
  obtain ⟨b, hb⟩ := (C52_panic E p).2 (by simp [hf])
  have hbl := toBytes_length E hE p b hb
  rw [hx, hx1, hy, hflat] at hbl
  have e : 8 + 32 * (8 + p.X.length + p.X1.length + p.Y.length + p.f.length * row0.length) = 8 + 32 * (8 + x + x1 + y + k * k) := by
    rw [hx, hx1, hy, hlen, h0]
  have e' : 8 + SERIALIZED_BYTES * (4 + p.X.length + p.X1.length + p.Y.length + 4 + p.f.length * row0.length) =
      8 + 32 * (8 + x + x1 + y + k * k) := by rw [← e, SERIALIZED_BYTES]; ring
  have hrow : (idx p.f 0 : Outcome Unit (List F)) = .ok row0 := by rw [hf]; rfl
  refine ⟨v, p, hv, hx, hx1, hy, hflat, ⟨b, hb, hbl⟩, fun cfg => ⟨fun hsz => ?_, fun h1 h2 => ?_, fun h1 h2 => ?_⟩⟩
  · obtain ⟨b', hb', ht⟩ := C101_erase_parallel E cfg p row0 rows hf (by rw [e]; exact hsz)
    rw [hb, Outcome.ok.injEq] at hb'
    rw [ht, ← hb', e, hbl]
  · rw [Proof.toBytesT, hrow]
    simp only [bind_out, lift_out, Outcome.bind_ok, e', uncheckedUsize, if_pos h2, withCapacityT, step_out,
      if_neg (not_le.2 h1)]
    rfl
  · rw [Proof.toBytesT, hrow]
    simp only [bind_out, lift_out, Outcome.bind_ok, e', uncheckedUsize, if_neg (not_le.2 h1), h2, if_true]
    rfl

/-- On a 32-bit platform 8192 responses (256 KiB) suffice. -/
example : ∃ v p, Proof.deserialize (Triptych.Toy.env 101) v = some p ∧ p.f.flatten.length = 8192 ∧
    (Proof.toBytesT (Triptych.Toy.env 101) ⟨false, 2 ^ 32 - 1, 0⟩ p : Traced (ZMod 101) Unit Bytes).out = .panic := by
  obtain ⟨v, p, hv, -, -, -, hf, -, h⟩ := C101_ragged_parallel (Triptych.Toy.env 101) (Triptych.Toy.env_lawful 101 (by norm_num)) 0 0 0 8192 (by norm_num)
  exact ⟨v, p, hv, hf, (h _).2.1 (by norm_num) (by norm_num)⟩

end Triptych.Parallel
