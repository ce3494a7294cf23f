import Verif.Props.Bench

/-! # Several signers with one ring, as in the benchmarks and unit tests of the parallel module: C113 -/
set_option autoImplicit false
set_option linter.unusedSectionVars false
set_option linter.unusedVariables false

namespace Triptych.Parallel
open Triptych.Parallel.Spec
open Triptych.Spec (after draw drawPoint ringOf)

variable {F P σ : Type} [Field F] [AddCommGroup P] [Module F P] [DecidableEq F] [DecidableEq P]

theorem more_ok (E : Env F P) (cfg : Config) (R : Rng σ) (params : Params P) (hp : ParamsBuilt E params) (k : ℕ) :
    ∀ (w : Witness F P) (s : σ), w.l < params.n ^ params.m → (∀ i < 2 * k, draw E R s i ≠ 0) →
    Bench.moreWitnesses E cfg R params k w s = .ok ((List.range k).map fun i =>
      ⟨params, (w.l + 1 + i) % params.n ^ params.m, draw E R s (2 * i), draw E R s (2 * i + 1)⟩, after R s (2 * k)) := by
  have hN := hp.ok.getN
  have hu := hp.ok.N
  induction k with
  | zero => intro w s _ _; rfl
  | succ k ih =>
    intro w s hw hr
    have hlt : (w.l + 1) % params.n ^ params.m < params.n ^ params.m := Nat.mod_lt _ (by omega)
    have h0 : E.scalarOfWide (R.fill s 64).1 = draw E R s 0 := rfl
    have h01 : E.scalarOfWide (R.fill (R.fill s 64).2 64).1 = draw E R s 1 := rfl
    obtain ⟨w', h1, h2, h3, h4, h4'⟩ := (C47_new E params ((w.l + 1) % params.n ^ params.m) (draw E R s 0) (draw E R s 1) hp).2.2.2
      (hr 0 (by omega)) (hr 1 (by omega)) hlt
    have h5 : w' = ⟨params, (w.l + 1) % params.n ^ params.m, draw E R s 0, draw E R s 1⟩ := by
      cases w'; simp only at h2 h3 h4 h4'; rw [h2, h3, h4, h4']
    simp only [Bench.moreWitnesses]
    rw [hN, nextIndex_eq cfg _ _ hw hu, Outcome.bind_ok, h0, h01, h1, RingCT.unwrap, Outcome.bind_ok, after_one, after_one, after_add,
      ih w' (after R s (1 + 1)) (by rw [h3]; exact hlt) (fun i hi => by rw [draw_after]; exact hr _ (by omega)), Outcome.bind_ok,
      after_add, List.range_succ_eq_map, List.map_cons, List.map_map, h5]
    rw [show 1 + 1 + 2 * k = 2 * (k + 1) by omega]
    congr 3
    refine List.map_congr_left fun i _ => ?_
    simp only [Function.comp_apply, draw_after, Nat.succ_eq_add_one]
    rw [show 1 + 1 + 2 * i = 2 * (i + 1) by omega, show 1 + 1 + (2 * i + 1) = 2 * (i + 1) + 1 by omega, Nat.add_assoc, Nat.mod_add_mod,
      Nat.add_comm 1 i]

theorem more_panic (E : Env F P) (cfg : Config) (R : Rng σ) (params : Params P) (hp : ParamsBuilt E params) (k : ℕ) :
    ∀ (w : Witness F P) (s : σ), w.l < params.n ^ params.m → (∃ i < 2 * k, draw E R s i = 0) →
    Bench.moreWitnesses E cfg R params k w s = .panic := by
  have hN := hp.ok.getN
  have hu := hp.ok.N
  induction k with
  | zero => rintro w s _ ⟨i, hi, _⟩; omega
  | succ k ih =>
    rintro w s hw ⟨i, hi, hi0⟩
    have hlt : (w.l + 1) % params.n ^ params.m < params.n ^ params.m := Nat.mod_lt _ (by omega)
    have h0 : E.scalarOfWide (R.fill s 64).1 = draw E R s 0 := rfl
    have h01 : E.scalarOfWide (R.fill (R.fill s 64).2 64).1 = draw E R s 1 := rfl
    have hc := C47_new E params ((w.l + 1) % params.n ^ params.m) (draw E R s 0) (draw E R s 1) hp
    simp only [Bench.moreWitnesses]
    rw [hN, nextIndex_eq cfg _ _ hw hu, Outcome.bind_ok, h0, h01]
    by_cases hz : draw E R s 0 = 0
    · rw [hc.1 hz]
      rfl
    by_cases hz1 : draw E R s 1 = 0
    · rw [hc.2.1 hz hz1]
      rfl
    obtain ⟨w', h1, h2, h3, h4, h4'⟩ := hc.2.2.2 hz hz1 hlt
    rw [h1, RingCT.unwrap, Outcome.bind_ok, after_one, after_one, after_add, ih w' (after R s (1 + 1)) (by rw [h3]; exact hlt)]
    · rfl
    · obtain ⟨i, rfl⟩ : ∃ i', i = 1 + 1 + i' := ⟨i - 2, by
        rcases Nat.lt_or_ge i 2 with h | h
        · interval_cases i
          · exact absurd hi0 hz
          · exact absurd hi0 hz1
        · omega⟩
      exact ⟨i, by omega, by rw [draw_after]; exact hi0⟩

theorem place_eq (E : Env F P) (R : Rng σ) (params : Params P) (ws : List (Witness F P)) : ∀ (M M1 : List P) (s : σ),
    (∀ w ∈ ws, w.l < M.length) → (∀ w ∈ ws, w.l < M1.length) →
    ∃ M' M1', Bench.place E R params ws M M1 s =
        .ok (M', M1', (List.range ws.length).map fun i => draw E R s i • params.G1, after R s ws.length) ∧
      M'.length = M.length ∧ M1'.length = M1.length ∧
      (∀ j, (∀ w ∈ ws, w.l ≠ j) → M'[j]? = M[j]? ∧ M1'[j]? = M1[j]?) ∧
      ((ws.map Witness.l).Nodup → ∀ (i : ℕ) w, ws[i]? = some w → M'[w.l]? = some w.computeVerificationKey ∧
        M1'[w.l]? = some (w.computeAuxiliaryVerificationKey + draw E R s i • params.G1)) := by
  induction ws with
  | nil => intro M M1 s _ _; exact ⟨M, M1, rfl, rfl, rfl, fun _ _ => ⟨rfl, rfl⟩, fun _ i w h => by simp at h⟩
  | cons w ws ih =>
    intro M M1 s hM hM1
    have hw := hM w (by simp)
    have hw1 := hM1 w (by simp)
    have h0 : E.scalarOfWide (R.fill s 64).1 = draw E R s 0 := rfl
    obtain ⟨M', M1', h1, h2, h2', h3, h4⟩ := ih (M.set w.l w.computeVerificationKey)
      (M1.set w.l (w.computeAuxiliaryVerificationKey + draw E R s 0 • params.G1)) (after R s 1)
      (fun w' h => by rw [List.length_set]; exact hM w' (by simp [h]))
      (fun w' h => by rw [List.length_set]; exact hM1 w' (by simp [h]))
    refine ⟨M', M1', ?_, by rw [h2, List.length_set], by rw [h2', List.length_set], fun j hj => ?_, fun hnd i w' hw' => ?_⟩
    · simp only [Bench.place]
      rw [if_pos hw, if_pos hw1, h0, after_one, h1, Outcome.bind_ok, List.length_cons, after_add, Nat.add_comm 1,
        List.range_succ_eq_map, List.map_cons, List.map_map]
      congr 5
    · rw [(h3 j fun w' h => hj w' (by simp [h])).1, (h3 j fun w' h => hj w' (by simp [h])).2,
        List.getElem?_set_ne (hj w (by simp)), List.getElem?_set_ne (hj w (by simp))]
      exact ⟨rfl, rfl⟩
    · rw [List.map_cons, List.nodup_cons] at hnd
      cases i with
      | zero =>
        simp only [List.getElem?_cons_zero, Option.some.injEq] at hw'
        subst hw'
        have h5 := h3 w.l fun w'' h he => hnd.1 (he ▸ List.mem_map_of_mem h)
        rw [h5.1, h5.2, List.getElem?_set_self hw, List.getElem?_set_self hw1]
        exact ⟨rfl, rfl⟩
      | succ i =>
        have h5 := h4 hnd.2 i w' hw'
        rw [draw_after, Nat.add_comm 1 i] at h5
        exact h5

theorem statements_ok (E : Env F P) (params : Params P) (hp : ParamsBuilt E params) (i : InputSet P)
    (h1 : i.M.length = params.n ^ params.m) (h2 : 0 ∉ i.M) (ws : List (Witness F P)) : ∀ (os : List P),
    os.length = ws.length → (∀ o ∈ os, o ∉ i.M1) →
    ∃ sts, Bench.statements E params i ws os = .ok sts ∧ sts.length = ws.length ∧
      ∀ (j : ℕ) w o, ws[j]? = some w → os[j]? = some o → ∃ st, sts[j]? = some st ∧
        Statement.new E params i o w.computeLinkingTag = .ok st ∧ st.params = params ∧ st.inputSet = i ∧ st.offset = o ∧
        st.J = w.computeLinkingTag := by
  induction ws with
  | nil =>
    intro os ho _
    cases os with
    | nil => exact ⟨[], rfl, rfl, fun j w o h => by simp at h⟩
    | cons => simp at ho
  | cons w ws ih =>
    intro os ho hos
    obtain _ | ⟨o, os⟩ := os
    · simp at ho
    obtain ⟨sts, h3, h4, h5⟩ := ih os (by simpa using ho) fun o' h => hos o' (by simp [h])
    obtain ⟨st, h6, h7⟩ := (C46_statement_new E params i o w.computeLinkingTag hp).2.2 h1 h2 (hos o (by simp))
    refine ⟨st :: sts, by rw [Bench.statements, h6, RingCT.unwrap, Outcome.bind_ok, h3]; rfl, by simp [h4], fun j w' o' hj ho' => ?_⟩
    cases j with
    | zero =>
      simp only [List.getElem?_cons_zero, Option.some.injEq] at hj ho'
      subst hj
      subst ho'
      exact ⟨st, rfl, h6, h7⟩
    | succ j => exact h5 j w' o' hj ho'

theorem statements_panic (E : Env F P) (params : Params P) (hp : ParamsBuilt E params) (i : InputSet P)
    (h1 : i.M.length = params.n ^ params.m) (ws : List (Witness F P)) : ∀ (os : List P),
    os.length = ws.length → ws ≠ [] → (0 ∈ i.M ∨ ∃ o ∈ os, o ∈ i.M1) → Bench.statements E params i ws os = .panic := by
  induction ws with
  | nil => intro os _ h; exact absurd rfl h
  | cons w ws ih =>
    intro os ho _ hbad
    obtain _ | ⟨o, os⟩ := os
    · simp at ho
    have hc := C46_statement_new E params i o w.computeLinkingTag hp
    by_cases hb : 0 ∈ i.M ∨ o ∈ i.M1
    · rw [Bench.statements, hc.2.1 h1 hb]
      rfl
    · push Not at hb
      obtain ⟨st, h6, -⟩ := hc.2.2 h1 hb.1 hb.2
      have hbad' : ∃ o' ∈ os, o' ∈ i.M1 := by
        rcases hbad with h | ⟨o', h, h'⟩
        · exact absurd h hb.1
        · rcases List.mem_cons.1 h with rfl | h
          · exact absurd h' hb.2
          · exact ⟨o', h, h'⟩
      have hne : ws ≠ [] := by
        rintro rfl
        obtain ⟨o', h, -⟩ := hbad'
        rw [List.length_cons, List.length_cons, List.length_nil, Nat.add_right_cancel_iff, List.length_eq_zero_iff] at ho
        rw [ho] at h
        simp at h
      rw [Bench.statements, h6, RingCT.unwrap, Outcome.bind_ok, ih os (by simpa using ho) hne (Or.inr hbad')]
      rfl

/-- The witnesses of the signers at `l` and the following positions. -/
def signersAt (E : Env F P) (R : Rng σ) (params : Params P) (s : σ) (l k : ℕ) : List (Witness F P) :=
  (List.range k).map fun i => ⟨params, (l + i) % params.n ^ params.m, draw E R s (2 * i), draw E R s (2 * i + 1)⟩

theorem signers_cons (E : Env F P) (R : Rng σ) (params : Params P) (s : σ) (l k : ℕ) (hl : l < params.n ^ params.m) :
    signersAt E R params s l (k + 1) = ⟨params, l, draw E R s 0, draw E R s 1⟩ ::
      (List.range k).map fun i => ⟨params, (l + 1 + i) % params.n ^ params.m, draw E R (after R s 2) (2 * i),
        draw E R (after R s 2) (2 * i + 1)⟩ := by
  rw [signersAt, List.range_succ_eq_map, List.map_cons, List.map_map, Nat.add_zero, Nat.mod_eq_of_lt hl]
  congr 1
  refine List.map_congr_left fun i _ => ?_
  simp only [Function.comp_apply, draw_after, Nat.succ_eq_add_one]
  rw [show 2 + 2 * i = 2 * (i + 1) by omega, show 2 + (2 * i + 1) = 2 * (i + 1) + 1 by omega, Nat.add_assoc l 1 i, Nat.add_comm 1 i]

theorem signers_get (E : Env F P) (R : Rng σ) (params : Params P) (s : σ) (l k i : ℕ) (hi : i < k) :
    (signersAt E R params s l k)[i]? =
      some ⟨params, (l + i) % params.n ^ params.m, draw E R s (2 * i), draw E R s (2 * i + 1)⟩ := by
  simp [signersAt, hi]

theorem signers_nodup (E : Env F P) (R : Rng σ) (params : Params P) (s : σ) (l k : ℕ) (hl : l < params.n ^ params.m)
    (hk : k ≤ params.n ^ params.m) : ((signersAt E R params s l k).map Witness.l).Nodup := by
  rw [signersAt, List.map_map, List.nodup_map_iff_inj_on List.nodup_range]
  intro i hi j hj h
  simp only [List.mem_range] at hi hj
  simp only [Function.comp_apply] at h
  have h1 : (l + i) % params.n ^ params.m < params.n ^ params.m := Nat.mod_lt _ (by omega)
  rw [← (position_iff _ l i _ hl (by omega) h1).1 rfl, ← (position_iff _ l j _ hl (by omega) h1).1 h]

theorem place_signers (E : Env F P) (R : Rng σ) (params : Params P) (s s' : σ) (l k : ℕ) (other other1 : ℕ → P)
    (hl : l < params.n ^ params.m) (hk : k ≤ params.n ^ params.m) :
    Bench.place E R params (signersAt E R params s l k) ((List.range (params.n ^ params.m)).map other)
        ((List.range (params.n ^ params.m)).map other1) s' =
      .ok (ringOf (params.n ^ params.m) l k (fun i => draw E R s (2 * i) • params.G) other,
        ringOf (params.n ^ params.m) l k (fun i => draw E R s (2 * i + 1) • params.G1 + draw E R s' i • params.G1) other1,
        (List.range k).map fun i => draw E R s' i • params.G1, after R s' k) := by
  have hmem : ∀ w ∈ signersAt E R params s l k, ∃ i < k,
      w = ⟨params, (l + i) % params.n ^ params.m, draw E R s (2 * i), draw E R s (2 * i + 1)⟩ := by
    intro w hw
    simp only [signersAt, List.mem_map, List.mem_range] at hw
    obtain ⟨i, hi, h⟩ := hw
    exact ⟨i, hi, h.symm⟩
  have hlen : (signersAt E R params s l k).length = k := by simp [signersAt]
  have hlt : ∀ (o : ℕ → P), ∀ w ∈ signersAt E R params s l k, w.l < ((List.range (params.n ^ params.m)).map o).length := by
    intro o w hw
    obtain ⟨i, hi, rfl⟩ := hmem w hw
    simpa using Nat.mod_lt _ (show 0 < params.n ^ params.m by omega)
  obtain ⟨M, M1, h1, h2, h2', h3, h4⟩ := place_eq E R params (signersAt E R params s l k) _ _ s' (hlt other) (hlt other1)
  have hn := h4 (signers_nodup E R params s l k hl hk)
  rw [h1, hlen,
    ringOf_ext _ l k (fun i => draw E R s (2 * i) • params.G) other hl hk M (by simpa using h2)
      (fun i hi => (hn i _ (signers_get E R params s l k i hi)).1) (fun j hj h => by
        rw [(h3 j fun w hw => by obtain ⟨i, hi, rfl⟩ := hmem w hw; exact h i hi).1]
        simp [hj]),
    ringOf_ext _ l k (fun i => draw E R s (2 * i + 1) • params.G1 + draw E R s' i • params.G1) other1 hl hk M1 (by simpa using h2')
      (fun i hi => (hn i _ (signers_get E R params s l k i hi)).2) (fun j hj h => by
        rw [(h3 j fun w hw => by obtain ⟨i, hi, rfl⟩ := hmem w hw; exact h i hi).2]
        simp [hj])]

/-- C113 for the parallel module: as `C113_data`; the signers' auxiliary keys are shifted by offsets drawn after the ring, and there
is a panic exactly if a key is the identity or an auxiliary key is one of the offsets. -/
theorem C113_data_parallel (E : Env F P) (cfg : Config) (R : Rng σ) (params : Params P) (b : ℕ) (s : σ) (hp : ParamsBuilt E params) :
    (params.n ^ params.m < b → Bench.generateData E cfg R params b s = .panic) ∧
    ∀ N l k s0 M M1 offset, N = params.n ^ params.m → l = (R.nextU64 s).1.toNat % N → k = max 1 b → s0 = (R.nextU64 s).2 →
      (offset = fun i => draw E R s0 (2 * k + 2 * N + i) • params.G1) →
      M = ringOf N l k (fun i => draw E R s0 (2 * i) • params.G) (fun j => drawPoint E R s0 (2 * k + j)) →
      M1 = ringOf N l k (fun i => draw E R s0 (2 * i + 1) • params.G1 + offset i) (fun j => drawPoint E R s0 (2 * k + N + j)) →
      b ≤ N →
      (0 ∈ M ∨ (∃ i < k, offset i ∈ M1) → Bench.generateData E cfg R params b s = .panic) ∧
      (0 ∉ M → (∀ i < k, offset i ∉ M1) → ∃ ws sts set, Bench.generateData E cfg R params b s =
          .ok (ws, sts, (List.range b).map fun i => (Transcript.new (asciiBytes "Test transcript")).appendU64 "index" i,
            after R s0 (2 * k + 2 * N + k)) ∧
        ws.length = k ∧ sts.length = k ∧ InputSet.new E M M1 = .ok set ∧
        ∀ i w st, ws[i]? = some w → sts[i]? = some st →
          WitnessBuilt E w ∧ StatementBuilt E st ∧ w.params = params ∧ st.params = params ∧ st.inputSet = set ∧ set.M = M ∧
          set.M1 = M1 ∧ st.offset = offset i ∧ w.l = (l + i) % N ∧ w.r = draw E R s0 (2 * i) ∧ w.r1 = draw E R s0 (2 * i + 1) ∧
          Rel params.G params.G1 params.U M M1 st.offset st.J w.l w.r w.r1) := by
  have hN := hp.ok.getN
  have hu := hp.ok.N
  refine ⟨fun h => by rw [Bench.generateData, if_pos (by rw [hN]; exact h)], ?_⟩
  rintro N l k s0 M M1 offset rfl rfl rfl rfl hoff hM hM1 hb
  have hpos : 0 < params.n ^ params.m := Nat.pow_pos (by have := hp.ok.n; omega)
  set N := params.n ^ params.m with hNd
  set l := (R.nextU64 s).1.toNat % N with hld
  set s0 := (R.nextU64 s).2 with hs0
  have hl : l < N := Nat.mod_lt _ hpos
  obtain ⟨k, hk⟩ : ∃ k, max 1 b = k + 1 := ⟨b - 1, by omega⟩
  have hkb : b - 1 = k := by omega
  rw [hk] at hM hM1 hoff ⊢
  have hkN : k + 1 ≤ N := by omega
  obtain ⟨w0, s1, hw0, w1, -, w3, w4, w4', w5⟩ := C47_random (ε := Unit) E R params s hp
  have hw0e : w0 = ⟨params, l, draw E R s0 0, draw E R s0 1⟩ := by
    cases w0; simp only at w1 w3 w4 w4'; rw [w1, w3, w4, w4']; rfl
  have hs1 : s1 = after R s0 2 := w5
  have hgen : Bench.generateData E cfg R params b s = (Bench.moreWitnesses E cfg R params k w0 s1 >>= fun x => (do
      let y ← Bench.place E R params (w0 :: x.1) (Triptych.Bench.points E R N x.2).1
        (Triptych.Bench.points E R N (Triptych.Bench.points E R N x.2).2).1
        (Triptych.Bench.points E R N (Triptych.Bench.points E R N x.2).2).2
      let inputSet ← RingCT.unwrap (InputSet.new E y.1 y.2.1)
      let sts ← Bench.statements E params inputSet (w0 :: x.1) y.2.2.1
      .ok (w0 :: x.1, sts, Triptych.Bench.transcripts b, y.2.2.2))) := by
    rw [Bench.generateData, if_neg (by rw [hN]; omega), hw0, Outcome.bind_ok]
    simp only [hkb, hN]
  have hlen : M.length = N := by rw [hM, ringOf_length]
  have hlen1 : M1.length = N := by rw [hM1, ringOf_length]
  have hmemM : ∀ i < k + 1, M[(l + i) % N]? = some (draw E R s0 (2 * i) • params.G) := fun i hi => by
    rw [hM]; exact ringOf_own N l (k + 1) i _ _ hl hkN hi
  have hmemM1 : ∀ i < k + 1, M1[(l + i) % N]? = some (draw E R s0 (2 * i + 1) • params.G1 + offset i) := fun i hi => by
    rw [hM1]; exact ringOf_own N l (k + 1) i _ _ hl hkN hi
  obtain ⟨set, hset, hsetM, hsetM1⟩ := (C46_input_set_new E M M1).2.2 (by rw [hlen, hlen1]) (by rw [hlen]; rw [u32Max] at hu; omega)
  have hdr : ∀ {i}, i < k + 1 → draw E R s0 (2 * i) = 0 → 0 ∈ M := fun {i} hi h0 => by
    have := hmemM i hi
    rw [h0, zero_smul] at this
    exact List.mem_of_getElem? this
  have hdr1 : ∀ {i}, i < k + 1 → draw E R s0 (2 * i + 1) = 0 → offset i ∈ M1 := fun {i} hi h0 => by
    have := hmemM1 i hi
    rw [h0, zero_smul, zero_add] at this
    exact List.mem_of_getElem? this
  have hall : (∀ i < 2 * k, draw E R s1 i ≠ 0) → Bench.generateData E cfg R params b s =
      (Bench.statements E params set (signersAt E R params s0 l (k + 1)) ((List.range (k + 1)).map offset) >>= fun sts =>
        .ok (signersAt E R params s0 l (k + 1), sts, Triptych.Bench.transcripts b,
          after R s0 (2 * (k + 1) + 2 * N + (k + 1)))) := by
    intro h
    rw [hgen, more_ok E cfg R params hp k w0 s1 (by rw [hw0e]; exact hl) h, Outcome.bind_ok]
    have hc : (w0 :: (List.range k).map fun i => ⟨params, (w0.l + 1 + i) % params.n ^ params.m, draw E R (after R s0 2) (2 * i),
        draw E R (after R s0 2) (2 * i + 1)⟩) = signersAt E R params s0 l (k + 1) := by
      rw [signers_cons E R params s0 l k hl, hw0e]
    simp only [points_eq, hs1, after_add]
    rw [hc]
    have hd : (List.range N).map (drawPoint E R (after R s0 (2 + 2 * k))) =
        (List.range N).map fun j => drawPoint E R s0 (2 * (k + 1) + j) :=
      List.map_congr_left fun j _ => by rw [drawPoint_after, show 2 + 2 * k = 2 * (k + 1) by omega]
    have hd1 : (List.range N).map (drawPoint E R (after R s0 (2 + 2 * k + N))) =
        (List.range N).map fun j => drawPoint E R s0 (2 * (k + 1) + N + j) :=
      List.map_congr_left fun j _ => by rw [drawPoint_after, show 2 + 2 * k = 2 * (k + 1) by omega]
    have hst : 2 + 2 * k + N + N = 2 * (k + 1) + 2 * N := by omega
    have ho : ∀ i, draw E R (after R s0 (2 * (k + 1) + 2 * N)) i • params.G1 = offset i := fun i => by
      rw [draw_after, hoff]
    have hpl := place_signers E R params s0 (after R s0 (2 * (k + 1) + 2 * N)) l (k + 1)
      (fun j => drawPoint E R s0 (2 * (k + 1) + j)) (fun j => drawPoint E R s0 (2 * (k + 1) + N + j)) hl hkN
    simp only [ho, after_add] at hpl
    rw [← hNd, ← hM, ← hM1] at hpl
    rw [hd, hd1, hst, hpl, Outcome.bind_ok, hset, RingCT.unwrap, Outcome.bind_ok]
  constructor
  · intro h0
    by_cases h : ∀ i < 2 * k, draw E R s1 i ≠ 0
    · rw [hall h, statements_panic E params hp set (by rw [hsetM, hlen]) _ _ (by simp [signersAt]) (by simp [signersAt])]
      · rfl
      · rw [hsetM, hsetM1]
        rcases h0 with h0 | ⟨i, hi, h0⟩
        · exact Or.inl h0
        · exact Or.inr ⟨offset i, List.mem_map_of_mem (List.mem_range.2 hi), h0⟩
    · push Not at h
      rw [hgen, more_panic E cfg R params hp k w0 s1 (by rw [hw0e]; exact hl) h]
      rfl
  · intro h0 h01
    have h : ∀ i < 2 * k, draw E R s1 i ≠ 0 := fun i hi hz => by
      rw [hs1, draw_after] at hz
      rcases Nat.even_or_odd' i with ⟨c, rfl | rfl⟩
      · exact h0 (hdr (i := c + 1) (by omega) (by rw [show 2 * (c + 1) = 2 + 2 * c by omega]; exact hz))
      · exact h01 (c + 1) (by omega)
          (hdr1 (i := c + 1) (by omega) (by rw [show 2 * (c + 1) + 1 = 2 + (2 * c + 1) by omega]; exact hz))
    obtain ⟨sts, e1, e2, e3⟩ := statements_ok E params hp set (by rw [hsetM, hlen]) (by rw [hsetM]; exact h0)
      (signersAt E R params s0 l (k + 1)) ((List.range (k + 1)).map offset) (by simp [signersAt]) (by
        intro o ho
        simp only [List.mem_map, List.mem_range] at ho
        obtain ⟨i, hi, rfl⟩ := ho
        rw [hsetM1]
        exact h01 i hi)
    refine ⟨signersAt E R params s0 l (k + 1), sts, set, by rw [hall h, e1]; rfl, by simp [signersAt], by rw [e2]; simp [signersAt],
      hset, ?_⟩
    intro i w st hw hst
    have hi : i < k + 1 := by
      have := (List.getElem?_eq_some_iff.1 hw).1
      simpa [signersAt] using this
    obtain ⟨st', f1, f2, f3, f4, f5, f6⟩ := e3 i w (offset i) hw (by simp [hi])
    rw [hst] at f1
    simp only [Option.some.injEq] at f1
    subst f1
    rw [signers_get E R params s0 l (k + 1) i hi] at hw
    simp only [Option.some.injEq] at hw
    have hr : draw E R s0 (2 * i) ≠ 0 := fun hz => h0 (hdr hi hz)
    have hr1 : draw E R s0 (2 * i + 1) ≠ 0 := fun hz => h01 i hi (hdr1 hi hz)
    have hlt : (l + i) % N < N := Nat.mod_lt _ hpos
    subst hw
    refine ⟨?_, ⟨params, set, _, _, hp, Or.inl ⟨_, _, hset⟩, f2⟩, rfl, f3, f4, hsetM, hsetM1, f5, rfl, rfl, rfl, hmemM i hi,
      by rw [f5]; exact hmemM1 i hi, ?_⟩
    · obtain ⟨w', g1, g2, g3, g4, g5⟩ := (C47_new E params ((l + i) % N) (draw E R s0 (2 * i)) (draw E R s0 (2 * i + 1)) hp).2.2.2
        hr hr1 hlt
      refine .new params _ _ _ _ hp (g1.trans ?_)
      congr 1
      cases w'; simp only at g2 g3 g4 g5; rw [g2, g3, g4, g5]
    · rw [f6]
      exact (C47_relation (⟨params, (l + i) % N, draw E R s0 (2 * i), draw E R s0 (2 * i + 1)⟩ : Witness F P) hr).2.2

/-- Proving for all signers. -/
theorem proveAll_eq (E : Env F P) (R : Rng σ) (timing : OperationTiming) :
    ∀ (ws : List (Witness F P)) (sts : List (Statement P)) (ts : List Transcript) (s : σ),
    ws.length = sts.length → ws.length = ts.length →
    (∀ (i : ℕ) w st, ws[i]? = some w → sts[i]? = some st → WitnessBuilt E w ∧ StatementBuilt E st ∧ w.params = st.params ∧
      Spec.Rel st.params.G st.params.G1 st.params.U st.inputSet.M st.inputSet.M1 st.offset st.J w.l w.r w.r1) →
    ((∃ (i : ℕ) (w : _) (st : _) (t : _) (s' : _), ws[i]? = some w ∧ sts[i]? = some st ∧ ts[i]? = some t ∧
        (Proof.proveInternal E R w st s' t timing).1 = .err .InvalidChallenge) ∧ Bench.proveAll E R timing ws sts ts s = .panic) ∨
    ∃ ps s', Bench.proveAll E R timing ws sts ts s = .ok (ps, s') ∧ ps.length = ws.length ∧
      ∀ x ∈ sts.zip (ps.zip ts), Honest E x.1 x.2.2 x.2.1 := by
  intro ws
  induction ws with
  | nil =>
    intro sts ts s h1 h2 _
    cases sts with
    | nil => exact Or.inr ⟨[], s, rfl, rfl, fun x hx => by simp at hx⟩
    | cons => simp at h1
  | cons w ws ih =>
    intro sts ts s h1 h2 hall
    obtain _ | ⟨st, sts⟩ := sts
    · simp at h1
    obtain _ | ⟨t, ts⟩ := ts
    · simp at h2
    obtain ⟨hw, hst, hp, hrel⟩ := hall 0 w st rfl rfl
    obtain ⟨nn, ξ, -, -, b1, b2⟩ := C48_accept E R w st s t timing hw hst hp hrel
    by_cases hξ : ξ = 0
    · refine Or.inl ⟨⟨0, w, st, t, s, rfl, rfl, rfl, b1 hξ⟩, ?_⟩
      simp only [Bench.proveAll, b1 hξ]
      rfl
    · have b := b2 hξ
      have hpr : Bench.proveAll E R timing (w :: ws) (st :: sts) (t :: ts) s =
          (Bench.proveAll E R timing ws sts ts (Proof.proveInternal E R w st s t timing).2.2 >>= fun x =>
            .ok (honestProof st.params st.inputSet.M st.inputSet.M1 st.offset st.J w.l w.r w.r1 nn ξ :: x.1, x.2)) := by
        simp only [Bench.proveAll, b, RingCT.unwrap, Outcome.bind_ok]
      rcases ih sts ts (Proof.proveInternal E R w st s t timing).2.2 (by simpa using h1) (by simpa using h2)
        (fun i w' st' hw' hst' => hall (i + 1) w' st' hw' hst') with ⟨⟨i, w', st', t', s', c1, c2, c3, c4⟩, c5⟩ | ⟨ps, s', c1, c2, c3⟩
      · refine Or.inl ⟨⟨i + 1, w', st', t', s', c1, c2, c3, c4⟩, ?_⟩
        rw [hpr, c5]
        rfl
      · refine Or.inr ⟨_, _, by rw [hpr, c1]; rfl, by simp [c2], ?_⟩
        intro x hx
        simp only [List.zip_cons_cons, List.mem_cons] at hx
        rcases hx with rfl | hx
        · exact ⟨σ, R, w, s, timing, hw, b⟩
        · exact c3 x hx

theorem proveAll_timing (E : Env F P) (R : Rng σ) : ∀ (ws : List (Witness F P)) (sts : List (Statement P)) (ts : List Transcript) (s : σ),
    (∀ w ∈ ws, WitnessBuilt E w) → (∀ st ∈ sts, StatementBuilt E st) →
    Bench.proveAll E R .Variable ws sts ts s = Bench.proveAll E R .Constant ws sts ts s := by
  intro ws
  induction ws with
  | nil => intro sts ts s _ _; rfl
  | cons w ws ih =>
    intro sts ts s h1 h2
    obtain _ | ⟨st, sts⟩ := sts
    · rfl
    obtain _ | ⟨t, ts⟩ := ts
    · rfl
    have h := C48_timing E R w st s t (h1 w (by simp)) (h2 st (by simp))
    rw [Proof.proveWithRngVartime, Proof.proveWithRng] at h
    simp only [Bench.proveAll, h]
    congr 1
    funext p
    rw [ih sts ts _ (fun w' h => h1 w' (by simp [h])) (fun st' h => h2 st' (by simp [h]))]

/-- C113 for the parallel module: as `C113_batch`. For at least one signer: either a prover call reports a zero
challenge, and the benchmark and the test panic; or all proofs are made, with either timing the same, and then the benchmark's
`unwrap` and all three assertions of the test (batch, single blame, full blame) succeed unless a response entry is zero, in which
case both panic. -/
theorem C113_batch_parallel (E : Env F P) (cfg : Config) (R : Rng σ) (n m b : ℕ) (s s' : σ) (params : Params P) (ws : List (Witness F P))
    (sts : List (Statement P)) (ts : List Transcript) (hp : Params.new E n m = .ok params) (hb : 1 ≤ b)
    (h : Bench.generateData E cfg R params b s = .ok (ws, sts, ts, s')) :
    ((∃ (i : ℕ) (w : _) (st : _) (t : _) (s'' : _), ws[i]? = some w ∧ sts[i]? = some st ∧ ts[i]? = some t ∧
        (Proof.proveWithRng E R w st s'' t).1 = .err .InvalidChallenge) ∧
      Bench.benchBatch E cfg R n m b s = .panic ∧ Bench.testBatch E cfg R n m b s = .panic) ∨
    ∃ ps s'', (∀ timing, Bench.proveAll E R timing ws sts ts s' = .ok (ps, s'')) ∧ ps.length = b ∧
      (∀ x ∈ sts.zip (ps.zip ts), Honest E x.1 x.2.2 x.2.1) ∧
      (SizeOK cfg params b → EnoughFuel E sts ps ts cfg.fuel →
        (BatchNonzeroF params ps (challenges E sts ps ts) →
          Bench.benchBatch E cfg R n m b s = .ok () ∧ Bench.testBatch E cfg R n m b s = .ok ()) ∧
        (¬ BatchNonzeroF params ps (challenges E sts ps ts) →
          Bench.benchBatch E cfg R n m b s = .panic ∧ Bench.testBatch E cfg R n m b s = .panic)) := by
  have hpb : ParamsBuilt E params := ⟨_, _, _, _, _, hp⟩
  obtain ⟨d1, d2⟩ := C113_data_parallel E cfg R params b s hpb
  have hbN : b ≤ params.n ^ params.m := by
    by_contra hc
    rw [d1 (by omega)] at h
    cases h
  obtain ⟨d3, d4⟩ := d2 _ _ _ _ _ _ _ rfl rfl rfl rfl rfl rfl rfl hbN
  obtain ⟨ws', sts', set, e1, e2, e3, -, e5⟩ := d4 (fun h0 => by rw [d3 (Or.inl h0)] at h; cases h)
    (fun i hi h0 => by rw [d3 (Or.inr ⟨i, hi, h0⟩)] at h; cases h)
  rw [e1] at h
  simp only [Outcome.ok.injEq, Prod.mk.injEq] at h
  obtain ⟨rfl, rfl, hts, hs'⟩ := h
  rw [hts, hs'] at e1
  have hk : max 1 b = b := by omega
  rw [hk] at e2 e3
  have htl : ts.length = b := by rw [← hts]; simp
  have hall : ∀ (i : ℕ) w st, ws'[i]? = some w → sts'[i]? = some st → WitnessBuilt E w ∧ StatementBuilt E st ∧ w.params = st.params ∧
      Spec.Rel st.params.G st.params.G1 st.params.U st.inputSet.M st.inputSet.M1 st.offset st.J w.l w.r w.r1 := by
    intro i w st hw hst
    obtain ⟨f1, f2, f3, f4, f5, f6, f7, -, -, -, -, f9⟩ := e5 i w st hw hst
    exact ⟨f1, f2, by rw [f3, f4], by rw [f4, f5, f6, f7]; exact f9⟩
  have hst : ∀ st ∈ sts', StatementBuilt E st ∧ st.params = params ∧ st.inputSet = set := by
    intro st hst
    obtain ⟨i, hi, rfl⟩ := List.getElem_of_mem hst
    obtain ⟨f1, f2, f3, f4, f5, f6, f7, -, -, -, -, f9⟩ := e5 i _ _ (List.getElem?_eq_getElem (by rw [e2, ← e3]; exact hi))
      (List.getElem?_eq_getElem hi)
    exact ⟨f2, f4, f5⟩
  have hwb : ∀ w ∈ ws', WitnessBuilt E w := by
    intro w hw
    obtain ⟨i, hi, rfl⟩ := List.getElem_of_mem hw
    exact (e5 i _ _ (List.getElem?_eq_getElem hi) (List.getElem?_eq_getElem (by rw [e3, ← e2]; exact hi))).1
  have htime := proveAll_timing E R ws' sts' ts s' hwb fun st h => (hst st h).1
  have hbench : Bench.benchBatch E cfg R n m b s = (Bench.proveAll E R .Constant ws' sts' ts s' >>= fun x =>
      RingCT.unwrap (Proof.verifyBatch E cfg sts' x.1 ts).1) := by
    rw [Bench.benchBatch, hp]
    simp only [RingCT.unwrap, Outcome.bind_ok, e1, htime]
  have htest : Bench.testBatch E cfg R n m b s = (Bench.proveAll E R .Constant ws' sts' ts s' >>= fun x => (do
      RingCT.unwrap (Proof.verifyBatch E cfg sts' x.1 ts).1
      RingCT.unwrap (Proof.verifyBatchWithSingleBlame E cfg sts' x.1 ts).1
      RingCT.unwrap (Proof.verifyBatchWithFullBlame E cfg sts' x.1 ts).1)) := by
    rw [Bench.testBatch, hp]
    simp only [RingCT.unwrap, Outcome.bind_ok, e1]
  rcases proveAll_eq E R .Constant ws' sts' ts s' (by rw [e2, e3]) (by rw [e2, htl]) hall with ⟨c1, c2⟩ | ⟨ps, s'', c1, c2, c3⟩
  · refine Or.inl ⟨c1, ?_, ?_⟩
    · rw [hbench, c2]; rfl
    · rw [htest, c2]; rfl
  · refine Or.inr ⟨ps, s'', fun timing => by cases timing; exacts [c1, htime.trans c1], by rw [c2, e2], c3, fun hsz hf => ?_⟩
    obtain _ | ⟨first, rest⟩ := sts'
    · simp only [List.length_nil] at e3; omega
    obtain ⟨g1, g2, g3⟩ := hst first (by simp)
    have hB := C49_batch E cfg first rest ps ts (fun st h => (hst st h).1) (fun st h => by rw [(hst st h).2.1, g2])
      (fun st h => by rw [(hst st h).2.2, g3]) (by rw [e3, c2, e2]) (by rw [e3, htl]) c3 (by rw [g2, c2, e2]; exact hsz) hf
    rw [g2] at hB
    rw [hbench, htest, c1]
    simp only [Outcome.bind_ok]
    constructor
    · intro hz
      have hv := hB.1 hz
      refine ⟨by rw [hv]; rfl, ?_⟩
      simp only [Proof.verifyBatchWithSingleBlame, Proof.verifyBatchWithFullBlame, hv]
      rfl
    · intro hz
      have hv := hB.2 hz
      exact ⟨by rw [hv]; rfl, by rw [hv]; rfl⟩

/-- Three signers in a ring of eight, at the positions 6, 7 and 0; the tests pass. With more signers than positions, or a generator
that only returns zero, there is a panic. -/
example : (Bench.generateData (Triptych.Toy.env 101) Triptych.Toy.cfg Triptych.Toy.counting Toy.params 3 1).isOk = true ∧
    Bench.benchBatch (Triptych.Toy.env 101) Triptych.Toy.cfg Triptych.Toy.counting 2 3 3 1 = .ok () ∧
    Bench.testBatch (Triptych.Toy.env 101) Triptych.Toy.cfg Triptych.Toy.counting 2 3 3 1 = .ok () ∧
    Bench.testBatch (Triptych.Toy.env 101) Triptych.Toy.cfg Triptych.Toy.counting 2 3 9 0 = .panic ∧
    Bench.testBatch (Triptych.Toy.env 101) Triptych.Toy.cfg nullRng 2 3 3 () = .panic :=
  ⟨by decide +kernel, by decide +kernel, by decide +kernel, by decide +kernel, by decide +kernel⟩

end Triptych.Parallel
