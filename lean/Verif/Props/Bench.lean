import Verif.Props.Example
import Verif.Props.Blame
import Verif.Props.Parallel.Blame
import Verif.Model.Bench
import Verif.Spec.Bench

/-! # Several signers with one ring, as in the benchmarks and unit tests: C113 -/
set_option autoImplicit false
set_option linter.unusedSectionVars false
set_option linter.unusedVariables false

namespace Triptych
open Spec

/-! ## Positions -/

theorem add_mod_cases (N l i : ℕ) (hl : l < N) (hi : i < N) : (l + i) % N = if l + i < N then l + i else l + i - N := by
  split
  · exact Nat.mod_eq_of_lt ‹_›
  · rw [Nat.mod_eq_sub_mod (by omega), Nat.mod_eq_of_lt (by omega)]

theorem back_mod_cases (N l j : ℕ) (hl : l < N) (hj : j < N) : (j + N - l) % N = if l ≤ j then j - l else j + N - l := by
  split
  · rw [show j + N - l = (j - l) + N by omega, Nat.add_mod_right, Nat.mod_eq_of_lt (by omega)]
  · exact Nat.mod_eq_of_lt (by omega)

theorem position_iff (N l i j : ℕ) (hl : l < N) (hi : i < N) (hj : j < N) : j = (l + i) % N ↔ (j + N - l) % N = i := by
  rw [add_mod_cases N l i hl hi, back_mod_cases N l j hl hj]
  split <;> split <;> omega

theorem ringOf_length {P : Type} (N l k : ℕ) (own other : ℕ → P) : (ringOf N l k own other).length = N := by simp [ringOf]

theorem ringOf_own {P : Type} (N l k i : ℕ) (own other : ℕ → P) (hl : l < N) (hk : k ≤ N) (hi : i < k) :
    (ringOf N l k own other)[(l + i) % N]? = some (own i) := by
  have h : (l + i) % N < N := Nat.mod_lt _ (by omega)
  have h1 := (position_iff N l i _ hl (by omega) h).1 rfl
  simp [ringOf, h, h1, hi]

/-- A list that has the signers' points at their positions and the others elsewhere. -/
theorem ringOf_ext {P : Type} (N l k : ℕ) (own other : ℕ → P) (hl : l < N) (hk : k ≤ N) (M : List P) (hM : M.length = N)
    (h1 : ∀ i < k, M[(l + i) % N]? = some (own i)) (h2 : ∀ j < N, (∀ i < k, (l + i) % N ≠ j) → M[j]? = some (other j)) :
    M = ringOf N l k own other := by
  apply List.ext_getElem?
  intro j
  by_cases hj : j < N
  · have h3 : (ringOf N l k own other)[j]? =
        some (if (j + N - l) % N < k then own ((j + N - l) % N) else other j) := by simp [ringOf, hj]
    rw [h3]
    split
    · rename_i h4
      have h5 := (position_iff N l ((j + N - l) % N) j hl (by omega) hj).2 rfl
      have h6 := h1 _ h4
      rw [← h5] at h6
      exact h6
    · rename_i h4
      refine h2 j hj fun i hi he => h4 ?_
      rw [(position_iff N l i j hl (by omega) hj).1 he.symm]
      exact hi
  · rw [List.getElem?_eq_none (by omega), List.getElem?_eq_none (by rw [ringOf_length]; omega)]

/-! ## Draws -/

theorem after_add {σ : Type} (R : Rng σ) (s : σ) (a b : ℕ) : after R (after R s a) b = after R s (a + b) := by
  rw [after, after, after, Nat.add_comm, Function.iterate_add_apply]

theorem after_one {σ : Type} (R : Rng σ) (s : σ) : (R.fill s 64).2 = after R s 1 := rfl

theorem draw_after {F P σ : Type} (E : Env F P) (R : Rng σ) (s : σ) (a k : ℕ) : draw E R (after R s a) k = draw E R s (a + k) := by
  rw [draw, draw, after_add]

theorem drawPoint_after {F P σ : Type} (E : Env F P) (R : Rng σ) (s : σ) (a k : ℕ) :
    drawPoint E R (after R s a) k = drawPoint E R s (a + k) := by
  rw [drawPoint, drawPoint, after_add]

theorem points_eq {F P σ : Type} (E : Env F P) (R : Rng σ) (k : ℕ) (s : σ) :
    Bench.points E R k s = ((List.range k).map (drawPoint E R s), after R s k) := by
  induction k generalizing s with
  | zero => rfl
  | succ k ih =>
    simp only [Bench.points, Example.randomPoint]
    rw [ih, after_one, after_add, Nat.add_comm 1 k, List.range_succ_eq_map, List.map_cons, List.map_map]
    simp only [Prod.mk.injEq, List.cons.injEq, and_true]
    refine ⟨rfl, List.map_congr_left fun i _ => ?_⟩
    rw [drawPoint_after, Function.comp_apply, Nat.succ_eq_add_one, Nat.add_comm]

theorem nextIndex_eq (cfg : Config) (l N : ℕ) (hl : l < N) (hN : N ≤ u32Max) : Bench.nextIndex cfg l N = .ok ((l + 1) % N) := by
  rw [Bench.nextIndex, uncheckedU32, if_pos (by omega), Parallel.RingCT.unwrap, Outcome.bind_ok, if_neg (by omega)]

/-! ## The data -/

section single
variable {F P σ : Type} [Field F] [AddCommGroup P] [Module F P] [DecidableEq F] [DecidableEq P]

theorem more_ok (E : Env F P) (cfg : Config) (R : Rng σ) (params : Params P) (hp : ParamsBuilt E params) (k : ℕ) :
    ∀ (w : Witness F P) (s : σ), w.l < params.n ^ params.m → (∀ i < k, draw E R s i ≠ 0) →
    Bench.moreWitnesses E cfg R params k w s = .ok ((List.range k).map fun i =>
      ⟨params, (w.l + 1 + i) % params.n ^ params.m, draw E R s i⟩, after R s k) := by
  have hN := hp.ok.getN
  have hu := hp.ok.N
  induction k with
  | zero => intro w s _ _; rfl
  | succ k ih =>
    intro w s hw hr
    have hlt : (w.l + 1) % params.n ^ params.m < params.n ^ params.m := Nat.mod_lt _ (by omega)
    have h0 : E.scalarOfWide (R.fill s 64).1 = draw E R s 0 := rfl
    obtain ⟨w', h1, h2, h3, h4⟩ := (C08_new E params ((w.l + 1) % params.n ^ params.m) (draw E R s 0) hp).2.2 (hr 0 (by omega)) hlt
    have h5 : w' = ⟨params, (w.l + 1) % params.n ^ params.m, draw E R s 0⟩ := by
      cases w'; simp only at h2 h3 h4; rw [h2, h3, h4]
    simp only [Bench.moreWitnesses]
    rw [hN, nextIndex_eq cfg _ _ hw hu, Outcome.bind_ok, h0, h1, Parallel.RingCT.unwrap, Outcome.bind_ok, after_one,
      ih w' (after R s 1) (by rw [h3]; exact hlt) (fun i hi => by rw [draw_after]; exact hr _ (by omega)), Outcome.bind_ok,
      after_add, Nat.add_comm 1 k, List.range_succ_eq_map, List.map_cons, List.map_map, h5]
    congr 3
    refine List.map_congr_left fun i _ => ?_
    simp only [Function.comp_apply, draw_after, Nat.succ_eq_add_one]
    rw [Nat.add_comm 1 i, Nat.add_assoc, Nat.mod_add_mod, Nat.add_comm 1 i]

theorem more_panic (E : Env F P) (cfg : Config) (R : Rng σ) (params : Params P) (hp : ParamsBuilt E params) (k : ℕ) :
    ∀ (w : Witness F P) (s : σ), w.l < params.n ^ params.m → (∃ i < k, draw E R s i = 0) →
    Bench.moreWitnesses E cfg R params k w s = .panic := by
  have hN := hp.ok.getN
  have hu := hp.ok.N
  induction k with
  | zero => rintro w s _ ⟨i, hi, _⟩; omega
  | succ k ih =>
    rintro w s hw ⟨i, hi, hi0⟩
    have hlt : (w.l + 1) % params.n ^ params.m < params.n ^ params.m := Nat.mod_lt _ (by omega)
    have h0 : E.scalarOfWide (R.fill s 64).1 = draw E R s 0 := rfl
    simp only [Bench.moreWitnesses]
    rw [hN, nextIndex_eq cfg _ _ hw hu, Outcome.bind_ok, h0]
    by_cases hz : draw E R s 0 = 0
    · rw [(C08_new E params _ _ hp).1 hz]
      rfl
    · obtain ⟨w', h1, h2, h3, h4⟩ := (C08_new E params ((w.l + 1) % params.n ^ params.m) (draw E R s 0) hp).2.2 hz hlt
      rw [h1, Parallel.RingCT.unwrap, Outcome.bind_ok, after_one, ih w' (after R s 1) (by rw [h3]; exact hlt)]
      · rfl
      · obtain ⟨i, rfl⟩ : ∃ i', i = i' + 1 := ⟨i - 1, by
          rcases Nat.eq_zero_or_pos i with rfl | h
          · exact absurd hi0 hz
          · omega⟩
        exact ⟨i, by omega, by rw [draw_after, Nat.add_comm]; exact hi0⟩

theorem place_eq (ws : List (Witness F P)) : ∀ (M : List P), (∀ w ∈ ws, w.l < M.length) →
    ∃ M', Bench.place ws M = .ok M' ∧ M'.length = M.length ∧ (∀ j, (∀ w ∈ ws, w.l ≠ j) → M'[j]? = M[j]?) ∧
      ((ws.map Witness.l).Nodup → ∀ w ∈ ws, M'[w.l]? = some w.computeVerificationKey) := by
  induction ws with
  | nil => intro M _; exact ⟨M, rfl, rfl, fun _ _ => rfl, fun _ w h => by simp at h⟩
  | cons w ws ih =>
    intro M hM
    have hw := hM w (by simp)
    obtain ⟨M', h1, h2, h3, h4⟩ := ih (M.set w.l w.computeVerificationKey) (fun w' h => by
      rw [List.length_set]; exact hM w' (by simp [h]))
    refine ⟨M', by rw [Bench.place, if_pos hw, h1], by rw [h2, List.length_set], fun j hj => ?_, fun hnd w' hw' => ?_⟩
    · rw [h3 j fun w' h => hj w' (by simp [h]), List.getElem?_set_ne (hj w (by simp))]
    · rw [List.map_cons, List.nodup_cons] at hnd
      rcases List.mem_cons.1 hw' with rfl | h
      · rw [h3 w'.l fun w'' h he => hnd.1 (he ▸ List.mem_map_of_mem h), List.getElem?_set_self hw]
      · exact h4 hnd.2 w' h

theorem statements_ok (E : Env F P) (params : Params P) (hp : ParamsBuilt E params) (i : InputSet P)
    (h1 : i.M.length = params.n ^ params.m) (h2 : 0 ∉ i.M) (ws : List (Witness F P)) :
    ∃ sts, Bench.statements E params i ws = .ok sts ∧ sts.length = ws.length ∧ ∀ (j : ℕ) w, ws[j]? = some w → ∃ st, sts[j]? = some st ∧
      Statement.new E params i w.computeLinkingTag = .ok st ∧ st.params = params ∧ st.inputSet = i ∧ st.J = w.computeLinkingTag := by
  induction ws with
  | nil => exact ⟨[], rfl, rfl, fun j w h => by simp at h⟩
  | cons w ws ih =>
    obtain ⟨sts, h3, h4, h5⟩ := ih
    obtain ⟨st, h6, h7⟩ := (C06_new E params i w.computeLinkingTag hp).2.2 h1 h2
    refine ⟨st :: sts, by rw [Bench.statements, h6, Parallel.RingCT.unwrap, Outcome.bind_ok, h3]; rfl, by simp [h4], fun j w' hj => ?_⟩
    cases j with
    | zero =>
      simp only [List.getElem?_cons_zero, Option.some.injEq] at hj
      subst hj
      exact ⟨st, rfl, h6, h7⟩
    | succ j => exact h5 j w' hj

theorem statements_panic (E : Env F P) (params : Params P) (hp : ParamsBuilt E params) (i : InputSet P)
    (h1 : i.M.length = params.n ^ params.m) (h2 : 0 ∈ i.M) (w : Witness F P) (ws : List (Witness F P)) :
    Bench.statements E params i (w :: ws) = .panic := by
  rw [Bench.statements, (C06_new E params i w.computeLinkingTag hp).2.1 h1 h2]
  rfl

/-- The witnesses of the signers at `l` and the following positions. -/
def signersAt (E : Env F P) (R : Rng σ) (params : Params P) (s : σ) (l k : ℕ) : List (Witness F P) :=
  (List.range k).map fun i => ⟨params, (l + i) % params.n ^ params.m, draw E R s i⟩

theorem signers_cons (E : Env F P) (R : Rng σ) (params : Params P) (s : σ) (l k : ℕ) (hl : l < params.n ^ params.m) :
    signersAt E R params s l (k + 1) = ⟨params, l, draw E R s 0⟩ ::
      (List.range k).map fun i => ⟨params, (l + 1 + i) % params.n ^ params.m, draw E R (after R s 1) i⟩ := by
  rw [signersAt, List.range_succ_eq_map, List.map_cons, List.map_map, Nat.add_zero, Nat.mod_eq_of_lt hl]
  congr 1
  refine List.map_congr_left fun i _ => ?_
  simp only [Function.comp_apply, draw_after, Nat.succ_eq_add_one]
  rw [Nat.add_comm 1 i, Nat.add_assoc l 1 i, Nat.add_comm 1 i]

theorem signers_get (E : Env F P) (R : Rng σ) (params : Params P) (s : σ) (l k i : ℕ) (hi : i < k) :
    (signersAt E R params s l k)[i]? = some ⟨params, (l + i) % params.n ^ params.m, draw E R s i⟩ := by
  simp [signersAt, hi]

theorem signers_nodup (E : Env F P) (R : Rng σ) (params : Params P) (s : σ) (l k : ℕ) (hl : l < params.n ^ params.m)
    (hk : k ≤ params.n ^ params.m) : ((signersAt E R params s l k).map Witness.l).Nodup := by
  rw [signersAt, List.map_map, List.nodup_map_iff_inj_on List.nodup_range]
  intro i hi j hj h
  simp only [List.mem_range] at hi hj
  simp only [Function.comp_apply] at h
  have h1 : (l + i) % params.n ^ params.m < params.n ^ params.m := Nat.mod_lt _ (by omega)
  rw [← (position_iff _ l i _ hl (by omega) h1).1 rfl, ← (position_iff _ l j _ hl (by omega) h1).1 h]

theorem place_signers (E : Env F P) (R : Rng σ) (params : Params P) (s : σ) (l k : ℕ) (other : ℕ → P)
    (hl : l < params.n ^ params.m) (hk : k ≤ params.n ^ params.m) :
    Bench.place (signersAt E R params s l k) ((List.range (params.n ^ params.m)).map other) =
      .ok (ringOf (params.n ^ params.m) l k (fun i => draw E R s i • params.G) other) := by
  have hmem : ∀ w ∈ signersAt E R params s l k, ∃ i < k, w = ⟨params, (l + i) % params.n ^ params.m, draw E R s i⟩ := by
    intro w hw
    simp only [signersAt, List.mem_map, List.mem_range] at hw
    obtain ⟨i, hi, h⟩ := hw
    exact ⟨i, hi, h.symm⟩
  obtain ⟨M, h1, h2, h3, h4⟩ := place_eq (signersAt E R params s l k) ((List.range (params.n ^ params.m)).map other) (by
    intro w hw
    obtain ⟨i, hi, rfl⟩ := hmem w hw
    simpa using Nat.mod_lt _ (show 0 < params.n ^ params.m by omega))
  rw [h1]
  congr 1
  refine ringOf_ext _ l k _ other hl hk M (by simpa using h2) (fun i hi => ?_) (fun j hj h => ?_)
  · exact h4 (signers_nodup E R params s l k hl hk) _ (List.mem_of_getElem? (signers_get E R params s l k i hi))
  · rw [h3 j fun w hw => by
      obtain ⟨i, hi, rfl⟩ := hmem w hw
      exact h i hi]
    simp [hj]

/-- C113: the data for a batch of `b` signers in one ring, as the benchmarks and unit tests make it, for every behaviour of the
generator. With more signers than positions it panics; otherwise it panics exactly if the ring contains the identity. If it does not
panic, there is one signer even for `b = 0`; the signers hold the keys at the drawn position and the following ones, all with the
same ring, the secret keys are the first draws and the other ring members the later ones, and every statement is true for its
witness. -/
theorem C113_data (E : Env F P) (cfg : Config) (R : Rng σ) (params : Params P) (b : ℕ) (s : σ) (hp : ParamsBuilt E params) :
    (params.n ^ params.m < b → Bench.generateData E cfg R params b s = .panic) ∧
    ∀ N l k s0 M, N = params.n ^ params.m → l = (R.nextU64 s).1.toNat % N → k = max 1 b → s0 = (R.nextU64 s).2 →
      M = ringOf N l k (fun i => draw E R s0 i • params.G) (fun j => drawPoint E R s0 (k + j)) → b ≤ N →
      (0 ∈ M → Bench.generateData E cfg R params b s = .panic) ∧
      (0 ∉ M → ∃ ws sts set, Bench.generateData E cfg R params b s =
          .ok (ws, sts, (List.range b).map fun i => (Transcript.new (asciiBytes "Test transcript")).appendU64 "index" i,
            after R s0 (k + N)) ∧
        ws.length = k ∧ sts.length = k ∧ InputSet.new E M = .ok set ∧
        ∀ i w st, ws[i]? = some w → sts[i]? = some st →
          WitnessBuilt E w ∧ StatementBuilt E st ∧ w.params = params ∧ st.params = params ∧ st.inputSet = set ∧ set.M = M ∧
          w.l = (l + i) % N ∧ w.r = draw E R s0 i ∧ Rel params.G params.U M st.J w.l w.r) := by
  have hN := hp.ok.getN
  have hu := hp.ok.N
  refine ⟨fun h => by rw [Bench.generateData, if_pos (by rw [hN]; exact h)], ?_⟩
  rintro N l k s0 M rfl rfl rfl rfl hM hb
  have hpos : 0 < params.n ^ params.m := Nat.pow_pos (by have := hp.ok.n; omega)
  set N := params.n ^ params.m with hNd
  set l := (R.nextU64 s).1.toNat % N with hld
  set s0 := (R.nextU64 s).2 with hs0
  have hl : l < N := Nat.mod_lt _ hpos
  obtain ⟨k, hk⟩ : ∃ k, max 1 b = k + 1 := ⟨b - 1, by omega⟩
  have hkb : b - 1 = k := by omega
  rw [hk] at hM ⊢
  have hkN : k + 1 ≤ N := by omega
  obtain ⟨w0, s1, hw0, w1, -, w3, w4, w5⟩ := C09_random (ε := Unit) E R params s hp
  have hw0b : WitnessBuilt E w0 := .random σ R s s1 params w0 hp hw0
  have hw0e : w0 = ⟨params, l, draw E R s0 0⟩ := by
    cases w0; simp only at w1 w3 w4; rw [w1, w3, w4]; rfl
  have hs1 : s1 = after R s0 1 := w5
  have hgen : Bench.generateData E cfg R params b s = (Bench.moreWitnesses E cfg R params k w0 s1 >>= fun x => (do
      let M ← Bench.place (w0 :: x.1) (Bench.points E R N x.2).1
      let inputSet ← Parallel.RingCT.unwrap (InputSet.new E M)
      let sts ← Bench.statements E params inputSet (w0 :: x.1)
      .ok (w0 :: x.1, sts, Bench.transcripts b, (Bench.points E R N x.2).2))) := by
    rw [Bench.generateData, if_neg (by rw [hN]; omega), hw0, Outcome.bind_ok]
    simp only [hkb, hN]
  have hlen : M.length = N := by rw [hM, ringOf_length]
  have hmemM : ∀ i < k + 1, M[(l + i) % N]? = some (draw E R s0 i • params.G) := fun i hi => by
    rw [hM]; exact ringOf_own N l (k + 1) i _ _ hl hkN hi
  obtain ⟨set, hset, hsetM⟩ := (C04_new E M).1 (by rw [hlen]; rw [u32Max] at hu; omega)
  have hdr : ∀ {i}, i < k + 1 → draw E R s0 i = 0 → 0 ∈ M := fun {i} hi h0 => by
    have := hmemM i hi
    rw [h0, zero_smul] at this
    exact List.mem_of_getElem? this
  have hall : (∀ i < k, draw E R s1 i ≠ 0) → Bench.generateData E cfg R params b s =
      (Bench.statements E params set (signersAt E R params s0 l (k + 1)) >>= fun sts =>
        .ok (signersAt E R params s0 l (k + 1), sts, Bench.transcripts b, after R s0 (k + 1 + N))) := by
    intro h
    rw [hgen, more_ok E cfg R params hp k w0 s1 (by rw [hw0e]; exact hl) h, Outcome.bind_ok]
    have hc : (w0 :: (List.range k).map fun i => ⟨params, (w0.l + 1 + i) % params.n ^ params.m, draw E R (after R s0 1) i⟩) =
        signersAt E R params s0 l (k + 1) := by
      rw [signers_cons E R params s0 l k hl, hw0e]
    simp only [points_eq, hs1, after_add]
    rw [hc]
    have hd : (List.range N).map (drawPoint E R (after R s0 (1 + k))) =
        (List.range N).map fun j => drawPoint E R s0 (k + 1 + j) :=
      List.map_congr_left fun j _ => by rw [drawPoint_after, Nat.add_comm 1 k]
    have hpl := place_signers E R params s0 l (k + 1) (fun j => drawPoint E R s0 (k + 1 + j)) hl hkN
    rw [← hNd, ← hM] at hpl
    rw [hd, hpl, Outcome.bind_ok, hset, Parallel.RingCT.unwrap,
      Outcome.bind_ok, Nat.add_comm 1 k]
  constructor
  · intro h0
    by_cases h : ∀ i < k, draw E R s1 i ≠ 0
    · rw [hall h, signers_cons E R params s0 l k hl,
        statements_panic E params hp set (by rw [hsetM, hlen]) (by rw [hsetM]; exact h0)]
      rfl
    · push Not at h
      rw [hgen, more_panic E cfg R params hp k w0 s1 (by rw [hw0e]; exact hl) h]
      rfl
  · intro h0
    have h : ∀ i < k, draw E R s1 i ≠ 0 := fun i hi hz => h0 (hdr (i := 1 + i) (by omega) (by rw [← draw_after, ← hs1]; exact hz))
    obtain ⟨sts, e1, e2, e3⟩ := statements_ok E params hp set (by rw [hsetM, hlen]) (by rw [hsetM]; exact h0)
      (signersAt E R params s0 l (k + 1))
    refine ⟨signersAt E R params s0 l (k + 1), sts, set, by rw [hall h, e1]; rfl, by simp [signersAt], by rw [e2]; simp [signersAt],
      hset, ?_⟩
    intro i w st hw hst
    have hi : i < k + 1 := by
      have := (List.getElem?_eq_some_iff.1 hw).1
      simpa [signersAt] using this
    obtain ⟨st', f1, f2, f3, f4, f5⟩ := e3 i w hw
    rw [hst] at f1
    simp only [Option.some.injEq] at f1
    subst f1
    rw [signers_get E R params s0 l (k + 1) i hi] at hw
    simp only [Option.some.injEq] at hw
    have hr : draw E R s0 i ≠ 0 := fun hz => h0 (hdr hi hz)
    have hlt : (l + i) % N < N := Nat.mod_lt _ hpos
    subst hw
    refine ⟨?_, ⟨params, set, _, hp, Or.inl ⟨_, hset⟩, f2⟩, rfl, f3, f4, hsetM, rfl, rfl, hmemM i hi, ?_⟩
    · obtain ⟨w', g1, g2, g3, g4⟩ := (C08_new E params ((l + i) % N) (draw E R s0 i) hp).2.2 hr hlt
      refine .new params _ _ _ hp (g1.trans ?_)
      congr 1
      cases w'; simp only at g2 g3 g4; rw [g2, g3, g4]
    · rw [f5]
      exact (C10_relation (⟨params, (l + i) % N, draw E R s0 i⟩ : Witness F P) hr).2

/-- Proving for all signers. -/
theorem proveAll_eq (E : Env F P) (R : Rng σ) (timing : OperationTiming) :
    ∀ (ws : List (Witness F P)) (sts : List (Statement P)) (ts : List Transcript) (s : σ),
    ws.length = sts.length → ws.length = ts.length →
    (∀ (i : ℕ) w st, ws[i]? = some w → sts[i]? = some st → WitnessBuilt E w ∧ StatementBuilt E st ∧ w.params = st.params ∧
      Spec.Rel st.params.G st.params.U st.inputSet.M st.J w.l w.r) →
    ((∃ (i : ℕ) (w : _) (st : _) (t : _) (s' : _), ws[i]? = some w ∧ sts[i]? = some st ∧ ts[i]? = some t ∧
        (Proof.proveInternal E R w st s' t timing).1 = .err .InvalidChallenge) ∧ Bench.proveAll E R timing ws sts ts s = .panic) ∨
    ∃ ps s', Bench.proveAll E R timing ws sts ts s = .ok (ps, s') ∧ ps.length = ws.length ∧
      ∀ x ∈ sts.zip (ps.zip ts), Honest E x.1 x.2.2 x.2.1 := by
  intro ws
  induction ws with
  | nil =>
    intro sts ts s h1 h2 _
    cases sts with
    | nil => exact Or.inr ⟨[], s, rfl, rfl, fun x hx => by simp at hx⟩
    | cons => simp at h1
  | cons w ws ih =>
    intro sts ts s h1 h2 hall
    obtain _ | ⟨st, sts⟩ := sts
    · simp at h1
    obtain _ | ⟨t, ts⟩ := ts
    · simp at h2
    obtain ⟨hw, hst, hp, hrel⟩ := hall 0 w st rfl rfl
    obtain ⟨nn, ξ, -, -, b1, b2⟩ := C11_accept E R w st s t timing hw hst hp hrel
    by_cases hξ : ξ = 0
    · refine Or.inl ⟨⟨0, w, st, t, s, rfl, rfl, rfl, b1 hξ⟩, ?_⟩
      simp only [Bench.proveAll, b1 hξ]
      rfl
    · have b := b2 hξ
      have hpr : Bench.proveAll E R timing (w :: ws) (st :: sts) (t :: ts) s =
          (Bench.proveAll E R timing ws sts ts (Proof.proveInternal E R w st s t timing).2.2 >>= fun x =>
            .ok (honestProof st.params st.inputSet.M st.J w.l w.r nn ξ :: x.1, x.2)) := by
        simp only [Bench.proveAll, b, Parallel.RingCT.unwrap, Outcome.bind_ok]
      rcases ih sts ts (Proof.proveInternal E R w st s t timing).2.2 (by simpa using h1) (by simpa using h2)
        (fun i w' st' hw' hst' => hall (i + 1) w' st' hw' hst') with ⟨⟨i, w', st', t', s', c1, c2, c3, c4⟩, c5⟩ | ⟨ps, s', c1, c2, c3⟩
      · refine Or.inl ⟨⟨i + 1, w', st', t', s', c1, c2, c3, c4⟩, ?_⟩
        rw [hpr, c5]
        rfl
      · refine Or.inr ⟨_, _, by rw [hpr, c1]; rfl, by simp [c2], ?_⟩
        intro x hx
        simp only [List.zip_cons_cons, List.mem_cons] at hx
        rcases hx with rfl | hx
        · exact ⟨σ, R, w, s, timing, hw, b⟩
        · exact c3 x hx

theorem proveAll_timing (E : Env F P) (R : Rng σ) : ∀ (ws : List (Witness F P)) (sts : List (Statement P)) (ts : List Transcript) (s : σ),
    (∀ w ∈ ws, WitnessBuilt E w) → (∀ st ∈ sts, StatementBuilt E st) →
    Bench.proveAll E R .Variable ws sts ts s = Bench.proveAll E R .Constant ws sts ts s := by
  intro ws
  induction ws with
  | nil => intro sts ts s _ _; rfl
  | cons w ws ih =>
    intro sts ts s h1 h2
    obtain _ | ⟨st, sts⟩ := sts
    · rfl
    obtain _ | ⟨t, ts⟩ := ts
    · rfl
    have h := C13_timing E R w st s t (h1 w (by simp)) (h2 st (by simp))
    rw [Proof.proveWithRngVartime, Proof.proveWithRng] at h
    simp only [Bench.proveAll, h]
    congr 1
    funext p
    rw [ih sts ts _ (fun w' h => h1 w' (by simp [h])) (fun st' h => h2 st' (by simp [h]))]

/-- C113: what the benchmarks and unit tests do with such data. For at least one signer: either a prover call reports a zero
challenge, and the benchmark and the test panic; or all proofs are made, with either timing the same, and then the benchmark's
`unwrap` and all three assertions of the test (batch, single blame, full blame) succeed unless a response entry is zero, in which
case both panic. -/
theorem C113_batch (E : Env F P) (cfg : Config) (R : Rng σ) (n m b : ℕ) (s s' : σ) (params : Params P) (ws : List (Witness F P))
    (sts : List (Statement P)) (ts : List Transcript) (hp : Params.new E n m = .ok params) (hb : 1 ≤ b)
    (h : Bench.generateData E cfg R params b s = .ok (ws, sts, ts, s')) :
    ((∃ (i : ℕ) (w : _) (st : _) (t : _) (s'' : _), ws[i]? = some w ∧ sts[i]? = some st ∧ ts[i]? = some t ∧
        (Proof.proveWithRng E R w st s'' t).1 = .err .InvalidChallenge) ∧
      Bench.benchBatch E cfg R n m b s = .panic ∧ Bench.testBatch E cfg R n m b s = .panic) ∨
    ∃ ps s'', (∀ timing, Bench.proveAll E R timing ws sts ts s' = .ok (ps, s'')) ∧ ps.length = b ∧
      (∀ x ∈ sts.zip (ps.zip ts), Honest E x.1 x.2.2 x.2.1) ∧
      (SizeOK cfg params b → EnoughFuel E sts ps ts cfg.fuel →
        (BatchNonzeroF params ps (challenges E sts ps ts) →
          Bench.benchBatch E cfg R n m b s = .ok () ∧ Bench.testBatch E cfg R n m b s = .ok ()) ∧
        (¬ BatchNonzeroF params ps (challenges E sts ps ts) →
          Bench.benchBatch E cfg R n m b s = .panic ∧ Bench.testBatch E cfg R n m b s = .panic)) := by
  have hpb : ParamsBuilt E params := ⟨_, _, _, _, hp⟩
  obtain ⟨d1, d2⟩ := C113_data E cfg R params b s hpb
  have hbN : b ≤ params.n ^ params.m := by
    by_contra hc
    rw [d1 (by omega)] at h
    cases h
  obtain ⟨d3, d4⟩ := d2 _ _ _ _ _ rfl rfl rfl rfl rfl hbN
  obtain ⟨ws', sts', set, e1, e2, e3, -, e5⟩ := d4 fun h0 => by rw [d3 h0] at h; cases h
  rw [e1] at h
  simp only [Outcome.ok.injEq, Prod.mk.injEq] at h
  obtain ⟨rfl, rfl, hts, hs'⟩ := h
  rw [hts, hs'] at e1
  have hk : max 1 b = b := by omega
  rw [hk] at e2 e3
  have htl : ts.length = b := by rw [← hts]; simp
  have hall : ∀ (i : ℕ) w st, ws'[i]? = some w → sts'[i]? = some st → WitnessBuilt E w ∧ StatementBuilt E st ∧ w.params = st.params ∧
      Spec.Rel st.params.G st.params.U st.inputSet.M st.J w.l w.r := by
    intro i w st hw hst
    obtain ⟨f1, f2, f3, f4, f5, f6, -, -, f9⟩ := e5 i w st hw hst
    exact ⟨f1, f2, by rw [f3, f4], by rw [f4, f5, f6]; exact f9⟩
  have hst : ∀ st ∈ sts', StatementBuilt E st ∧ st.params = params ∧ st.inputSet = set := by
    intro st hst
    obtain ⟨i, hi, rfl⟩ := List.getElem_of_mem hst
    obtain ⟨f1, f2, f3, f4, f5, f6, -, -, f9⟩ := e5 i _ _ (List.getElem?_eq_getElem (by rw [e2, ← e3]; exact hi))
      (List.getElem?_eq_getElem hi)
    exact ⟨f2, f4, f5⟩
  have hwb : ∀ w ∈ ws', WitnessBuilt E w := by
    intro w hw
    obtain ⟨i, hi, rfl⟩ := List.getElem_of_mem hw
    exact (e5 i _ _ (List.getElem?_eq_getElem hi) (List.getElem?_eq_getElem (by rw [e3, ← e2]; exact hi))).1
  have htime := proveAll_timing E R ws' sts' ts s' hwb fun st h => (hst st h).1
  have hbench : Bench.benchBatch E cfg R n m b s = (Bench.proveAll E R .Constant ws' sts' ts s' >>= fun x =>
      Parallel.RingCT.unwrap (Proof.verifyBatch E cfg sts' x.1 ts).1) := by
    rw [Bench.benchBatch, hp]
    simp only [Parallel.RingCT.unwrap, Outcome.bind_ok, e1, htime]
  have htest : Bench.testBatch E cfg R n m b s = (Bench.proveAll E R .Constant ws' sts' ts s' >>= fun x => (do
      Parallel.RingCT.unwrap (Proof.verifyBatch E cfg sts' x.1 ts).1
      Parallel.RingCT.unwrap (Proof.verifyBatchWithSingleBlame E cfg sts' x.1 ts).1
      Parallel.RingCT.unwrap (Proof.verifyBatchWithFullBlame E cfg sts' x.1 ts).1)) := by
    rw [Bench.testBatch, hp]
    simp only [Parallel.RingCT.unwrap, Outcome.bind_ok, e1]
  rcases proveAll_eq E R .Constant ws' sts' ts s' (by rw [e2, e3]) (by rw [e2, htl]) hall with ⟨c1, c2⟩ | ⟨ps, s'', c1, c2, c3⟩
  · refine Or.inl ⟨c1, ?_, ?_⟩
    · rw [hbench, c2]; rfl
    · rw [htest, c2]; rfl
  · refine Or.inr ⟨ps, s'', fun timing => by cases timing; exacts [c1, htime.trans c1], by rw [c2, e2], c3, fun hsz hf => ?_⟩
    obtain _ | ⟨first, rest⟩ := sts'
    · simp only [List.length_nil] at e3; omega
    obtain ⟨g1, g2, g3⟩ := hst first (by simp)
    have hB := C15_batch E cfg first rest ps ts (fun st h => (hst st h).1) (fun st h => by rw [(hst st h).2.1, g2])
      (fun st h => by rw [(hst st h).2.2, g3]) (by rw [e3, c2, e2]) (by rw [e3, htl]) c3 (by rw [g2, c2, e2]; exact hsz) hf
    rw [g2] at hB
    rw [hbench, htest, c1]
    simp only [Outcome.bind_ok]
    constructor
    · intro hz
      have hv := hB.1 hz
      refine ⟨by rw [hv]; rfl, ?_⟩
      simp only [Proof.verifyBatchWithSingleBlame, Proof.verifyBatchWithFullBlame, hv]
      rfl
    · intro hz
      have hv := hB.2 hz
      exact ⟨by rw [hv]; rfl, by rw [hv]; rfl⟩

/-- The calls of `C113_data` and `C113_batch`: three signers in a ring of eight, at the positions 6, 7 and 0; the tests pass.
With more signers than positions, or a generator that only returns zero, there is a panic. -/
example : (Bench.generateData (Toy.env 101) Toy.cfg Toy.counting Toy.params 3 0).isOk = true ∧
    Bench.benchBatch (Toy.env 101) Toy.cfg Toy.counting 2 3 3 0 = .ok () ∧
    Bench.testBatch (Toy.env 101) Toy.cfg Toy.counting 2 3 3 0 = .ok () ∧
    Bench.testBatch (Toy.env 101) Toy.cfg Toy.counting 2 3 9 0 = .panic ∧
    Bench.testBatch (Toy.env 101) Toy.cfg nullRng 2 3 3 () = .panic :=
  ⟨by decide +kernel, by decide +kernel, by decide +kernel, by decide +kernel, by decide +kernel⟩

end single
end Triptych
