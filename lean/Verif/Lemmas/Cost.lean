import Verif.Model.Parallel.SerializeTraced
import Verif.Lemmas.Leak
import Verif.Lemmas.Serialize
import Mathlib.Tactic.Ring
import Mathlib.Tactic.Linarith

/-! # The cost of decoding -/
set_option autoImplicit false
set_option linter.unusedSectionVars false
set_option linter.unusedVariables false

namespace Triptych
open Traced

variable {F P ε α β : Type}

/-- The sum of the weights of the observations. -/
def Traced.weight (w : Leak F → ℕ) (x : Traced F ε α) : ℕ := (x.trace.map w).sum

theorem Traced.weight_bind_le (w : Leak F → ℕ) (x : Traced F ε α) (f : α → Traced F ε β) (B : ℕ)
    (h : ∀ a, x.out = .ok a → x.weight w + (f a).weight w ≤ B) (h' : (∀ a, x.out ≠ .ok a) → x.weight w ≤ B) :
    (x >>= f).weight w ≤ B := by
  rw [Traced.weight, bind_trace]
  cases hx : x.out with
  | ok a => simpa [Traced.weight] using h a hx
  | err e => simpa [Traced.weight] using h' (by simp [hx])
  | panic => simpa [Traced.weight] using h' (by simp [hx])
  | diverge => simpa [Traced.weight] using h' (by simp [hx])

@[simp] theorem Traced.weight_pure (w : Leak F → ℕ) (a : α) : (pure a : Traced F ε α).weight w = 0 := rfl
@[simp] theorem Traced.weight_lift (w : Leak F → ℕ) (o : Outcome ε α) : (lift o : Traced F ε α).weight w = 0 := rfl
@[simp] theorem Traced.weight_leak (w : Leak F → ℕ) (x : Leak F) : (leak x : Traced F ε Unit).weight w = w x := by
  simp [Traced.weight]
@[simp] theorem Traced.weight_step (w : Leak F → ℕ) (x : Leak F) (o : Outcome ε α) : (step x o).weight w = w x := by
  simp [Traced.weight]

theorem Traced.weight_leak_bind (w : Leak F → ℕ) (x : Leak F) (f : Unit → Traced F ε β) :
    (leak x >>= f).weight w = w x + (f ()).weight w := by
  rw [Traced.weight, bind_trace]
  simp [Traced.weight]

theorem Traced.weight_lift_bind_le (w : Leak F → ℕ) (o : Outcome ε α) (f : α → Traced F ε β) (B : ℕ)
    (h : ∀ a, o = .ok a → (f a).weight w ≤ B) : (lift o >>= f).weight w ≤ B :=
  weight_bind_le w _ f B (fun a ha => by simpa using h a ha) (by simp)

theorem Traced.weight_one (x : Traced F ε α) : x.weight (fun _ => 1) = x.trace.length := by
  simp [Traced.weight]

theorem Traced.weight_count [DecidableEq F] (y : Leak F) (x : Traced F ε α) :
    x.weight (fun e => if e = y then 1 else 0) = x.trace.count y := by
  rw [Traced.weight]
  induction x.trace with
  | nil => rfl
  | cons e l ih =>
    rw [List.map_cons, List.sum_cons, ih, List.count_cons]
    by_cases h : e = y <;> simp [h, Nat.add_comm]

/-- A parser takes at least one chunk, weighs at most `c` for each chunk taken, and when it fails at most `d` more than `c` for
each chunk there is. -/
structure CostOf (w : Leak F → ℕ) (c d : ℕ) (parse : List Bytes → Traced F ε (α × List Bytes)) : Prop where
  ok : ∀ cs a cs', (parse cs).out = .ok (a, cs') →
    cs'.length < cs.length ∧ (parse cs).weight w + c * cs'.length ≤ c * cs.length
  fail : ∀ cs, (∀ x, (parse cs).out ≠ .ok x) → (parse cs).weight w ≤ c * cs.length + d

theorem CostOf.mono {w : Leak F → ℕ} {c d c' d' : ℕ} {parse : List Bytes → Traced F ε (α × List Bytes)}
    (h : CostOf w c d parse) (hc : c ≤ c') (hd : d ≤ d') : CostOf w c' d' parse := by
  obtain ⟨k, rfl⟩ := Nat.exists_eq_add_of_le hc
  refine ⟨fun cs a cs' ho => ?_, fun cs ho => ?_⟩
  · obtain ⟨h1, h2⟩ := h.ok cs a cs' ho
    refine ⟨h1, ?_⟩
    have : k * cs'.length ≤ k * cs.length := Nat.mul_le_mul_left _ h1.le
    rw [Nat.add_mul, Nat.add_mul]
    omega
  · have := h.fail cs ho
    rw [Nat.add_mul]
    omega

theorem CostOf.bind {w : Leak F → ℕ} {c d : ℕ} {parse : List Bytes → Traced F ε (α × List Bytes)}
    (h : CostOf w c d parse) (cs : List Bytes) (f : α × List Bytes → Traced F ε β) (D : ℕ) (hD : d ≤ D)
    (hf : ∀ a cs', (parse cs).out = .ok (a, cs') → cs'.length < cs.length → (f (a, cs')).weight w ≤ c * cs'.length + D) :
    (parse cs >>= f).weight w ≤ c * cs.length + D := by
  refine weight_bind_le w _ f _ (fun a ha => ?_) fun ha => ?_
  · obtain ⟨a, cs'⟩ := a
    obtain ⟨h1, h2⟩ := h.ok cs a cs' ha
    have := hf a cs' ha h1
    omega
  · have := h.fail cs ha
    omega

section Elements
variable (w : Leak F → ℕ)

theorem elementT_cost {dec : Bytes → Option α} {parse : List Bytes → Traced F ProofError (α × List Bytes)}
    (hp : ∀ cs, parse cs = (do
      leak (.call "ChunksExact::next" [])
      match cs with
      | [] => lift (.err .FailedDeserialization)
      | c :: cs =>
        if c.length ≠ SERIALIZED_BYTES then lift (.err .FailedDeserialization)
        else do
          let s ← step (.call "decode" []) (Outcome.ofOption (dec c) .FailedDeserialization)
          pure (s, cs))) :
    CostOf w (w (.call "ChunksExact::next" []) + w (.call "decode" [])) (w (.call "ChunksExact::next" [])) parse := by
  constructor
  · intro cs a cs' ho
    rw [hp] at ho ⊢
    rw [weight_leak_bind]
    cases cs with
    | nil => simp at ho
    | cons x cs =>
      dsimp only at ho ⊢
      by_cases hx : x.length ≠ SERIALIZED_BYTES
      · rw [if_pos hx] at ho; simp at ho
      · rw [if_neg hx] at ho ⊢
        simp only [bind_out, leak_out, step_out, pure_out, Outcome.bind_ok] at ho
        cases hd : dec x with
        | none => rw [hd] at ho; simp [Outcome.ofOption] at ho
        | some s =>
          rw [hd] at ho
          simp only [Outcome.ofOption, Outcome.bind_ok, Outcome.ok.injEq, Prod.mk.injEq] at ho
          obtain ⟨rfl, rfl⟩ := ho
          refine ⟨by simp, ?_⟩
          have : (step (.call "decode" []) (Outcome.ofOption (some s) ProofError.FailedDeserialization) >>= fun s =>
              (pure (s, cs) : Traced F ProofError (α × List Bytes))).weight w ≤ w (.call "decode" []) :=
            weight_bind_le w _ _ _ (fun a _ => by simp) (fun _ => by simp)
          rw [List.length_cons]
          have e := Nat.mul_succ (w (.call "ChunksExact::next" []) + w (.call "decode" [])) cs.length
          rw [Nat.succ_eq_add_one] at e
          rw [e]
          omega
  · intro cs ho
    rw [hp, weight_leak_bind]
    cases cs with
    | nil => simp
    | cons x cs =>
      dsimp only
      by_cases hx : x.length ≠ SERIALIZED_BYTES
      · rw [if_pos hx]; simp
      · rw [if_neg hx]
        have : (step (.call "decode" []) (Outcome.ofOption (dec x) ProofError.FailedDeserialization) >>= fun s =>
            (pure (s, cs) : Traced F ProofError (α × List Bytes))).weight w ≤ w (.call "decode" []) :=
          weight_bind_le w _ _ _ (fun a _ => by simp) (fun _ => by simp)
        rw [List.length_cons]
        have e := Nat.mul_succ (w (.call "ChunksExact::next" []) + w (.call "decode" [])) cs.length
        rw [Nat.succ_eq_add_one] at e
        rw [e]
        omega

theorem parseScalarT_cost (E : Env F P) :
    CostOf w (w (.call "ChunksExact::next" []) + w (.call "decode" [])) (w (.call "ChunksExact::next" [])) (parseScalarT E) :=
  elementT_cost w (dec := E.scalarOfCanonical) fun cs => by rw [parseScalarT.eq_def]; cases cs <;> rfl

theorem parsePointT_cost (E : Env F P) :
    CostOf w (w (.call "ChunksExact::next" []) + w (.call "decode" [])) (w (.call "ChunksExact::next" [])) (parsePointT E) :=
  elementT_cost w (dec := E.decompress) fun cs => by rw [parsePointT.eq_def]; cases cs <;> rfl

theorem parseManyT_ok {c d : ℕ} {parse : List Bytes → Traced F ProofError (α × List Bytes)} (h : CostOf w c d parse) (k : ℕ)
    (cs : List Bytes) (xs : List α) (cs' : List Bytes) (ho : (parseManyT parse k cs).out = .ok (xs, cs')) :
    xs.length = k ∧ k + cs'.length ≤ cs.length ∧
    (parseManyT parse k cs).weight w + (c + w (.call "iteration" [])) * cs'.length
      ≤ (c + w (.call "iteration" [])) * cs.length := by
  induction k generalizing cs xs cs' with
  | zero =>
    simp only [parseManyT, pure_out, Outcome.ok.injEq, Prod.mk.injEq] at ho
    obtain ⟨rfl, rfl⟩ := ho
    simp [parseManyT]
  | succ k ih =>
    rw [parseManyT] at ho ⊢
    rw [weight_leak_bind]
    simp only [bind_out, leak_out, Outcome.bind_ok] at ho
    cases h1 : (parse cs).out with
    | ok x =>
      obtain ⟨x, cs1⟩ := x
      rw [h1] at ho
      simp only [Outcome.bind_ok] at ho
      cases h2 : (parseManyT parse k cs1).out with
      | ok y =>
        obtain ⟨ys, cs2⟩ := y
        rw [h2] at ho
        simp only [Outcome.bind_ok, pure_out, Outcome.ok.injEq, Prod.mk.injEq] at ho
        obtain ⟨rfl, rfl⟩ := ho
        obtain ⟨a1, a2, a3⟩ := ih cs1 ys cs2 h2
        obtain ⟨b1, b2⟩ := h.ok cs x cs1 h1
        refine ⟨by simp [a1], by omega, ?_⟩
        have hw : (parse cs >>= fun __do_lift => parseManyT parse k __do_lift.2 >>= fun __do_lift_1 =>
            (pure (__do_lift.1 :: __do_lift_1.1, __do_lift_1.2) : Traced F ProofError (List α × List Bytes))).weight w ≤
              (parse cs).weight w + (parseManyT parse k cs1).weight w := by
          refine weight_bind_le w _ _ _ (fun a ha => ?_) fun ha => absurd h1 (ha _)
          rw [h1, Outcome.ok.injEq] at ha
          subst ha
          refine Nat.add_le_add_left ?_ _
          exact weight_bind_le w _ _ _ (fun a _ => by simp) fun _ => le_rfl
        have hi : w (.call "iteration" []) * (cs1.length + 1) ≤ w (.call "iteration" []) * cs.length :=
          Nat.mul_le_mul_left _ b1
        rw [Nat.mul_succ] at hi
        rw [Nat.add_mul] at a3
        rw [Nat.add_mul] at a3
        rw [Nat.add_mul, Nat.add_mul]
        change w (.call "iteration" []) + (parse cs >>= fun __do_lift => parseManyT parse k __do_lift.2 >>= fun __do_lift_1 =>
            (pure (__do_lift.1 :: __do_lift_1.1, __do_lift_1.2) : Traced F ProofError (List α × List Bytes))).weight w + _ ≤ _
        omega
      | err e => rw [h2] at ho; simp at ho
      | panic => rw [h2] at ho; simp at ho
      | diverge => rw [h2] at ho; simp at ho
    | err e => rw [h1] at ho; simp at ho
    | panic => rw [h1] at ho; simp at ho
    | diverge => rw [h1] at ho; simp at ho

theorem parseManyT_fail {c d : ℕ} {parse : List Bytes → Traced F ProofError (α × List Bytes)} (h : CostOf w c d parse) (k : ℕ)
    (cs : List Bytes) :
    (parseManyT parse k cs).weight w ≤ (c + w (.call "iteration" [])) * cs.length + (d + w (.call "iteration" [])) := by
  induction k generalizing cs with
  | zero => simp [parseManyT]
  | succ k ih =>
    rw [parseManyT, weight_leak_bind]
    have hw : (parse cs >>= fun __do_lift => parseManyT parse k __do_lift.2 >>= fun __do_lift_1 =>
        (pure (__do_lift.1 :: __do_lift_1.1, __do_lift_1.2) : Traced F ProofError (List α × List Bytes))).weight w ≤
          (c + w (.call "iteration" [])) * cs.length + d := by
      refine weight_bind_le w _ _ _ (fun a ha => ?_) fun ha => ?_
      · obtain ⟨x, cs1⟩ := a
        obtain ⟨b1, b2⟩ := h.ok cs x cs1 ha
        have hle : (parseManyT parse k cs1 >>= fun __do_lift_1 =>
            (pure (x :: __do_lift_1.1, __do_lift_1.2) : Traced F ProofError (List α × List Bytes))).weight w ≤
              (parseManyT parse k cs1).weight w :=
          weight_bind_le w _ _ _ (fun a _ => by simp) fun _ => le_rfl
        have hi : w (.call "iteration" []) * (cs1.length + 1) ≤ w (.call "iteration" []) * cs.length :=
          Nat.mul_le_mul_left _ b1
        rw [Nat.mul_succ] at hi
        have := ih cs1
        rw [Nat.add_mul] at this ⊢
        dsimp only
        omega
      · have := h.fail cs ha
        rw [Nat.add_mul]
        omega
    change w (.call "iteration" []) + (parse cs >>= fun __do_lift => parseManyT parse k __do_lift.2 >>= fun __do_lift_1 =>
        (pure (__do_lift.1 :: __do_lift_1.1, __do_lift_1.2) : Traced F ProofError (List α × List Bytes))).weight w ≤ _
    omega

theorem parseManyT_cost {c d : ℕ} {parse : List Bytes → Traced F ProofError (α × List Bytes)} (h : CostOf w c d parse) (k : ℕ)
    (hk : 1 ≤ k) : CostOf w (c + w (.call "iteration" [])) (d + w (.call "iteration" [])) (parseManyT parse k) := by
  refine ⟨fun cs a cs' ho => ?_, fun cs _ => parseManyT_fail w h k cs⟩
  obtain ⟨h1, h2, h3⟩ := parseManyT_ok w h k cs a cs' ho
  exact ⟨by omega, h3⟩

theorem checkColumnsT_weight (cols : ℕ) (f : List (List α)) :
    (checkColumnsT cols f : Traced F ProofError Unit).weight w ≤ w (.call "iteration" []) * f.length := by
  induction f with
  | nil => simp [checkColumnsT]
  | cons row f ih =>
    rw [checkColumnsT, weight_leak_bind, List.length_cons, Nat.mul_succ]
    split
    · simp
    · omega

end Elements

/-! ## Erasure -/

theorem ofOption_bindO (o : Option α) (f : α → Option β) (e : ε) :
    Outcome.ofOption (o >>= f) e = Outcome.ofOption o e >>= fun a => Outcome.ofOption (f a) e := by
  cases o <;> rfl

theorem ofOption_none (e : ε) : Outcome.ofOption (none : Option α) e = .err e := rfl
theorem ofOption_some (a : α) (e : ε) : Outcome.ofOption (some a) e = .ok a := rfl

theorem parseScalarT_out (E : Env F P) (cs : List Bytes) :
    (parseScalarT E cs).out = Outcome.ofOption (parseScalar E cs) .FailedDeserialization := by
  cases cs with
  | nil => rfl
  | cons c cs =>
    rw [parseScalarT.eq_def, parseScalar.eq_def]
    simp only [bind_out, leak_out, Outcome.bind_ok]
    split
    · rfl
    · rw [ofOption_bindO, bind_out, step_out]; rfl

theorem parsePointT_out (E : Env F P) (cs : List Bytes) :
    (parsePointT E cs).out = Outcome.ofOption (parsePoint E cs) .FailedDeserialization := by
  cases cs with
  | nil => rfl
  | cons c cs =>
    rw [parsePointT.eq_def, parsePoint.eq_def]
    simp only [bind_out, leak_out, Outcome.bind_ok]
    split
    · rfl
    · rw [ofOption_bindO, bind_out, step_out]; rfl

theorem parseManyT_out {parse : List Bytes → Traced F ProofError (α × List Bytes)}
    {parse' : List Bytes → Option (α × List Bytes)}
    (h : ∀ cs, (parse cs).out = Outcome.ofOption (parse' cs) .FailedDeserialization) (k : ℕ) (cs : List Bytes) :
    (parseManyT parse k cs).out = Outcome.ofOption (parseMany parse' k cs) .FailedDeserialization := by
  induction k generalizing cs with
  | zero => rfl
  | succ k ih =>
    rw [parseManyT, parseMany]
    simp only [bind_out, leak_out, Outcome.bind_ok, h, ih, ofOption_bindO, pure_out]
    rfl

theorem checkColumnsT_out (cols : ℕ) (f : List (List α)) :
    (checkColumnsT cols f : Traced F ProofError Unit).out =
      if f.any (fun row => row.length ≠ cols) then .err .FailedDeserialization else .ok () := by
  induction f with
  | nil => rfl
  | cons row f ih =>
    rw [checkColumnsT]
    simp only [bind_out, leak_out, Outcome.bind_ok]
    by_cases hr : row.length = cols
    · rw [if_neg (not_not.2 hr), ih]
      simp [hr]
    · rw [if_pos hr]
      simp [hr]

theorem chunks32_length (b : Bytes) : (chunks32 b).length = b.length / 32 := by simp [chunks32]

end Triptych
