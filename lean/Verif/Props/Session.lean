import Verif.Model.Session
import Verif.Props.Blame
import Verif.Props.Serialize
import Verif.Toy

/-! # Histories of calls of the public functions: C123 -/
set_option autoImplicit false
set_option linter.unusedSectionVars false
set_option linter.unusedVariables false
set_option linter.unusedSimpArgs false

namespace Triptych
open Spec

variable {F P σ : Type} [Field F] [AddCommGroup P] [Module F P] [DecidableEq F] [DecidableEq P]

/-- Everything the client holds was made by a constructor of the library. -/
structure Spec.Held (E : Env F P) (w : World F P σ) : Prop where
  params : ∀ p ∈ w.params, ParamsBuilt E p
  sets : ∀ i ∈ w.sets, InputSetBuilt E i
  statements : ∀ s ∈ w.statements, StatementBuilt E s
  witnesses : ∀ x ∈ w.witnesses, WitnessBuilt E x

/-- The size estimate of the verifier fits for these statements and `k` proofs; of interest only in builds with overflow checks. -/
def Spec.Fits (cfg : Config) (w : World F P σ) (sts : List ℕ) (k : ℕ) : Prop :=
  cfg.overflowChecks = true → ∀ i ∈ sts, ∀ s ∈ w.statements[i]?, batchSize s.params k ≤ u32Max

/-- What a client has to take care of: in builds with overflow checks, the size of batches; for single blame, that there are no fewer
statements and transcripts than proofs (and fewer than `usize::MAX` proofs, which Rust guarantees); for encoding, that the proof
has responses. -/
def Spec.Careful (cfg : Config) (w : World F P σ) : Call F P → Prop
  | .verify st _ _ => Fits cfg w [st] 1
  | .verifyBatch sts ps _ => Fits cfg w sts ps.length
  | .singleBlame sts ps ts =>
    Fits cfg w sts ps.length ∧ ps.length ≤ sts.length ∧ ps.length ≤ ts.length ∧ ps.length < cfg.usizeMax
  | .fullBlame sts ps _ => Fits cfg w sts (max 1 ps.length)
  | .toBytes p => ∀ q ∈ w.proofs[p]?, q.f ≠ []
  | .borshSerialize p => ∀ q ∈ w.proofs[p]?, q.f ≠ []
  | _ => True

instance (cfg : Config) (w : World F P σ) (sts : List ℕ) (k : ℕ) : Decidable (Fits cfg w sts k) := by
  unfold Fits; infer_instance

instance (cfg : Config) (w : World F P σ) (c : Call F P) : Decidable (Careful cfg w c) := by
  cases c <;> simp only [Careful] <;> infer_instance

/-- The call `c`, made when the client holds `w`, can have returned the proof `p`. -/
def Spec.Returned (E : Env F P) (w : World F P σ) (c : Call F P) (p : Proof F P) : Prop :=
  match c with
  | .prove _ st t _ => ∃ s tr, w.statements[st]? = some s ∧ w.transcripts[t]? = some tr ∧ Honest E s tr p
  | .fromBytes b => Proof.fromBytes E b = .ok p
  | .borshDeserialize b => ∃ rest, Proof.borshDeserialize E b = .ok (p, rest)
  | .deserialize v => Proof.deserialize E v = some p
  | _ => False

namespace World

theorem mem_of_getElem? {α : Type} {l : List α} {i : ℕ} {a : α} (h : l[i]? = some a) : a ∈ l := List.mem_of_getElem? h

theorem getElem?_of_prefix {α : Type} {l l' : List α} {i : ℕ} {a : α} (h : l <+: l') (hi : l[i]? = some a) : l'[i]? = some a := by
  obtain ⟨k, rfl⟩ := h
  obtain ⟨hlt, -⟩ := List.getElem?_eq_some_iff.1 hi
  rw [List.getElem?_append_left hlt, hi]

theorem fetch_mem {α : Type} (l : List α) : ∀ (is : List ℕ) (as : List α), fetch l is = some as →
    as.length = is.length ∧ ∀ a ∈ as, ∃ i ∈ is, l[i]? = some a := by
  intro is
  induction is with
  | nil => intro as h; simp [fetch] at h; subst h; simp
  | cons i is ih =>
    intro as h
    simp only [fetch, Option.bind_eq_bind, Option.bind_eq_some_iff] at h
    obtain ⟨a, ha, rest, hr, h⟩ := h
    simp only [Option.some.injEq] at h
    subst h
    obtain ⟨h1, h2⟩ := ih rest hr
    refine ⟨by simp [h1], fun b hb => ?_⟩
    rcases List.mem_cons.1 hb with rfl | hb
    · exact ⟨i, by simp, ha⟩
    · obtain ⟨j, hj, hb⟩ := h2 b hb
      exact ⟨j, by simp [hj], hb⟩

theorem putBack_fetch (l : List Transcript) : ∀ (is : List ℕ) (ts : List Transcript), fetch l is = some ts → putBack l is ts = l := by
  intro is
  induction is with
  | nil => intro ts h; simp [putBack]
  | cons i is ih =>
    intro ts h
    simp only [fetch, Option.bind_eq_bind, Option.bind_eq_some_iff] at h
    obtain ⟨a, ha, rest, hr, h⟩ := h
    simp only [Option.some.injEq] at h
    subst h
    have hset : l.set i a = l := by
      obtain ⟨hi, hia⟩ := List.getElem?_eq_some_iff.1 ha
      rw [← hia, List.set_getElem_self]
    rw [putBack, hset, ih rest hr]

/-- Objects are only added (proofs, statements, input sets and parameters never change). -/
structure Grows (w w' : World F P σ) : Prop where
  params : w.params <+: w'.params
  sets : w.sets <+: w'.sets
  statements : w.statements <+: w'.statements
  proofs : w.proofs <+: w'.proofs

theorem Grows.refl (w : World F P σ) : Grows w w := ⟨List.prefix_rfl, List.prefix_rfl, List.prefix_rfl, List.prefix_rfl⟩

theorem Grows.trans {a b c : World F P σ} (h : Grows a b) (h' : Grows b c) : Grows a c :=
  ⟨h.params.trans h'.params, h.sets.trans h'.sets, h.statements.trans h'.statements, h.proofs.trans h'.proofs⟩

theorem step_grows (E : Env F P) (cfg : Config) (R : Rng σ) (w : World F P σ) (c : Call F P) : Grows w (step E cfg R w c).2 := by
  have hk : ∀ {ε α : Type} (w w0 : World F P σ) (o : Outcome ε α) (put : α → World F P σ), Grows w w0 → (∀ a, Grows w (put a)) →
      Grows w (w0.keep o put).2 := by
    intro ε α w w0 o put h0 h
    cases o <;> simp only [keep]
    · exact h _
    all_goals exact h0
  have r := Grows.refl w
  cases c <;> simp only [step]
  all_goals first
    | exact r
    | (refine hk w w _ _ r fun a => ?_
       constructor <;> simp)
    | (repeat' split
       all_goals first
         | exact r
         | (refine hk w w _ _ r fun a => ?_
            constructor <;> simp)
         | (refine hk w _ _ _ ?_ fun a => ?_ <;> constructor <;> simp)
         | (constructor <;> simp))

theorem run_append (E : Env F P) (cfg : Config) (R : Rng σ) (cs cs' : List (Call F P)) : ∀ w : World F P σ,
    run E cfg R w (cs ++ cs') = ((run E cfg R w cs).1 ++ (run E cfg R (run E cfg R w cs).2 cs').1,
      (run E cfg R (run E cfg R w cs).2 cs').2) := by
  induction cs with
  | nil => intro w; simp [run]
  | cons c cs ih => intro w; simp [run, ih]

theorem run_grows (E : Env F P) (cfg : Config) (R : Rng σ) (cs : List (Call F P)) : ∀ w : World F P σ,
    Grows w (run E cfg R w cs).2 := by
  induction cs with
  | nil => intro w; exact Grows.refl w
  | cons c cs ih => intro w; exact (step_grows E cfg R w c).trans (ih _)

theorem step_genuine (E : Env F P) (cfg : Config) (R : Rng σ) (w : World F P σ) (c : Call F P) (h : Held E w) :
    Held E (step E cfg R w c).2 := by
  have app : ∀ {α : Type} {q : α → Prop} {l : List α} {a : α}, (∀ x ∈ l, q x) → q a → ∀ x ∈ l ++ [a], q x := by
    intro α q l a hl ha x hx
    rcases List.mem_append.1 hx with hx | hx
    · exact hl x hx
    · rw [List.mem_singleton.1 hx]; exact ha
  cases c with
  | newParams n m =>
    simp only [step]
    cases ho : Params.new E n m <;> simp only [keep] <;> first | exact h | skip
    exact { h with params := app h.params ⟨n, m, _, _, ho⟩ }
  | newParamsWith n m G U =>
    simp only [step]
    cases ho : Params.newWithGenerators E n m G U <;> simp only [keep] <;> first | exact h | skip
    exact { h with params := app h.params ⟨n, m, _, _, ho⟩ }
  | getN p => simp only [step]; split <;> exact h
  | newSet M =>
    simp only [step]
    cases ho : InputSet.new E M <;> simp only [keep] <;> first | exact h | skip
    exact { h with sets := app h.sets (Or.inl ⟨M, ho⟩) }
  | newPaddedSet M p =>
    simp only [step]
    split
    · exact h
    · rename_i params hp
      cases ho : InputSet.newWithPadding E M params <;> simp only [keep] <;> first | exact h | skip
      exact { h with sets := app h.sets (Or.inr ⟨M, params, h.params _ (mem_of_getElem? hp), ho⟩) }
  | newStatement p i J =>
    simp only [step]
    split
    · rename_i params set hp hi
      cases ho : Statement.new E params set J <;> simp only [keep] <;> first | exact h | skip
      have hb : StatementBuilt E _ := ⟨params, set, J, h.params _ (mem_of_getElem? hp), h.sets _ (mem_of_getElem? hi), ho⟩
      exact { h with statements := app h.statements hb }
    · exact h
  | newWitness p l r =>
    simp only [step]
    split
    · exact h
    · rename_i params hp
      cases ho : Witness.new params l r <;> simp only [keep] <;> first | exact h | skip
      exact { h with witnesses := app h.witnesses (.new params l r _ (h.params _ (mem_of_getElem? hp)) ho) }
  | randomWitness p =>
    simp only [step]
    split
    · exact h
    · rename_i params hp
      cases ho : (Witness.random E R params w.rng : Outcome Unit (Witness F P × σ)) <;> simp only [keep] <;> first | exact h | skip
      exact { h with witnesses := app h.witnesses (.random σ R w.rng _ params _ (h.params _ (mem_of_getElem? hp)) ho) }
  | zeroize x =>
    simp only [step]
    split
    · exact h
    · rename_i y hy
      refine { h with witnesses := fun z hz => ?_ }
      rcases List.mem_or_eq_of_mem_set hz with hz | rfl
      · exact h.witnesses z hz
      · exact .zeroize y (h.witnesses y (mem_of_getElem? hy))
  | useTranscript t => exact { h with }
  | prove x st t timing =>
    simp only [step]
    split
    · rename_i y s tr hy hs ht
      cases ho : (Proof.proveInternal E R y s w.rng tr timing).1 <;> simp only [keep] <;> exact { h with }
    · exact h
  | verify st p t => simp only [step]; split <;> exact { h with }
  | verifyBatch sts ps ts => simp only [step]; split <;> exact { h with }
  | singleBlame sts ps ts => simp only [step]; split <;> exact { h with }
  | fullBlame sts ps ts => simp only [step]; split <;> exact { h with }
  | toBytes p => simp only [step]; split <;> exact h
  | fromBytes b =>
    simp only [step]
    cases ho : Proof.fromBytes E b <;> simp only [keep] <;> exact { h with }
  | borshSerialize p => simp only [step]; split <;> exact h
  | borshDeserialize b =>
    simp only [step]
    cases ho : Proof.borshDeserialize E b <;> simp only [keep] <;> exact { h with }
  | deserialize v => simp only [step]; split <;> exact { h with }

theorem run_genuine (E : Env F P) (cfg : Config) (R : Rng σ) (cs : List (Call F P)) : ∀ w : World F P σ, Held E w →
    Held E (run E cfg R w cs).2 := by
  induction cs with
  | nil => intro w h; exact h
  | cons c cs ih => intro w h; exact ih _ (step_genuine E cfg R w c h)

theorem empty_genuine (E : Env F P) (s : σ) : Held E (World.empty s : World F P σ) := by
  constructor <;> simp [World.empty]

theorem blameLoop_no_panic {S Q : Type} (v : S → Q → Transcript → Outcome ProofError Unit × List Transcript) :
    ∀ (sts : List S) (ps : List Q) (ts : List Transcript) (i : ℕ), (∀ s ∈ sts, ∀ p t, (v s p t).1 ≠ .panic) →
      (blameLoop v i sts ps ts).1 ≠ .panic := by
  intro sts
  induction sts with
  | nil => intro ps ts i h; simp [blameLoop]
  | cons s sts ih =>
    intro ps ts i h
    cases ps with
    | nil => simp [blameLoop]
    | cons p ps =>
      cases ts with
      | nil => simp [blameLoop]
      | cons t ts =>
        have hr := ih ps ts (i + 1) fun s hs => h s (List.mem_cons_of_mem _ hs)
        have h0 := h s (by simp) p t
        simp only [blameLoop]
        cases hv : (v s p t).1 with
        | ok u => simpa using hr
        | err e =>
          simp only
          cases hb : (blameLoop v (i + 1) sts ps ts).1 with
          | panic => exact absurd hb hr
          | _ => simp [hb]
        | panic => exact absurd hv h0
        | diverge => simp

theorem answer_panic {ε α : Type} (o : Outcome ε α) : answer o = .panic ↔ o = .panic := by
  cases o <;> simp [answer]

theorem keep_panic {ε α : Type} (w : World F P σ) (o : Outcome ε α) (put : α → World F P σ) :
    (w.keep o put).1 = .panic ↔ o = .panic := by
  cases o <;> simp [keep]

theorem fits_of (cfg : Config) (w : World F P σ) (sts : List ℕ) (k : ℕ) (h : Fits cfg w sts k) (ss : List (Statement P))
    (hf : fetch w.statements sts = some ss) : ∀ s ∈ ss, cfg.overflowChecks = true → batchSize s.params k ≤ u32Max := by
  intro s hs hc
  obtain ⟨i, hi, hs⟩ := (fetch_mem _ _ _ hf).2 s hs
  exact h hc i hi s hs

/-- No careful call panics, if the client holds genuine objects. -/
theorem step_no_panic (E : Env F P) (cfg : Config) (R : Rng σ) (w : World F P σ) (c : Call F P) (h : Held E w)
    (hc : Careful cfg w c) : (step E cfg R w c).1 ≠ .panic := by
  have hst : ∀ (is : List ℕ) (ss : List (Statement P)), fetch w.statements is = some ss → ∀ s ∈ ss, StatementBuilt E s := by
    intro is ss hf s hs
    obtain ⟨i, hi, hs⟩ := (fetch_mem _ _ _ hf).2 s hs
    exact h.statements s (mem_of_getElem? hs)
  cases c with
  | newParams n m =>
    simp only [step, ne_eq, keep_panic, Params.new, Params.newWithGenerators]
    repeat' split
    all_goals simp
  | newParamsWith n m G U =>
    simp only [step, ne_eq, keep_panic, Params.newWithGenerators]
    repeat' split
    all_goals simp
  | getN p =>
    simp only [step]
    split
    · simp
    · rename_i params hp
      obtain ⟨n, m, G, U, hb⟩ := h.params _ (mem_of_getElem? hp)
      obtain ⟨h1, h2, -, -, h5, -, h7, -⟩ := C02_sizes E n m G U params hb
      rw [if_neg]
      · simp
      · rw [h1, h2, ← h5]
        intro hx
        have := hx.2
        simp only [u32Max] at this
        omega
  | newSet M =>
    simp only [step, ne_eq, keep_panic, InputSet.new, InputSet.newInternal]
    repeat' split
    all_goals simp
  | newPaddedSet M p =>
    simp only [step]
    split
    · simp
    · simp only [ne_eq, keep_panic, InputSet.newWithPadding, InputSet.newInternal]
      repeat' split
      all_goals simp
  | newStatement p i J =>
    simp only [step]
    split
    · simp only [ne_eq, keep_panic, Statement.new]
      repeat' split
      all_goals simp
    · simp
  | newWitness p l r =>
    simp only [step]
    split
    · simp
    · simp only [ne_eq, keep_panic, Witness.new]
      repeat' split
      all_goals simp
  | randomWitness p =>
    simp only [step]
    split
    · simp
    · rename_i params hp
      obtain ⟨x, s', hx, -⟩ := C09_random (ε := Unit) E R params w.rng (h.params _ (mem_of_getElem? hp))
      simp only [ne_eq, keep_panic, hx]
      simp
  | zeroize x =>
    simp only [step]
    split <;> simp
  | useTranscript t => simp [step]
  | prove x st t timing =>
    simp only [step]
    split
    · rename_i y s tr hy hs ht
      simp only [ne_eq, keep_panic]
      rcases C11_no_panic E R y s w.rng tr timing (h.witnesses _ (mem_of_getElem? hy)) (h.statements _ (mem_of_getElem? hs)) with
        ⟨p, hp, -⟩ | hp | ⟨msg, hp⟩ <;> rw [hp] <;> simp
    · simp
  | verify st p t =>
    simp only [step]
    split
    · rename_i s q tr hs hq ht
      simp only [ne_eq, answer_panic]
      refine (C16_no_panic E cfg [s] [q] [tr] ?_ ?_).1
      · intro s' hs'
        rw [List.mem_singleton.1 hs']
        exact h.statements _ (mem_of_getElem? hs)
      · intro first hf ho
        simp only [List.head?_cons, Option.some.injEq] at hf
        subst hf
        exact hc ho st (by simp) s hs
    · simp
  | verifyBatch sts ps ts =>
    simp only [step]
    split
    · rename_i ss qs trs hs hq ht
      simp only [ne_eq, answer_panic]
      refine (C16_no_panic E cfg ss qs trs (hst sts ss hs) fun first hf ho => ?_).1
      rw [(fetch_mem _ _ _ hq).1]
      exact fits_of cfg w sts _ hc ss hs first (List.mem_of_mem_head? hf) ho
    · simp
  | singleBlame sts ps ts =>
    simp only [step]
    split
    · rename_i ss qs trs hs hq ht
      simp only [ne_eq, answer_panic]
      obtain ⟨c1, c2, c3, c4⟩ := hc
      have l1 := (fetch_mem _ _ _ hs).1
      have l2 := (fetch_mem _ _ _ hq).1
      have l3 := (fetch_mem _ _ _ ht).1
      refine C31_no_panic E cfg ss qs trs (hst sts ss hs) (by omega) (by omega) ?_ (by omega)
      rw [l2]
      exact fits_of cfg w sts _ c1 ss hs
    · simp
  | fullBlame sts ps ts =>
    simp only [step]
    split
    · rename_i ss qs trs hs hq ht
      simp only [ne_eq, answer_panic]
      have l2 := (fetch_mem _ _ _ hq).1
      have hfit := fits_of cfg w sts _ hc ss hs
      have hb := hst sts ss hs
      have h0 := (C16_no_panic E cfg ss qs trs hb fun first hf ho => le_trans (batchSize_mono _ _ _ (by omega))
        (hfit first (List.mem_of_mem_head? hf) ho)).1
      have h1 := blameLoop_no_panic (fun st p t => Proof.verify E cfg p st t) ss qs trs 0 fun s hs p t =>
        (C16_no_panic E cfg [s] [p] [t] (fun s' hs' => by rw [List.mem_singleton.1 hs']; exact hb s hs) fun first hf ho => by
          simp only [List.head?_cons, Option.some.injEq] at hf
          subst hf
          exact le_trans (batchSize_mono _ _ _ (by simp)) (hfit s hs ho)).1
      rw [Proof.verifyBatchWithFullBlame]
      cases hv : (Proof.verifyBatch E cfg ss qs trs).1 with
      | ok u => simp
      | panic => exact absurd hv h0
      | diverge => simp
      | err e =>
        simp only
        cases hl : (blameLoop (fun st p t => Proof.verify E cfg p st t) 0 ss qs trs).1 with
        | panic => exact absurd hl h1
        | _ => simp
    · simp
  | toBytes p =>
    simp only [step]
    split
    · simp
    · rename_i q hq
      simp only [ne_eq, answer_panic]
      rw [(C38_panic E q).1]
      exact hc q hq
  | fromBytes b =>
    simp only [step, ne_eq, keep_panic, Proof.fromBytes, Outcome.ofOption]
    split <;> simp
  | borshSerialize p =>
    simp only [step]
    split
    · simp
    · rename_i q hq
      obtain ⟨b, hb⟩ := (C38_panic E q).2 (hc q hq)
      simp only [ne_eq, answer_panic, Proof.borshSerialize, hb, Outcome.bind_ok, Outcome.ofOption]
      split <;> simp
  | borshDeserialize b =>
    simp only [step, ne_eq, keep_panic, Proof.borshDeserialize, Proof.fromBytes]
    split
    · simp
    · rename_i bytes rest hb
      cases Proof.fromBytesOption E bytes <;> simp [Outcome.ofOption]
  | deserialize v =>
    simp only [step]
    split <;> simp

/-- Where a proof held after a call comes from. -/
theorem step_proofs (E : Env F P) (cfg : Config) (R : Rng σ) (w : World F P σ) (c : Call F P) (h : Held E w) (p : Proof F P)
    (hp : p ∈ (step E cfg R w c).2.proofs) : p ∈ w.proofs ∨ Returned E w c p := by
  cases c with
  | prove x st t timing =>
    simp only [step] at hp
    split at hp
    · rename_i y s tr hy hs ht
      cases ho : (Proof.proveInternal E R y s w.rng tr timing).1 <;> rw [ho] at hp <;> simp only [keep] at hp
      · rcases List.mem_append.1 hp with hp | hp
        · exact Or.inl hp
        · rw [List.mem_singleton.1 hp]
          exact Or.inr ⟨s, tr, hs, ht, σ, R, y, w.rng, timing, h.witnesses _ (mem_of_getElem? hy), ho⟩
      all_goals exact Or.inl hp
    · exact Or.inl hp
  | fromBytes b =>
    simp only [step] at hp
    cases ho : Proof.fromBytes E b <;> rw [ho] at hp <;> simp only [keep] at hp
    · rcases List.mem_append.1 hp with hp | hp
      · exact Or.inl hp
      · rw [List.mem_singleton.1 hp]
        exact Or.inr ho
    all_goals exact Or.inl hp
  | borshDeserialize b =>
    simp only [step] at hp
    cases ho : Proof.borshDeserialize E b <;> rw [ho] at hp <;> simp only [keep] at hp
    · rename_i x
      rcases List.mem_append.1 hp with hp | hp
      · exact Or.inl hp
      · rw [List.mem_singleton.1 hp]
        exact Or.inr ⟨x.2, ho⟩
    all_goals exact Or.inl hp
  | deserialize v =>
    simp only [step] at hp
    split at hp
    · exact Or.inl hp
    · rename_i q hq
      rcases List.mem_append.1 hp with hp | hp
      · exact Or.inl hp
      · rw [List.mem_singleton.1 hp]
        exact Or.inr hq
  | _ =>
    left
    simp only [step] at hp
    first
      | exact hp
      | (repeat' split at hp
         all_goals first
           | exact hp
           | (simp only [keep] at hp
              repeat' split at hp
              all_goals exact hp))

theorem run_proofs (E : Env F P) (cfg : Config) (R : Rng σ) (p : Proof F P) (cs : List (Call F P)) : ∀ (w : World F P σ), Held E w →
    p ∈ (run E cfg R w cs).2.proofs →
    p ∈ w.proofs ∨ ∃ pre c post, cs = pre ++ c :: post ∧ Returned E (run E cfg R w pre).2 c p := by
  induction cs with
  | nil => intro w h hp; exact Or.inl hp
  | cons c cs ih =>
    intro w h hp
    rcases ih _ (step_genuine E cfg R w c h) hp with hp | ⟨pre, c', post, h1, h2⟩
    · rcases step_proofs E cfg R w c h p hp with hp | hp
      · exact Or.inl hp
      · exact Or.inr ⟨[], c, cs, rfl, hp⟩
    · exact Or.inr ⟨c :: pre, c', post, by rw [h1]; rfl, h2⟩

theorem run_no_panic (E : Env F P) (cfg : Config) (R : Rng σ) (cs : List (Call F P)) : ∀ (w : World F P σ), Held E w →
    (∀ pre c post, cs = pre ++ c :: post → Careful cfg (run E cfg R w pre).2 c) → .panic ∉ (run E cfg R w cs).1 := by
  induction cs with
  | nil => intro w h hc; simp [run]
  | cons c cs ih =>
    intro w h hc
    simp only [run, List.mem_cons, not_or]
    refine ⟨fun he => step_no_panic E cfg R w c h (hc [] c cs rfl) he.symm, ih _ (step_genuine E cfg R w c h) fun pre c' post he => ?_⟩
    exact hc (c :: pre) c' post (by rw [he]; rfl)

/-- A witness that is held is unchanged or zeroized by a call. -/
theorem step_witness (E : Env F P) (cfg : Config) (R : Rng σ) (w : World F P σ) (c : Call F P) (x : ℕ) (y : Witness F P)
    (h : w.witnesses[x]? = some y) : ∃ z, (step E cfg R w c).2.witnesses[x]? = some z ∧ (z = y ∨ z = y.zeroize) := by
  have hk : ∀ {ε α : Type} (w0 : World F P σ) (o : Outcome ε α) (put : α → World F P σ), w.witnesses <+: w0.witnesses →
      (∀ a, w.witnesses <+: (put a).witnesses) → w.witnesses <+: (w0.keep o put).2.witnesses := by
    intro ε α w0 o put h0 h
    cases o <;> simp only [keep]
    · exact h _
    all_goals exact h0
  have key : (∀ i, c ≠ .zeroize i) → w.witnesses <+: (step E cfg R w c).2.witnesses := by
    intro hz
    have r : w.witnesses <+: w.witnesses := List.prefix_rfl
    cases c <;> simp only [step]
    all_goals first
      | exact r
      | exact hk w _ _ r fun a => by simp
      | exact absurd rfl (hz _)
      | (repeat' split
         all_goals first
           | exact r
           | exact hk w _ _ r fun a => by simp
           | (refine hk _ _ _ ?_ fun a => ?_ <;> exact r))
  by_cases hz : ∀ i, c ≠ .zeroize i
  · exact ⟨y, getElem?_of_prefix (key hz) h, Or.inl rfl⟩
  · push Not at hz
    obtain ⟨i, rfl⟩ := hz
    simp only [step]
    split
    · exact ⟨y, h, Or.inl rfl⟩
    · rename_i v hv
      by_cases hi : i = x
      · subst hi
        rw [h] at hv
        cases hv
        exact ⟨y.zeroize, by simp [List.getElem?_set, (List.getElem?_eq_some_iff.1 h).1], Or.inr rfl⟩
      · exact ⟨y, by rw [List.getElem?_set_ne hi, h], Or.inl rfl⟩

theorem run_zeroized (E : Env F P) (cfg : Config) (R : Rng σ) (x : ℕ) (cs : List (Call F P)) : ∀ (w : World F P σ) (y : Witness F P),
    w.witnesses[x]? = some y.zeroize → (run E cfg R w cs).2.witnesses[x]? = some y.zeroize := by
  induction cs with
  | nil => intro w y h; exact h
  | cons c cs ih =>
    intro w y h
    obtain ⟨z, hz, e⟩ := step_witness E cfg R w c x _ h
    refine ih _ y ?_
    rw [hz]
    rcases e with rfl | rfl <;> rfl

theorem fetch_prefix {α : Type} {l l' : List α} (hl : l <+: l') : ∀ (is : List ℕ) (as : List α), fetch l is = some as →
    fetch l' is = some as := by
  intro is
  induction is with
  | nil => intro as h; exact h
  | cons i is ih =>
    intro as h
    simp only [fetch, Option.bind_eq_bind, Option.bind_eq_some_iff] at h ⊢
    obtain ⟨a, ha, rest, hr, h⟩ := h
    exact ⟨a, getElem?_of_prefix hl ha, rest, ih rest hr, h⟩

end World

/-! ## C123 -/

/-- C123: whatever calls a client makes, in any order and with any arguments, all parameters, input sets, statements and witnesses
it ends up with are ones the constructors accept, and parameters, input sets, statements and proofs it held before are unchanged. -/
theorem C123_objects (E : Env F P) (cfg : Config) (R : Rng σ) (s : σ) (calls more : List (Call F P)) :
    (∀ p ∈ (World.run E cfg R (World.empty s) calls).2.params, ParamsBuilt E p) ∧
    (∀ i ∈ (World.run E cfg R (World.empty s) calls).2.sets, InputSetBuilt E i) ∧
    (∀ st ∈ (World.run E cfg R (World.empty s) calls).2.statements, StatementBuilt E st) ∧
    (∀ x ∈ (World.run E cfg R (World.empty s) calls).2.witnesses, WitnessBuilt E x) ∧
    ∀ w w', w = (World.run E cfg R (World.empty s) calls).2 → w' = (World.run E cfg R (World.empty s) (calls ++ more)).2 →
      w.params <+: w'.params ∧ w.sets <+: w'.sets ∧ w.statements <+: w'.statements ∧ w.proofs <+: w'.proofs := by
  have h := World.run_genuine E cfg R calls _ (World.empty_genuine E s)
  refine ⟨h.params, h.sets, h.statements, h.witnesses, ?_⟩
  rintro w w' rfl rfl
  rw [World.run_append]
  have := World.run_grows E cfg R more (World.run E cfg R (World.empty s) calls).2
  exact ⟨this.params, this.sets, this.statements, this.proofs⟩

/-- C123: no call of a careful client panics, whatever it did before. -/
theorem C123_no_panic (E : Env F P) (cfg : Config) (R : Rng σ) (s : σ) (calls : List (Call F P))
    (hc : ∀ i, ∀ c ∈ calls[i]?, Careful cfg (World.run E cfg R (World.empty s) (calls.take i)).2 c) :
    Answer.panic ∉ (World.run E cfg R (World.empty s) calls).1 := by
  refine World.run_no_panic E cfg R calls _ (World.empty_genuine E s) ?_
  rintro pre c post rfl
  simpa using hc pre.length c (by simp)

/-- C123: every proof a client holds was returned by a call of the prover (for a statement and a transcript held at that time) or by
one of the three decoders. -/
theorem C123_proofs (E : Env F P) (cfg : Config) (R : Rng σ) (s : σ) (calls : List (Call F P)) (p : Proof F P)
    (hp : p ∈ (World.run E cfg R (World.empty s) calls).2.proofs) :
    ∃ i c, calls[i]? = some c ∧ Returned E (World.run E cfg R (World.empty s) (calls.take i)).2 c p := by
  rcases World.run_proofs E cfg R p calls _ (World.empty_genuine E s) hp with hr | ⟨pre, c, post, rfl, hr⟩
  · simp [World.empty] at hr
  · exact ⟨pre.length, c, by simp, by simpa using hr⟩

/-- C123: a client that decodes no proof with serde can encode every proof it holds, and decoding gives back the proof; in
particular, encoding does not panic. -/
theorem C123_encode (E : Env F P) (hE : E.Lawful) (cfg : Config) (R : Rng σ) (s : σ) (calls : List (Call F P))
    (hs : ∀ v, Call.deserialize v ∉ calls) (p : Proof F P) (hp : p ∈ (World.run E cfg R (World.empty s) calls).2.proofs) :
    p.f ≠ [] ∧ (Proof.toBytes E p >>= Proof.fromBytes E) = .ok p := by
  have key : (Proof.toBytes E p >>= Proof.fromBytes E) = .ok p := by
    obtain ⟨i, c, h1, h2⟩ := C123_proofs E cfg R s calls p hp
    cases c with
    | prove x st t timing =>
      obtain ⟨sta, tr, hst, ht, hh⟩ := h2
      exact C34_prover E hE sta tr p ((World.run_genuine E cfg R (calls.take i) _ (World.empty_genuine E s)).statements _
        (World.mem_of_getElem? hst)) hh
    | fromBytes b => exact C34_decoded E hE b p h2
    | borshDeserialize b =>
      obtain ⟨rest, h2⟩ := h2
      simp only [Proof.borshDeserialize] at h2
      split at h2
      · simp at h2
      · rename_i bytes rest' hb
        cases ho : Proof.fromBytes E bytes <;> rw [ho] at h2 <;> simp at h2
        obtain ⟨rfl, rfl⟩ := h2
        exact C34_decoded E hE bytes _ ho
    | deserialize v => exact absurd (World.mem_of_getElem? h1) (hs v)
    | _ => exact absurd h2 (by simp [Returned])
  refine ⟨fun hf => ?_, key⟩
  have : (Proof.toBytes E p : Outcome ProofError Bytes) = .panic := by simp [Proof.toBytes, hf, idx]
  rw [this] at key
  simp at key

/-- C123: a call that returns an error leaves all objects as they are; transcripts and the generator can only have changed in calls
of the prover, the verifier and full blame. -/
theorem C123_errors (E : Env F P) (cfg : Config) (R : Rng σ) (w : World F P σ) (c : Call F P)
    (h : (World.step E cfg R w c).1 = .error) :
    (World.step E cfg R w c).2 = { w with transcripts := (World.step E cfg R w c).2.transcripts, rng := (World.step E cfg R w c).2.rng } ∧
    ((∀ x st t timing, c ≠ .prove x st t timing) → (World.step E cfg R w c).2.rng = w.rng ∧
      ((∀ st p t, c ≠ .verify st p t) → (∀ sts ps ts, c ≠ .verifyBatch sts ps ts) → (∀ sts ps ts, c ≠ .fullBlame sts ps ts) →
        (World.step E cfg R w c).2 = w)) := by
  have hk : ∀ {ε α : Type} (o : Outcome ε α) (put : α → World F P σ), (w.keep o put).1 = .error → (w.keep o put).2 = w := by
    intro ε α o put h
    cases o <;> simp_all [World.keep]
  have fin : ∀ (c : Call F P) (hs : (World.step E cfg R w c).2 = w),
      (World.step E cfg R w c).2 = { w with transcripts := (World.step E cfg R w c).2.transcripts, rng := (World.step E cfg R w c).2.rng } ∧
      ((∀ x st t timing, c ≠ .prove x st t timing) → (World.step E cfg R w c).2.rng = w.rng ∧
        ((∀ st p t, c ≠ .verify st p t) → (∀ sts ps ts, c ≠ .verifyBatch sts ps ts) → (∀ sts ps ts, c ≠ .fullBlame sts ps ts) →
          (World.step E cfg R w c).2 = w)) := by
    intro c hs
    rw [hs]
    exact ⟨rfl, fun _ => ⟨rfl, fun _ _ _ => rfl⟩⟩
  cases c with
  | prove x st t timing =>
    refine ⟨?_, fun hne => absurd rfl (hne x st t timing)⟩
    simp only [World.step] at h ⊢
    split
    · rename_i y s tr hy hs ht
      rw [hy, hs, ht] at h
      simp only at h ⊢
      cases ho : (Proof.proveInternal E R y s w.rng tr timing).1 <;> rw [ho] at h <;> simp_all [World.keep]
    · rfl
  | verify st p t =>
    refine ⟨?_, fun _ => ⟨?_, fun hne => absurd rfl (hne st p t)⟩⟩ <;> simp only [World.step] <;> split <;> rfl
  | verifyBatch sts ps ts =>
    refine ⟨?_, fun _ => ⟨?_, fun _ hne => absurd rfl (hne sts ps ts)⟩⟩ <;> simp only [World.step] <;> split <;> rfl
  | fullBlame sts ps ts =>
    refine ⟨?_, fun _ => ⟨?_, fun _ _ hne => absurd rfl (hne sts ps ts)⟩⟩ <;> simp only [World.step] <;> split <;> rfl
  | singleBlame sts ps ts =>
    refine fin _ ?_
    simp only [World.step]
    split
    · rename_i ss qs trs hs hq ht
      rw [C33_single, World.putBack_fetch _ _ _ ht]
    · rfl
  | _ =>
    refine fin _ ?_
    simp only [World.step] at h ⊢
    first
      | rfl
      | exact hk _ _ h
      | simp at h
      | (split at h <;> first | rfl | exact hk _ _ h | simp at h)

/-- C123: whatever a client does in between, a proof made by the prover is accepted for the same statement with a transcript in the
state the prover was given, unless the proof has a zero response (C14). -/
theorem C123_verify (E : Env F P) (cfg : Config) (R : Rng σ) (s : σ) (pre mid : List (Call F P)) (x st t t' : ℕ)
    (timing : OperationTiming) (wp wq wv : World F P σ) (hwp : wp = (World.run E cfg R (World.empty s) pre).2)
    (hwq : World.step E cfg R wp (.prove x st t timing) = (.done, wq)) (hwv : wv = (World.run E cfg R wq mid).2)
    (ht : wv.transcripts[t']? = wp.transcripts[t]?) :
    ∃ sta p tr, wv.statements[st]? = some sta ∧ wv.proofs[wp.proofs.length]? = some p ∧ wv.transcripts[t']? = some tr ∧
      (SizeOK cfg sta.params 1 → EnoughFuel E [sta] [p] [tr] cfg.fuel →
        ((World.step E cfg R wv (.verify st wp.proofs.length t')).1 = .done ↔
          NonzeroF sta.params.n sta.params.m p.f (challenge E tr sta p))) := by
  have hheld := World.run_genuine E cfg R pre _ (World.empty_genuine E s)
  rw [← hwp] at hheld
  simp only [World.step] at hwq
  split at hwq
  · rename_i y sta tr hy hs htr
    cases ho : (Proof.proveInternal E R y sta wp.rng tr timing).1 <;> rw [ho] at hwq <;>
      simp only [World.keep, Prod.mk.injEq, true_and, reduceCtorEq, false_and] at hwq
    rename_i p
    have hg := World.run_grows E cfg R mid wq
    rw [← hwv] at hg
    have hsta : wv.statements[st]? = some sta := by
      have h1 : wq.statements[st]? = some sta := by rw [← hwq]; exact hs
      exact World.getElem?_of_prefix hg.statements h1
    have hp : wv.proofs[wp.proofs.length]? = some p := by
      have h1 : wq.proofs[wp.proofs.length]? = some p := by rw [← hwq]; simp
      exact World.getElem?_of_prefix hg.proofs h1
    have htr' : wv.transcripts[t']? = some tr := by rw [ht, htr]
    refine ⟨sta, p, tr, hsta, hp, htr', fun hsz hfuel => ?_⟩
    have hh : Honest E sta tr p := ⟨σ, R, y, wp.rng, timing, hheld.witnesses _ (World.mem_of_getElem? hy), ho⟩
    obtain ⟨c1, c2⟩ := C14_complete E cfg sta tr p (hheld.statements _ (World.mem_of_getElem? hs)) hh hsz hfuel
    simp only [World.step, hsta, hp, htr']
    constructor
    · intro hd
      by_contra hn
      rw [c2 hn] at hd
      simp [World.answer] at hd
    · intro hn
      rw [c1 hn]
      rfl
  · simp at hwq

/-- C123: a witness that was zeroized proves nothing any more, whatever happened since: the prover rejects it and changes nothing
(`absent`: the statement or transcript mentioned does not exist). -/
theorem C123_zeroized (E : Env F P) (cfg : Config) (R : Rng σ) (s : σ) (pre mid : List (Call F P)) (x st t : ℕ)
    (timing : OperationTiming) (w : World F P σ)
    (hw : w = (World.run E cfg R (World.empty s) (pre ++ .zeroize x :: mid)).2)
    (hx : x < (World.run E cfg R (World.empty s) pre).2.witnesses.length) :
    (∃ y, w.witnesses[x]? = some y ∧ y.l = 0 ∧ y.r = 0) ∧
    ((World.step E cfg R w (.prove x st t timing)).1 = .error ∨ w.statements[st]? = none ∨ w.transcripts[t]? = none) ∧
    (World.step E cfg R w (.prove x st t timing)).2 = w := by
  have hheld := World.run_genuine E cfg R (pre ++ .zeroize x :: mid) _ (World.empty_genuine E s)
  rw [← hw] at hheld
  have hy : ∃ y : Witness F P, w.witnesses[x]? = some y.zeroize := by
    rw [World.run_append] at hw
    have hv := List.getElem?_eq_getElem hx
    generalize (World.run E cfg R (World.empty s) pre).2 = wp at hx hv hw
    refine ⟨wp.witnesses[x], ?_⟩
    rw [hw]
    simp only [World.run]
    refine World.run_zeroized E cfg R x mid _ _ ?_
    simp only [World.step, hv]
    simp [List.getElem?_set, hx]
  obtain ⟨y, hy⟩ := hy
  refine ⟨⟨_, hy, rfl, rfl⟩, ?_⟩
  simp only [World.step, hy]
  cases hs : w.statements[st]? with
  | none => simp
  | some sta =>
    cases ht : w.transcripts[t]? with
    | none => simp
    | some tr =>
      obtain ⟨msg, hm⟩ := C12_zero_key E R y.zeroize sta w.rng tr timing (hheld.witnesses _ (World.mem_of_getElem? hy))
        (hheld.statements _ (World.mem_of_getElem? hs)) rfl
      have hset : w.transcripts.set t tr = w.transcripts := by
        obtain ⟨hi, hia⟩ := List.getElem?_eq_some_iff.1 ht
        rw [← hia, List.set_getElem_self]
      simp only [hm, World.keep, hset]
      simp

/-- C123: the same verification gives the same answer at any later time: for held statements and proofs, with transcripts that are
in the same states again. -/
theorem C123_repeat (E : Env F P) (cfg : Config) (R : Rng σ) (s : σ) (pre mid : List (Call F P)) (w w' : World F P σ)
    (hw : w = (World.run E cfg R (World.empty s) pre).2) (hw' : w' = (World.run E cfg R (World.empty s) (pre ++ mid)).2) :
    (∀ st p t t', st < w.statements.length → p < w.proofs.length → w'.transcripts[t']? = w.transcripts[t]? →
      (World.step E cfg R w' (.verify st p t')).1 = (World.step E cfg R w (.verify st p t)).1) ∧
    ∀ sts ps ts ts', (∀ i ∈ sts, i < w.statements.length) → (∀ i ∈ ps, i < w.proofs.length) →
      ts'.map (fun i => w'.transcripts[i]?) = ts.map (fun i => w.transcripts[i]?) →
      (World.step E cfg R w' (.verifyBatch sts ps ts')).1 = (World.step E cfg R w (.verifyBatch sts ps ts)).1 := by
  have hg : World.Grows w w' := by
    rw [hw', World.run_append, ← hw]
    exact World.run_grows E cfg R mid w
  have hf : ∀ {α : Type} (l : List α) (is : List ℕ), (∀ i ∈ is, i < l.length) → ∃ as, World.fetch l is = some as := by
    intro α l is
    induction is with
    | nil => intro _; exact ⟨[], rfl⟩
    | cons i is ih =>
      intro hi
      obtain ⟨as, ha⟩ := ih fun j hj => hi j (List.mem_cons_of_mem _ hj)
      have h0 := List.getElem?_eq_getElem (hi i (by simp))
      exact ⟨l[i]'(hi i (by simp)) :: as, by simp [World.fetch, h0, ha]⟩
  have ht : ∀ ts ts' : List ℕ, ts'.map (fun i => w'.transcripts[i]?) = ts.map (fun i => w.transcripts[i]?) →
      World.fetch w'.transcripts ts' = World.fetch w.transcripts ts := by
    intro ts
    induction ts with
    | nil => intro ts' h; simp at h; subst h; rfl
    | cons i ts ih =>
      intro ts' h
      cases ts' with
      | nil => simp at h
      | cons j ts' =>
        simp only [List.map_cons, List.cons.injEq] at h
        simp only [World.fetch, h.1, ih ts' h.2]
  constructor
  · intro st p t t' h1 h2 h3
    have e1 := List.getElem?_eq_getElem h1
    have e2 := List.getElem?_eq_getElem h2
    simp only [World.step, World.getElem?_of_prefix hg.statements e1, World.getElem?_of_prefix hg.proofs e2, e1, e2, h3]
    cases w.transcripts[t]? <;> rfl
  · intro sts ps ts ts' h1 h2 h3
    obtain ⟨ss, e1⟩ := hf _ _ h1
    obtain ⟨qs, e2⟩ := hf _ _ h2
    simp only [World.step, World.fetch_prefix hg.statements _ _ e1, World.fetch_prefix hg.proofs _ _ e2, e1, e2, ht _ _ h3]
    cases World.fetch w.transcripts ts <;> rfl

/-! ## A session of the toy client -/

namespace Toy

/-- A client that makes a proof after a failed attempt, erases its witness, verifies the proof, encodes and decodes it, and verifies a
batch of both copies with single and full blame. -/
def session : List (Call (ZMod 101) (ZMod 101)) :=
  [.newParams 1 2, .newParams 2 2, .getN 0, .newSet keys, .newStatement 0 0 witness.computeLinkingTag, .newWitness 0 3 7,
    .newWitness 0 2 7, .useTranscript transcript, .useTranscript transcript, .useTranscript transcript, .useTranscript transcript,
    .useTranscript transcript, .prove 0 0 0 .Constant, .prove 1 0 0 .Constant, .zeroize 1, .prove 1 0 1 .Variable, .verify 0 0 1,
    .toBytes 0, .fromBytes (get [] (Proof.toBytes (env 101) proof : Outcome Unit Bytes)), .fromBytes [],
    .singleBlame [0, 0] [0, 1] [2, 3], .fullBlame [0, 0] [0, 1] [3, 1], .verifyBatch [0, 0] [0, 1] [2, 4], .verify 7 0 0]

/-- A careless client: it decodes a proof without responses with serde and encodes it, and calls single blame without transcripts. -/
def careless : List (Call (ZMod 101) (ZMod 101)) :=
  [.deserialize (Proof.serializeMap (env 101) emptyProof), .toBytes 0, .singleBlame [] [0, 0] []]

theorem session_careful : ∀ i < session.length, ∀ c ∈ session[i]?,
    Careful cfg (World.run (env 101) cfg nullRng (World.empty ()) (session.take i)).2 c := by decide +kernel

end Toy

/-- C123: the toy client is careful; its calls end as expected, in particular none panics. -/
example : (World.run (Toy.env 101) Toy.cfg nullRng (World.empty ()) Toy.session).1 =
      [.error, .done, .done, .done, .done, .done, .done, .done, .done, .done, .done, .done, .error, .done, .done, .error, .done, .done,
        .done, .error, .done, .error, .done, .absent] ∧
    (∀ i, ∀ c ∈ Toy.session[i]?,
      Careful Toy.cfg (World.run (Toy.env 101) Toy.cfg nullRng (World.empty ()) (Toy.session.take i)).2 c) ∧
    (∀ v, Call.deserialize v ∉ Toy.session) ∧
    (World.run (Toy.env 101) Toy.cfg nullRng (World.empty ()) Toy.session).2.proofs = [Toy.proof, Toy.proof] := by
  refine ⟨by decide +kernel, fun i c hc => ?_, by simp [Toy.session], by decide +kernel⟩
  exact Toy.session_careful i (List.getElem?_eq_some_iff.1 hc).1 c hc

/-- C123: the prover call of the toy client returned a proof, and transcript 2 is later in the state the prover was given. -/
example : (World.step (Toy.env 101) Toy.cfg nullRng (World.run (Toy.env 101) Toy.cfg nullRng (World.empty ())
      (Toy.session.take 13)).2 (.prove 1 0 0 .Constant)).1 = .done ∧
    (World.run (Toy.env 101) Toy.cfg nullRng (World.empty ()) (Toy.session.take 21)).2.transcripts[2]? =
      (World.run (Toy.env 101) Toy.cfg nullRng (World.empty ()) (Toy.session.take 13)).2.transcripts[0]? ∧
    SizeOK Toy.cfg Toy.statement.params 1 ∧ EnoughFuel (Toy.env 101) [Toy.statement] [Toy.proof] [Toy.transcript] Toy.cfg.fuel :=
  ⟨by decide +kernel, by decide +kernel, ⟨by decide +kernel, fun _ => by decide +kernel⟩,
    enoughFuel_mono _ _ _ _ 3 _ (by decide) (by rw [EnoughFuel]; decide +kernel)⟩

/-- C123: when the toy client zeroizes witness 1 it holds it, and its two verifications of proof 0 alone agree. -/
example : 1 < (World.run (Toy.env 101) Toy.cfg nullRng (World.empty ()) (Toy.session.take 14)).2.witnesses.length ∧
    Toy.session = Toy.session.take 14 ++ .zeroize 1 :: Toy.session.drop 15 ∧
    (World.run (Toy.env 101) Toy.cfg nullRng (World.empty ()) (Toy.session.take 21)).2.transcripts[2]? =
      (World.run (Toy.env 101) Toy.cfg nullRng (World.empty ()) (Toy.session.take 16)).2.transcripts[1]? :=
  ⟨by decide +kernel, rfl, by decide +kernel⟩

/-- C123: the exceptions are real: a careless client's calls panic. -/
example : (World.run (Toy.env 101) Toy.cfg nullRng (World.empty ()) Toy.careless).1 = [.done, .panic, .panic] := by
  decide +kernel

end Triptych
