import Verif.Props.Parallel.WrongMessage

/-! # Continuing a transcript after a parallel proof: C122 -/
set_option autoImplicit false
set_option linter.unusedSectionVars false
set_option linter.unusedVariables false

namespace Triptych.Parallel
open Finset
open Triptych.Parallel.Spec
open Triptych.Spec (avg Block Block.bytes withOracle withTables SingleRight FullRight BatchRight weightTranscript part NonzeroF points)

variable {F P : Type} [Field F] [AddCommGroup P] [Module F P] [DecidableEq F] [DecidableEq P]

local notation "ℓ" => (2 ^ 252 + 27742317777372353535851937790883648493 : ℕ)

/-- Another answer for a question the prover does not ask does not change the proof. -/
theorem prove_other_answer {σ : Type} (E : Env F P) (S : Finset Transcript) (hS : ∀ t ∈ S, t.getLast? = some (.challenge "xi" 64))
    (O : S → Block) (R : Rng σ) (w : Witness F P) (st : Statement P) (s : σ) (t : Transcript) (timing : OperationTiming)
    (hw : WitnessBuilt E w) (hst : StatementBuilt E st) (p : Proof F P) (h : (Proof.proveInternal E R w st s t timing).1 = .ok p)
    (hne : challengeTranscript E t st.hash p.A p.B p.C p.D p.X p.X1 p.Y ∉ S) :
    (Proof.proveInternal (withOracle E S O) R w st s t timing).1 = .ok p := by
  have hst' := statementBuilt_withOracle E S O hS _ hst
  have hw' := witnessBuilt_withOracle E S O hS _ hw
  obtain ⟨q, hq, -, hp, hrel⟩ | hbad | ⟨msg, hbad⟩ := C48_no_panic E R w st s t timing hw hst
  · obtain ⟨nn, ξ, hnn, hξ, a1, a2⟩ := C48_accept E R w st s t timing hw hst hp hrel
    have h0 : ξ ≠ 0 := by
      intro h0
      rw [a1 h0] at h
      simp at h
    have hpp : p = honestProof st.params st.inputSet.M st.inputSet.M1 st.offset st.J w.l w.r w.r1 nn ξ := by
      rw [a2 h0] at h
      exact (Outcome.ok.inj h).symm
    subst hpp
    obtain ⟨nn2, ξ2, hnn2, hξ2, -, a2'⟩ := C48_accept (withOracle E S O) R w st s t timing hw' hst' hp hrel
    have e : nn2 = nn := hnn2.trans hnn.symm
    subst e
    have hpoint : challengeTranscript E t st.hash (honestProof st.params st.inputSet.M st.inputSet.M1 st.offset st.J w.l w.r w.r1 nn2 ξ).A
        (honestProof st.params st.inputSet.M st.inputSet.M1 st.offset st.J w.l w.r w.r1 nn2 ξ).B (honestProof st.params st.inputSet.M st.inputSet.M1 st.offset st.J w.l w.r w.r1 nn2 ξ).C
        (honestProof st.params st.inputSet.M st.inputSet.M1 st.offset st.J w.l w.r w.r1 nn2 ξ).D (honestProof st.params st.inputSet.M st.inputSet.M1 st.offset st.J w.l w.r w.r1 nn2 ξ).X
        (honestProof st.params st.inputSet.M st.inputSet.M1 st.offset st.J w.l w.r w.r1 nn2 ξ).X1
        (honestProof st.params st.inputSet.M st.inputSet.M1 st.offset st.J w.l w.r w.r1 nn2 ξ).Y = proverTranscript E t st w.l w.r w.r1 nn2 := rfl
    rw [hpoint] at hne
    have hξξ : ξ2 = ξ := by
      rw [hξ, hξ2]
      show E.scalarOfWide _ = E.scalarOfWide _
      congr 1
      show (withOracle E S O).challenge (proverTranscript E t st w.l w.r w.r1 nn2) = _
      exact dif_neg hne
    rw [a2' (by rw [hξξ]; exact h0), hξξ]
  · rw [hbad] at h; simp at h
  · rw [hbad] at h; simp at h

theorem challengeTranscript_length (E : Env F P) (t t' : Transcript) (h h' : Bytes) (A B C D A' B' C' D' : P) (X X1 Y X' X1' Y' : List P)
    (hX : X.length = X'.length) (hX1 : X1.length = X1'.length) (hY : Y.length = Y'.length) :
    (challengeTranscript E t h A B C D X X1 Y).length + t'.length = (challengeTranscript E t' h' A' B' C' D' X' X1' Y').length + t.length := by
  simp only [challengeTranscript, points, List.length_append, List.length_cons, List.length_nil, List.length_map, hX, hX1, hY]
  omega

open Classical in
/-- C122: somebody makes a proof with a transcript and then a second one with the transcript the first call has left, and somebody
else verifies the first proof with the same transcript and then the second one with the transcript this call has left. The verifier's
challenge for the second proof is asked for nowhere else (whatever its value, both proofs and both transcripts are the same), and if
it is random, and the weights are, the second proof is accepted with probability at most `m / 2^252 + 1 / 2^250`. -/
theorem C122_continued_parallel {σ σ' : Type} {P : Type} [AddCommGroup P] [Module (ZMod ℓ) P] [DecidableEq P] (E : Env (ZMod ℓ) P)
    (hE : E.Lawful) (hwide : ∀ b, E.scalarOfWide b = ((leNat b : ℕ) : ZMod ℓ)) (cfg : Config)
    (R : Rng σ) (s : σ) (w : Witness (ZMod ℓ) P) (st : Statement P) (timing : OperationTiming)
    (R' : Rng σ') (s' : σ') (w' : Witness (ZMod ℓ) P) (st' : Statement P) (timing' : OperationTiming)
    (hw : WitnessBuilt E w) (hst : StatementBuilt E st) (hw' : WitnessBuilt E w') (hst' : StatementBuilt E st')
    (hsz : SizeOK cfg st.params 1) (hsz' : SizeOK cfg st'.params 1) (hi : 1 < cfg.usizeMax) (hfuel : 2 ≤ cfg.fuel)
    (t left leftV : Transcript) (p p' : Proof (ZMod ℓ) P)
    (h : (Proof.proveInternal E R w st s t timing).1 = .ok p) (hleft : (Proof.proveInternal E R w st s t timing).2.1 = left)
    (h' : (Proof.proveInternal E R' w' st' s' left timing').1 = .ok p') (hleftV : (Proof.verify E cfg p st t).2 = [leftV])
    (T : Transcript) (hT : T = challengeTranscript E leftV st'.hash p'.A p'.B p'.C p'.D p'.X p'.X1 p'.Y) (L : Finset Transcript)
    (hL : ∀ O : ({T} : Finset Transcript) → Block, weightTranscript "Parallel Triptych verifier weights"
      (seeds (withOracle E {T} O) [st'] [p'] [leftV]) ∈ L) :
    (∀ O : ({T} : Finset Transcript) → Block,
      (Proof.proveInternal (withOracle E {T} O) R w st s t timing).1 = .ok p ∧
      (Proof.proveInternal (withOracle E {T} O) R w st s t timing).2.1 = left ∧
      (Proof.proveInternal (withOracle E {T} O) R' w' st' s' left timing').1 = .ok p' ∧
      (Proof.verify (withOracle E {T} O) cfg p st t).2 = [leftV]) ∧
    avg (fun O : ({T} : Finset Transcript) → Block => avg fun W : L → Fin (1 * 2 * 5) → Block =>
      ind ((Proof.verify (withTables (withOracle E {T} O) L W) cfg p' st' leftV).1 = .ok ())) ≤
      st'.params.m / 2 ^ 252 + 1 / 2 ^ 250 := by
  have hS : ∀ u ∈ ({T} : Finset Transcript), u.getLast? = some (.challenge "xi" 64) := by
    intro u hu
    rw [mem_singleton.1 hu, hT, challengeTranscript]
    exact List.getLast?_concat
  have hpt : challengeTranscript E t st.hash p.A p.B p.C p.D p.X p.X1 p.Y = left := by
    rw [← hleft, C54_prover E R w st s t timing hw hst p h]
    rfl
  have hV := C54_verifier E cfg R w st s t timing hw hst p h hsz
  rw [hleftV, hleft, List.cons.injEq] at hV
  have hlt : left.length < leftV.length := by
    rw [hV.1.1]
    simp
  have hTlen : leftV.length < T.length := by
    rw [hT]
    simp [challengeTranscript]
  have hne1 : challengeTranscript E t st.hash p.A p.B p.C p.D p.X p.X1 p.Y ∉ ({T} : Finset Transcript) := by
    rw [hpt, mem_singleton]
    rintro rfl
    omega
  have hne2 : challengeTranscript E left st'.hash p'.A p'.B p'.C p'.D p'.X p'.X1 p'.Y ∉ ({T} : Finset Transcript) := by
    rw [mem_singleton]
    intro e
    have := challengeTranscript_length E left leftV st'.hash st'.hash p'.A p'.B p'.C p'.D p'.A p'.B p'.C p'.D p'.X p'.X1 p'.Y p'.X p'.X1 p'.Y rfl rfl rfl
    rw [e, ← hT] at this
    omega
  have hmade : ∀ O : ({T} : Finset Transcript) → Block, (Proof.proveInternal (withOracle E {T} O) R' w' st' s' left timing').1 = .ok p' :=
    fun O => prove_other_answer E {T} hS O R' w' st' s' left timing' hw' hst' p' h' hne2
  refine ⟨fun O => ?_, ?_⟩
  · have k1 := prove_other_answer E {T} hS O R w st s t timing hw hst p h hne1
    have hstO := statementBuilt_withOracle E {T} O hS _ hst
    have hwO := witnessBuilt_withOracle E {T} O hS _ hw
    have k2 : (Proof.proveInternal (withOracle E {T} O) R w st s t timing).2.1 = left := by
      rw [C54_prover (withOracle E {T} O) R w st s t timing hwO hstO p k1, ← hpt]
      rfl
    refine ⟨k1, k2, hmade O, ?_⟩
    rw [(C54_verifier (withOracle E {T} O) cfg R w st s t timing hwO hstO p k1 hsz).1, k2, hV.1.1]
    rfl
  · let x : Signature σ' (Statement P) (ZMod ℓ) P := ⟨st', R', w', s', left, timing'⟩
    have hmx : ∀ O : ({T} : Finset Transcript) → Block, x.made (withOracle E {T} O) id = .ok p' := hmade
    have hby : ∀ O : ({T} : Finset Transcript) → Block, MadeBy (withOracle E {T} O) [x] [p'] := fun O => .cons (hmx O) .nil
    have hb := C118_exchanged_parallel E hE hwide cfg {T} L hS [x] [st'] [leftV]
      (fun y hy => by rw [List.mem_singleton.1 hy]; exact hst') (fun y hy => by rw [List.mem_singleton.1 hy]; exact hw')
      (fun ps hl => by
        obtain ⟨q, rfl⟩ := List.length_eq_one_iff.1 hl
        refine ⟨rfl, rfl, fun y hy => ?_, fun y hy z hz => ?_, fun y hy z hz => ?_, fun y hy => ?_, hi⟩
        · rw [List.mem_singleton.1 hy]; exact hst'
        · rw [List.mem_singleton.1 hy, List.mem_singleton.1 hz]
        · rw [List.mem_singleton.1 hy, List.mem_singleton.1 hz]
        · rw [List.mem_singleton.1 hy]; exact hsz')
      (fun i y z hy hz _ => by
        rw [List.mem_singleton.1 (List.mem_of_getElem? hy), List.mem_singleton.1 (List.mem_of_getElem? hz)])
      st'.params.m (fun y hy => by rw [List.mem_singleton.1 hy]) (fun y hy => by rw [List.mem_singleton.1 hy])
      (fun i y z u O q hy hz hu hq => by
        rw [List.mem_singleton.1 (List.mem_of_getElem? hy), hmx O, Outcome.ok.injEq] at hq
        rw [List.mem_singleton.1 (List.mem_of_getElem? hz), List.mem_singleton.1 (List.mem_of_getElem? hu), ← hq, ← hT]
        exact mem_singleton_self _)
      (fun O ps hps a b hab hbl => by
        rw [madeBy_unique _ _ _ _ hps (hby O)] at hbl ⊢
        have hb1 : b = 1 := by simp at hbl; omega
        have ha0 : a = 0 := by omega
        subst hb1 ha0
        exact hL O)
      hfuel
    have e1 : (([x].length : ℕ) * (st'.params.m : ℕ) / 2 ^ 252 + ([x].length : ℕ) ^ 2 / 2 ^ 250 : ℚ) =
        st'.params.m / 2 ^ 252 + 1 / 2 ^ 250 := by simp
    rw [← e1]
    refine (avg_mono _ _ fun O => avg_mono _ _ fun W => ind_mono ?_).trans hb
    intro hacc
    refine ⟨[p'], hby O, fun hr => ?_⟩
    rcases hr.1 with ⟨hk, -⟩ | ⟨-, e, he⟩
    · obtain ⟨y, q, hy, -, -, hu, -⟩ := hk 0 (by simp)
      simp only [List.getElem?_cons_zero, Option.some.injEq] at hy hu
      subst hy
      have : leftV = left := hu
      rw [this] at hlt
      omega
    · rw [Proof.verify] at hacc
      rw [hacc] at he
      cases he

/-- C122: the transcript that works for the second proof is the one the prover's first call has left: the transcript of the first
proof up to and including its challenge, which the verifier can compute from the first proof. With it the second proof is accepted
(unless its response matrix contains a zero). -/
theorem C122_resumed_parallel {σ σ' : Type} (E : Env F P) (cfg : Config)
    (R : Rng σ) (s : σ) (w : Witness F P) (st : Statement P) (timing : OperationTiming)
    (R' : Rng σ') (s' : σ') (w' : Witness F P) (st' : Statement P) (timing' : OperationTiming)
    (hw : WitnessBuilt E w) (hst : StatementBuilt E st) (hw' : WitnessBuilt E w') (hst' : StatementBuilt E st')
    (t left : Transcript) (p p' : Proof F P)
    (h : (Proof.proveInternal E R w st s t timing).1 = .ok p) (hleft : (Proof.proveInternal E R w st s t timing).2.1 = left)
    (h' : (Proof.proveInternal E R' w' st' s' left timing').1 = .ok p') (hsz' : SizeOK cfg st'.params 1)
    (hfuel : EnoughFuel E [st'] [p'] [left] cfg.fuel) (hnz : NonzeroF st'.params.n st'.params.m p'.f (challenge E left st' p')) :
    left = challengeTranscript E t st.hash p.A p.B p.C p.D p.X p.X1 p.Y ∧ (Proof.verify E cfg p' st' left).1 = .ok () := by
  refine ⟨?_, (C49_complete E cfg st' left p' hst' ⟨σ', R', w', s', timing', hw', h'⟩ hsz' hfuel).1 hnz⟩
  rw [← hleft, C54_prover E R w st s t timing hw hst p h]
  rfl

/-! ## Examples -/

theorem continued_example (E : Env F P) (cfg : Config) (w : Witness F P) (st : Statement P) (t : Transcript) (p p' : Proof F P)
    (left leftV : Transcript) (hw : WitnessBuilt E w) (hst : StatementBuilt E st) (hsz : SizeOK cfg st.params 1)
    (h : (Proof.proveInternal E nullRng w st () t .Constant).1 = .ok p)
    (hleft : (Proof.proveInternal E nullRng w st () t .Constant).2.1 = left)
    (h' : (Proof.proveInternal E nullRng w st () left .Constant).1 = .ok p') (hleftV : (Proof.verify E cfg p st t).2 = [leftV])
    (h1 : (Proof.verify E cfg p' st left).1 = .ok ()) (h2 : (Proof.verify E cfg p' st leftV).1 = .err .FailedVerification) :
    ∃ (w : Witness F P) (st : Statement P) (t left leftV : Transcript) (p p' : Proof F P),
      WitnessBuilt E w ∧ StatementBuilt E st ∧ SizeOK cfg st.params 1 ∧
      (Proof.proveInternal E nullRng w st () t .Constant).1 = .ok p ∧
      (Proof.proveInternal E nullRng w st () t .Constant).2.1 = left ∧
      (Proof.proveInternal E nullRng w st () left .Constant).1 = .ok p' ∧ (Proof.verify E cfg p st t).2 = [leftV] ∧
      (Proof.verify E cfg p' st left).1 = .ok () ∧ (Proof.verify E cfg p' st leftV).1 = .err .FailedVerification :=
  ⟨w, st, t, left, leftV, p, p', hw, hst, hsz, h, hleft, h', hleftV, h1, h2⟩

namespace Toy.Ristretto

/-- A proof, the transcripts left by the prover and the verifier, and a second proof. -/
def first : Proof (ZMod ℓ) (ZMod ℓ) := Triptych.Toy.get ⟨0, 0, 0, 0, [], [], [], [], 0, 0, 0, 0⟩
  (Proof.proveInternal (Triptych.Toy.env ℓ) nullRng witness statement () Triptych.Toy.transcript .Constant).1
def left : Transcript := (Proof.proveInternal (Triptych.Toy.env ℓ) nullRng witness statement () Triptych.Toy.transcript .Constant).2.1
def second : Proof (ZMod ℓ) (ZMod ℓ) := Triptych.Toy.get ⟨0, 0, 0, 0, [], [], [], [], 0, 0, 0, 0⟩
  (Proof.proveInternal (Triptych.Toy.env ℓ) nullRng witness statement () left .Constant).1
def leftV : Transcript := (Proof.verify (Triptych.Toy.env ℓ) Triptych.Toy.cfg first statement Triptych.Toy.transcript).2.headD []

theorem first_new : (Proof.proveInternal (Triptych.Toy.env ℓ) nullRng witness statement () Triptych.Toy.transcript .Constant).1
    = .ok first := by decide +kernel
theorem left_eq : (Proof.proveInternal (Triptych.Toy.env ℓ) nullRng witness statement () Triptych.Toy.transcript .Constant).2.1
    = left := by rw [left]
theorem second_new : (Proof.proveInternal (Triptych.Toy.env ℓ) nullRng witness statement () left .Constant).1 = .ok second := by
  decide +kernel
theorem leftV_eq : (Proof.verify (Triptych.Toy.env ℓ) Triptych.Toy.cfg first statement Triptych.Toy.transcript).2 = [leftV] := by
  decide +kernel
theorem second_ok : (Proof.verify (Triptych.Toy.env ℓ) Triptych.Toy.cfg second statement left).1 = .ok () := by decide +kernel
theorem second_err : (Proof.verify (Triptych.Toy.env ℓ) Triptych.Toy.cfg second statement leftV).1 = .err .FailedVerification := by
  decide +kernel

end Toy.Ristretto

/-- The hypotheses of `C122_continued_parallel` and `C122_resumed_parallel` are met. -/
example : (Triptych.Toy.env ℓ).Lawful ∧ (∀ b, (Triptych.Toy.env ℓ).scalarOfWide b = ((leNat b : ℕ) : ZMod ℓ)) ∧
    1 < Triptych.Toy.cfg.usizeMax ∧ 2 ≤ Triptych.Toy.cfg.fuel ∧
    ∃ (w : Witness (ZMod ℓ) (ZMod ℓ)) (st : Statement (ZMod ℓ)) (t left leftV : Transcript) (p p' : Proof (ZMod ℓ) (ZMod ℓ)),
      WitnessBuilt (Triptych.Toy.env ℓ) w ∧ StatementBuilt (Triptych.Toy.env ℓ) st ∧ SizeOK Triptych.Toy.cfg st.params 1 ∧
      (Proof.proveInternal (Triptych.Toy.env ℓ) nullRng w st () t .Constant).1 = .ok p ∧
      (Proof.proveInternal (Triptych.Toy.env ℓ) nullRng w st () t .Constant).2.1 = left ∧
      (Proof.proveInternal (Triptych.Toy.env ℓ) nullRng w st () left .Constant).1 = .ok p' ∧
      (Proof.verify (Triptych.Toy.env ℓ) Triptych.Toy.cfg p st t).2 = [leftV] ∧
      (Proof.verify (Triptych.Toy.env ℓ) Triptych.Toy.cfg p' st left).1 = .ok () ∧
      (Proof.verify (Triptych.Toy.env ℓ) Triptych.Toy.cfg p' st leftV).1 = .err .FailedVerification :=
  ⟨Triptych.Toy.env_lawful ℓ (by norm_num), fun _ => rfl, by decide +kernel, by decide +kernel,
    continued_example (Triptych.Toy.env ℓ) Triptych.Toy.cfg _ _ _ _ _ _ _
      (.new _ _ _ _ _ ⟨_, _, _, _, _, Toy.Ristretto.params_new⟩ Toy.Ristretto.witness_new) Toy.Ristretto.statement_built
      ⟨show (1 : ℕ) ≤ _ by decide, fun _ => by decide +kernel⟩ Toy.Ristretto.first_new Toy.Ristretto.left_eq Toy.Ristretto.second_new
      Toy.Ristretto.leftV_eq Toy.Ristretto.second_ok Toy.Ristretto.second_err⟩

end Triptych.Parallel
