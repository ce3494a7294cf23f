import Verif.Props.WrongMessage

/-! # Continuing a transcript after a proof: C122 -/
set_option autoImplicit false
set_option linter.unusedSectionVars false
set_option linter.unusedVariables false

namespace Triptych
open Spec Finset

variable {F P : Type} [Field F] [AddCommGroup P] [Module F P] [DecidableEq F] [DecidableEq P]

local notation "ℓ" => (2 ^ 252 + 27742317777372353535851937790883648493 : ℕ)

/-- Another answer for a question the prover does not ask does not change the proof. -/
theorem prove_other_answer {σ : Type} (E : Env F P) (S : Finset Transcript) (hS : ∀ t ∈ S, t.getLast? = some (.challenge "xi" 64))
    (O : S → Block) (R : Rng σ) (w : Witness F P) (st : Statement P) (s : σ) (t : Transcript) (timing : OperationTiming)
    (hw : WitnessBuilt E w) (hst : StatementBuilt E st) (p : Proof F P) (h : (Proof.proveInternal E R w st s t timing).1 = .ok p)
    (hne : challengeTranscript E t st.hash p.A p.B p.C p.D p.X p.Y ∉ S) :
    (Proof.proveInternal (withOracle E S O) R w st s t timing).1 = .ok p := by
  have hst' := statementBuilt_withOracle E S O hS _ hst
  have hw' := witnessBuilt_withOracle E S O hS _ hw
  obtain ⟨q, hq, -, hp, hrel⟩ | hbad | ⟨msg, hbad⟩ := C11_no_panic E R w st s t timing hw hst
  · obtain ⟨nn, ξ, hnn, hξ, a1, a2⟩ := C11_accept E R w st s t timing hw hst hp hrel
    have h0 : ξ ≠ 0 := by
      intro h0
      rw [a1 h0] at h
      simp at h
    have hpp : p = honestProof st.params st.inputSet.M st.J w.l w.r nn ξ := by
      rw [a2 h0] at h
      exact (Outcome.ok.inj h).symm
    subst hpp
    obtain ⟨nn2, ξ2, hnn2, hξ2, -, a2'⟩ := C11_accept (withOracle E S O) R w st s t timing hw' hst' hp hrel
    have e : nn2 = nn := hnn2.trans hnn.symm
    subst e
    have hpoint : challengeTranscript E t st.hash (honestProof st.params st.inputSet.M st.J w.l w.r nn2 ξ).A
        (honestProof st.params st.inputSet.M st.J w.l w.r nn2 ξ).B (honestProof st.params st.inputSet.M st.J w.l w.r nn2 ξ).C
        (honestProof st.params st.inputSet.M st.J w.l w.r nn2 ξ).D (honestProof st.params st.inputSet.M st.J w.l w.r nn2 ξ).X
        (honestProof st.params st.inputSet.M st.J w.l w.r nn2 ξ).Y = proverTranscript E t st w.l w.r nn2 := rfl
    rw [hpoint] at hne
    have hξξ : ξ2 = ξ := by
      rw [hξ, hξ2]
      show E.scalarOfWide _ = E.scalarOfWide _
      congr 1
      show (withOracle E S O).challenge (proverTranscript E t st w.l w.r nn2) = _
      exact dif_neg hne
    rw [a2' (by rw [hξξ]; exact h0), hξξ]
  · rw [hbad] at h; simp at h
  · rw [hbad] at h; simp at h

theorem challengeTranscript_length (E : Env F P) (t t' : Transcript) (h h' : Bytes) (A B C D A' B' C' D' : P) (X Y X' Y' : List P)
    (hX : X.length = X'.length) (hY : Y.length = Y'.length) :
    (challengeTranscript E t h A B C D X Y).length + t'.length = (challengeTranscript E t' h' A' B' C' D' X' Y').length + t.length := by
  simp only [challengeTranscript, points, List.length_append, List.length_cons, List.length_nil, List.length_map, hX, hY]
  omega

open Classical in
/-- C122: somebody makes a proof with a transcript and then a second one with the transcript the first call has left, and somebody
else verifies the first proof with the same transcript and then the second one with the transcript this call has left. The verifier's
challenge for the second proof is asked for nowhere else (whatever its value, both proofs and both transcripts are the same), and if
it is random, and the weights are, the second proof is accepted with probability at most `m / 2^252 + 1 / 2^250`. -/
theorem C122_continued {σ σ' : Type} {P : Type} [AddCommGroup P] [Module (ZMod ℓ) P] [DecidableEq P] (E : Env (ZMod ℓ) P)
    (hE : E.Lawful) (hwide : ∀ b, E.scalarOfWide b = ((leNat b : ℕ) : ZMod ℓ)) (cfg : Config)
    (R : Rng σ) (s : σ) (w : Witness (ZMod ℓ) P) (st : Statement P) (timing : OperationTiming)
    (R' : Rng σ') (s' : σ') (w' : Witness (ZMod ℓ) P) (st' : Statement P) (timing' : OperationTiming)
    (hw : WitnessBuilt E w) (hst : StatementBuilt E st) (hw' : WitnessBuilt E w') (hst' : StatementBuilt E st')
    (hsz : SizeOK cfg st.params 1) (hsz' : SizeOK cfg st'.params 1) (hi : 1 < cfg.usizeMax) (hfuel : 2 ≤ cfg.fuel)
    (t left leftV : Transcript) (p p' : Proof (ZMod ℓ) P)
    (h : (Proof.proveInternal E R w st s t timing).1 = .ok p) (hleft : (Proof.proveInternal E R w st s t timing).2.1 = left)
    (h' : (Proof.proveInternal E R' w' st' s' left timing').1 = .ok p') (hleftV : (Proof.verify E cfg p st t).2 = [leftV])
    (T : Transcript) (hT : T = challengeTranscript E leftV st'.hash p'.A p'.B p'.C p'.D p'.X p'.Y) (L : Finset Transcript)
    (hL : ∀ O : ({T} : Finset Transcript) → Block, weightTranscript "Triptych verifier weights"
      (seeds (withOracle E {T} O) [st'] [p'] [leftV]) ∈ L) :
    (∀ O : ({T} : Finset Transcript) → Block,
      (Proof.proveInternal (withOracle E {T} O) R w st s t timing).1 = .ok p ∧
      (Proof.proveInternal (withOracle E {T} O) R w st s t timing).2.1 = left ∧
      (Proof.proveInternal (withOracle E {T} O) R' w' st' s' left timing').1 = .ok p' ∧
      (Proof.verify (withOracle E {T} O) cfg p st t).2 = [leftV]) ∧
    avg (fun O : ({T} : Finset Transcript) → Block => avg fun W : L → Fin (1 * 2 * 4) → Block =>
      ind ((Proof.verify (withTables (withOracle E {T} O) L W) cfg p' st' leftV).1 = .ok ())) ≤
      st'.params.m / 2 ^ 252 + 1 / 2 ^ 250 := by
  have hS : ∀ u ∈ ({T} : Finset Transcript), u.getLast? = some (.challenge "xi" 64) := by
    intro u hu
    rw [mem_singleton.1 hu, hT, challengeTranscript]
    exact List.getLast?_concat
  have hpt : challengeTranscript E t st.hash p.A p.B p.C p.D p.X p.Y = left := by
    rw [← hleft, C26_prover E R w st s t timing hw hst p h]
    rfl
  have hV := C26_verifier E cfg R w st s t timing hw hst p h hsz
  rw [hleftV, hleft, List.cons.injEq] at hV
  have hlt : left.length < leftV.length := by
    rw [hV.1.1]
    simp
  have hTlen : leftV.length < T.length := by
    rw [hT]
    simp [challengeTranscript]
  have hne1 : challengeTranscript E t st.hash p.A p.B p.C p.D p.X p.Y ∉ ({T} : Finset Transcript) := by
    rw [hpt, mem_singleton]
    rintro rfl
    omega
  have hne2 : challengeTranscript E left st'.hash p'.A p'.B p'.C p'.D p'.X p'.Y ∉ ({T} : Finset Transcript) := by
    rw [mem_singleton]
    intro e
    have := challengeTranscript_length E left leftV st'.hash st'.hash p'.A p'.B p'.C p'.D p'.A p'.B p'.C p'.D p'.X p'.Y p'.X p'.Y rfl rfl
    rw [e, ← hT] at this
    omega
  have hmade : ∀ O : ({T} : Finset Transcript) → Block, (Proof.proveInternal (withOracle E {T} O) R' w' st' s' left timing').1 = .ok p' :=
    fun O => prove_other_answer E {T} hS O R' w' st' s' left timing' hw' hst' p' h' hne2
  refine ⟨fun O => ?_, ?_⟩
  · have k1 := prove_other_answer E {T} hS O R w st s t timing hw hst p h hne1
    have hstO := statementBuilt_withOracle E {T} O hS _ hst
    have hwO := witnessBuilt_withOracle E {T} O hS _ hw
    have k2 : (Proof.proveInternal (withOracle E {T} O) R w st s t timing).2.1 = left := by
      rw [C26_prover (withOracle E {T} O) R w st s t timing hwO hstO p k1, ← hpt]
      rfl
    refine ⟨k1, k2, hmade O, ?_⟩
    rw [(C26_verifier (withOracle E {T} O) cfg R w st s t timing hwO hstO p k1 hsz).1, k2, hV.1.1]
    rfl
  · let x : Signature σ' (Statement P) (ZMod ℓ) P := ⟨st', R', w', s', left, timing'⟩
    have hmx : ∀ O : ({T} : Finset Transcript) → Block, x.made (withOracle E {T} O) id = .ok p' := hmade
    have hby : ∀ O : ({T} : Finset Transcript) → Block, MadeBy (withOracle E {T} O) [x] [p'] := fun O => .cons (hmx O) .nil
    have hb := C118_exchanged E hE hwide cfg {T} L hS [x] [st'] [leftV]
      (fun y hy => by rw [List.mem_singleton.1 hy]; exact hst') (fun y hy => by rw [List.mem_singleton.1 hy]; exact hw')
      (fun ps hl => by
        obtain ⟨q, rfl⟩ := List.length_eq_one_iff.1 hl
        refine ⟨rfl, rfl, fun y hy => ?_, fun y hy z hz => ?_, fun y hy z hz => ?_, fun y hy => ?_, hi⟩
        · rw [List.mem_singleton.1 hy]; exact hst'
        · rw [List.mem_singleton.1 hy, List.mem_singleton.1 hz]
        · rw [List.mem_singleton.1 hy, List.mem_singleton.1 hz]
        · rw [List.mem_singleton.1 hy]; exact hsz')
      (fun i y z hy hz _ => by
        rw [List.mem_singleton.1 (List.mem_of_getElem? hy), List.mem_singleton.1 (List.mem_of_getElem? hz)])
      st'.params.m (fun y hy => by rw [List.mem_singleton.1 hy]) (fun y hy => by rw [List.mem_singleton.1 hy])
      (fun i y z u O q hy hz hu hq => by
        rw [List.mem_singleton.1 (List.mem_of_getElem? hy), hmx O, Outcome.ok.injEq] at hq
        rw [List.mem_singleton.1 (List.mem_of_getElem? hz), List.mem_singleton.1 (List.mem_of_getElem? hu), ← hq, ← hT]
        exact mem_singleton_self _)
      (fun O ps hps a b hab hbl => by
        rw [madeBy_unique _ _ _ _ hps (hby O)] at hbl ⊢
        have hb1 : b = 1 := by simp at hbl; omega
        have ha0 : a = 0 := by omega
        subst hb1 ha0
        exact hL O)
      hfuel
    have e1 : (([x].length : ℕ) * (st'.params.m : ℕ) / 2 ^ 252 + ([x].length : ℕ) ^ 2 / 2 ^ 250 : ℚ) =
        st'.params.m / 2 ^ 252 + 1 / 2 ^ 250 := by simp
    rw [← e1]
    refine (avg_mono _ _ fun O => avg_mono _ _ fun W => ind_mono ?_).trans hb
    intro hacc
    refine ⟨[p'], hby O, fun hr => ?_⟩
    rcases hr.1 with ⟨hk, -⟩ | ⟨-, e, he⟩
    · obtain ⟨y, q, hy, -, -, hu, -⟩ := hk 0 (by simp)
      simp only [List.getElem?_cons_zero, Option.some.injEq] at hy hu
      subst hy
      have : leftV = left := hu
      rw [this] at hlt
      omega
    · rw [Proof.verify] at hacc
      rw [hacc] at he
      cases he

/-- C122: the transcript that works for the second proof is the one the prover's first call has left: the transcript of the first
proof up to and including its challenge, which the verifier can compute from the first proof. With it the second proof is accepted
(unless its response matrix contains a zero). -/
theorem C122_resumed {σ σ' : Type} (E : Env F P) (cfg : Config)
    (R : Rng σ) (s : σ) (w : Witness F P) (st : Statement P) (timing : OperationTiming)
    (R' : Rng σ') (s' : σ') (w' : Witness F P) (st' : Statement P) (timing' : OperationTiming)
    (hw : WitnessBuilt E w) (hst : StatementBuilt E st) (hw' : WitnessBuilt E w') (hst' : StatementBuilt E st')
    (t left : Transcript) (p p' : Proof F P)
    (h : (Proof.proveInternal E R w st s t timing).1 = .ok p) (hleft : (Proof.proveInternal E R w st s t timing).2.1 = left)
    (h' : (Proof.proveInternal E R' w' st' s' left timing').1 = .ok p') (hsz' : SizeOK cfg st'.params 1)
    (hfuel : EnoughFuel E [st'] [p'] [left] cfg.fuel) (hnz : NonzeroF st'.params.n st'.params.m p'.f (challenge E left st' p')) :
    left = challengeTranscript E t st.hash p.A p.B p.C p.D p.X p.Y ∧ (Proof.verify E cfg p' st' left).1 = .ok () := by
  refine ⟨?_, (C14_complete E cfg st' left p' hst' ⟨σ', R', w', s', timing', hw', h'⟩ hsz' hfuel).1 hnz⟩
  rw [← hleft, C26_prover E R w st s t timing hw hst p h]
  rfl

/-! ## Examples -/

namespace Toy.Ristretto

/-- The transcript the prover's first call leaves, and a second proof made with it. -/
def left : Transcript := (Proof.proveInternal (env ℓ) nullRng witness statement () transcript .Constant).2.1
def second : Proof (ZMod ℓ) (ZMod ℓ) :=
  get ⟨0, 0, 0, 0, [], [], [], 0, 0, 0⟩ (Proof.proveInternal (env ℓ) nullRng witness statement () left .Constant).1
def leftV : Transcript := (Proof.verify (env ℓ) cfg proof statement transcript).2.headD []

theorem second_new : (Proof.proveInternal (env ℓ) nullRng witness statement () left .Constant).1 = .ok second := by decide +kernel
theorem leftV_eq : (Proof.verify (env ℓ) cfg proof statement transcript).2 = [leftV] := by decide +kernel
theorem left_eq : (Proof.proveInternal (env ℓ) nullRng witness statement () transcript .Constant).2.1 = left := by rw [left]

end Toy.Ristretto

/-- The hypotheses of `C122_continued` and `C122_resumed` are met. -/
example : (Toy.env ℓ).Lawful ∧ (∀ b, (Toy.env ℓ).scalarOfWide b = ((leNat b : ℕ) : ZMod ℓ)) ∧
    WitnessBuilt (Toy.env ℓ) Toy.Ristretto.witness ∧ StatementBuilt (Toy.env ℓ) Toy.Ristretto.statement ∧
    SizeOK Toy.cfg Toy.Ristretto.statement.params 1 ∧ 1 < Toy.cfg.usizeMax ∧ 2 ≤ Toy.cfg.fuel ∧
    (Proof.proveInternal (Toy.env ℓ) nullRng Toy.Ristretto.witness Toy.Ristretto.statement () Toy.transcript .Constant).1
      = .ok Toy.Ristretto.proof ∧
    (Proof.proveInternal (Toy.env ℓ) nullRng Toy.Ristretto.witness Toy.Ristretto.statement () Toy.transcript .Constant).2.1
      = Toy.Ristretto.left ∧
    (Proof.proveInternal (Toy.env ℓ) nullRng Toy.Ristretto.witness Toy.Ristretto.statement () Toy.Ristretto.left .Constant).1
      = .ok Toy.Ristretto.second ∧
    (Proof.verify (Toy.env ℓ) Toy.cfg Toy.Ristretto.proof Toy.Ristretto.statement Toy.transcript).2 = [Toy.Ristretto.leftV] ∧
    (Proof.verify (Toy.env ℓ) Toy.cfg Toy.Ristretto.second Toy.Ristretto.statement Toy.Ristretto.left).1 = .ok () ∧
    (Proof.verify (Toy.env ℓ) Toy.cfg Toy.Ristretto.second Toy.Ristretto.statement Toy.Ristretto.leftV).1 = .err .FailedVerification :=
  ⟨Toy.env_lawful ℓ (by norm_num), fun _ => rfl, .new _ _ _ _ Toy.Ristretto.params_built Toy.Ristretto.witness_new,
    Toy.Ristretto.statement_built, ⟨show (1 : ℕ) ≤ _ by decide, fun _ => by decide +kernel⟩, by decide +kernel, by decide +kernel,
    Toy.Ristretto.proof_new, Toy.Ristretto.left_eq, Toy.Ristretto.second_new, Toy.Ristretto.leftV_eq, by decide +kernel, by decide +kernel⟩

end Triptych
