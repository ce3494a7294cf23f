import Verif.Props.Parallel.Attack
import Verif.Props.Parallel.Signing
import Verif.Props.Replay

/-! # A parallel proof for one message is not valid for another: C87

A proof is bound to the transcript with which it was made (which contains the message) and to the statement, including the offset.
The challenges of a finite set `S` of transcripts are random. Whoever looks for another message or another statement for which a given
proof is valid, even with the knowledge of everything the signer knows, finds one with negligible probability. No assumption on
discrete logarithms is needed. -/
set_option autoImplicit false
set_option linter.unusedSectionVars false
set_option linter.unusedVariables false

namespace Triptych.Parallel
open Finset Function
open Triptych.Parallel.Spec
open Triptych.Spec (avg Block Block.bytes withSeeds withOracle Seed AttackProgram GrindProgram OracleProgram Reuse grayDigit commit
  fullF ringCoeff selector Relation drawn queryPoint weightKey)

variable {F P : Type} [Field F] [AddCommGroup P] [Module F P] [DecidableEq F] [DecidableEq P]

/-- `C87_challenges` for a sequence of challenges. -/
theorem challenges_injOn (E : Env F P) (st : Statement P) (hst : StatementBuilt E st) (p : Proof F P) (ξ : ℕ → F)
    (hξ : Set.InjOn ξ (range (st.params.m + 1)))
    (h : ∀ e ≤ st.params.m, Valid st.params st.inputSet.M st.inputSet.M1 st.offset st.J p (ξ e)) : False := by
  have ok := hst.ok
  have h0 := ring_challenges st.params.n st.params.m ok.params.1 (by have := ok.params.2; omega) p.f p.z ξ hξ (fun k => st.inputSet.M.getD k 0)
    (fun j => p.X.getD j 0) st.params.G fun e he => (h e he).e3
  have hlen : 0 < st.inputSet.M.length := by rw [ok.length]; exact Nat.pow_pos (by have := ok.params.1; omega)
  apply ok.nonzero
  rw [← h0]
  simp only [List.getD_eq_getElem?_getD, List.getElem?_eq_getElem hlen, Option.getD_some]
  exact List.getElem_mem _

/-- C87: whatever the proof, it satisfies the verification equations of a statement for at most `m` challenges. -/
theorem C87_challenges (E : Env F P) (st : Statement P) (hst : StatementBuilt E st) (p : Proof F P) (T : Finset F)
    (h : ∀ ξ ∈ T, Valid st.params st.inputSet.M st.inputSet.M1 st.offset st.J p ξ) : #T ≤ st.params.m := by
  by_contra hT
  obtain ⟨T', hT', hc⟩ := exists_subset_card_eq (show st.params.m + 1 ≤ #T by omega)
  let e := T'.equivFinOfCardEq hc
  refine challenges_injOn E st hst p (fun i => if h : i < st.params.m + 1 then (e.symm ⟨i, h⟩).val else 0) ?_ ?_
  · intro i hi j hj hij
    rw [coe_range, Set.mem_Iio] at hi hj
    simp only [dif_pos hi, dif_pos hj] at hij
    have := e.symm.injective (Subtype.ext hij)
    simpa using this
  · intro i hi
    simp only [dif_pos (show i < st.params.m + 1 by omega)]
    exact h _ (hT' (e.symm _).2)

/-- A proof valid for all challenges in `T`, made without knowing any key. -/
noncomputable def Spec.guess (params : Params P) (M M1 : List P) (offset : P) (T : Finset F) : Proof F P where
  A := 0
  B := commit params.n params.m params.CommitmentG params.CommitmentH (selector params.n 0) (0 : F)
  C := 0
  D := 0
  X := (List.range params.m).map fun j => -((∏ ξ ∈ T, (Polynomial.X - Polynomial.C ξ)).coeff j • M.getD 0 0)
  X1 := (List.range params.m).map fun j => -((∏ ξ ∈ T, (Polynomial.X - Polynomial.C ξ)).coeff j • (M1.getD 0 0 - offset))
  Y := (List.range params.m).map fun j => -((∏ ξ ∈ T, (Polynomial.X - Polynomial.C ξ)).coeff j • params.U)
  f := (List.range params.m).map fun _ => (List.range (params.n - 1)).map fun _ => 0
  zA := 0
  zC := 0
  z := 0
  z1 := 0

/-- C87: the number `m` cannot be improved: for every set of `m` challenges there is a proof that satisfies all verification
equations of a statement for all of them. -/
theorem C87_tight (E : Env F P) (st : Statement P) (hst : StatementBuilt E st) (T : Finset F) (hT : #T = st.params.m) :
    Shape st.params (guess st.params st.inputSet.M st.inputSet.M1 st.offset T) ∧
      ∀ ξ ∈ T, Valid st.params st.inputSet.M st.inputSet.M1 st.offset st.J (guess st.params st.inputSet.M st.inputSet.M1 st.offset T) ξ := by
  have hn := hst.ok.params.1
  refine ⟨⟨by simp [guess], by simp [guess], by simp [guess], by simp [guess], by simp [guess]⟩, fun ξ hξ => ?_⟩
  have hf : ∀ j < st.params.m, ∀ i < st.params.n, fullF (guess (F := F) st.params st.inputSet.M st.inputSet.M1 st.offset T).f ξ j i = ξ * selector st.params.n 0 j i := by
    intro j hj i hi
    have hrow : (guess (F := F) st.params st.inputSet.M st.inputSet.M1 st.offset T).f.getD j [] = List.replicate (st.params.n - 1) 0 := by
      simp [guess, List.getD_eq_getElem?_getD, hj, List.map_const']
    rw [fullF_selector _ st.params.n (by omega)]
    suffices h : fullF (guess (F := F) st.params st.inputSet.M st.inputSet.M1 st.offset T).f 0 j i = 0 by rw [h, zero_add]
    cases i with
    | zero => simp only [fullF, hrow]; simp
    | succ i => simp only [fullF, hrow]; simp [List.getD_eq_getElem?_getD, show i < st.params.n - 1 by omega]
  have hring : ∀ k < st.params.n ^ st.params.m, ringCoeff st.params.n st.params.m (fullF (guess (F := F) st.params st.inputSet.M st.inputSet.M1 st.offset T).f ξ) k =
      if k = 0 then ξ ^ st.params.m else 0 := by
    intro k hk
    rw [ringCoeff, prod_congr rfl fun j hj => hf j (mem_range.1 hj) _ (grayDigit_lt _ _ _ (by omega))]
    split
    · rename_i h0
      subst h0
      simp [selector]
    · rename_i h0
      have : ∃ j < st.params.m, grayDigit st.params.n k j ≠ grayDigit st.params.n 0 j := by
        by_contra hcon
        push Not at hcon
        exact h0 (grayDigit_injective st.params.n st.params.m k 0 hn hk (Nat.pow_pos (by omega)) hcon)
      obtain ⟨j, hj, hne⟩ := this
      apply prod_eq_zero (mem_range.2 hj)
      simp [selector, Ne.symm hne]
  have hpoly : ξ ^ st.params.m + ∑ j ∈ range st.params.m, (∏ ξ ∈ T, (Polynomial.X - Polynomial.C ξ)).coeff j * ξ ^ j = 0 := by
    have hdeg : (∏ ξ ∈ T, (Polynomial.X - Polynomial.C ξ)).natDegree = st.params.m := by
      rw [Polynomial.natDegree_finsetProd_X_sub_C_eq_card]; exact hT
    have hmonic : (∏ ξ ∈ T, (Polynomial.X - Polynomial.C ξ)).Monic := Polynomial.monic_prod_X_sub_C _ _
    have hroot : (∏ ξ ∈ T, (Polynomial.X - Polynomial.C ξ)).eval ξ = 0 := by
      rw [Polynomial.eval_prod]
      exact prod_eq_zero hξ (by simp)
    rw [Polynomial.eval_eq_sum_range, hdeg, sum_range_succ] at hroot
    have hl : (∏ ξ ∈ T, (Polynomial.X - Polynomial.C ξ)).coeff st.params.m = 1 := by
      have := hmonic.coeff_natDegree
      rwa [hdeg] at this
    rw [hl, one_mul] at hroot
    rw [add_comm]; exact hroot
  have hX : ∀ V : P, ξ ^ st.params.m • V - ∑ j ∈ range st.params.m,
      ξ ^ j • -((∏ ξ ∈ T, (Polynomial.X - Polynomial.C ξ)).coeff j • V) = 0 := by
    intro V
    simp only [smul_neg, smul_smul, sum_neg_distrib, sub_neg_eq_add]
    rw [← sum_smul, ← add_smul]
    simp only [mul_comm (ξ ^ _)]
    rw [hpoly, zero_smul]
  constructor
  · rw [E1, sub_eq_zero, commit]
    simp only [guess, commit, zero_smul, add_zero, zero_add, smul_sum, smul_smul]
    refine sum_congr rfl fun j hj => sum_congr rfl fun i hi => ?_
    exact congrArg (· • _) (hf j (mem_range.1 hj) i (mem_range.1 hi))
  · rw [E2, sub_eq_zero, commit]
    have h0 : ξ • (guess (F := F) st.params st.inputSet.M st.inputSet.M1 st.offset T).C + (guess (F := F) st.params st.inputSet.M st.inputSet.M1 st.offset T).D = 0 := by simp [guess]
    have h1 : (guess (F := F) st.params st.inputSet.M st.inputSet.M1 st.offset T).zC = 0 := rfl
    rw [h0, h1, zero_smul, add_zero]
    refine sum_eq_zero fun j hj => sum_eq_zero fun i hi => ?_
    rw [hf j (mem_range.1 hj) i (mem_range.1 hi), selector]
    split <;> simp
  · rw [E3]
    have h1 : (guess (F := F) st.params st.inputSet.M st.inputSet.M1 st.offset T).z = 0 := rfl
    rw [h1, zero_smul, sub_zero, sum_congr rfl fun k hk => by rw [hring k (mem_range.1 hk)]]
    simp only [ite_smul, zero_smul]
    rw [sum_ite_eq' (range (st.params.n ^ st.params.m)) 0, if_pos (mem_range.2 (Nat.pow_pos (by omega)))]
    refine Eq.trans ?_ (hX (st.inputSet.M.getD 0 0))
    congr 1
    refine sum_congr rfl fun j hj => ?_
    simp [guess, List.getD_eq_getElem?_getD, mem_range.1 hj]
  · rw [E4]
    have h1 : (guess (F := F) st.params st.inputSet.M st.inputSet.M1 st.offset T).z = 0 := rfl
    have hs : ∑ k ∈ range (st.params.n ^ st.params.m),
        ringCoeff st.params.n st.params.m (fullF (guess (F := F) st.params st.inputSet.M st.inputSet.M1 st.offset T).f ξ) k = ξ ^ st.params.m := by
      rw [sum_congr rfl fun k hk => hring k (mem_range.1 hk), sum_ite_eq' (range (st.params.n ^ st.params.m)) 0,
        if_pos (mem_range.2 (Nat.pow_pos (by omega)))]
    rw [h1, zero_smul, sub_zero, hs]
    refine Eq.trans ?_ (hX st.params.U)
    congr 1
    refine sum_congr rfl fun j hj => ?_
    simp [guess, List.getD_eq_getElem?_getD, mem_range.1 hj]
  · rw [E5]
    have h1 : (guess (F := F) st.params st.inputSet.M st.inputSet.M1 st.offset T).z1 = 0 := rfl
    rw [h1, zero_smul, sub_zero, sum_congr rfl fun k hk => by rw [hring k (mem_range.1 hk)]]
    simp only [ite_smul, zero_smul]
    rw [sum_ite_eq' (range (st.params.n ^ st.params.m)) 0, if_pos (mem_range.2 (Nat.pow_pos (by omega)))]
    refine Eq.trans ?_ (hX (st.inputSet.M1.getD 0 0 - st.offset))
    congr 1
    refine sum_congr rfl fun j hj => ?_
    simp [guess, List.getD_eq_getElem?_getD, mem_range.1 hj]

/-- C87: if the commitments with a signer's index and randomness, with whatever responses, satisfy the verification equations
for two challenges, be it for different statements, then the signer's index is 0 and its mask 0 (which has probability
`1 / |F|`), or the mask and index yield a relation among the commitment generators. -/
theorem C87_relation (params : Params P) (M M' M1 M1' : List P) (offset offset' J J' : P) (p : Proof F P) (ξ ξ' : F) (hn : 2 ≤ params.n)
    (hne : ξ ≠ ξ') (h : Valid params M M1 offset J p ξ) (h' : Valid params M' M1' offset' J' p ξ') (l : ℕ) (hl : l < params.n ^ params.m) (rB : F)
    (hB : p.B = commit params.n params.m params.CommitmentG params.CommitmentH (selector params.n l) rB) :
    rB = 0 ∧ l = 0 ∨
      Relation params.n params.m params.CommitmentG params.CommitmentH
        (fun j i => selector params.n l j i - selector params.n 0 j i) rB := by
  have hz : (ξ - ξ') • p.B = (ξ - ξ') • commit params.n params.m params.CommitmentG params.CommitmentH (selector params.n 0) (0 : F) := by
    have e := h.e1
    have e' := h'.e1
    rw [E1, sub_eq_zero] at e e'
    have e1 : (ξ - ξ') • p.B = (p.A + ξ • p.B) - (p.A + ξ' • p.B) := by rw [sub_smul]; abel
    have hf : ∀ ξ : F, fullF p.f ξ = fun j i => fullF p.f 0 j i + ξ * selector params.n 0 j i := fun ξ =>
      funext fun j => funext fun i => fullF_selector p.f params.n (by omega) ξ j i
    rw [e1, ← e, ← e', hf ξ, hf ξ']
    simp only [commit, add_smul, sum_add_distrib, mul_smul, ← smul_sum, sub_smul, zero_smul, add_zero]
    abel
  have hz2 : p.B = commit params.n params.m params.CommitmentG params.CommitmentH (selector params.n 0) (0 : F) := by
    have := congrArg ((ξ - ξ')⁻¹ • ·) hz
    simpa only [smul_smul, inv_mul_cancel₀ (sub_ne_zero.2 hne), one_smul] using this
  by_cases hr : rB = 0 ∧ ∀ j < params.m, grayDigit params.n l j = 0
  · refine Or.inl ⟨hr.1, grayDigit_injective params.n params.m l 0 hn hl (Nat.pow_pos (by omega)) fun j hj => ?_⟩
    rw [hr.2 j hj, grayDigit_zero params.n j (by omega)]
  · refine Or.inr ⟨?_, ?_⟩
    · rw [hB] at hz2
      simp only [commit] at hz2 ⊢
      rw [zero_smul, add_zero] at hz2
      simp only [sub_smul, sum_sub_distrib]
      rw [← hz2]
      abel
    · by_cases h0 : rB = 0
      · left
        have : ¬ ∀ j < params.m, grayDigit params.n l j = 0 := fun h => hr ⟨h0, h⟩
        push Not at this
        obtain ⟨j, hj, hd⟩ := this
        refine ⟨j, hj, 0, by omega, ?_⟩
        simp [selector, hd, grayDigit_zero params.n j (by omega)]
      · exact Or.inr h0

/-- A run of the code's prover: which statement, and the prover's other arguments. -/
structure Spec.Signature (σ κ F P : Type) where
  k : κ
  R : Rng σ
  w : Witness F P
  s : σ
  t : Transcript
  timing : OperationTiming

/-- What the code's prover returns. -/
def Spec.Signature.made {σ κ : Type} (E : Env F P) (sts : κ → Statement P) (x : Signature σ κ F P) : Outcome ProofError (Proof F P) :=
  (Proof.proveInternal E x.R x.w (sts x.k) x.s x.t x.timing).1

/-- With the oracle `O`, the chosen signer makes a proof, it is to be used for another statement or with another transcript, and
there it satisfies all verification equations. -/
def Spec.Reused {σ ι κ : Type} (E : Env F P) (S : Finset Transcript) (sts : κ → Statement P) (sigs : ι → Signature σ κ F P)
    (x : Reuse ι κ) (O : S → Block) : Prop :=
  ∃ p, (sigs x.i).made (withOracle E S O) sts = .ok p ∧ (x.k ≠ (sigs x.i).k ∨ x.t ≠ (sigs x.i).t) ∧
    Forgery.point E sts ⟨x.k, x.t, p⟩ ∈ S ∧ Shape (sts x.k).params p ∧
    Valid (sts x.k).params (sts x.k).inputSet.M (sts x.k).inputSet.M1 (sts x.k).offset (sts x.k).J p (challenge (withOracle E S O) x.t (sts x.k) p)

/-- Witnesses do not depend on the answers to challenge queries of proofs. -/
theorem witnessBuilt_withOracle (E : Env F P) (S : Finset Transcript) (O : S → Block)
    (hS : ∀ t ∈ S, t.getLast? = some (.challenge "xi" 64)) (w : Witness F P) (h : WitnessBuilt E w) :
    WitnessBuilt (withOracle E S O) w := by
  induction h with
  | new params l r r1 w h1 h2 => exact .new params l r r1 w (paramsBuilt_withOracle E S O hS _ h1) h2
  | random σ R s s' params w h1 h2 => exact .random σ R s s' params w (paramsBuilt_withOracle E S O hS _ h1) h2
  | zeroize w _ ih => exact .zeroize w ih

/-- The commitments of the proof of a signer. -/
noncomputable def sigBase {σ κ : Type} (E : Env F P) (sts : κ → Statement P) (x : Signature σ κ F P) : Proof F P :=
  honestProof (sts x.k).params (sts x.k).inputSet.M (sts x.k).inputSet.M1 (sts x.k).offset (sts x.k).J x.w.l x.w.r x.w.r1
    (proverNonces E (sts x.k).params.n (sts x.k).params.m (proverKey E x.t (sts x.k).hash x.w.l x.w.r x.w.r1 (x.R.fill x.s 32).1)) 0

/-- The proof a signer makes has commitments that do not depend on the oracle, and responses that depend only on the answer for
these commitments with the signer's statement and transcript. -/
theorem made_withOracle {σ κ : Type} (E : Env F P) (S : Finset Transcript)
    (hS : ∀ t ∈ S, t.getLast? = some (.challenge "xi" 64)) (sts : κ → Statement P) (hst : ∀ k, StatementBuilt E (sts k))
    (x : Signature σ κ F P) (hw : WitnessBuilt E x.w) (O : S → Block) (p : Proof F P)
    (h : x.made (withOracle E S O) sts = .ok p) :
    SameCommitments p (sigBase E sts x) ∧
    ∀ O' : S → Block, (∀ s : S, Forgery.point E sts ⟨x.k, x.t, sigBase E sts x⟩ = s → O' s = O s) →
      x.made (withOracle E S O') sts = .ok p := by
  have hst' := fun O : S → Block => statementBuilt_withOracle E S O hS _ (hst x.k)
  have hw' := fun O : S → Block => witnessBuilt_withOracle E S O hS _ hw
  obtain ⟨q, hq, -, hp, hrel⟩ | hbad | ⟨msg, hbad⟩ :=
    C48_no_panic (withOracle E S O) x.R x.w (sts x.k) x.s x.t x.timing (hw' O) (hst' O)
  · obtain ⟨nn, ξ, hnn, hξ, a1, a2⟩ := C48_accept (withOracle E S O) x.R x.w (sts x.k) x.s x.t x.timing (hw' O) (hst' O) hp hrel
    have hne : ξ ≠ 0 := by
      intro h0
      have := a1 h0
      rw [hq] at this
      simp at this
    have hpp : p = honestProof (sts x.k).params (sts x.k).inputSet.M (sts x.k).inputSet.M1 (sts x.k).offset (sts x.k).J x.w.l x.w.r x.w.r1 nn ξ := by
      have := a2 hne
      rw [Signature.made] at h
      rw [this] at h
      exact (Outcome.ok.inj h).symm
    subst hpp
    have hnn' : nn = proverNonces E (sts x.k).params.n (sts x.k).params.m
      (proverKey E x.t (sts x.k).hash x.w.l x.w.r x.w.r1 (x.R.fill x.s 32).1) := hnn
    refine ⟨by rw [sigBase, ← hnn']; exact ⟨rfl, rfl, rfl, rfl, rfl, rfl, rfl⟩, fun O' hO' => ?_⟩
    obtain ⟨nn2, ξ2, hnn2, hξ2, -, a2'⟩ :=
      C48_accept (withOracle E S O') x.R x.w (sts x.k) x.s x.t x.timing (hw' O') (hst' O') hp hrel
    have e : nn2 = nn := hnn2.trans hnn.symm
    subst e
    have hpoint : Forgery.point E sts ⟨x.k, x.t, sigBase E sts x⟩ =
        proverTranscript (withOracle E S O) x.t (sts x.k) x.w.l x.w.r x.w.r1 nn2 := by
      rw [sigBase, ← hnn']; rfl
    have hξξ : ξ2 = ξ := by
      rw [hξ, hξ2]
      have e2 : proverTranscript (withOracle E S O') x.t (sts x.k) x.w.l x.w.r x.w.r1 nn2 =
        proverTranscript (withOracle E S O) x.t (sts x.k) x.w.l x.w.r x.w.r1 nn2 := rfl
      rw [e2, ← hpoint]
      show E.scalarOfWide _ = E.scalarOfWide _
      congr 1
      generalize Forgery.point E sts ⟨x.k, x.t, sigBase E sts x⟩ = u at hO' ⊢
      by_cases hu : u ∈ S
      · have c1 : (withOracle E S O').challenge u = (O' ⟨u, hu⟩).bytes := dif_pos hu
        have c2 : (withOracle E S O).challenge u = (O ⟨u, hu⟩).bytes := dif_pos hu
        rw [c1, c2, hO' ⟨u, hu⟩ rfl]
      · have c1 : (withOracle E S O').challenge u = E.challenge u := dif_neg hu
        have c2 : (withOracle E S O).challenge u = E.challenge u := dif_neg hu
        rw [c1, c2]
    rw [Signature.made, a2' (by rw [hξξ]; exact hne), hξξ]
  · rw [Signature.made, hbad] at h; simp at h
  · rw [Signature.made, hbad] at h; simp at h

open Classical in
/-- C87: the number of oracles for which somebody with at most `Q` questions finds one of finitely many proofs, and another
statement or transcript for which it is valid. `K` bounds the number of 64-byte strings with the same value as scalar. -/
theorem C87_reuse {σ ι κ : Type} [Fintype ι] (E : Env F P) (hE : E.Lawful) (S : Finset Transcript)
    (hS : ∀ t ∈ S, t.getLast? = some (.challenge "xi" 64)) (sts : κ → Statement P) (hst : ∀ k, StatementBuilt E (sts k))
    (hinj : ∀ k k', (sts k).hash = (sts k').hash → k = k') (sigs : ι → Signature σ κ F P) (hw : ∀ i, WitnessBuilt E (sigs i).w)
    (m : ℕ) (hm : ∀ k, (sts k).params.m ≤ m) (K : ℕ) (hK : ∀ x : F, #{b : Block | E.scalarOfWide b.bytes = x} ≤ K)
    (c : OracleProgram S Block (Reuse ι κ)) (Q : ℕ) (hQ : ∀ O, (c.asked O).length ≤ Q) :
    2 ^ 512 * #{O : S → Block | Reused E S sts sigs (c.run O) O} ≤
      Fintype.card ι * (m * K) * (Q + 1) * Fintype.card (S → Block) := by
  have hcard : Fintype.card Block = 2 ^ 512 := by
    rw [Fintype.card_pi_const, Fintype.card_fin, show (256 : ℕ) = 2 ^ 8 by norm_num, ← pow_mul]
  rw [← hcard]
  have key : ∀ i, Fintype.card Block * #{O : S → Block | (c.run O).i = i ∧ Reused E S sts sigs (c.run O) O} ≤
      m * K * (Q + 1) * Fintype.card (S → Block) := by
    intro i
    let crit : Reuse ι κ → Option S := fun x => Forgery.crit E S sts ⟨x.k, x.t, sigBase E sts (sigs i)⟩
    have hbase : ∀ (x : Reuse ι κ) (p : Proof F P), SameCommitments p (sigBase E sts (sigs i)) →
        Forgery.point E sts ⟨x.k, x.t, sigBase E sts (sigs i)⟩ = Forgery.point E sts ⟨x.k, x.t, p⟩ := by
      intro x p hp
      obtain ⟨h1, h2, h3, h4, h5, h6, h7⟩ := hp
      simp only [Forgery.point, h1, h2, h3, h4, h5, h6, h7]
    have hh := hit_count c crit (fun O => (c.run O).i = i ∧ Reused E S sts sigs (c.run O) O) Q (m * K) hQ
    refine le_trans ?_ (hh ?_)
    · refine Nat.mul_le_mul_left _ (card_le_card fun O hO => ?_)
      simp only [mem_filter, mem_univ, true_and] at hO ⊢
      refine ⟨?_, hO⟩
      obtain ⟨hi, p, hp, -, hpS, -⟩ := hO
      rw [hi] at hp
      refine ⟨⟨_, hpS⟩, Forgery.crit_eq.2 ?_⟩
      exact hbase _ p (made_withOracle E S hS sts hst (sigs i) (hw i) O p hp).1
    intro O s
    by_contra hlt
    obtain ⟨b, hb, hB⟩ := exists_distinct_pred (fun b : Block => E.scalarOfWide b.bytes) K m hK _ hlt
    have hall : ∀ e ≤ m, ∃ p, (sigs i).made (withOracle E S (update O s (b e))) sts = .ok p ∧
        Forgery.point E sts ⟨(c.run (update O s (b e))).k, (c.run (update O s (b e))).t, p⟩ = s ∧
        SameCommitments p (sigBase E sts (sigs i)) ∧
        Forgery.point E sts ⟨(sigs i).k, (sigs i).t, sigBase E sts (sigs i)⟩ ≠ s ∧
        Valid (sts (c.run (update O s (b e))).k).params (sts (c.run (update O s (b e))).k).inputSet.M
          (sts (c.run (update O s (b e))).k).inputSet.M1 (sts (c.run (update O s (b e))).k).offset (sts (c.run (update O s (b e))).k).J p (E.scalarOfWide (b e).bytes) := by
      intro e he
      obtain ⟨hc, hi, p, hp, hdiff, hpS, -, hv⟩ := hB e he
      rw [hi] at hp hdiff
      have hsame := (made_withOracle E S hS sts hst (sigs i) (hw i) _ p hp).1
      have hpt := Forgery.crit_eq.1 hc
      have hpt' := hpt
      rw [hbase _ p hsame] at hpt'
      refine ⟨p, hp, hpt', hsame, ?_, ?_⟩
      · intro hown
        have heq := hpt.trans hown.symm
        rw [Forgery.point, Forgery.point] at heq
        obtain ⟨h1, h2, -⟩ := challengeTranscript_inj hE _ _ _ _ _ _ _ _ _ _ _ _ _ _ _ _ _ _ heq
        rcases hdiff with hd | hd
        · exact hd (hinj _ _ h2)
        · exact hd h1
      · have hx := challenge_withOracle E S (update O s (b e)) _ _ _ s hpt'
        rw [update_self] at hx
        rw [hx] at hv
        exact hv
    obtain ⟨p, hp0, hpt0, hs0, hown, -⟩ := hall 0 (Nat.zero_le _)
    have hmade : ∀ e ≤ m, (sigs i).made (withOracle E S (update O s (b e))) sts = .ok p := by
      intro e he
      refine (made_withOracle E S hS sts hst (sigs i) (hw i) _ p hp0).2 _ fun s' hs' => ?_
      have hne : s' ≠ s := fun h => hown (by rw [hs', h])
      rw [update_of_ne hne, update_of_ne hne]
    generalize hk : (c.run (update O s (b 0))).k = k at hpt0
    have hfin : ∀ e ≤ m, Valid (sts k).params (sts k).inputSet.M (sts k).inputSet.M1 (sts k).offset (sts k).J p (E.scalarOfWide (b e).bytes) := by
      intro e he
      obtain ⟨q, hq, hqt, -, -, hv⟩ := hall e he
      have hqp : q = p := Outcome.ok.inj (hq.symm.trans (hmade e he))
      subst hqp
      have heq := hqt.trans hpt0.symm
      rw [Forgery.point, Forgery.point] at heq
      obtain ⟨-, h2, -⟩ := challengeTranscript_inj hE _ _ _ _ _ _ _ _ _ _ _ _ _ _ _ _ _ _ heq
      have hkk : (c.run (update O s (b e))).k = k := hinj _ _ h2
      rw [hkk] at hv
      exact hv
    have hkm := hm k
    exact challenges_injOn E (sts k) (hst k) p (fun e => E.scalarOfWide (b e).bytes)
      (hb.mono (by intro i hi; simp only [coe_range, Set.mem_Iio] at hi ⊢; omega)) fun e he => hfin e (by omega)
  have hunion : #{O : S → Block | Reused E S sts sigs (c.run O) O} =
      ∑ i, #{O : S → Block | (c.run O).i = i ∧ Reused E S sts sigs (c.run O) O} := by
    rw [card_eq_sum_card_fiberwise (f := fun O => (c.run O).i) (t := univ) (by intro O _; exact mem_univ _)]
    refine sum_congr rfl fun i _ => congrArg card (Finset.ext fun O => ?_)
    simp only [mem_filter, mem_univ, true_and]
    exact and_comm
  rw [hunion, mul_sum]
  refine (sum_le_card_nsmul _ _ _ fun i _ => key i).trans (le_of_eq ?_)
  rw [smul_eq_mul, card_univ]
  generalize Fintype.card (S → Block) = N
  ring

local notation "ℓ" => (2 ^ 252 + 27742317777372353535851937790883648493 : ℕ)

open Classical in
/-- C87 for Ristretto: the probability is at most `q m (Q + 1) / 2 ^ 252` for `q` proofs. -/
theorem C87_ristretto {σ ι κ : Type} [Fintype ι] {P : Type} [AddCommGroup P] [Module (ZMod ℓ) P] [DecidableEq P]
    (E : Env (ZMod ℓ) P) (hE : E.Lawful) (hwide : ∀ b, E.scalarOfWide b = ((leNat b : ℕ) : ZMod ℓ)) (S : Finset Transcript)
    (hS : ∀ t ∈ S, t.getLast? = some (.challenge "xi" 64)) (sts : κ → Statement P) (hst : ∀ k, StatementBuilt E (sts k))
    (hinj : ∀ k k', (sts k).hash = (sts k').hash → k = k') (sigs : ι → Signature σ κ (ZMod ℓ) P)
    (hw : ∀ i, WitnessBuilt E (sigs i).w) (m : ℕ) (hm : ∀ k, (sts k).params.m ≤ m)
    (c : OracleProgram S Block (Reuse ι κ)) (Q : ℕ) (hQ : ∀ O, (c.asked O).length ≤ Q) :
    (#{O : S → Block | Reused E S sts sigs (c.run O) O} : ℚ) / Fintype.card (S → Block) ≤
      Fintype.card ι * m * (Q + 1) / 2 ^ 252 := by
  have h := C87_reuse E hE S hS sts hst hinj sigs hw m hm (2 ^ 260)
    (fun x => by simp only [hwide]; exact blocks_ristretto x) c Q hQ
  apply reuse_ratio _ _ _ _ _ (by exact_mod_cast Fintype.card_pos)
  have h' := (Nat.cast_le (α := ℚ)).2 h
  push_cast at h' ⊢
  exact h'

/-- With challenges `O`, seeds `H` and weights `W`, the chosen signer makes a proof, and the verifier accepts this proof for another
statement or with another transcript. -/
def Spec.AcceptedReuse {σ ι κ : Type} (E : Env F P) (cfg : Config) (S A : Finset Transcript) (sts : κ → Statement P)
    (sigs : ι → Signature σ κ F P) {N : ℕ} (x : Reuse ι κ) (O : S → Block) (H : A → Seed) (W : Seed → Fin N → Block) : Prop :=
  ∃ p, (sigs x.i).made (withSeeds (withOracle E S O) "Parallel Triptych verifier weights" A H (fun s : Seed => [s.val]) W) sts = .ok p ∧
    (x.k ≠ (sigs x.i).k ∨ x.t ≠ (sigs x.i).t) ∧ AcceptedForgery E cfg S A sts ⟨x.k, x.t, p⟩ O H W

theorem witnessBuilt_withSeeds (E : Env F P) (label : String) (A : Finset Transcript) (H : A → Seed) {V : Type} (list : V → List ℕ)
    {N : ℕ} (W : V → Fin N → Block) (w : Witness F P) (h : WitnessBuilt E w) : WitnessBuilt (withSeeds E label A H list W) w := by
  induction h with
  | new params l r r1 w h1 h2 => exact .new params l r r1 w h1 h2
  | random σ R s s' params w h1 h2 => exact .random σ R s s' params w h1 h2
  | zeroize w _ ih => exact .zeroize w ih

/-- The signer's randomness does not depend on seeds and weights of the verifier. -/
theorem made_withSeeds {σ κ : Type} (E : Env F P) (A : Finset Transcript) (H : A → Seed) {N : ℕ} (W : Seed → Fin N → Block)
    (sts : κ → Statement P) (x : Signature σ κ F P) (hst : StatementBuilt E (sts x.k)) (hw : WitnessBuilt E x.w) :
    x.made (withSeeds E "Parallel Triptych verifier weights" A H (fun s : Seed => [s.val]) W) sts = x.made E sts := by
  have hst' : StatementBuilt (withSeeds E "Parallel Triptych verifier weights" A H (fun s : Seed => [s.val]) W) (sts x.k) :=
    statementBuilt_withSeeds _ _ _ _ _ _ _ hst
  have hw' : WitnessBuilt (withSeeds E "Parallel Triptych verifier weights" A H (fun s : Seed => [s.val]) W) x.w :=
    witnessBuilt_withSeeds E _ A H _ W _ hw
  obtain ⟨r1, r2, r3, r4⟩ := C48_reject E x.R x.w (sts x.k) x.s x.t x.timing hw hst
  obtain ⟨r1', r2', r3', r4'⟩ := C48_reject _ x.R x.w (sts x.k) x.s x.t x.timing hw' hst'
  rw [Signature.made, Signature.made]
  by_cases hp : x.w.params = (sts x.k).params
  · by_cases h1 : (sts x.k).inputSet.M[x.w.l]? = some (x.w.r • (sts x.k).params.G)
    · by_cases h3 : (sts x.k).inputSet.M1[x.w.l]? = some (x.w.r1 • (sts x.k).params.G1 + (sts x.k).offset)
      swap
      · rw [r3 hp h1 h3, r3' hp h1 h3]
      by_cases h2 : x.w.r • (sts x.k).J = (sts x.k).params.U
      · obtain ⟨nn, ξ, hnn, hξ, a1, a2⟩ := C48_accept E x.R x.w (sts x.k) x.s x.t x.timing hw hst hp ⟨h1, h3, h2⟩
        obtain ⟨nn', ξ', hnn', hξ', a1', a2'⟩ := C48_accept _ x.R x.w (sts x.k) x.s x.t x.timing hw' hst' hp ⟨h1, h3, h2⟩
        have hd : ∀ i, drawn (withSeeds E "Parallel Triptych verifier weights" A H (fun s : Seed => [s.val]) W)
            (proverKey E x.t (sts x.k).hash x.w.l x.w.r x.w.r1 (x.R.fill x.s 32).1) i =
            drawn E (proverKey E x.t (sts x.k).hash x.w.l x.w.r x.w.r1 (x.R.fill x.s 32).1) i := by
          intro i
          refine congrArg E.scalarOfWide ?_
          simp only [withSeeds]
          rw [dif_neg, dif_neg]
          · rintro ⟨-, -, v, hv⟩
            simp [queryPoint, proverKey, weightKey] at hv
          · rintro ⟨-, hv, -⟩
            simp [queryPoint, proverKey] at hv
        have e : nn' = nn := by
          rw [hnn, hnn']
          simp only [proverNonces]
          have hk : proverKey (withSeeds E "Parallel Triptych verifier weights" A H (fun s : Seed => [s.val]) W) x.t (sts x.k).hash
            x.w.l x.w.r x.w.r1 (x.R.fill x.s 32).1 = proverKey E x.t (sts x.k).hash x.w.l x.w.r x.w.r1 (x.R.fill x.s 32).1 := rfl
          simp only [hk, hd]
        subst e
        have e2 : ξ' = ξ := by rw [hξ, hξ']; rfl
        subst e2
        by_cases h0 : ξ' = 0
        · rw [a1 h0, a1' h0]
        · rw [a2 h0, a2' h0]
      · rw [r4 hp h1 h3 h2, r4' hp h1 h3 h2]
    · rw [r2 hp h1, r2' hp h1]
  · rw [r1 hp, r1' hp]

/-- The output as a forgery, for fixed challenges. -/
noncomputable def asForgery {σ ι κ : Type} (E : Env F P) (sts : κ → Statement P) (sigs : ι → Signature σ κ F P) (x : Reuse ι κ) :
    Forgery κ F P :=
  ⟨x.k, x.t, match (sigs x.i).made E sts with | .ok p => p | _ => sigBase E sts (sigs x.i)⟩

theorem reuse_cases {σ ι κ : Type} (E : Env F P) (cfg : Config) (S A : Finset Transcript)
    (hS : ∀ t ∈ S, t.getLast? = some (.challenge "xi" 64)) (sts : κ → Statement P) (hst : ∀ k, StatementBuilt E (sts k))
    (sigs : ι → Signature σ κ F P) (hw : ∀ i, WitnessBuilt E (sigs i).w) {N : ℕ} (x : Reuse ι κ) (O : S → Block)
    (H : A → Seed) (W : Seed → Fin N → Block) (h : AcceptedReuse E cfg S A sts sigs x O H W) :
    Reused E S sts sigs x O ∨
      AcceptedInvalid (withOracle E S O) cfg A sts (asForgery (withOracle E S O) sts sigs x) H W := by
  obtain ⟨p, hp, hdiff, h1, h2, h3⟩ := h
  have hb := statementBuilt_withOracle E S O hS _ (hst x.k)
  rw [made_withSeeds _ _ _ _ _ _ (statementBuilt_withOracle E S O hS _ (hst _)) (witnessBuilt_withOracle E S O hS _ (hw x.i))] at hp
  have hx : asForgery (withOracle E S O) sts sigs x = ⟨x.k, x.t, p⟩ := by rw [asForgery, hp]
  by_cases hv : Valid (sts x.k).params (sts x.k).inputSet.M (sts x.k).inputSet.M1 (sts x.k).offset (sts x.k).J p (challenge (withOracle E S O) x.t (sts x.k) p)
  · have hb' : StatementBuilt (withSeeds (withOracle E S O) "Parallel Triptych verifier weights" A H (fun s : Seed => [s.val]) W) (sts x.k) :=
      statementBuilt_withSeeds _ _ _ _ _ _ _ hb
    exact Or.inl ⟨p, hp, hdiff, h1, (C50_accepted _ cfg _ [] _ _ hb' h3).1.shapes _ (by simp), hv⟩
  · rw [hx]
    exact Or.inr ⟨h2, hv, h3⟩

open Classical in
/-- C87 for the complete verifier: the probability that somebody asking for at most `Q` challenges, `R` seeds and the weights of
`T` seeds finds one of `q` proofs, and another statement or transcript with which the verifier accepts it, is at most
`q m (Q + 1) / 2 ^ 252 + (R + 1) 5 / 2 ^ 64 + 1 / 2 ^ 107`. -/
theorem C87_verify {σ ι κ : Type} [Fintype ι] {P : Type} [AddCommGroup P] [Module (ZMod ℓ) P] [DecidableEq P]
    (E : Env (ZMod ℓ) P) (hE : E.Lawful) (hwide : ∀ b, E.scalarOfWide b = ((leNat b : ℕ) : ZMod ℓ)) (cfg : Config)
    (S A : Finset Transcript) (hS : ∀ t ∈ S, t.getLast? = some (.challenge "xi" 64)) (sts : κ → Statement P)
    (hst : ∀ k, StatementBuilt E (sts k)) (hinj : ∀ k k', (sts k).hash = (sts k').hash → k = k')
    (sigs : ι → Signature σ κ (ZMod ℓ) P) (hw : ∀ i, WitnessBuilt E (sigs i).w) (m : ℕ) (hm : ∀ k, (sts k).params.m ≤ m)
    (c : AttackProgram S Block A Seed Seed (Fin (1 * 2 * 5) → Block) (Reuse ι κ)) (Q R T : ℕ) (hc : c.AtMost Q R T) :
    (avg fun O : S → Block => avg fun H : A → Seed => avg fun W : Seed → Fin (1 * 2 * 5) → Block =>
      ind (AcceptedReuse E cfg S A sts sigs (c.run O H W) O H W)) ≤
      Fintype.card ι * m * (Q + 1) / 2 ^ 252 + ((R + 1) * (5 / 2 ^ 64) + 1 / 2 ^ 107) := by
  have h1 : ∀ (O : S → Block) (H : A → Seed) (W : Seed → Fin (1 * 2 * 5) → Block),
      ind (AcceptedReuse E cfg S A sts sigs (c.run O H W) O H W) ≤
        ind (Reused E S sts sigs ((c.challengesOnly H W).run O) O) +
        ind (AcceptedInvalid (withOracle E S O) cfg A sts
          (((c.weightsOnly O).map (asForgery (withOracle E S O) sts sigs)).run H W) H W) := by
    intro O H W
    rw [AttackProgram.run_challengesOnly, GrindProgram.run_map, AttackProgram.run_weightsOnly]
    generalize c.run O H W = x
    by_cases h : AcceptedReuse E cfg S A sts sigs x O H W
    · rw [ind_pos h]
      rcases reuse_cases E cfg S A hS sts hst sigs hw x O H W h with h' | h'
      · rw [ind_pos h']
        linarith [ind_nonneg (AcceptedInvalid (withOracle E S O) cfg A sts (asForgery (withOracle E S O) sts sigs x) H W)]
      · rw [ind_pos h']
        linarith [ind_nonneg (Reused E S sts sigs x O)]
    · rw [ind_neg h]
      exact add_nonneg (ind_nonneg _) (ind_nonneg _)
  refine (avg_mono _ _ fun O => avg_mono _ _ fun H => avg_mono _ _ fun W => h1 O H W).trans ?_
  have e := avg_add₃ (fun (O : S → Block) (H : A → Seed) (W : Seed → Fin (1 * 2 * 5) → Block) =>
      ind (Reused E S sts sigs ((c.challengesOnly H W).run O) O)) fun O H W =>
      ind (AcceptedInvalid (withOracle E S O) cfg A sts
          (((c.weightsOnly O).map (asForgery (withOracle E S O) sts sigs)).run H W) H W)
  rw [e]
  refine add_le_add ?_ ?_
  · have swap := fun f : (S → Block) → (A → Seed) → (Seed → Fin (1 * 2 * 5) → Block) → ℚ => avg_swap f
    rw [swap]
    have key : ∀ (H : A → Seed) (W : Seed → Fin (1 * 2 * 5) → Block),
        (avg fun O : S → Block => ind (Reused E S sts sigs ((c.challengesOnly H W).run O) O)) ≤
          Fintype.card ι * m * (Q + 1) / 2 ^ 252 := by
      intro H W
      rw [avg_ind']
      exact C87_ristretto E hE hwide S hS sts hst hinj sigs hw m hm (c.challengesOnly H W) Q
        fun O => AttackProgram.asked_challengesOnly O H W c hc
    refine (avg_mono _ _ fun H => avg_mono _ _ fun W => key H W).trans ?_
    generalize (Fintype.card ι : ℚ) * m * (Q + 1) / 2 ^ 252 = y
    simp only [avg_const, le_refl]
  · refine (avg_mono _ _ fun O => C81_known_ristretto (withOracle E S O) (lawful_withOracle E hE S O) hwide cfg A sts
      (fun k => statementBuilt_withOracle E S O hS _ (hst k)) hinj _ R T
      (GrindProgram.atMost_map _ _ (AttackProgram.atMost_weightsOnly O c hc))).trans ?_
    generalize ((R : ℚ) + 1) * (5 / 2 ^ 64) + 1 / 2 ^ 107 = y
    rw [avg_const]

namespace Toy

theorem Ristretto.proof_new : (Proof.proveInternal (Triptych.Toy.env ℓ) nullRng Ristretto.witness Ristretto.statement ()
    Triptych.Toy.transcript .Constant).1 = .ok (Triptych.Toy.get ⟨0, 0, 0, 0, [], [], [], [], 0, 0, 0, 0⟩
      (Proof.proveInternal (Triptych.Toy.env ℓ) nullRng Ristretto.witness Ristretto.statement () Triptych.Toy.transcript .Constant).1) := by
  decide +kernel

open Triptych.Toy (env transcript transcript')

/-- The toy signer. -/
def signature : Signature Unit Unit (ZMod 101) (ZMod 101) := ⟨(), nullRng, witness, (), transcript, .Constant⟩

/-- The transcripts from which the challenges of the toy proof are derived: for the message it was made for, and for another. -/
def points : Finset Transcript :=
  {point, Forgery.point (env 101) (fun _ : Unit => statement) ⟨(), transcript', proof⟩}

theorem points_last : ∀ t ∈ points, t.getLast? = some (.challenge "xi" 64) := by decide +kernel

/-- An oracle with the same answer for both. -/
def constantOracle : points → Block := fun _ i => ⟨(((env 101).challenge point).getD i 0).toNat, UInt8.toNat_lt _⟩

/-- Somebody who asks for the challenge of the toy proof with another message, and outputs this message. -/
def replay : OracleProgram points Block (Reuse Unit Unit) :=
  .ask ⟨_, mem_insert_of_mem (mem_singleton_self _)⟩ fun _ => .done ⟨(), (), transcript'⟩

end Toy

/-- The toy signer and this program meet the hypotheses of `C87_reuse`, and there is an oracle for which the toy proof is valid for
another message. -/
example : (Triptych.Toy.env 101).Lawful ∧ (∀ t ∈ Toy.points, t.getLast? = some (.challenge "xi" 64)) ∧
    StatementBuilt (Triptych.Toy.env 101) Toy.statement ∧ WitnessBuilt (Triptych.Toy.env 101) Toy.signature.w ∧ Toy.statement.params.m ≤ 2 ∧
    (∀ x : ZMod 101, #{b : Block | (Triptych.Toy.env 101).scalarOfWide b.bytes = x} ≤ 256 ^ 64 / 101 + 1) ∧
    (∀ O, (Toy.replay.asked O).length ≤ 1) ∧
    Reused (Triptych.Toy.env 101) Toy.points (fun _ => Toy.statement) (fun _ : Unit => Toy.signature) (Toy.replay.run Toy.constantOracle)
      Toy.constantOracle := by
  refine ⟨Triptych.Toy.env_lawful 101 (by norm_num), Toy.points_last, Toy.statement_built, Toy.witness_built, by decide +kernel,
    fun x => blocks_value 101 _ le_rfl x, fun _ => le_rfl, Toy.proof, by decide +kernel, by decide +kernel, by decide +kernel,
    ⟨by decide +kernel, by decide +kernel, by decide +kernel, by decide +kernel, by decide +kernel⟩, ?_⟩
  exact ⟨by decide +kernel, by decide +kernel, by decide +kernel, by decide +kernel, by decide +kernel⟩

/-- The toy proof satisfies the equations of the toy statement for one challenge. -/
example : StatementBuilt (Triptych.Toy.env 101) Toy.statement ∧
    ∀ ξ ∈ ({challenge (Triptych.Toy.env 101) Triptych.Toy.transcript Toy.statement Toy.proof} : Finset (ZMod 101)),
      Valid Toy.statement.params Toy.statement.inputSet.M Toy.statement.inputSet.M1 Toy.statement.offset Toy.statement.J Toy.proof ξ := by
  refine ⟨Toy.statement_built, fun ξ h => ?_⟩
  rw [mem_singleton.1 h]
  exact ⟨by decide +kernel, by decide +kernel, by decide +kernel, by decide +kernel, by decide +kernel⟩

/-- A proof for the toy statement and two challenges meets the hypotheses of `C87_tight` and `C87_relation`. -/
example : ∃ p : Proof (ZMod 101) (ZMod 101), StatementBuilt (Triptych.Toy.env 101) Toy.statement ∧
    #({1, 2} : Finset (ZMod 101)) = Toy.statement.params.m ∧ 2 ≤ Toy.statement.params.n ∧
    Valid Toy.statement.params Toy.statement.inputSet.M Toy.statement.inputSet.M1 Toy.statement.offset Toy.statement.J p 1 ∧
    Valid Toy.statement.params Toy.statement.inputSet.M Toy.statement.inputSet.M1 Toy.statement.offset Toy.statement.J p 2 ∧
    p.B = commit Toy.statement.params.n Toy.statement.params.m Toy.statement.params.CommitmentG Toy.statement.params.CommitmentH
      (selector Toy.statement.params.n 0) (0 : ZMod 101) := by
  have hT : #({1, 2} : Finset (ZMod 101)) = Toy.statement.params.m := by decide +kernel
  have hn : 2 ≤ Toy.statement.params.n := by decide +kernel
  have hb := Toy.statement_built
  generalize Toy.statement = st at *
  have h := (C87_tight (Triptych.Toy.env 101) st hb {1, 2} hT).2
  exact ⟨_, hb, hT, hn, h 1 (by simp), h 2 (by simp), rfl⟩

/-- The same as for `C87_reuse` over the real scalar field, with somebody who asks for a challenge, a seed and weights: the
hypotheses of `C87_ristretto` and `C87_verify` are met. -/
example (S A : Finset Transcript) (s : S) (a : A) (t : Transcript) :
    ∃ (sig : Signature Unit Unit (ZMod ℓ) (ZMod ℓ))
      (c : AttackProgram S Block A Seed Seed (Fin (1 * 2 * 5) → Block) (Reuse Unit Unit)),
    (Triptych.Toy.env ℓ).Lawful ∧ (∀ b, (Triptych.Toy.env ℓ).scalarOfWide b = ((leNat b : ℕ) : ZMod ℓ)) ∧
    StatementBuilt (Triptych.Toy.env ℓ) Toy.Ristretto.statement ∧ WitnessBuilt (Triptych.Toy.env ℓ) sig.w ∧
    (∃ p, sig.made (Triptych.Toy.env ℓ) (fun _ => Toy.Ristretto.statement) = .ok p) ∧
    Toy.Ristretto.statement.params.m ≤ 2 ∧ c.AtMost 1 1 1 :=
  ⟨⟨(), nullRng, Toy.Ristretto.witness, (), Triptych.Toy.transcript, .Constant⟩,
    .challenge s fun _ => .seed a fun x => .weights x fun _ => .done ⟨(), (), t⟩, Triptych.Toy.env_lawful ℓ (by norm_num), fun _ => rfl,
    Toy.Ristretto.statement_built, .new _ _ _ _ _ ⟨_, _, _, _, _, Toy.Ristretto.params_new⟩ Toy.Ristretto.witness_new, ⟨_, Toy.Ristretto.proof_new⟩,
    by decide +kernel, ⟨by norm_num, fun _ => ⟨by norm_num, fun _ => ⟨by norm_num, fun _ => trivial⟩⟩⟩⟩

end Triptych.Parallel
