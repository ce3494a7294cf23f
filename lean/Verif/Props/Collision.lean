import Verif.Lemmas.Collision
import Verif.Props.KnownWeights

/-! # C103: forging batches with common seeds -/
set_option autoImplicit false
set_option linter.unusedSectionVars false
set_option linter.unusedVariables false

namespace Triptych
open Spec Finset Function

variable {F P : Type} [Field F] [AddCommGroup P] [Module F P] [DecidableEq F] [DecidableEq P]

/-- A batch is accepted if none of the first weights is zero and the sum of its equations, weighted with them, vanishes. -/
theorem accepted_of_table {κ : Type} (E : Env F P) (cfg : Config) (A : Finset Transcript) (sts : κ → Statement P)
    (hst : ∀ k, StatementBuilt E (sts k)) {n j : ℕ} (hj : 0 < j) (x : Fin (n + 1) → Forgery κ F P)
    (h1 : ∀ i, responseTranscript E (x i).t (sts (x i).k) (x i).p ∈ A)
    (hpar : ∀ i, (sts (x i).k).params = (sts (x 0).k).params) (hin : ∀ i, (sts (x i).k).inputSet = (sts (x 0).k).inputSet)
    (hshape : ∀ i, Shape (sts (x 0).k).params (x i).p) (hξ : ∀ i, challenge E (x i).t (sts (x i).k) (x i).p ≠ 0)
    (hf : ∀ i, NonzeroF (sts (x 0).k).params.n (sts (x 0).k).params.m (x i).p.f (challenge E (x i).t (sts (x i).k) (x i).p))
    (hsz : SizeOK cfg (sts (x 0).k).params (n + 1)) (hfuel : n + 1 ≤ cfg.fuel) (H : A → Seed)
    (W : (Fin (n + 1) → Seed) → Fin ((n + 1) * j * 4) → Block) (w : Fin (n + 1) → Fin 4 → F)
    (hw : ∀ i e, w i e = E.scalarOfWide (W (fun i => H ⟨_, h1 i⟩) (place hj i e)).bytes) (hnz : ∀ i e, w i e ≠ 0)
    (hsum : ∑ i, weighted (sts (x 0).k).params (sts (x 0).k).inputSet.M (sts (x i).k).J (x i).p
      (challenge E (x i).t (sts (x i).k) (x i).p) ⟨w i 0, w i 1, w i 2, w i 3⟩ = 0) :
    (Proof.verifyBatch (withSeeds E "Triptych verifier weights" A H (fun s => List.ofFn fun i => (s i).val) W) cfg
      (List.ofFn fun i => sts (x i).k) (List.ofFn fun i => (x i).p) (List.ofFn fun i => (x i).t)).1 = .ok () := by
  obtain ⟨E', hE'⟩ : ∃ E', E' = withSeeds E "Triptych verifier weights" A H (fun s : Fin (n + 1) → Seed => List.ofFn fun i => (s i).val) W :=
    ⟨_, rfl⟩
  have hb : StatementBuilt E' (sts (x 0).k) := by rw [hE']; exact statementBuilt_withSeeds E _ A H _ W _ (hst _)
  have hch : ∀ t st (p : Proof F P), challenge E' t st p = challenge E t st p := by rw [hE']; intro t st p; rfl
  have hcs : challenges E' (List.ofFn fun i => sts (x i).k) (List.ofFn fun i => (x i).p) (List.ofFn fun i => (x i).t) =
      List.ofFn fun i => challenge E (x i).t (sts (x i).k) (x i).p := by
    rw [challenges, zip_ofFn, zip_ofFn, List.map_ofFn]
    exact congrArg List.ofFn (funext fun i => hch _ _ _)
  have hseeds : seeds E' (List.ofFn fun i => sts (x i).k) (List.ofFn fun i => (x i).p) (List.ofFn fun i => (x i).t) =
      List.ofFn fun i => (H ⟨_, h1 i⟩).val := by
    rw [seeds, zip_ofFn, zip_ofFn, List.map_ofFn]
    refine congrArg List.ofFn (funext fun i => ?_)
    rw [hE']
    exact withSeeds_weightSeed _ _ _ _ _ _ _ _ _ (h1 i)
  have hquad : ∀ i : Fin (n + 1), weightQuad E' (weightTranscript "Triptych verifier weights" (List.ofFn fun i => (H ⟨_, h1 i⟩).val)) i.val =
      ⟨w i 0, w i 1, w i 2, w i 3⟩ := by
    intro i
    have h : ∀ e : Fin 4, weightScalar E' (weightTranscript "Triptych verifier weights" (List.ofFn fun i => (H ⟨_, h1 i⟩).val))
        (e.val + 4 * i.val) = w i e := by
      intro e
      rw [hw, hE']
      have := withSeeds_table E "Triptych verifier weights" A H (fun s : Fin (n + 1) → Seed => List.ofFn fun i => (s i).val) W
        seed_list_injective seed_lt (fun i => H ⟨_, h1 i⟩) (place hj i e).val (place hj i e).2
      exact congrArg E.scalarOfWide this
    rw [weightQuad, Proof.Weights.mk.injEq, ← h 0, ← h 1, ← h 2, ← h 3]
    refine ⟨?_, ?_, ?_, ?_⟩ <;> congr 1 <;> simp [Nat.add_comm]
  have husable : usableQuads E' (weightTranscript "Triptych verifier weights" (List.ofFn fun i => (H ⟨_, h1 i⟩).val)) (n + 1) =
      List.ofFn fun i => ⟨w i 0, w i 1, w i 2, w i 3⟩ := by
    rw [usableQuads, ← List.map_coe_finRange_eq_range, List.map_map]
    have e : (List.finRange (n + 1)).map (weightQuad E' (weightTranscript "Triptych verifier weights"
        (List.ofFn fun i => (H ⟨_, h1 i⟩).val)) ∘ Fin.val) = List.ofFn fun i => (⟨w i 0, w i 1, w i 2, w i 3⟩ : Proof.Weights F) := by
      exact (List.map_congr_left fun i _ => hquad i).trans List.ofFn_eq_map.symm
    rw [e]
    rw [List.filter_eq_self]
    intro a ha
    obtain ⟨i, rfl⟩ := List.mem_ofFn.1 ha
    exact decide_eq_true ⟨hnz i 0, hnz i 1, hnz i 2, hnz i 3⟩
  rw [← hE']
  clear hw hE'
  have hfirst : (List.ofFn fun i => sts (x i).k) = sts (x 0).k :: List.ofFn fun i : Fin n => sts (x i.succ).k := List.ofFn_succ
  have hws : IsWeights E' (List.ofFn fun i => sts (x i).k) (List.ofFn fun i => (x i).p) (List.ofFn fun i => (x i).t)
      (List.ofFn fun i => ⟨w i 0, w i 1, w i 2, w i 3⟩) :=
    ⟨by rw [List.length_ofFn, List.length_ofFn], n + 1, by rw [hseeds, husable]⟩
  have hbs : batchSum (sts (x 0).k).params (sts (x 0).k).inputSet.M (List.ofFn fun i => sts (x i).k) (List.ofFn fun i => (x i).p)
      (List.ofFn fun i => challenge E (x i).t (sts (x i).k) (x i).p) (List.ofFn fun i => ⟨w i 0, w i 1, w i 2, w i 3⟩) = 0 := by
    rw [batchSum, zip_ofFn, zip_ofFn, zip_ofFn, List.map_ofFn, List.sum_ofFn]
    exact hsum
  have hlen : (List.ofFn fun i => (x i).p).length = n + 1 := List.length_ofFn
  have hef : EnoughFuel E' (List.ofFn fun i => sts (x i).k) (List.ofFn fun i => (x i).p) (List.ofFn fun i => (x i).t) cfg.fuel := by
    rw [EnoughFuel, hseeds, hlen]
    have := (usableQuads_prefix E' (weightTranscript "Triptych verifier weights" (List.ofFn fun i => (H ⟨_, h1 i⟩).val)) _ _ hfuel).length_le
    rw [husable, List.length_ofFn] at this
    exact this
  have hz : (0 : F) ∉ List.ofFn fun i => challenge E (x i).t (sts (x i).k) (x i).p := by
    intro h
    obtain ⟨i, hi⟩ := List.mem_ofFn.1 h
    exact hξ i hi
  have hnzf : BatchNonzeroF (sts (x 0).k).params (List.ofFn fun i => (x i).p) (List.ofFn fun i => challenge E (x i).t (sts (x i).k) (x i).p) := by
    intro y hy
    rw [zip_ofFn] at hy
    obtain ⟨i, rfl⟩ := List.mem_ofFn.1 hy
    exact hf i
  have hpre : BatchPre (sts (x 0).k) (List.ofFn fun i => sts (x i).k) (List.ofFn fun i => (x i).p) (List.ofFn fun i => (x i).t) := by
    refine ⟨by rw [List.length_ofFn, List.length_ofFn], by rw [List.length_ofFn, List.length_ofFn], ?_, ?_, ?_⟩
    · intro s hs
      obtain ⟨i, rfl⟩ := List.mem_ofFn.1 hs
      rw [hin]
    · intro s hs
      obtain ⟨i, rfl⟩ := List.mem_ofFn.1 hs
      rw [hpar]
    · intro p hp
      obtain ⟨i, rfl⟩ := List.mem_ofFn.1 hp
      exact hshape i
  have hsz' : SizeOK cfg (sts (x 0).k).params (List.ofFn fun i => (x i).p).length := (congrArg (SizeOK cfg _) hlen).mpr hsz
  rw [← hcs] at hz hnzf hbs
  rw [hfirst] at hz hnzf hbs hpre hws hef ⊢
  rw [C18_verdict E' cfg _ _ _ _ hb hpre hsz' hz hnzf _ hws hef, if_pos hbs]

/-- `x` is a proof for the statement `st`, made by the prover's algorithm with the position `l` and the number `r` in the place of
the signing key, whether or not `r` is the key of that position; its challenge and its responses are not zero. -/
structure Spec.MadeWith {κ : Type} (E : Env F P) (sts : κ → Statement P) (st : κ) (l : ℕ) (r : F) (x : Forgery κ F P) : Prop where
  statement : x.k = st
  made : ∃ nn, x.p = honestProof (sts st).params (sts st).inputSet.M (sts st).J l r nn (challenge E x.t (sts st) x.p)
  challenge : Spec.challenge E x.t (sts st) x.p ≠ 0
  responses : NonzeroF (sts st).params.n (sts st).params.m x.p.f (Spec.challenge E x.t (sts st) x.p)

/-- The batch: for each of the two classes a given proof, then proofs with one of two contents and the same seed. -/
def collisionBatch {α : Type} {E k N : ℕ} (x0 : Fin E → α) (pool : Fin E → Bool → Fin N → α) (ij : Fin E → Fin N × Fin N)
    (b : Fin E → Fin k → Bool) (p : Fin (E * (k + 1))) : α :=
  Fin.cases (motive := fun _ => α) (x0 (finProdFinEquiv.symm p).1) (fun i => pool (finProdFinEquiv.symm p).1
    (b (finProdFinEquiv.symm p).1 i) (if b (finProdFinEquiv.symm p).1 i then (ij (finProdFinEquiv.symm p).1).2
      else (ij (finProdFinEquiv.symm p).1).1)) (finProdFinEquiv.symm p).2

theorem collisionBatch_zero {α : Type} {E k N : ℕ} (x0 : Fin E → α) (pool : Fin E → Bool → Fin N → α) (ij : Fin E → Fin N × Fin N)
    (b : Fin E → Fin k → Bool) (d : Fin E) : collisionBatch x0 pool ij b (finProdFinEquiv (d, 0)) = x0 d := by
  rw [collisionBatch, Equiv.symm_apply_apply]
  rfl

theorem collisionBatch_succ {α : Type} {E k N : ℕ} (x0 : Fin E → α) (pool : Fin E → Bool → Fin N → α) (ij : Fin E → Fin N × Fin N)
    (b : Fin E → Fin k → Bool) (d : Fin E) (i : Fin k) : collisionBatch x0 pool ij b (finProdFinEquiv (d, i.succ)) =
      pool d (b d i) (if b d i then (ij d).2 else (ij d).1) := by
  rw [collisionBatch, Equiv.symm_apply_apply]
  rfl

theorem collisionBatch_of {α : Type} {E k N : ℕ} (x0 : Fin E → α) (pool : Fin E → Bool → Fin N → α) (ij : Fin E → Fin N × Fin N)
    (b : Fin E → Fin k → Bool) (Q : Fin E → α → Prop) (h0 : ∀ d, Q d (x0 d)) (h1 : ∀ d c i, Q d (pool d c i)) (p : Fin (E * (k + 1))) :
    Q (finProdFinEquiv.symm p).1 (collisionBatch x0 pool ij b p) := by
  obtain ⟨⟨d, i⟩, rfl⟩ := finProdFinEquiv.surjective p
  rw [Equiv.symm_apply_apply]
  induction i using Fin.cases with
  | zero => rw [collisionBatch_zero]; exact h0 d
  | succ i => rw [collisionBatch_succ]; exact h1 d _ _

theorem seedVector_collisionBatch {α X : Type} {E k N : ℕ} (f : α → X) (x0 : Fin E → α) (pool : Fin E → Bool → Fin N → α)
    (ij : Fin E → Fin N × Fin N) (hij : ∀ d, f (pool d false (ij d).1) = f (pool d true (ij d).2)) (b : Fin E → Fin k → Bool) :
    seedVector (fun d => f (x0 d)) (fun d c i => f (pool d c i)) ij = fun p => f (collisionBatch x0 pool ij b p) := by
  funext p
  obtain ⟨⟨d, i⟩, rfl⟩ := finProdFinEquiv.surjective p
  rw [seedVector, Equiv.symm_apply_apply]
  induction i using Fin.cases with
  | zero => rw [collisionBatch_zero]; rfl
  | succ i =>
    rw [collisionBatch_succ]
    show f (pool d false (ij d).1) = _
    cases b d i
    · rfl
    · exact hij d

/-- The sum over a batch, by classes. -/
theorem sum_collisionBatch {R β : Type} {E k N n : ℕ} (val : R → F) (ch : β → F) (z : Fin E → Fin E → F)
    (s : Fin E → Fin (k + 1) → Fin E → Fin n) (y : Fin n → R) (x0 : Fin E → β) (pool : Fin E → Bool → Fin N → β)
    (ij : Fin E → Fin N × Fin N) (b : Fin E → Fin k → Bool) (e : Fin E) :
    ∑ p : Fin (E * (k + 1)), val (y (s (finProdFinEquiv.symm p).1 (finProdFinEquiv.symm p).2 e)) *
        (z (finProdFinEquiv.symm p).1 e * ch (collisionBatch x0 pool ij b p)) =
      ∑ d, classSum val s (fun d e => z d e * ch (x0 d)) (fun d i b e => z d e * ch (pool d b (if b then (ij d).2 else (ij d).1))) y d e (b d) := by
  rw [← finProdFinEquiv.sum_comp, Fintype.sum_prod_type]
  refine sum_congr rfl fun d _ => ?_
  rw [Fin.sum_univ_succ, classSum]
  simp only [Equiv.symm_apply_apply, collisionBatch_zero, collisionBatch_succ]
  congr 1
  · ring
  · exact sum_congr rfl fun i _ => by ring

/-- With a common seed in each class and good weights, the batch is accepted. -/
theorem collisionBatch_accepted {κ : Type} (E : Env F P) (cfg : Config) (A : Finset Transcript)
    (sts : κ → Statement P) (hst : ∀ k, StatementBuilt E (sts k))
    (st : Fin 2 → κ) (hpar : (sts (st 1)).params = (sts (st 0)).params) (hin : (sts (st 1)).inputSet = (sts (st 0)).inputSet)
    (l : ℕ) (hl : l < (sts (st 0)).params.n ^ (sts (st 0)).params.m) (r : F) (hJ : r • (sts (st 1)).J = (sts (st 0)).params.U)
    (hfalse : ¬ Spec.Rel (sts (st 0)).params.G (sts (st 0)).params.U (sts (st 0)).inputSet.M (sts (st 0)).J l r)
    (N k j : ℕ) (hj : 0 < j) (x0 : Fin 2 → Forgery κ F P) (pool : Fin 2 → Bool → Fin N → Forgery κ F P)
    (hx0 : ∀ d, MadeWith E sts (st d) l r (x0 d)) (hpool : ∀ d c i, MadeWith E sts (st d) l r (pool d c i))
    (hA0 : ∀ d, responseTranscript E (x0 d).t (sts (x0 d).k) (x0 d).p ∈ A)
    (hA : ∀ d c i, responseTranscript E (pool d c i).t (sts (pool d c i).k) (pool d c i).p ∈ A)
    (hsz : SizeOK cfg (sts (st 0)).params (2 * (k + 1))) (hfuel : 2 * (k + 1) ≤ cfg.fuel)
    (H : A → Seed) (W : (Fin (2 * k + 1 + 1) → Seed) → Fin ((2 * k + 1 + 1) * j * 4) → Block)
    (ij : Fin 2 → Fin N × Fin N) (b : Fin 2 → Fin k → Bool)
    (hij : ∀ d, H ⟨_, hA d false (ij d).1⟩ = H ⟨_, hA d true (ij d).2⟩)
    (y : Fin (2 * (k + 1) * j * 4) → Block) (hy : y = W (seedVector (fun d => H ⟨_, hA0 d⟩) (fun d c i => H ⟨_, hA d c i⟩) ij))
    (hnz : ∀ (p : Fin (2 * (k + 1))) (e : Fin 4), E.scalarOfWide (y (place hj p e)).bytes ≠ 0)
    (hsum : ∀ e, ∑ d, classSum (fun b : Block => E.scalarOfWide b.bytes) (fun d i e => place hj (finProdFinEquiv (d, i)) ((![3, 2] : Fin 2 → Fin 4) e))
      (fun d e => (if e < d then 0 else 1) * challenge E (x0 d).t (sts (x0 d).k) (x0 d).p ^ (sts (st 0)).params.m)
      (fun d i b e => (if e < d then 0 else 1) * challenge E (pool d b (if b then (ij d).2 else (ij d).1)).t
        (sts (pool d b (if b then (ij d).2 else (ij d).1)).k) (pool d b (if b then (ij d).2 else (ij d).1)).p ^ (sts (st 0)).params.m)
      y d e (b d) = 0) :
    AcceptedInvalidBatch E cfg A sts (k := 2 * k + 1) (collisionBatch x0 pool ij b) H W ∧
      collisionBatch x0 pool ij b (0 : Fin (2 * k + 1 + 1)) = x0 0 := by
  obtain ⟨x, hx⟩ : ∃ x : Fin (2 * k + 1 + 1) → Forgery κ F P, x = collisionBatch x0 pool ij b := ⟨_, rfl⟩
  have h0 : collisionBatch x0 pool ij b (0 : Fin (2 * k + 1 + 1)) = x0 0 := by
    have e : (0 : Fin (2 * k + 1 + 1)) = finProdFinEquiv ((0 : Fin 2), (0 : Fin (k + 1))) := by
      apply Fin.ext
      simp
    rw [e]
    exact collisionBatch_zero x0 pool ij b 0
  have hmade : ∀ p : Fin (2 * (k + 1)), MadeWith E sts (st (finProdFinEquiv.symm p).1) l r (x p) := by
    rw [hx]
    exact collisionBatch_of x0 pool ij b (fun d y => MadeWith E sts (st d) l r y) hx0 hpool
  have hmem : ∀ p, responseTranscript E (x p).t (sts (x p).k) (x p).p ∈ A := by
    rw [hx]
    exact collisionBatch_of x0 pool ij b (fun d y => responseTranscript E y.t (sts y.k) y.p ∈ A) hA0 hA
  have hpar' : ∀ d, (sts (st d)).params = (sts (st 0)).params := by
    intro d
    fin_cases d
    · rfl
    · exact hpar
  have hin' : ∀ d, (sts (st d)).inputSet = (sts (st 0)).inputSet := by
    intro d
    fin_cases d
    · rfl
    · exact hin
  have hk0 : (x 0).k = st 0 := by rw [hx, h0]; exact (hx0 0).statement
  have hseed : (fun p => H ⟨_, hmem p⟩) = seedVector (fun d => H ⟨_, hA0 d⟩) (fun d c i => H ⟨_, hA d c i⟩) ij := by
    classical
    obtain ⟨f, hf⟩ : ∃ f : Forgery κ F P → Seed, f = fun y => if h : responseTranscript E y.t (sts y.k) y.p ∈ A then H ⟨_, h⟩ else 0 :=
      ⟨_, rfl⟩
    have hf' : ∀ y (h : responseTranscript E y.t (sts y.k) y.p ∈ A), H ⟨_, h⟩ = f y := by
      intro y h
      rw [hf]
      simp only
      rw [dif_pos h]
    simp only [hf'] at hij ⊢
    rw [hx]
    exact (seedVector_collisionBatch f x0 pool ij hij b).symm
  rw [← hx]
  refine ⟨⟨hmem, ⟨0, ?_⟩, ?_⟩, by rw [hx]; exact h0⟩
  · have hm := hx0 0
    rw [hx, h0, hm.statement]
    intro hv
    obtain ⟨nn, hnn⟩ := hm.made
    obtain ⟨-, -, e3, e4⟩ := honest_equations (sts (st 0)).params (hst _).ok.params (sts (st 0)).inputSet.M (sts (st 0)).J l r nn hl
      (challenge E (x0 0).t (sts (st 0)) (x0 0).p)
    rw [← hnn] at e3 e4
    have hp : challenge E (x0 0).t (sts (st 0)) (x0 0).p ^ (sts (st 0)).params.m ≠ 0 := pow_ne_zero _ hm.challenge
    have h3 := (smul_eq_zero_iff_right hp).1 (e3.symm.trans hv.e3)
    have h4 := (smul_eq_zero_iff_right hp).1 (e4.symm.trans hv.e4)
    refine hfalse ⟨?_, (sub_eq_zero.1 h4).symm⟩
    have hlen : l < (sts (st 0)).inputSet.M.length := by rw [(hst _).ok.length]; exact hl
    rw [List.getD_eq_getElem?_getD, List.getElem?_eq_getElem hlen, Option.getD_some] at h3
    rw [List.getElem?_eq_getElem hlen, sub_eq_zero.1 h3]
  · refine accepted_of_table E cfg A sts hst hj x hmem ?_ ?_ ?_ ?_ ?_ ?_ hfuel H W
      (fun p e => E.scalarOfWide (y (place hj p e)).bytes) ?_ hnz ?_
    · intro p
      rw [hk0, (hmade p).statement, hpar']
    · intro p
      rw [hk0, (hmade p).statement, hin']
    · intro (p : Fin (2 * (k + 1)))
      obtain ⟨nn, hnn⟩ := (hmade p).made
      rw [hk0, hnn, ← hpar' (finProdFinEquiv.symm p).1]
      exact honest_shape _ _ _ _ _ _ _
    · intro p
      rw [(hmade p).statement]
      exact (hmade p).challenge
    · intro (p : Fin (2 * (k + 1)))
      rw [hk0, (hmade p).statement, ← hpar' (finProdFinEquiv.symm p).1]
      exact (hmade p).responses
    · rw [hk0]
      exact hsz
    · intro p e
      rw [hseed, hy]
    · have key : ∀ p : Fin (2 * (k + 1)), weighted (sts (x 0).k).params (sts (x 0).k).inputSet.M (sts (x p).k).J (x p).p
          (challenge E (x p).t (sts (x p).k) (x p).p) ⟨E.scalarOfWide (y (place hj p 0)).bytes, E.scalarOfWide (y (place hj p 1)).bytes,
            E.scalarOfWide (y (place hj p 2)).bytes, E.scalarOfWide (y (place hj p 3)).bytes⟩ =
          (E.scalarOfWide (y (place hj (finProdFinEquiv ((finProdFinEquiv.symm p).1, (finProdFinEquiv.symm p).2)) ((![3, 2] : Fin 2 → Fin 4) 1))).bytes *
            ((if (1 : Fin 2) < (finProdFinEquiv.symm p).1 then 0 else 1) * challenge E (x p).t (sts (x p).k) (x p).p ^ (sts (st 0)).params.m)) •
              ((sts (st 0)).inputSet.M.getD l 0 - r • (sts (st 0)).params.G) +
          (E.scalarOfWide (y (place hj (finProdFinEquiv ((finProdFinEquiv.symm p).1, (finProdFinEquiv.symm p).2)) ((![3, 2] : Fin 2 → Fin 4) 0))).bytes *
            ((if (0 : Fin 2) < (finProdFinEquiv.symm p).1 then 0 else 1) * challenge E (x p).t (sts (x p).k) (x p).p ^ (sts (st 0)).params.m)) •
              ((sts (st 0)).params.U - r • (sts (st 0)).J) := by
        intro p
        rw [Prod.mk.eta, Equiv.apply_symm_apply]
        obtain ⟨nn, hnn⟩ := (hmade p).made
        obtain ⟨e1, e2, e3, e4⟩ := honest_equations (sts (st (finProdFinEquiv.symm p).1)).params (hst _).ok.params
          (sts (st (finProdFinEquiv.symm p).1)).inputSet.M (sts (st (finProdFinEquiv.symm p).1)).J l r nn
          (by rw [hpar']; exact hl) (challenge E (x p).t (sts (st (finProdFinEquiv.symm p).1)) (x p).p)
        rw [← hnn] at e1 e2 e3 e4
        rw [hpar'] at e1 e2 e3 e4
        rw [hin'] at e3
        rw [hk0, (hmade p).statement, weighted, e1, e2, e3, e4, smul_zero, smul_zero, zero_add, zero_add]
        generalize (finProdFinEquiv.symm p).1 = d at *
        fin_cases d
        · simp [smul_smul]
        · have hJ' : (sts (st 0)).params.U - r • (sts (st 1)).J = 0 := by rw [hJ, sub_self]
          simp [smul_smul, hJ']
      refine (sum_congr rfl fun p _ => key p).trans ?_
      rw [sum_add_distrib, ← sum_smul, ← sum_smul]
      have hs := fun e => sum_collisionBatch (E := 2) (k := k) (fun b : Block => E.scalarOfWide b.bytes)
        (fun x : Forgery κ F P => challenge E x.t (sts x.k) x.p ^ (sts (st 0)).params.m) (fun d e => if e < d then 0 else 1)
        (fun d i e => place hj (finProdFinEquiv (d, i)) ((![3, 2] : Fin 2 → Fin 4) e)) y x0 pool ij b e
      have hs1 := (hs 1).trans (hsum 1)
      have hs0 := (hs 0).trans (hsum 0)
      rw [hx]
      exact (congrArg₂ (· + ·) ((congrArg (· • _) hs1).trans (zero_smul _ _)) ((congrArg (· • _) hs0).trans (zero_smul _ _))).trans (add_zero _)

/-- C103: whatever the statement `st 0`, and without any signing key: from proofs made with an arbitrary `r` for this statement and
for a statement `st 1` with the same ring and a tag chosen for `r`, a program that asks for the seeds of `N` such proofs four times,
and once for weights, makes a batch of `2 (k + 1)` proofs, the first of which is a given invalid proof for `st 0`, which is accepted
with probability close to one if `N` is much larger than `2 ^ 32` and `2 ^ k` than the order of the group. -/
theorem C103_accept [Fintype F] {κ : Type} (E : Env F P) (cfg : Config) (A : Finset Transcript)
    (sts : κ → Statement P) (hst : ∀ k, StatementBuilt E (sts k)) (D a K : ℕ) (hD : D = 2 ^ 512) (ha : 0 < a)
    (hlow : ∀ x : F, a ≤ #{b : Block | E.scalarOfWide b.bytes = x}) (hhigh : ∀ x : F, #{b : Block | E.scalarOfWide b.bytes = x} ≤ K)
    (st : Fin 2 → κ) (hpar : (sts (st 1)).params = (sts (st 0)).params) (hin : (sts (st 1)).inputSet = (sts (st 0)).inputSet)
    (l : ℕ) (hl : l < (sts (st 0)).params.n ^ (sts (st 0)).params.m) (r : F) (hJ : r • (sts (st 1)).J = (sts (st 0)).params.U)
    (hfalse : ¬ Spec.Rel (sts (st 0)).params.G (sts (st 0)).params.U (sts (st 0)).inputSet.M (sts (st 0)).J l r)
    (N k j : ℕ) (hN : 0 < N) (hj : 0 < j) (x0 : Fin 2 → Forgery κ F P) (pool : Fin 2 → Bool → Fin N → Forgery κ F P)
    (hx0 : ∀ d, MadeWith E sts (st d) l r (x0 d)) (hpool : ∀ d c i, MadeWith E sts (st d) l r (pool d c i))
    (hA0 : ∀ d, responseTranscript E (x0 d).t (sts (x0 d).k) (x0 d).p ∈ A)
    (hA : ∀ d c i, responseTranscript E (pool d c i).t (sts (pool d c i).k) (pool d c i).p ∈ A)
    (hdiff : ∀ d c i c' i', responseTranscript E (pool d c i).t (sts (pool d c i).k) (pool d c i).p =
      responseTranscript E (pool d c' i').t (sts (pool d c' i').k) (pool d c' i').p → c = c' ∧ i = i')
    (hpow : ∀ d i i', challenge E (pool d false i).t (sts (pool d false i).k) (pool d false i).p ^ (sts (st 0)).params.m ≠
      challenge E (pool d true i').t (sts (pool d true i').k) (pool d true i').p ^ (sts (st 0)).params.m)
    (hsz : SizeOK cfg (sts (st 0)).params (2 * (k + 1))) (hfuel : 2 * (k + 1) ≤ cfg.fuel) :
    ∃ c : GrindProgram A Seed (Fin (2 * k + 1 + 1) → Seed) (Fin ((2 * k + 1 + 1) * j * 4) → Block) (Fin (2 * k + 1 + 1) → Forgery κ F P),
      c.AtMost (2 * (2 * N) + 2) 1 ∧
      1 - (2 * (2 ^ 64 / (N : ℚ) ^ 2) + (2 * (D / (2 ^ k * a) + (K / a : ℚ) ^ 2 - 1) + (8 * (k + 1) : ℕ) * (K / D))) ≤
        avg fun H : A → Seed => avg fun W : (Fin (2 * k + 1 + 1) → Seed) → Fin ((2 * k + 1 + 1) * j * 4) → Block =>
          ind (AcceptedInvalidBatch E cfg A sts (c.run H W) H W ∧ c.run H W 0 = x0 0) := by
  classical
  have hcard : Fintype.card Block = D := by rw [block_card, hD]
  obtain ⟨val, hval⟩ : ∃ val : Block → F, val = fun b => E.scalarOfWide b.bytes := ⟨_, rfl⟩
  have hlow' : ∀ x, a ≤ #{b | val b = x} := by rw [hval]; intro x; convert hlow x
  have hhigh' : ∀ x, #{b | val b = x} ≤ K := by rw [hval]; intro x; convert hhigh x
  obtain ⟨m, hm⟩ : ∃ m, m = (sts (st 0)).params.m := ⟨_, rfl⟩
  rw [← hm] at hpow
  obtain ⟨ch, hch⟩ : ∃ ch : Forgery κ F P → F, ch = fun x => challenge E x.t (sts x.k) x.p := ⟨_, rfl⟩
  obtain ⟨pt, hpt⟩ : ∃ pt : Forgery κ F P → Transcript, pt = fun x => responseTranscript E x.t (sts x.k) x.p := ⟨_, rfl⟩
  have hch0 : ∀ d (x : Forgery κ F P), MadeWith E sts (st d) l r x → ch x ^ m ≠ 0 := by
    intro d x hx
    rw [hch]
    simp only
    rw [hx.statement]
    exact pow_ne_zero _ hx.challenge
  let z : Fin 2 → Fin 2 → F := fun d e => if e < d then 0 else 1
  let c : Fin 2 → Fin 2 → F := fun d e => z d e * ch (x0 d) ^ m
  let α : (Fin 2 → Fin N × Fin N) → Fin 2 → Fin k → Bool → Fin 2 → F := fun ij d i b e =>
    z d e * ch (pool d b (if b then (ij d).2 else (ij d).1)) ^ m
  let eqn : Fin 2 → Fin 4 := ![3, 2]
  have heqn : Injective eqn := by decide
  let Good : (Fin 2 → Fin N × Fin N) → (Fin 2 → Fin k → Bool) → (Fin (2 * (k + 1) * j * 4) → Block) → Prop := fun ij b y =>
    (∀ (p : Fin (2 * (k + 1))) (e : Fin 4), val (y (place hj p e)) ≠ 0) ∧
      ∀ e, ∑ d, classSum val (fun d i e => place hj (finProdFinEquiv (d, i)) (eqn e)) c (α ij) y d e (b d) = 0
  have hgood : ∀ ij, (avg fun y => ind (¬ ∃ b, Good ij b y)) ≤
      (2 : ℕ) * (D / (2 ^ k * a) + (K / a : ℚ) ^ 2 - 1) + (2 * (k + 1) * 4 : ℕ) * (K / D) := by
    intro ij
    refine good_table val D a K hcard ha hlow' hhigh' hj eqn heqn c (α ij) ?_ ?_ ?_ ?_
    · intro d e h
      show (if e < d then 0 else 1) * _ = _
      rw [if_pos h, zero_mul]
    · intro d i b e h
      show (if e < d then 0 else 1) * _ = _
      rw [if_pos h, zero_mul]
    · intro e
      show (if e < e then 0 else 1) * _ ≠ _
      rw [if_neg (lt_irrefl e), one_mul]
      exact hch0 e _ (hx0 e)
    · intro e i
      show (if e < e then 0 else 1) * _ ≠ (if e < e then 0 else 1) * _
      rw [if_neg (lt_irrefl e), one_mul, one_mul, hch]
      exact hpow e _ _
  have hinh : Inhabited (Fin (2 * (k + 1)) → Forgery κ F P) := ⟨fun _ => x0 0⟩
  have hattack := collision_attack (X := Seed) hN (fun d c i => (⟨pt (pool d c i), by rw [hpt]; exact hA d c i⟩ : A))
    (fun d => ⟨pt (x0 d), by rw [hpt]; exact hA0 d⟩) ?_ Good (fun ij b => collisionBatch x0 pool ij b) _ hgood
  · obtain ⟨hmost, hprob⟩ := hattack
    have hcast : (Fintype.card Seed : ℚ) = 2 ^ 64 := by rw [Fintype.card_fin]; norm_num
    refine ⟨_, hmost, le_trans (le_of_eq ?_) (hprob.trans ?_)⟩
    · rw [hcast, Nat.cast_ofNat, show 2 * (k + 1) * 4 = 8 * (k + 1) by ring]
    · refine avg_mono _ _ fun H => avg_mono _ _ fun W => ind_mono ?_
      rintro ⟨ij, b, hij, hG, hrun⟩
      rw [hrun]
      refine collisionBatch_accepted E cfg A sts hst st hpar hin l hl r hJ hfalse N k j hj x0 pool hx0 hpool hA0 hA hsz hfuel H W ij b
        ?_ _ rfl ?_ ?_
      · intro d
        have := hij d
        subst hpt
        exact this
      · subst hpt hval
        exact hG.1
      · subst hpt hval hch hm
        exact hG.2
  · intro d b i b' i' h
    rw [Subtype.mk.injEq, hpt] at h
    exact hdiff d _ _ _ _ h

/-- Every 512-bit number is the value of a block. -/
theorem exists_block (x : ℕ) (h : x < 256 ^ 64) : ∃ b : Block, leNat b.bytes = x := by
  refine ⟨fun i => ⟨((leBytes 64 x)[i.val]'(by rw [leBytes_length]; exact i.2)).toNat, UInt8.toNat_lt _⟩, ?_⟩
  conv_rhs => rw [← leNat_leBytes 64 x h]
  congr 1
  refine List.ext_getElem ?_ ?_
  · rw [Block.bytes, List.length_ofFn, leBytes_length]
  · intro i h1 h2
    simp only [Block.bytes, List.getElem_ofFn, UInt8.ofNat_toNat]

/-- At least so many 64-byte strings have a given value modulo `q`. -/
theorem blocks_value_ge (q N : ℕ) [NeZero q] (hN : N ≤ 256 ^ 64) (x : ZMod q) :
    N / q ≤ #{b : Block | ((leNat b.bytes : ℕ) : ZMod q) = x} := by
  have hb : ∀ i : Fin (N / q), ∃ b : Block, leNat b.bytes = x.val + q * i := by
    intro i
    refine exists_block _ (lt_of_lt_of_le ?_ hN)
    have h1 : q * (i.val + 1) ≤ q * (N / q) := Nat.mul_le_mul_left _ i.2
    have h2 := Nat.mul_div_le N q
    have h3 := ZMod.val_lt x
    rw [mul_add, mul_one] at h1
    omega
  choose f hf using hb
  have h := card_le_card_of_injOn (s := (univ : Finset (Fin (N / q)))) (t := {b : Block | ((leNat b.bytes : ℕ) : ZMod q) = x}) f ?_ ?_
  · rwa [card_univ, Fintype.card_fin] at h
  · intro i _
    simp only [coe_filter, mem_univ, true_and, Set.mem_ofPred_eq]
    rw [hf, Nat.cast_add, Nat.cast_mul, ZMod.natCast_self, zero_mul, add_zero, ZMod.natCast_zmod_val]
  · intro i _ i' _ h
    have h1 := congrArg (fun b : Block => leNat b.bytes) h
    simp only [hf] at h1
    exact Fin.ext (Nat.eq_of_mul_eq_mul_left (Nat.pos_of_ne_zero (NeZero.ne q)) (Nat.add_left_cancel h1))

local notation "ℓ" => (2 ^ 252 + 27742317777372353535851937790883648493 : ℕ)

/-- The numbers in the bound of `C103_ristretto`. -/
theorem collision_bound (q D z y : ℕ) (hz : z = 2 ^ 252) (hy : y = 2 ^ 259) (hD : D = z * (2 * y)) (h1 : z < q) (h2 : q * 3 < z * 4)
    (T : ℚ) (hT : 0 < T) (c : ℚ) (hc : 0 ≤ c) :
    0 < D / q ∧ 2 * (D / (T * (D / q : ℕ)) + (((D / q + 1 : ℕ) : ℚ) / (D / q : ℕ)) ^ 2 - 1) + c * (((D / q + 1 : ℕ) : ℚ) / D) ≤
      2 ^ 254 / T + (c + 1) / 2 ^ 252 := by
  have hz0 : 0 < z := by rw [hz]; exact Nat.two_pow_pos _
  have hy0 : 0 < y := by rw [hy]; exact Nat.two_pow_pos _
  have hq0 : 0 < q := hz0.trans h1
  have hya : y + 1 ≤ D / q := by
    rw [Nat.le_div_iff_mul_le hq0, hD]
    have h3 : 2 ^ 2 ≤ y := by rw [hy]; exact Nat.pow_le_pow_right (by norm_num) (by norm_num)
    have h4 : (y + 1) * (q * 3) ≤ (y + 1) * (z * 4) := Nat.mul_le_mul_left _ h2.le
    have h5 : z * (4 * (y + 1)) ≤ z * (6 * y) := Nat.mul_le_mul_left _ (by omega)
    have e5 : (y + 1) * (q * 3) = 3 * ((y + 1) * q) := by ring
    have e6 : (y + 1) * (z * 4) = z * (4 * (y + 1)) := by ring
    have e7 : z * (6 * y) = 3 * (z * (2 * y)) := by ring
    omega
  have haz : (D / q) * q ≤ D := Nat.div_mul_le_self D q
  have hup : D < (D / q + 1) * q := by
    have := Nat.lt_div_mul_add (a := D) hq0
    rw [add_mul, one_mul]
    exact this
  have hKD : (D / q + 1) * z ≤ D := by
    have h3 : D / q * (z + 1) ≤ D := le_trans (Nat.mul_le_mul_left _ h1) haz
    by_cases hle : z ≤ D / q
    · rw [add_mul, one_mul]
      rw [mul_add, mul_one] at h3
      omega
    · exfalso
      have : z ≤ y := by rw [hz, hy]; exact Nat.pow_le_pow_right (by norm_num) (by norm_num)
      omega
  generalize D / q = a at *
  have ha0 : 0 < a := by omega
  refine ⟨ha0, ?_⟩
  have ha : (0 : ℚ) < a := by exact_mod_cast ha0
  have hyQ : (y : ℚ) + 1 ≤ a := by exact_mod_cast hya
  have hyp : (0 : ℚ) < y := by exact_mod_cast hy0
  have hzp : (0 : ℚ) < z := by exact_mod_cast hz0
  have hDp : (0 : ℚ) < D := by
    have : 0 < D := by rw [hD]; positivity
    exact_mod_cast this
  have hqQ : (q : ℚ) * 3 < z * 4 := by exact_mod_cast h2
  have hupQ : (D : ℚ) < (a + 1) * q := by exact_mod_cast hup
  have hKQ : ((a + 1 : ℕ) : ℚ) * z ≤ D := by exact_mod_cast hKD
  have e1 : (D : ℚ) / (T * a) ≤ 2 * z / T := by
    rw [div_le_div_iff₀ (mul_pos hT ha) hT]
    have : (D : ℚ) ≤ 2 * z * a := by
      have hy2 : (2 : ℚ) ≤ a := by
        have : 2 ≤ a := by
          have : 1 ≤ y := hy0
          omega
        exact_mod_cast this
      nlinarith
    nlinarith
  have e2 : (((a + 1 : ℕ) : ℚ) / a) ^ 2 - 1 ≤ 3 / a := by
    push_cast
    rw [div_pow, div_sub_one (by positivity), div_le_div_iff₀ (by positivity) ha]
    have h1a : (1 : ℚ) ≤ a := by exact_mod_cast ha0
    nlinarith
  have e3 : (3 : ℚ) / a ≤ 3 / y := div_le_div_of_nonneg_left (by norm_num) hyp (by linarith)
  have e4 : ((a + 1 : ℕ) : ℚ) / D ≤ 1 / z := by
    rw [div_le_div_iff₀ hDp hzp, one_mul]
    exact hKQ
  have e5 : 2 * (3 / (y : ℚ)) ≤ 1 / z := by
    have : (y : ℚ) = 128 * z := by
      rw [hy, hz]
      push_cast
      rw [show 259 = 7 + 252 by norm_num, pow_add]
      norm_num
    rw [this, ← mul_div_assoc, div_le_div_iff₀ (by positivity) hzp]
    nlinarith
  have e6 := mul_le_mul_of_nonneg_left e4 hc
  have e7 : (2 : ℚ) ^ 254 = 2 * (2 * z) := by
    rw [hz]
    push_cast
    rw [show 254 = 2 + 252 by norm_num, pow_add]
    norm_num
  have e8 : (2 : ℚ) ^ 252 = z := by rw [hz]; push_cast; rfl
  rw [e7, e8, mul_div_assoc 2 (2 * (z : ℚ)) T, add_div]
  have e9 : c * (1 / (z : ℚ)) = c / z := by rw [mul_one_div]
  rw [e9] at e6
  linarith

/-- C103, over the scalar field of Ristretto and with the generator table of `C79_ristretto`: with `N = 2 ^ 36` and `k = 270`,
`2 ^ 38 + 2` seeds and one table of weights, the batch of 542 proofs is accepted with probability at least `1 - 2 ^ -6`. -/
theorem C103_ristretto {P : Type} [AddCommGroup P] [Module (ZMod ℓ) P] [DecidableEq P] {κ : Type} (E : Env (ZMod ℓ) P)
    (hwide : ∀ b, E.scalarOfWide b = ((leNat b : ℕ) : ZMod ℓ)) (cfg : Config) (A : Finset Transcript)
    (sts : κ → Statement P) (hst : ∀ k, StatementBuilt E (sts k))
    (st : Fin 2 → κ) (hpar : (sts (st 1)).params = (sts (st 0)).params) (hin : (sts (st 1)).inputSet = (sts (st 0)).inputSet)
    (l : ℕ) (hl : l < (sts (st 0)).params.n ^ (sts (st 0)).params.m) (r : ZMod ℓ) (hJ : r • (sts (st 1)).J = (sts (st 0)).params.U)
    (hfalse : ¬ Spec.Rel (sts (st 0)).params.G (sts (st 0)).params.U (sts (st 0)).inputSet.M (sts (st 0)).J l r)
    (N k : ℕ) (hN : 0 < N) (x0 : Fin 2 → Forgery κ (ZMod ℓ) P) (pool : Fin 2 → Bool → Fin N → Forgery κ (ZMod ℓ) P)
    (hx0 : ∀ d, MadeWith E sts (st d) l r (x0 d)) (hpool : ∀ d c i, MadeWith E sts (st d) l r (pool d c i))
    (hA0 : ∀ d, responseTranscript E (x0 d).t (sts (x0 d).k) (x0 d).p ∈ A)
    (hA : ∀ d c i, responseTranscript E (pool d c i).t (sts (pool d c i).k) (pool d c i).p ∈ A)
    (hdiff : ∀ d c i c' i', responseTranscript E (pool d c i).t (sts (pool d c i).k) (pool d c i).p =
      responseTranscript E (pool d c' i').t (sts (pool d c' i').k) (pool d c' i').p → c = c' ∧ i = i')
    (hpow : ∀ d i i', challenge E (pool d false i).t (sts (pool d false i).k) (pool d false i).p ^ (sts (st 0)).params.m ≠
      challenge E (pool d true i').t (sts (pool d true i').k) (pool d true i').p ^ (sts (st 0)).params.m)
    (hsz : SizeOK cfg (sts (st 0)).params (2 * (k + 1))) (hfuel : 2 * (k + 1) ≤ cfg.fuel) :
    ∃ c : GrindProgram A Seed (Fin (2 * k + 1 + 1) → Seed) (Fin ((2 * k + 1 + 1) * 2 * 4) → Block)
        (Fin (2 * k + 1 + 1) → Forgery κ (ZMod ℓ) P),
      c.AtMost (2 * (2 * N) + 2) 1 ∧
      1 - (2 ^ 65 / (N : ℚ) ^ 2 + 2 ^ 254 / 2 ^ k + (8 * k + 9) / 2 ^ 252) ≤
        avg fun H : A → Seed => avg fun W : (Fin (2 * k + 1 + 1) → Seed) → Fin ((2 * k + 1 + 1) * 2 * 4) → Block =>
          ind (AcceptedInvalidBatch E cfg A sts (c.run H W) H W ∧ c.run H W 0 = x0 0) := by
  obtain ⟨z, hz⟩ : ∃ z, z = 2 ^ 252 := ⟨_, rfl⟩
  obtain ⟨y, hy⟩ : ∃ y, y = 2 ^ 259 := ⟨_, rfl⟩
  obtain ⟨D, hD⟩ : ∃ D, D = 2 ^ 512 := ⟨_, rfl⟩
  have hD1 : D = 256 ^ 64 := by rw [hD, show (256 : ℕ) = 2 ^ 8 by norm_num, ← pow_mul]
  have hD2 : D = z * (2 * y) := by rw [hD, hz, hy, ← pow_succ', ← pow_add]
  have hq1 : z < ℓ := by rw [hz]; norm_num
  have hq2 : ℓ * 3 < z * 4 := by rw [hz]; norm_num
  obtain ⟨a1, a2⟩ := collision_bound ℓ D z y hz hy hD2 hq1 hq2 (2 ^ k) (pow_pos (by norm_num) k) ((8 * (k + 1) : ℕ) : ℚ) (Nat.cast_nonneg _)
  obtain ⟨c, hc, h⟩ := C103_accept E cfg A sts hst D (D / ℓ) (D / ℓ + 1) hD a1
    (fun x => by simp only [hwide]; exact blocks_value_ge ℓ D hD1.le x) (fun x => by simp only [hwide]; exact blocks_value ℓ D hD1.ge x)
    st hpar hin l hl r hJ hfalse N k 2 hN (by norm_num) x0 pool hx0 hpool hA0 hA hdiff hpow hsz hfuel
  refine ⟨c, hc, le_trans ?_ h⟩
  have e1 : (8 * (k : ℚ) + 9) = ((8 * (k + 1) : ℕ) : ℚ) + 1 := by push_cast; ring
  have e2 : (2 : ℚ) ^ 65 / (N : ℚ) ^ 2 = 2 * (2 ^ 64 / (N : ℚ) ^ 2) := by rw [← mul_div_assoc, ← pow_succ']
  rw [e1, e2, add_assoc]
  exact sub_le_sub_left (add_le_add_right a2 _) 1

namespace Toy.Ristretto.Collision

/-- An environment in which the challenges of proofs depend on the first operation of the transcript only. -/
def env : Env S S :=
  { Toy.env ℓ with challenge := fun t =>
      if t.getLast? = some (.challenge "xi" 64) then
        match t with
        | .append "true" _ :: _ => leBytes 64 3
        | _ => leBytes 64 2
      else (Toy.env ℓ).challenge t }

theorem params_new : Params.new env 2 2 = .ok params := by decide +kernel
theorem inputSet_new : InputSet.new env keys = .ok inputSet := by decide +kernel
theorem statement_new : Statement.new env params inputSet witness.computeLinkingTag = .ok statement := by decide +kernel
def other : Statement S := get ⟨params, inputSet, 0, []⟩ (Statement.new env params inputSet params.U)
theorem other_new : Statement.new env params inputSet params.U = .ok other := by decide +kernel
theorem other_params : other.params = statement.params := by decide +kernel
theorem other_inputSet : other.inputSet = statement.inputSet := by decide +kernel
theorem other_J : (1 : S) • other.J = statement.params.U := by decide +kernel
theorem statement_m : statement.params.m = 2 := by decide +kernel
theorem statement_n : statement.params.n = 2 := by decide +kernel

/-- The target statement and the one with the tag for `r = 1`. -/
def sts : Fin 2 → Statement S := ![statement, other]

theorem built (k : Fin 2) : StatementBuilt env (sts k) := by
  fin_cases k
  · exact ⟨_, _, _, ⟨_, _, _, _, params_new⟩, Or.inl ⟨_, inputSet_new⟩, statement_new⟩
  · exact ⟨_, _, _, ⟨_, _, _, _, params_new⟩, Or.inl ⟨_, inputSet_new⟩, other_new⟩

theorem sts_params (k : Fin 2) : (sts k).params = statement.params := by
  fin_cases k
  · rfl
  · exact other_params

/-- The transcript handed over: each choice of its bytes gives another proof. -/
def start (c : Bool) (i : ℕ) : Transcript := [.append (if c then "true" else "false") (List.replicate i 0)]

def ch (c : Bool) : S := if c then 3 else 2

noncomputable def forged (d : Fin 2) (c : Bool) (i : ℕ) : Forgery (Fin 2) S S :=
  ⟨d, start c i, honestProof (sts d).params (sts d).inputSet.M (sts d).J 2 1 ⟨1, [[0, 1], [0, 1]], 2, 3, 4, [5, 6]⟩ (ch c)⟩

theorem challenge_start (c : Bool) (i : ℕ) (st : Statement S) (p : Proof S S) : challenge env (start c i) st p = ch c := by
  have hl : ∀ (t x : Transcript) (o : Op), env.challenge (t ++ x ++ [o]) = if o = .challenge "xi" 64 then
      (match t ++ x ++ [o] with
        | .append "true" _ :: _ => leBytes 64 3
        | _ => leBytes 64 2) else (Toy.env ℓ).challenge (t ++ x ++ [o]) := by
    intro t x o
    show (if (t ++ x ++ [o]).getLast? = _ then _ else _) = _
    simp only [List.getLast?_append, List.getLast?_singleton, Option.some_or, Option.some.injEq]
  rw [challenge, challengeTranscript, List.append_assoc, List.append_assoc, List.append_assoc, ← List.append_assoc _ _ [_],
    ← List.append_assoc _ _ [_], ← List.append_assoc _ _ [_], hl, if_pos rfl]
  cases c
  · show ((leNat (leBytes 64 2) : ℕ) : S) = 2
    decide +kernel
  · show ((leNat (leBytes 64 3) : ℕ) : S) = 3
    decide +kernel

theorem response_start (d : Fin 2) (c c' : Bool) (i i' : ℕ) (p p' : Proof S S)
    (h : responseTranscript env (start c i) (sts d) p = responseTranscript env (start c' i') (sts d) p') : c = c' ∧ i = i' := by
  have h0 : ∀ c i (p : Proof S S), (responseTranscript env (start c i) (sts d) p).head? =
      some (Op.append (if c then "true" else "false") (List.replicate i 0)) := by
    intro c i p
    rfl
  have h1 := congrArg List.head? h
  rw [h0, h0, Option.some.injEq, Op.append.injEq] at h1
  refine ⟨?_, by simpa using congrArg List.length h1.2⟩
  have h2 := h1.1
  clear h1 h h0
  revert c c'
  decide

theorem forged_nonzero (d : Fin 2) (c : Bool) (i : ℕ) : NonzeroF 2 2 (forged d c i).p.f (ch c) := by
  have hf : (forged d c i).p.f = (List.range (sts d).params.m).map fun j => (List.range ((sts d).params.n - 1)).map fun i =>
      selector (sts d).params.n 2 j (i + 1) * ch c + maskA (sts d).params.n ([[0, 1], [0, 1]] : List (List S)) j (i + 1) := rfl
  rw [hf, sts_params, statement_m, statement_n]
  have key : ∀ c : Bool, ∀ j < 2, ∀ i < 2, fullF ((List.range 2).map fun j => (List.range (2 - 1)).map fun i =>
      selector 2 2 j (i + 1) * ch c + maskA 2 ([[0, 1], [0, 1]] : List (List S)) j (i + 1)) (ch c) j i ≠ 0 := by decide +kernel
  exact key c

theorem forged_made (d : Fin 2) (c : Bool) (i : ℕ) : MadeWith env sts d 2 1 (forged d c i) where
  statement := rfl
  made := ⟨_, by rw [show (forged d c i).t = start c i from rfl, challenge_start]; rfl⟩
  challenge := by
    rw [show (forged d c i).t = start c i from rfl, challenge_start]
    revert c
    decide +kernel
  responses := by
    rw [show (forged d c i).t = start c i from rfl, challenge_start, sts_params, statement_m, statement_n]
    exact forged_nonzero d c i

end Toy.Ristretto.Collision
open Toy.Ristretto.Collision in
/-- For every `N` and `k` there are proofs as in `C103_accept` and `C103_ristretto`, here for a true statement and a number that is not
the key. -/
example (N k : ℕ) : ∃ (A : Finset Transcript) (cfg : Config) (x0 : Fin 2 → Forgery (Fin 2) (ZMod ℓ) (ZMod ℓ))
    (pool : Fin 2 → Bool → Fin N → Forgery (Fin 2) (ZMod ℓ) (ZMod ℓ)),
    (∀ k, StatementBuilt env (sts k)) ∧ (∀ b, env.scalarOfWide b = ((leNat b : ℕ) : ZMod ℓ)) ∧
    (sts 1).params = (sts 0).params ∧ (sts 1).inputSet = (sts 0).inputSet ∧ 2 < (sts 0).params.n ^ (sts 0).params.m ∧
    (1 : ZMod ℓ) • (sts 1).J = (sts 0).params.U ∧
    ¬ Spec.Rel (sts 0).params.G (sts 0).params.U (sts 0).inputSet.M (sts 0).J 2 (1 : ZMod ℓ) ∧
    (∀ d, MadeWith env sts d 2 1 (x0 d)) ∧ (∀ d c i, MadeWith env sts d 2 1 (pool d c i)) ∧
    (∀ d, responseTranscript env (x0 d).t (sts (x0 d).k) (x0 d).p ∈ A) ∧
    (∀ d c i, responseTranscript env (pool d c i).t (sts (pool d c i).k) (pool d c i).p ∈ A) ∧
    (∀ d c i c' i', responseTranscript env (pool d c i).t (sts (pool d c i).k) (pool d c i).p =
      responseTranscript env (pool d c' i').t (sts (pool d c' i').k) (pool d c' i').p → c = c' ∧ i = i') ∧
    (∀ d i i', challenge env (pool d false i).t (sts (pool d false i).k) (pool d false i).p ^ (sts 0).params.m ≠
      challenge env (pool d true i').t (sts (pool d true i').k) (pool d true i').p ^ (sts 0).params.m) ∧
    (2 * (k + 1) ≤ u32Max → SizeOK cfg (sts 0).params (2 * (k + 1)) ∧ 2 * (k + 1) ≤ cfg.fuel) := by
  classical
  refine ⟨(univ.image fun d : Fin 2 => responseTranscript env (forged d false N).t (sts (forged d false N).k) (forged d false N).p) ∪
      univ.image fun x : Fin 2 × Bool × Fin N => responseTranscript env (forged x.1 x.2.1 x.2.2).t (sts (forged x.1 x.2.1 x.2.2).k)
        (forged x.1 x.2.1 x.2.2).p, ⟨false, 2 ^ 64 - 1, 2 * (k + 1)⟩, fun d => forged d false N, fun d c i => forged d c i, built, fun _ => rfl, other_params, other_inputSet,
    ?_, other_J, ?_, fun d => forged_made d _ _, fun d c i => forged_made d _ _, ?_, ?_, ?_, ?_, ?_⟩
  · decide +kernel
  · rintro ⟨h, -⟩
    revert h
    decide +kernel
  · intro d
    exact mem_union_left _ (mem_image_of_mem _ (mem_univ _))
  · intro d c i
    exact mem_union_right _ (mem_image_of_mem (fun x : Fin 2 × Bool × Fin N => responseTranscript env (forged x.1 x.2.1 x.2.2).t
      (sts (forged x.1 x.2.1 x.2.2).k) (forged x.1 x.2.1 x.2.2).p) (mem_univ (d, c, i)))
  · intro d c i c' i' h
    obtain ⟨h1, h2⟩ := response_start d c c' i i' _ _ h
    exact ⟨h1, Fin.ext h2⟩
  · intro d i i'
    show challenge env (start false i) _ _ ^ _ ≠ challenge env (start true i') _ _ ^ _
    rw [challenge_start, challenge_start]
    decide +kernel
  · intro hk
    exact ⟨⟨hk, fun h => absurd h Bool.false_ne_true⟩, le_rfl⟩
end Triptych
