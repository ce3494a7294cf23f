import Verif.Props.Collision
import Verif.Props.Parallel.KnownWeights

/-! # C104: forging batches of parallel proofs with common seeds -/
set_option autoImplicit false
set_option linter.unusedSectionVars false
set_option linter.unusedVariables false

namespace Triptych.Parallel
open Finset Function
open Triptych.Parallel.Spec
open Triptych.Spec (avg Block Block.bytes weightKey weightTranscript queryPoint withSeeds Seed GrindProgram NonzeroF weightScalar fullF selector maskA)

variable {F P : Type} [Field F] [AddCommGroup P] [Module F P] [DecidableEq F] [DecidableEq P]

/-- A batch is accepted if none of the first weights is zero and the sum of its equations, weighted with them, vanishes. -/
theorem accepted_of_table {κ : Type} (E : Env F P) (cfg : Config) (A : Finset Transcript) (sts : κ → Statement P)
    (hst : ∀ k, StatementBuilt E (sts k)) {n j : ℕ} (hj : 0 < j) (x : Fin (n + 1) → Forgery κ F P)
    (h1 : ∀ i, responseTranscript E (x i).t (sts (x i).k) (x i).p ∈ A)
    (hpar : ∀ i, (sts (x i).k).params = (sts (x 0).k).params) (hin : ∀ i, (sts (x i).k).inputSet = (sts (x 0).k).inputSet)
    (hshape : ∀ i, Shape (sts (x 0).k).params (x i).p) (hξ : ∀ i, challenge E (x i).t (sts (x i).k) (x i).p ≠ 0)
    (hf : ∀ i, NonzeroF (sts (x 0).k).params.n (sts (x 0).k).params.m (x i).p.f (challenge E (x i).t (sts (x i).k) (x i).p))
    (hsz : SizeOK cfg (sts (x 0).k).params (n + 1)) (hfuel : n + 1 ≤ cfg.fuel) (H : A → Seed)
    (W : (Fin (n + 1) → Seed) → Fin ((n + 1) * j * 5) → Block) (w : Fin (n + 1) → Fin 5 → F)
    (hw : ∀ i e, w i e = E.scalarOfWide (W (fun i => H ⟨_, h1 i⟩) (place hj i e)).bytes) (hnz : ∀ i e, w i e ≠ 0)
    (hsum : ∑ i, weighted (sts (x 0).k).params (sts (x 0).k).inputSet.M (sts (x 0).k).inputSet.M1 (sts (x i).k).offset (sts (x i).k).J (x i).p
      (challenge E (x i).t (sts (x i).k) (x i).p) ⟨w i 0, w i 1, w i 2, w i 3, w i 4⟩ = 0) :
    (Proof.verifyBatch (withSeeds E "Parallel Triptych verifier weights" A H (fun s => List.ofFn fun i => (s i).val) W) cfg
      (List.ofFn fun i => sts (x i).k) (List.ofFn fun i => (x i).p) (List.ofFn fun i => (x i).t)).1 = .ok () := by
  obtain ⟨E', hE'⟩ : ∃ E', E' = withSeeds E "Parallel Triptych verifier weights" A H (fun s : Fin (n + 1) → Seed => List.ofFn fun i => (s i).val) W :=
    ⟨_, rfl⟩
  have hb : StatementBuilt E' (sts (x 0).k) := by rw [hE']; exact statementBuilt_withSeeds E _ A H _ W _ (hst _)
  have hch : ∀ t st (p : Proof F P), challenge E' t st p = challenge E t st p := by rw [hE']; intro t st p; rfl
  have hcs : challenges E' (List.ofFn fun i => sts (x i).k) (List.ofFn fun i => (x i).p) (List.ofFn fun i => (x i).t) =
      List.ofFn fun i => challenge E (x i).t (sts (x i).k) (x i).p := by
    rw [challenges, zip_ofFn, zip_ofFn, List.map_ofFn]
    exact congrArg List.ofFn (funext fun i => hch _ _ _)
  have hseeds : seeds E' (List.ofFn fun i => sts (x i).k) (List.ofFn fun i => (x i).p) (List.ofFn fun i => (x i).t) =
      List.ofFn fun i => (H ⟨_, h1 i⟩).val := by
    rw [seeds, zip_ofFn, zip_ofFn, List.map_ofFn]
    refine congrArg List.ofFn (funext fun i => ?_)
    rw [hE']
    exact withSeeds_weightSeed _ _ _ _ _ _ _ _ _ (h1 i)
  have hquad : ∀ i : Fin (n + 1), weightQuint E' (weightTranscript "Parallel Triptych verifier weights" (List.ofFn fun i => (H ⟨_, h1 i⟩).val)) i.val =
      ⟨w i 0, w i 1, w i 2, w i 3, w i 4⟩ := by
    intro i
    have h : ∀ e : Fin 5, weightScalar E' (weightTranscript "Parallel Triptych verifier weights" (List.ofFn fun i => (H ⟨_, h1 i⟩).val))
        (e.val + 5 * i.val) = w i e := by
      intro e
      rw [hw, hE']
      have := withSeeds_table E "Parallel Triptych verifier weights" A H (fun s : Fin (n + 1) → Seed => List.ofFn fun i => (s i).val) W
        seed_list_injective seed_lt (fun i => H ⟨_, h1 i⟩) (place hj i e).val (place hj i e).2
      exact congrArg E.scalarOfWide this
    rw [weightQuint, Proof.Weights.mk.injEq, ← h 0, ← h 1, ← h 2, ← h 3, ← h 4]
    refine ⟨?_, ?_, ?_, ?_, ?_⟩ <;> congr 1 <;> simp [Nat.add_comm]
  have husable : usableQuints E' (weightTranscript "Parallel Triptych verifier weights" (List.ofFn fun i => (H ⟨_, h1 i⟩).val)) (n + 1) =
      List.ofFn fun i => ⟨w i 0, w i 1, w i 2, w i 3, w i 4⟩ := by
    rw [usableQuints, ← List.map_coe_finRange_eq_range, List.map_map]
    have e : (List.finRange (n + 1)).map (weightQuint E' (weightTranscript "Parallel Triptych verifier weights"
        (List.ofFn fun i => (H ⟨_, h1 i⟩).val)) ∘ Fin.val) = List.ofFn fun i => (⟨w i 0, w i 1, w i 2, w i 3, w i 4⟩ : Proof.Weights F) := by
      exact (List.map_congr_left fun i _ => hquad i).trans List.ofFn_eq_map.symm
    rw [e]
    rw [List.filter_eq_self]
    intro a ha
    obtain ⟨i, rfl⟩ := List.mem_ofFn.1 ha
    exact decide_eq_true ⟨hnz i 0, hnz i 1, hnz i 2, hnz i 3, hnz i 4⟩
  rw [← hE']
  clear hw hE'
  have hfirst : (List.ofFn fun i => sts (x i).k) = sts (x 0).k :: List.ofFn fun i : Fin n => sts (x i.succ).k := List.ofFn_succ
  have hws : IsWeights E' (List.ofFn fun i => sts (x i).k) (List.ofFn fun i => (x i).p) (List.ofFn fun i => (x i).t)
      (List.ofFn fun i => ⟨w i 0, w i 1, w i 2, w i 3, w i 4⟩) :=
    ⟨by rw [List.length_ofFn, List.length_ofFn], n + 1, by rw [hseeds, husable]⟩
  have hbs : batchSum (sts (x 0).k).params (sts (x 0).k).inputSet.M (sts (x 0).k).inputSet.M1 (List.ofFn fun i => sts (x i).k) (List.ofFn fun i => (x i).p)
      (List.ofFn fun i => challenge E (x i).t (sts (x i).k) (x i).p) (List.ofFn fun i => ⟨w i 0, w i 1, w i 2, w i 3, w i 4⟩) = 0 := by
    rw [batchSum, zip_ofFn, zip_ofFn, zip_ofFn, List.map_ofFn, List.sum_ofFn]
    exact hsum
  have hlen : (List.ofFn fun i => (x i).p).length = n + 1 := List.length_ofFn
  have hef : EnoughFuel E' (List.ofFn fun i => sts (x i).k) (List.ofFn fun i => (x i).p) (List.ofFn fun i => (x i).t) cfg.fuel := by
    rw [EnoughFuel, hseeds, hlen]
    have := (usableQuints_prefix E' (weightTranscript "Parallel Triptych verifier weights" (List.ofFn fun i => (H ⟨_, h1 i⟩).val)) _ _ hfuel).length_le
    rw [husable, List.length_ofFn] at this
    exact this
  have hz : (0 : F) ∉ List.ofFn fun i => challenge E (x i).t (sts (x i).k) (x i).p := by
    intro h
    obtain ⟨i, hi⟩ := List.mem_ofFn.1 h
    exact hξ i hi
  have hnzf : BatchNonzeroF (sts (x 0).k).params (List.ofFn fun i => (x i).p) (List.ofFn fun i => challenge E (x i).t (sts (x i).k) (x i).p) := by
    intro y hy
    rw [zip_ofFn] at hy
    obtain ⟨i, rfl⟩ := List.mem_ofFn.1 hy
    exact hf i
  have hpre : BatchPre (sts (x 0).k) (List.ofFn fun i => sts (x i).k) (List.ofFn fun i => (x i).p) (List.ofFn fun i => (x i).t) := by
    refine ⟨by rw [List.length_ofFn, List.length_ofFn], by rw [List.length_ofFn, List.length_ofFn], ?_, ?_, ?_⟩
    · intro s hs
      obtain ⟨i, rfl⟩ := List.mem_ofFn.1 hs
      rw [hin]
    · intro s hs
      obtain ⟨i, rfl⟩ := List.mem_ofFn.1 hs
      rw [hpar]
    · intro p hp
      obtain ⟨i, rfl⟩ := List.mem_ofFn.1 hp
      exact hshape i
  have hsz' : SizeOK cfg (sts (x 0).k).params (List.ofFn fun i => (x i).p).length := (congrArg (SizeOK cfg _) hlen).mpr hsz
  rw [← hcs] at hz hnzf hbs
  rw [hfirst] at hz hnzf hbs hpre hws hef ⊢
  rw [C50_verdict E' cfg _ _ _ _ hb hpre hsz' hz hnzf _ hws hef, if_pos hbs]

/-- `x` is a proof for the statement `st`, made by the prover's algorithm with the position `l` and the number `r` in the place of
the signing key, whether or not `r` is the key of that position; its challenge and its responses are not zero. -/
structure Spec.MadeWith {κ : Type} (E : Env F P) (sts : κ → Statement P) (st : κ) (l : ℕ) (r r1 : F) (x : Forgery κ F P) : Prop where
  statement : x.k = st
  made : ∃ nn, x.p = honestProof (sts st).params (sts st).inputSet.M (sts st).inputSet.M1 (sts st).offset (sts st).J l r r1 nn (challenge E x.t (sts st) x.p)
  challenge : Spec.challenge E x.t (sts st) x.p ≠ 0
  responses : NonzeroF (sts st).params.n (sts st).params.m x.p.f (Spec.challenge E x.t (sts st) x.p)

/-- With a common seed in each class and good weights, the batch is accepted. -/
theorem collisionBatch_accepted {κ : Type} (E : Env F P) (cfg : Config) (A : Finset Transcript)
    (sts : κ → Statement P) (hst : ∀ k, StatementBuilt E (sts k))
    (st : Fin 3 → κ) (hpar : ∀ d, (sts (st d)).params = (sts (st 0)).params) (hin : ∀ d, (sts (st d)).inputSet = (sts (st 0)).inputSet)
    (l : ℕ) (hl : l < (sts (st 0)).params.n ^ (sts (st 0)).params.m) (r r1 : F)
    (hoff : ∀ d, d ≠ 0 → (sts (st 0)).inputSet.M1[l]? = some (r1 • (sts (st 0)).params.G1 + (sts (st d)).offset))
    (hJ1 : (sts (st 1)).J = (sts (st 0)).J) (hJ : r • (sts (st 2)).J = (sts (st 0)).params.U)
    (hfalse : ¬ Spec.Rel (sts (st 0)).params.G (sts (st 0)).params.G1 (sts (st 0)).params.U (sts (st 0)).inputSet.M
      (sts (st 0)).inputSet.M1 (sts (st 0)).offset (sts (st 0)).J l r r1)
    (N k j : ℕ) (hj : 0 < j) (x0 : Fin 3 → Forgery κ F P) (pool : Fin 3 → Bool → Fin N → Forgery κ F P)
    (hx0 : ∀ d, MadeWith E sts (st d) l r r1 (x0 d)) (hpool : ∀ d c i, MadeWith E sts (st d) l r r1 (pool d c i))
    (hA0 : ∀ d, responseTranscript E (x0 d).t (sts (x0 d).k) (x0 d).p ∈ A)
    (hA : ∀ d c i, responseTranscript E (pool d c i).t (sts (pool d c i).k) (pool d c i).p ∈ A)
    (hsz : SizeOK cfg (sts (st 0)).params (3 * (k + 1))) (hfuel : 3 * (k + 1) ≤ cfg.fuel)
    (H : A → Seed) (W : (Fin (3 * k + 2 + 1) → Seed) → Fin ((3 * k + 2 + 1) * j * 5) → Block)
    (ij : Fin 3 → Fin N × Fin N) (b : Fin 3 → Fin k → Bool)
    (hij : ∀ d, H ⟨_, hA d false (ij d).1⟩ = H ⟨_, hA d true (ij d).2⟩)
    (y : Fin (3 * (k + 1) * j * 5) → Block) (hy : y = W (seedVector (fun d => H ⟨_, hA0 d⟩) (fun d c i => H ⟨_, hA d c i⟩) ij))
    (hnz : ∀ (p : Fin (3 * (k + 1))) (e : Fin 5), E.scalarOfWide (y (place hj p e)).bytes ≠ 0)
    (hsum : ∀ e, ∑ d, classSum (fun b : Block => E.scalarOfWide b.bytes) (fun d i e => place hj (finProdFinEquiv (d, i)) ((![4, 3, 2] : Fin 3 → Fin 5) e))
      (fun d e => (if e < d then 0 else 1) * challenge E (x0 d).t (sts (x0 d).k) (x0 d).p ^ (sts (st 0)).params.m)
      (fun d i b e => (if e < d then 0 else 1) * challenge E (pool d b (if b then (ij d).2 else (ij d).1)).t
        (sts (pool d b (if b then (ij d).2 else (ij d).1)).k) (pool d b (if b then (ij d).2 else (ij d).1)).p ^ (sts (st 0)).params.m)
      y d e (b d) = 0) :
    AcceptedInvalidBatch E cfg A sts (k := 3 * k + 2) (collisionBatch x0 pool ij b) H W ∧
      collisionBatch x0 pool ij b (0 : Fin (3 * k + 2 + 1)) = x0 0 := by
  obtain ⟨x, hx⟩ : ∃ x : Fin (3 * k + 2 + 1) → Forgery κ F P, x = collisionBatch x0 pool ij b := ⟨_, rfl⟩
  have h0 : collisionBatch x0 pool ij b (0 : Fin (3 * k + 2 + 1)) = x0 0 := by
    have e : (0 : Fin (3 * k + 2 + 1)) = finProdFinEquiv ((0 : Fin 3), (0 : Fin (k + 1))) := by
      apply Fin.ext
      simp
    rw [e]
    exact collisionBatch_zero x0 pool ij b 0
  have hmade : ∀ p : Fin (3 * (k + 1)), MadeWith E sts (st (finProdFinEquiv.symm p).1) l r r1 (x p) := by
    rw [hx]
    exact collisionBatch_of x0 pool ij b (fun d y => MadeWith E sts (st d) l r r1 y) hx0 hpool
  have hmem : ∀ p, responseTranscript E (x p).t (sts (x p).k) (x p).p ∈ A := by
    rw [hx]
    exact collisionBatch_of x0 pool ij b (fun d y => responseTranscript E y.t (sts y.k) y.p ∈ A) hA0 hA
  have hk0 : (x 0).k = st 0 := by rw [hx, h0]; exact (hx0 0).statement
  have hseed : (fun p => H ⟨_, hmem p⟩) = seedVector (fun d => H ⟨_, hA0 d⟩) (fun d c i => H ⟨_, hA d c i⟩) ij := by
    classical
    obtain ⟨f, hf⟩ : ∃ f : Forgery κ F P → Seed, f = fun y => if h : responseTranscript E y.t (sts y.k) y.p ∈ A then H ⟨_, h⟩ else 0 :=
      ⟨_, rfl⟩
    have hf' : ∀ y (h : responseTranscript E y.t (sts y.k) y.p ∈ A), H ⟨_, h⟩ = f y := by
      intro y h
      rw [hf]
      simp only
      rw [dif_pos h]
    simp only [hf'] at hij ⊢
    rw [hx]
    exact (seedVector_collisionBatch f x0 pool ij hij b).symm
  rw [← hx]
  refine ⟨⟨hmem, ⟨0, ?_⟩, ?_⟩, by rw [hx]; exact h0⟩
  · have hm := hx0 0
    rw [hx, h0, hm.statement]
    intro hv
    obtain ⟨nn, hnn⟩ := hm.made
    obtain ⟨-, -, e3, e4, e5⟩ := honest_equations (sts (st 0)).params (hst _).ok.params (sts (st 0)).inputSet.M
      (sts (st 0)).inputSet.M1 (sts (st 0)).offset (sts (st 0)).J l r r1 nn hl
      (challenge E (x0 0).t (sts (st 0)) (x0 0).p)
    rw [← hnn] at e3 e4 e5
    have hp : challenge E (x0 0).t (sts (st 0)) (x0 0).p ^ (sts (st 0)).params.m ≠ 0 := pow_ne_zero _ hm.challenge
    have h3 := (smul_eq_zero_iff_right hp).1 (e3.symm.trans hv.e3)
    have h4 := (smul_eq_zero_iff_right hp).1 (e4.symm.trans hv.e4)
    have h5 := (smul_eq_zero_iff_right hp).1 (e5.symm.trans hv.e5)
    refine hfalse ⟨?_, ?_, (sub_eq_zero.1 h4).symm⟩
    · have hlen : l < (sts (st 0)).inputSet.M.length := by rw [(hst _).ok.length]; exact hl
      rw [List.getD_eq_getElem?_getD, List.getElem?_eq_getElem hlen, Option.getD_some] at h3
      rw [List.getElem?_eq_getElem hlen, sub_eq_zero.1 h3]
    · have hlen : l < (sts (st 0)).inputSet.M1.length := by rw [(hst _).ok.length1]; exact hl
      rw [List.getD_eq_getElem?_getD, List.getElem?_eq_getElem hlen, Option.getD_some] at h5
      rw [List.getElem?_eq_getElem hlen, ← sub_eq_zero.1 h5, sub_add_cancel]
  · refine accepted_of_table E cfg A sts hst hj x hmem ?_ ?_ ?_ ?_ ?_ ?_ hfuel H W
      (fun p e => E.scalarOfWide (y (place hj p e)).bytes) ?_ hnz ?_
    · intro p
      rw [hk0, (hmade p).statement, hpar]
    · intro p
      rw [hk0, (hmade p).statement, hin]
    · intro (p : Fin (3 * (k + 1)))
      obtain ⟨nn, hnn⟩ := (hmade p).made
      rw [hk0, hnn, ← hpar (finProdFinEquiv.symm p).1]
      exact honest_shape _ _ _ _ _ _ _ _ _ _
    · intro p
      rw [(hmade p).statement]
      exact (hmade p).challenge
    · intro (p : Fin (3 * (k + 1)))
      rw [hk0, (hmade p).statement, ← hpar (finProdFinEquiv.symm p).1]
      exact (hmade p).responses
    · rw [hk0]
      exact hsz
    · intro p e
      rw [hseed, hy]
    · have key : ∀ p : Fin (3 * (k + 1)), weighted (sts (x 0).k).params (sts (x 0).k).inputSet.M (sts (x 0).k).inputSet.M1 (sts (x p).k).offset (sts (x p).k).J (x p).p
          (challenge E (x p).t (sts (x p).k) (x p).p) ⟨E.scalarOfWide (y (place hj p 0)).bytes, E.scalarOfWide (y (place hj p 1)).bytes,
            E.scalarOfWide (y (place hj p 2)).bytes, E.scalarOfWide (y (place hj p 3)).bytes, E.scalarOfWide (y (place hj p 4)).bytes⟩ =
          (E.scalarOfWide (y (place hj (finProdFinEquiv ((finProdFinEquiv.symm p).1, (finProdFinEquiv.symm p).2)) ((![4, 3, 2] : Fin 3 → Fin 5) 2))).bytes *
            ((if (2 : Fin 3) < (finProdFinEquiv.symm p).1 then 0 else 1) * challenge E (x p).t (sts (x p).k) (x p).p ^ (sts (st 0)).params.m)) •
              ((sts (st 0)).inputSet.M.getD l 0 - r • (sts (st 0)).params.G) +
          (E.scalarOfWide (y (place hj (finProdFinEquiv ((finProdFinEquiv.symm p).1, (finProdFinEquiv.symm p).2)) ((![4, 3, 2] : Fin 3 → Fin 5) 1))).bytes *
            ((if (1 : Fin 3) < (finProdFinEquiv.symm p).1 then 0 else 1) * challenge E (x p).t (sts (x p).k) (x p).p ^ (sts (st 0)).params.m)) •
              ((sts (st 0)).params.U - r • (sts (st 0)).J) +
          (E.scalarOfWide (y (place hj (finProdFinEquiv ((finProdFinEquiv.symm p).1, (finProdFinEquiv.symm p).2)) ((![4, 3, 2] : Fin 3 → Fin 5) 0))).bytes *
            ((if (0 : Fin 3) < (finProdFinEquiv.symm p).1 then 0 else 1) * challenge E (x p).t (sts (x p).k) (x p).p ^ (sts (st 0)).params.m)) •
              ((sts (st 0)).inputSet.M1.getD l 0 - (sts (st 0)).offset - r1 • (sts (st 0)).params.G1) := by
        intro p
        rw [Prod.mk.eta, Equiv.apply_symm_apply]
        obtain ⟨nn, hnn⟩ := (hmade p).made
        obtain ⟨e1, e2, e3, e4, e5⟩ := honest_equations (sts (st (finProdFinEquiv.symm p).1)).params (hst _).ok.params
          (sts (st (finProdFinEquiv.symm p).1)).inputSet.M (sts (st (finProdFinEquiv.symm p).1)).inputSet.M1
          (sts (st (finProdFinEquiv.symm p).1)).offset (sts (st (finProdFinEquiv.symm p).1)).J l r r1 nn
          (by rw [hpar]; exact hl) (challenge E (x p).t (sts (st (finProdFinEquiv.symm p).1)) (x p).p)
        rw [← hnn] at e1 e2 e3 e4 e5
        rw [hpar] at e1 e2 e3 e4 e5
        rw [hin] at e3 e5
        rw [hk0, (hmade p).statement, weighted, e1, e2, e3, e4, e5, smul_zero, smul_zero, zero_add, zero_add]
        have hoff' : ∀ d, d ≠ 0 → (sts (st 0)).inputSet.M1[l]?.getD 0 - (sts (st d)).offset - r1 • (sts (st 0)).params.G1 = 0 := by
          intro d hd
          rw [hoff d hd, Option.getD_some]
          abel
        generalize (finProdFinEquiv.symm p).1 = d at *
        fin_cases d
        · simp [smul_smul]
        · have h5 := hoff' 1 (by decide)
          simp [smul_smul, hJ1, h5]
        · have h5 := hoff' 2 (by decide)
          have hJ' : (sts (st 0)).params.U - r • (sts (st 2)).J = 0 := by rw [hJ, sub_self]
          simp [smul_smul, hJ', h5]
      refine (sum_congr rfl fun p _ => key p).trans ?_
      rw [sum_add_distrib, sum_add_distrib, ← sum_smul, ← sum_smul, ← sum_smul]
      have hs := fun e => sum_collisionBatch (E := 3) (k := k) (fun b : Block => E.scalarOfWide b.bytes)
        (fun x : Forgery κ F P => challenge E x.t (sts x.k) x.p ^ (sts (st 0)).params.m) (fun d e => if e < d then 0 else 1)
        (fun d i e => place hj (finProdFinEquiv (d, i)) ((![4, 3, 2] : Fin 3 → Fin 5) e)) y x0 pool ij b e
      have hs2 := (hs 2).trans (hsum 2)
      have hs1 := (hs 1).trans (hsum 1)
      have hs0 := (hs 0).trans (hsum 0)
      rw [hx]
      exact (congrArg₂ (· + ·) ((congrArg₂ (· + ·) ((congrArg (· • _) hs2).trans (zero_smul _ _)) ((congrArg (· • _) hs1).trans
        (zero_smul _ _))).trans (add_zero _)) ((congrArg (· • _) hs0).trans (zero_smul _ _))).trans (add_zero _)

/-- C104: whatever the statement `st 0`, and without any signing key: from proofs made with arbitrary `r` and `r1` for this statement,
for a statement `st 1` with the same ring and tag and an offset chosen for `r1`, and for a statement `st 2` with a tag chosen for `r`
besides, a program that asks for the seeds of `N` such proofs six times, and once for weights, makes a batch of `3 (k + 1)` proofs, the
first of which is a given invalid proof for `st 0`, which is accepted with probability close to one if `N` is much larger than
`2 ^ 32` and `2 ^ k` than the order of the group. -/
theorem C104_accept [Fintype F] {κ : Type} (E : Env F P) (cfg : Config) (A : Finset Transcript)
    (sts : κ → Statement P) (hst : ∀ k, StatementBuilt E (sts k)) (D a K : ℕ) (hD : D = 2 ^ 512) (ha : 0 < a)
    (hlow : ∀ x : F, a ≤ #{b : Block | E.scalarOfWide b.bytes = x}) (hhigh : ∀ x : F, #{b : Block | E.scalarOfWide b.bytes = x} ≤ K)
    (st : Fin 3 → κ) (hpar : ∀ d, (sts (st d)).params = (sts (st 0)).params) (hin : ∀ d, (sts (st d)).inputSet = (sts (st 0)).inputSet)
    (l : ℕ) (hl : l < (sts (st 0)).params.n ^ (sts (st 0)).params.m) (r r1 : F)
    (hoff : ∀ d, d ≠ 0 → (sts (st 0)).inputSet.M1[l]? = some (r1 • (sts (st 0)).params.G1 + (sts (st d)).offset))
    (hJ1 : (sts (st 1)).J = (sts (st 0)).J) (hJ : r • (sts (st 2)).J = (sts (st 0)).params.U)
    (hfalse : ¬ Spec.Rel (sts (st 0)).params.G (sts (st 0)).params.G1 (sts (st 0)).params.U (sts (st 0)).inputSet.M
      (sts (st 0)).inputSet.M1 (sts (st 0)).offset (sts (st 0)).J l r r1)
    (N k j : ℕ) (hN : 0 < N) (hj : 0 < j) (x0 : Fin 3 → Forgery κ F P) (pool : Fin 3 → Bool → Fin N → Forgery κ F P)
    (hx0 : ∀ d, MadeWith E sts (st d) l r r1 (x0 d)) (hpool : ∀ d c i, MadeWith E sts (st d) l r r1 (pool d c i))
    (hA0 : ∀ d, responseTranscript E (x0 d).t (sts (x0 d).k) (x0 d).p ∈ A)
    (hA : ∀ d c i, responseTranscript E (pool d c i).t (sts (pool d c i).k) (pool d c i).p ∈ A)
    (hdiff : ∀ d c i c' i', responseTranscript E (pool d c i).t (sts (pool d c i).k) (pool d c i).p =
      responseTranscript E (pool d c' i').t (sts (pool d c' i').k) (pool d c' i').p → c = c' ∧ i = i')
    (hpow : ∀ d i i', challenge E (pool d false i).t (sts (pool d false i).k) (pool d false i).p ^ (sts (st 0)).params.m ≠
      challenge E (pool d true i').t (sts (pool d true i').k) (pool d true i').p ^ (sts (st 0)).params.m)
    (hsz : SizeOK cfg (sts (st 0)).params (3 * (k + 1))) (hfuel : 3 * (k + 1) ≤ cfg.fuel) :
    ∃ c : GrindProgram A Seed (Fin (3 * k + 2 + 1) → Seed) (Fin ((3 * k + 2 + 1) * j * 5) → Block) (Fin (3 * k + 2 + 1) → Forgery κ F P),
      c.AtMost (3 * (2 * N) + 3) 1 ∧
      1 - (3 * (2 ^ 64 / (N : ℚ) ^ 2) + (3 * (D / (2 ^ k * a) + (K / a : ℚ) ^ 2 - 1) + (15 * (k + 1) : ℕ) * (K / D))) ≤
        avg fun H : A → Seed => avg fun W : (Fin (3 * k + 2 + 1) → Seed) → Fin ((3 * k + 2 + 1) * j * 5) → Block =>
          ind (AcceptedInvalidBatch E cfg A sts (c.run H W) H W ∧ c.run H W 0 = x0 0) := by
  classical
  have hcard : Fintype.card Block = D := by rw [block_card, hD]
  obtain ⟨val, hval⟩ : ∃ val : Block → F, val = fun b => E.scalarOfWide b.bytes := ⟨_, rfl⟩
  have hlow' : ∀ x, a ≤ #{b | val b = x} := by rw [hval]; intro x; convert hlow x
  have hhigh' : ∀ x, #{b | val b = x} ≤ K := by rw [hval]; intro x; convert hhigh x
  obtain ⟨m, hm⟩ : ∃ m, m = (sts (st 0)).params.m := ⟨_, rfl⟩
  rw [← hm] at hpow
  obtain ⟨ch, hch⟩ : ∃ ch : Forgery κ F P → F, ch = fun x => challenge E x.t (sts x.k) x.p := ⟨_, rfl⟩
  obtain ⟨pt, hpt⟩ : ∃ pt : Forgery κ F P → Transcript, pt = fun x => responseTranscript E x.t (sts x.k) x.p := ⟨_, rfl⟩
  have hch0 : ∀ d (x : Forgery κ F P), MadeWith E sts (st d) l r r1 x → ch x ^ m ≠ 0 := by
    intro d x hx
    rw [hch]
    simp only
    rw [hx.statement]
    exact pow_ne_zero _ hx.challenge
  let z : Fin 3 → Fin 3 → F := fun d e => if e < d then 0 else 1
  let c : Fin 3 → Fin 3 → F := fun d e => z d e * ch (x0 d) ^ m
  let α : (Fin 3 → Fin N × Fin N) → Fin 3 → Fin k → Bool → Fin 3 → F := fun ij d i b e =>
    z d e * ch (pool d b (if b then (ij d).2 else (ij d).1)) ^ m
  let eqn : Fin 3 → Fin 5 := ![4, 3, 2]
  have heqn : Injective eqn := by decide
  let Good : (Fin 3 → Fin N × Fin N) → (Fin 3 → Fin k → Bool) → (Fin (3 * (k + 1) * j * 5) → Block) → Prop := fun ij b y =>
    (∀ (p : Fin (3 * (k + 1))) (e : Fin 5), val (y (place hj p e)) ≠ 0) ∧
      ∀ e, ∑ d, classSum val (fun d i e => place hj (finProdFinEquiv (d, i)) (eqn e)) c (α ij) y d e (b d) = 0
  have hgood : ∀ ij, (avg fun y => ind (¬ ∃ b, Good ij b y)) ≤
      (3 : ℕ) * (D / (2 ^ k * a) + (K / a : ℚ) ^ 2 - 1) + (3 * (k + 1) * 5 : ℕ) * (K / D) := by
    intro ij
    refine good_table val D a K hcard ha hlow' hhigh' hj eqn heqn c (α ij) ?_ ?_ ?_ ?_
    · intro d e h
      show (if e < d then 0 else 1) * _ = _
      rw [if_pos h, zero_mul]
    · intro d i b e h
      show (if e < d then 0 else 1) * _ = _
      rw [if_pos h, zero_mul]
    · intro e
      show (if e < e then 0 else 1) * _ ≠ _
      rw [if_neg (lt_irrefl e), one_mul]
      exact hch0 e _ (hx0 e)
    · intro e i
      show (if e < e then 0 else 1) * _ ≠ (if e < e then 0 else 1) * _
      rw [if_neg (lt_irrefl e), one_mul, one_mul, hch]
      exact hpow e _ _
  have hinh : Inhabited (Fin (3 * (k + 1)) → Forgery κ F P) := ⟨fun _ => x0 0⟩
  have hattack := collision_attack (X := Seed) hN (fun d c i => (⟨pt (pool d c i), by rw [hpt]; exact hA d c i⟩ : A))
    (fun d => ⟨pt (x0 d), by rw [hpt]; exact hA0 d⟩) ?_ Good (fun ij b => collisionBatch x0 pool ij b) _ hgood
  · obtain ⟨hmost, hprob⟩ := hattack
    have hcast : (Fintype.card Seed : ℚ) = 2 ^ 64 := by rw [Fintype.card_fin]; norm_num
    refine ⟨_, hmost, le_trans (le_of_eq ?_) (hprob.trans ?_)⟩
    · rw [hcast, Nat.cast_ofNat, show 3 * (k + 1) * 5 = 15 * (k + 1) by ring]
    · refine avg_mono _ _ fun H => avg_mono _ _ fun W => ind_mono ?_
      rintro ⟨ij, b, hij, hG, hrun⟩
      rw [hrun]
      refine collisionBatch_accepted E cfg A sts hst st hpar hin l hl r r1 hoff hJ1 hJ hfalse N k j hj x0 pool hx0 hpool hA0 hA hsz hfuel H W ij b
        ?_ _ rfl ?_ ?_
      · intro d
        have := hij d
        subst hpt
        exact this
      · subst hpt hval
        exact hG.1
      · subst hpt hval hch hm
        exact hG.2
  · intro d b i b' i' h
    rw [Subtype.mk.injEq, hpt] at h
    exact hdiff d _ _ _ _ h

local notation "ℓ" => (2 ^ 252 + 27742317777372353535851937790883648493 : ℕ)

/-- C104, over the scalar field of Ristretto and with the generator table of `C82_ristretto`: with `N = 2 ^ 37` and `k = 270`,
`6 * 2 ^ 37 + 3` seeds and one table of weights, the batch of 813 proofs is accepted with probability at least `1 - 2 ^ -7`. -/
theorem C104_ristretto {P : Type} [AddCommGroup P] [Module (ZMod ℓ) P] [DecidableEq P] {κ : Type} (E : Env (ZMod ℓ) P)
    (hwide : ∀ b, E.scalarOfWide b = ((leNat b : ℕ) : ZMod ℓ)) (cfg : Config) (A : Finset Transcript)
    (sts : κ → Statement P) (hst : ∀ k, StatementBuilt E (sts k))
    (st : Fin 3 → κ) (hpar : ∀ d, (sts (st d)).params = (sts (st 0)).params) (hin : ∀ d, (sts (st d)).inputSet = (sts (st 0)).inputSet)
    (l : ℕ) (hl : l < (sts (st 0)).params.n ^ (sts (st 0)).params.m) (r r1 : ZMod ℓ)
    (hoff : ∀ d, d ≠ 0 → (sts (st 0)).inputSet.M1[l]? = some (r1 • (sts (st 0)).params.G1 + (sts (st d)).offset))
    (hJ1 : (sts (st 1)).J = (sts (st 0)).J) (hJ : r • (sts (st 2)).J = (sts (st 0)).params.U)
    (hfalse : ¬ Spec.Rel (sts (st 0)).params.G (sts (st 0)).params.G1 (sts (st 0)).params.U (sts (st 0)).inputSet.M
      (sts (st 0)).inputSet.M1 (sts (st 0)).offset (sts (st 0)).J l r r1)
    (N k : ℕ) (hN : 0 < N) (x0 : Fin 3 → Forgery κ (ZMod ℓ) P) (pool : Fin 3 → Bool → Fin N → Forgery κ (ZMod ℓ) P)
    (hx0 : ∀ d, MadeWith E sts (st d) l r r1 (x0 d)) (hpool : ∀ d c i, MadeWith E sts (st d) l r r1 (pool d c i))
    (hA0 : ∀ d, responseTranscript E (x0 d).t (sts (x0 d).k) (x0 d).p ∈ A)
    (hA : ∀ d c i, responseTranscript E (pool d c i).t (sts (pool d c i).k) (pool d c i).p ∈ A)
    (hdiff : ∀ d c i c' i', responseTranscript E (pool d c i).t (sts (pool d c i).k) (pool d c i).p =
      responseTranscript E (pool d c' i').t (sts (pool d c' i').k) (pool d c' i').p → c = c' ∧ i = i')
    (hpow : ∀ d i i', challenge E (pool d false i).t (sts (pool d false i).k) (pool d false i).p ^ (sts (st 0)).params.m ≠
      challenge E (pool d true i').t (sts (pool d true i').k) (pool d true i').p ^ (sts (st 0)).params.m)
    (hsz : SizeOK cfg (sts (st 0)).params (3 * (k + 1))) (hfuel : 3 * (k + 1) ≤ cfg.fuel) :
    ∃ c : GrindProgram A Seed (Fin (3 * k + 2 + 1) → Seed) (Fin ((3 * k + 2 + 1) * 2 * 5) → Block)
        (Fin (3 * k + 2 + 1) → Forgery κ (ZMod ℓ) P),
      c.AtMost (3 * (2 * N) + 3) 1 ∧
      1 - (2 ^ 66 / (N : ℚ) ^ 2 + 2 ^ 255 / 2 ^ k + (15 * k + 17) / 2 ^ 252) ≤
        avg fun H : A → Seed => avg fun W : (Fin (3 * k + 2 + 1) → Seed) → Fin ((3 * k + 2 + 1) * 2 * 5) → Block =>
          ind (AcceptedInvalidBatch E cfg A sts (c.run H W) H W ∧ c.run H W 0 = x0 0) := by
  obtain ⟨z, hz⟩ : ∃ z, z = 2 ^ 252 := ⟨_, rfl⟩
  obtain ⟨y, hy⟩ : ∃ y, y = 2 ^ 259 := ⟨_, rfl⟩
  obtain ⟨D, hD⟩ : ∃ D, D = 2 ^ 512 := ⟨_, rfl⟩
  have hD1 : D = 256 ^ 64 := by rw [hD, show (256 : ℕ) = 2 ^ 8 by norm_num, ← pow_mul]
  have hD2 : D = z * (2 * y) := by rw [hD, hz, hy, ← pow_succ', ← pow_add]
  have hq1 : z < ℓ := by rw [hz]; norm_num
  have hq2 : ℓ * 3 < z * 4 := by rw [hz]; norm_num
  obtain ⟨a1, a2⟩ := collision_bound ℓ D z y hz hy hD2 hq1 hq2 (2 ^ k) (pow_pos (by norm_num) k) ((10 * (k + 1) : ℕ) : ℚ) (Nat.cast_nonneg _)
  obtain ⟨c, hc, h⟩ := C104_accept E cfg A sts hst D (D / ℓ) (D / ℓ + 1) hD a1
    (fun x => by simp only [hwide]; exact blocks_value_ge ℓ D hD1.le x) (fun x => by simp only [hwide]; exact blocks_value ℓ D hD1.ge x)
    st hpar hin l hl r r1 hoff hJ1 hJ hfalse N k 2 hN (by norm_num) x0 pool hx0 hpool hA0 hA hdiff hpow hsz hfuel
  refine ⟨c, hc, le_trans ?_ h⟩
  refine sub_le_sub_left ?_ 1
  have e1 : ((15 * (k + 1) : ℕ) : ℚ) = 3 / 2 * ((10 * (k + 1) : ℕ) : ℚ) := by push_cast; ring
  have e2 : ((10 * (k + 1) : ℕ) : ℚ) = 10 * k + 10 := by push_cast; ring
  have hz0 : (0 : ℚ) < 2 ^ 252 := pow_pos (by norm_num) _
  have hT0 : (0 : ℚ) < 2 ^ k := pow_pos (by norm_num) _
  have e3 : 3 * ((2 : ℚ) ^ 64 / (N : ℚ) ^ 2) ≤ 2 ^ 66 / (N : ℚ) ^ 2 := by
    rw [← mul_div_assoc]
    gcongr
    norm_num
  have e4 : 3 / 2 * ((2 : ℚ) ^ 254 / 2 ^ k) ≤ 2 ^ 255 / 2 ^ k := by
    rw [← mul_div_assoc, show (2 : ℚ) ^ 255 = 2 * 2 ^ 254 from pow_succ' _ _]
    gcongr
    norm_num
  have e5 : 3 / 2 * ((((10 * (k + 1) : ℕ) : ℚ) + 1) / 2 ^ 252) ≤ (15 * k + 17) / 2 ^ 252 := by
    rw [e2, ← mul_div_assoc]
    gcongr
    linarith
  rw [e1]
  generalize (2 : ℚ) ^ 252 = z' at *
  generalize (2 : ℚ) ^ 254 / 2 ^ k = t' at *
  generalize (2 : ℚ) ^ 255 / 2 ^ k = t'' at *
  linarith

namespace Toy.Ristretto.Collision
open Triptych.Toy (get)

/-- An environment in which the challenges of proofs depend on the first operation of the transcript only. -/
def env : Env S S :=
  { Triptych.Toy.env ℓ with
    challenge := fun t =>
      if t.getLast? = some (.challenge "xi" 64) then
        match t with
        | .append "true" _ :: _ => leBytes 64 3
        | _ => leBytes 64 2
      else (Triptych.Toy.env ℓ).challenge t }

theorem params_new : Params.new env 2 2 = .ok params := by decide +kernel
theorem inputSet_new : InputSet.new env keys keys1 = .ok inputSet := by decide +kernel
theorem statement_new : Statement.new env params inputSet 17 witness.computeLinkingTag = .ok statement := by decide +kernel
/-- The offset for `r1 = 1`. -/
def offset : S := (9 : S) • params.G1 + 17 - params.G1
def other : Statement S := get ⟨params, inputSet, 0, 0, []⟩ (Statement.new env params inputSet offset witness.computeLinkingTag)
theorem other_new : Statement.new env params inputSet offset witness.computeLinkingTag = .ok other := by decide +kernel
theorem other_params : other.params = statement.params := by decide +kernel
theorem other_inputSet : other.inputSet = statement.inputSet := by decide +kernel
theorem other_offset : statement.inputSet.M1[2]? = some ((1 : S) • statement.params.G1 + other.offset) := by decide +kernel
theorem other_J : other.J = statement.J := by decide +kernel
def third : Statement S := get ⟨params, inputSet, 0, 0, []⟩ (Statement.new env params inputSet offset params.U)
theorem third_new : Statement.new env params inputSet offset params.U = .ok third := by decide +kernel
theorem third_params : third.params = statement.params := by decide +kernel
theorem third_inputSet : third.inputSet = statement.inputSet := by decide +kernel
theorem third_offset : statement.inputSet.M1[2]? = some ((1 : S) • statement.params.G1 + third.offset) := by decide +kernel
theorem third_J : (1 : S) • third.J = statement.params.U := by decide +kernel
theorem statement_m : statement.params.m = 2 := by decide +kernel
theorem statement_n : statement.params.n = 2 := by decide +kernel

/-- The target statement, the one with the offset for `r1 = 1`, and the one with the tag for `r = 1` besides. -/
def sts : Fin 3 → Statement S := ![statement, other, third]

theorem sts_all {α : Type} (Q : α → Prop) (a b c : α) (ha : Q a) (hb : Q b) (hc : Q c) (k : Fin 3) : Q (![a, b, c] k) := by
  fin_cases k
  · exact ha
  · exact hb
  · exact hc

theorem sts_rest {α : Type} (Q : α → Prop) (a b c : α) (hb : Q b) (hc : Q c) (k : Fin 3) (h : k ≠ 0) : Q (![a, b, c] k) := by
  fin_cases k
  · exact absurd rfl h
  · exact hb
  · exact hc

theorem vec_zero {α : Type} (a b c : α) : ![a, b, c] 0 = a := rfl
theorem vec_one {α : Type} (a b c : α) : ![a, b, c] 1 = b := rfl
theorem vec_two {α : Type} (a b c : α) : ![a, b, c] 2 = c := rfl
theorem sts_zero : sts 0 = statement := vec_zero _ _ _
theorem sts_one : sts 1 = other := vec_one _ _ _
theorem sts_two : sts 2 = third := vec_two _ _ _

theorem built (k : Fin 3) : StatementBuilt env (sts k) :=
  sts_all (StatementBuilt env) statement other third
    ⟨_, _, _, _, ⟨_, _, _, _, _, params_new⟩, Or.inl ⟨_, _, inputSet_new⟩, statement_new⟩
    ⟨_, _, _, _, ⟨_, _, _, _, _, params_new⟩, Or.inl ⟨_, _, inputSet_new⟩, other_new⟩
    ⟨_, _, _, _, ⟨_, _, _, _, _, params_new⟩, Or.inl ⟨_, _, inputSet_new⟩, third_new⟩ k

theorem sts_params (k : Fin 3) : (sts k).params = statement.params :=
  sts_all (fun st => st.params = statement.params) statement other third rfl other_params third_params k

theorem sts_inputSet (k : Fin 3) : (sts k).inputSet = statement.inputSet :=
  sts_all (fun st => st.inputSet = statement.inputSet) statement other third rfl other_inputSet third_inputSet k

theorem offset_all (a b c : Statement S) (hb : a.inputSet.M1[2]? = some ((1 : S) • a.params.G1 + b.offset))
    (hc : a.inputSet.M1[2]? = some ((1 : S) • a.params.G1 + c.offset)) (k : Fin 3) (h : k ≠ 0) :
    a.inputSet.M1[2]? = some ((1 : S) • a.params.G1 + (![a, b, c] k).offset) :=
  sts_rest (fun st => a.inputSet.M1[2]? = some ((1 : S) • a.params.G1 + st.offset)) a b c hb hc k h

theorem sts_offset (k : Fin 3) (h : k ≠ 0) : statement.inputSet.M1[2]? = some ((1 : S) • statement.params.G1 + (sts k).offset) :=
  offset_all statement other third other_offset third_offset k h

/-- The transcript handed over: each choice of its bytes gives another proof. -/
def start (c : Bool) (i : ℕ) : Transcript := [.append (if c then "true" else "false") (List.replicate i 0)]

def ch (c : Bool) : S := if c then 3 else 2

noncomputable def forged (d : Fin 3) (c : Bool) (i : ℕ) : Forgery (Fin 3) S S :=
  ⟨d, start c i, honestProof (sts d).params (sts d).inputSet.M (sts d).inputSet.M1 (sts d).offset (sts d).J 2 1 1
    ⟨1, [[0, 1], [0, 1]], 2, 3, 4, [5, 6], [7, 8]⟩ (ch c)⟩

theorem challenge_start (c : Bool) (i : ℕ) (st : Statement S) (p : Proof S S) : challenge env (start c i) st p = ch c := by
  have hl : ∀ (t x : Transcript) (o : Op), env.challenge (t ++ x ++ [o]) = if o = .challenge "xi" 64 then
      (match t ++ x ++ [o] with
        | .append "true" _ :: _ => leBytes 64 3
        | _ => leBytes 64 2) else (Triptych.Toy.env ℓ).challenge (t ++ x ++ [o]) := by
    intro t x o
    show (if (t ++ x ++ [o]).getLast? = _ then _ else _) = _
    simp only [List.getLast?_append, List.getLast?_singleton, Option.some_or, Option.some.injEq]
  rw [challenge, challengeTranscript, List.append_assoc, List.append_assoc, List.append_assoc, List.append_assoc,
    ← List.append_assoc _ _ [_], ← List.append_assoc _ _ [_], ← List.append_assoc _ _ [_], ← List.append_assoc _ _ [_], hl, if_pos rfl]
  cases c
  · show ((leNat (leBytes 64 2) : ℕ) : S) = 2
    decide +kernel
  · show ((leNat (leBytes 64 3) : ℕ) : S) = 3
    decide +kernel

theorem response_start (d : Fin 3) (c c' : Bool) (i i' : ℕ) (p p' : Proof S S)
    (h : responseTranscript env (start c i) (sts d) p = responseTranscript env (start c' i') (sts d) p') : c = c' ∧ i = i' := by
  have h0 : ∀ c i (p : Proof S S), (responseTranscript env (start c i) (sts d) p).head? =
      some (Op.append (if c then "true" else "false") (List.replicate i 0)) := by
    intro c i p
    rfl
  have h1 := congrArg List.head? h
  rw [h0, h0, Option.some.injEq, Op.append.injEq] at h1
  refine ⟨?_, by simpa using congrArg List.length h1.2⟩
  have h2 := h1.1
  clear h1 h h0
  revert c c'
  decide

theorem forged_nonzero (d : Fin 3) (c : Bool) (i : ℕ) : NonzeroF 2 2 (forged d c i).p.f (ch c) := by
  have hf : (forged d c i).p.f = (List.range (sts d).params.m).map fun j => (List.range ((sts d).params.n - 1)).map fun i =>
      selector (sts d).params.n 2 j (i + 1) * ch c + maskA (sts d).params.n ([[0, 1], [0, 1]] : List (List S)) j (i + 1) := rfl
  rw [hf, sts_params, statement_m, statement_n]
  have key : ∀ c : Bool, ∀ j < 2, ∀ i < 2, fullF ((List.range 2).map fun j => (List.range (2 - 1)).map fun i =>
      selector 2 2 j (i + 1) * ch c + maskA 2 ([[0, 1], [0, 1]] : List (List S)) j (i + 1)) (ch c) j i ≠ 0 := by decide +kernel
  exact key c

theorem forged_made (d : Fin 3) (c : Bool) (i : ℕ) : MadeWith env sts d 2 1 1 (forged d c i) where
  statement := rfl
  made := ⟨_, by rw [show (forged d c i).t = start c i from rfl, challenge_start]; rfl⟩
  challenge := by
    rw [show (forged d c i).t = start c i from rfl, challenge_start]
    revert c
    decide +kernel
  responses := by
    rw [show (forged d c i).t = start c i from rfl, challenge_start, sts_params, statement_m, statement_n]
    exact forged_nonzero d c i

theorem forged_pow (m : ℕ) (hm : m = 2) (d : Fin 3) (i i' : ℕ) (st : Statement S) (p p' : Proof S S) :
    challenge env (start false i) st p ^ m ≠ challenge env (start true i') st p' ^ m := by
  rw [challenge_start, challenge_start, hm]
  decide +kernel

theorem exists_domain {N : ℕ} (g : Fin 3 → Transcript) (f : Fin 3 → Bool → Fin N → Transcript) :
    ∃ A : Finset Transcript, (∀ d, g d ∈ A) ∧ ∀ d c i, f d c i ∈ A := by
  classical
  refine ⟨univ.image g ∪ univ.image fun x : Fin 3 × Bool × Fin N => f x.1 x.2.1 x.2.2, fun d => ?_, fun d c i => ?_⟩
  · exact mem_union_left _ (mem_image_of_mem _ (mem_univ _))
  · exact mem_union_right _ (mem_image_of_mem (fun x : Fin 3 × Bool × Fin N => f x.1 x.2.1 x.2.2) (mem_univ (d, c, i)))

theorem forged_diff {N : ℕ} (d : Fin 3) (c : Bool) (i : Fin N) (c' : Bool) (i' : Fin N)
    (h : responseTranscript env (forged d c i).t (sts (forged d c i).k) (forged d c i).p =
      responseTranscript env (forged d c' i').t (sts (forged d c' i').k) (forged d c' i').p) : c = c' ∧ i = i' := by
  obtain ⟨h1, h2⟩ := response_start d c c' i i' _ _ h
  exact ⟨h1, Fin.ext h2⟩

end Toy.Ristretto.Collision
open Triptych.Parallel.Toy.Ristretto.Collision in
/-- For every `N` and `k` there are proofs as in `C104_accept` and `C104_ristretto`, here for a true statement and a number that is not
the key. -/
example (N k : ℕ) : ∃ (A : Finset Transcript) (cfg : Config) (x0 : Fin 3 → Forgery (Fin 3) (ZMod ℓ) (ZMod ℓ))
    (pool : Fin 3 → Bool → Fin N → Forgery (Fin 3) (ZMod ℓ) (ZMod ℓ)),
    (∀ k, StatementBuilt env (sts k)) ∧ (∀ b, env.scalarOfWide b = ((leNat b : ℕ) : ZMod ℓ)) ∧
    (∀ d, (sts d).params = (sts 0).params) ∧ (∀ d, (sts d).inputSet = (sts 0).inputSet) ∧ 2 < (sts 0).params.n ^ (sts 0).params.m ∧
    (∀ d, d ≠ 0 → (sts 0).inputSet.M1[2]? = some ((1 : ZMod ℓ) • (sts 0).params.G1 + (sts d).offset)) ∧ (sts 1).J = (sts 0).J ∧
    (1 : ZMod ℓ) • (sts 2).J = (sts 0).params.U ∧
    ¬ Spec.Rel (sts 0).params.G (sts 0).params.G1 (sts 0).params.U (sts 0).inputSet.M (sts 0).inputSet.M1 (sts 0).offset (sts 0).J 2
      (1 : ZMod ℓ) 1 ∧
    (∀ d, MadeWith env sts d 2 1 1 (x0 d)) ∧ (∀ d c i, MadeWith env sts d 2 1 1 (pool d c i)) ∧
    (∀ d, responseTranscript env (x0 d).t (sts (x0 d).k) (x0 d).p ∈ A) ∧
    (∀ d c i, responseTranscript env (pool d c i).t (sts (pool d c i).k) (pool d c i).p ∈ A) ∧
    (∀ d c i c' i', responseTranscript env (pool d c i).t (sts (pool d c i).k) (pool d c i).p =
      responseTranscript env (pool d c' i').t (sts (pool d c' i').k) (pool d c' i').p → c = c' ∧ i = i') ∧
    (∀ d i i', challenge env (pool d false i).t (sts (pool d false i).k) (pool d false i).p ^ (sts 0).params.m ≠
      challenge env (pool d true i').t (sts (pool d true i').k) (pool d true i').p ^ (sts 0).params.m) ∧
    (3 * (k + 1) ≤ u32Max → SizeOK cfg (sts 0).params (3 * (k + 1)) ∧ 3 * (k + 1) ≤ cfg.fuel) := by
  obtain ⟨A, hA0, hA⟩ := exists_domain
    (fun d => responseTranscript env (forged d false N).t (sts (forged d false N).k) (forged d false N).p)
    fun d c (i : Fin N) => responseTranscript env (forged d c i).t (sts (forged d c i).k) (forged d c i).p
  refine ⟨A, ⟨false, 2 ^ 64 - 1, 3 * (k + 1)⟩, fun d => forged d false N, fun d c i => forged d c i, built, fun _ => rfl,
    fun d => by rw [sts_zero]; exact sts_params d, fun d => by rw [sts_zero]; exact sts_inputSet d,
    ?_, fun d hd => by rw [sts_zero]; exact sts_offset d hd, by rw [sts_zero, sts_one]; exact other_J,
    by rw [sts_two, sts_zero]; exact third_J, ?_, fun d => forged_made d _ _, fun d c i => forged_made d _ _, hA0, hA, forged_diff,
    fun d i i' => forged_pow _ (by rw [sts_zero]; exact statement_m) d _ _ _ _ _, ?_⟩
  · decide +kernel
  · rintro ⟨h, -, -⟩
    revert h
    decide +kernel
  · intro hk
    exact ⟨⟨hk, fun h => absurd h Bool.false_ne_true⟩, le_rfl⟩

end Triptych.Parallel
