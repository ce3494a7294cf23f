import Verif.Props.ZeroKnowledge
import Verif.Props.Parallel.Soundness
import Verif.Lemmas.Prime
import Verif.Props.Parallel.ZeroKnowledge
import Mathlib.Data.Int.CardIntervalMod
import Mathlib.GroupTheory.OrderOfElement

/-! # The scalar field and group of Ristretto: C58

The theorems hold over every field and module. Here their side conditions are discharged for the field and group the library
uses: integers modulo the prime `ℓ = 2 ^ 252 + 27742317777372353535851937790883648493`, and groups with `ℓ` elements. -/
set_option autoImplicit false
set_option linter.unusedSectionVars false

namespace Triptych
open Spec Finset

local notation "ℓ" => (2 ^ 252 + 27742317777372353535851937790883648493 : ℕ)

/-- C58: the order of the Ristretto group is prime. -/
theorem C58_prime : Nat.Prime (2 ^ 252 + 27742317777372353535851937790883648493) := Prime.order_prime

instance : Fact (Nat.Prime ℓ) := ⟨C58_prime⟩

/-- C58: parameters accepted by the constructor are smaller than the characteristic. -/
theorem C58_small_sums {P : Type} (E : Env (ZMod ℓ) P) (params : Params P) (hp : ParamsBuilt E params) :
    SmallSums (ZMod ℓ) params.n := by
  apply smallSums_zmod
  obtain ⟨hn, hm, hN, -⟩ := hp.ok
  have : params.n ^ 1 ≤ params.n ^ params.m := Nat.pow_le_pow_right (by omega) (by omega)
  rw [u32Max] at hN
  rw [pow_one] at this
  have h2 : (2 ^ 32 : ℕ) < ℓ := by norm_num
  omega

/-- C58: the same for parallel parameters. -/
theorem C58_small_sums_parallel {P : Type} (E : Env (ZMod ℓ) P) (params : Parallel.Params P)
    (hp : Parallel.Spec.ParamsBuilt E params) : SmallSums (ZMod ℓ) params.n := by
  apply smallSums_zmod
  obtain ⟨hn, hm, hN, -⟩ := hp.ok
  have : params.n ^ 1 ≤ params.n ^ params.m := Nat.pow_le_pow_right (by omega) (by omega)
  rw [u32Max] at hN
  rw [pow_one] at this
  have h2 : (2 ^ 32 : ℕ) < ℓ := by norm_num
  omega

theorem fraction (x B C k : ℕ) (hk : 0 < k) (hpos : 0 < B ^ (k - 1)) (hC : C < B) (h : x ≤ B ^ (k - 1)) : C * x < B ^ k := by
  obtain ⟨k, rfl⟩ : ∃ j, k = j + 1 := ⟨k - 1, by omega⟩
  rw [Nat.add_sub_cancel] at h hpos
  rw [pow_succ, mul_comm]
  exact lt_of_le_of_lt (Nat.mul_le_mul_right _ h) (Nat.mul_lt_mul_of_pos_left hC hpos)

variable {P : Type} [AddCommGroup P] [Module (ZMod ℓ) P] [DecidableEq P]

/-- C58: C20 for Ristretto, without a condition on the parameters. -/
theorem C58_extract (E : Env (ZMod ℓ) P) (st : Statement P) (hst : StatementBuilt E st)
    (p : ℕ → Proof (ZMod ℓ) P) (ξ : ℕ → ZMod ℓ) (hξ : Set.InjOn ξ (range (st.params.m + 1)))
    (hshape : ∀ e ≤ st.params.m, Shape st.params (p e)) (hsame : ∀ e ≤ st.params.m, SameCommitments (p e) (p 0))
    (hvalid : ∀ e ≤ st.params.m, Valid st.params st.inputSet.M st.J (p e) (ξ e)) :
    Rel st.params.G st.params.U st.inputSet.M st.J
      (extractIndex st.params.n st.params.m ξ fun e => fullF (p e).f (ξ e))
      (extractKey st.params.m ξ fun e => (p e).z) ∨ ExtractedRelation st.params p ξ :=
  C20_extract E st hst (C58_small_sums E _ hst.params_built) p ξ hξ hshape hsame hvalid

/-- C58: C51 for Ristretto. -/
theorem C58_extract_parallel (E : Env (ZMod ℓ) P) (st : Parallel.Statement P) (hst : Parallel.Spec.StatementBuilt E st)
    (p : ℕ → Parallel.Proof (ZMod ℓ) P) (ξ : ℕ → ZMod ℓ) (hξ : Set.InjOn ξ (range (st.params.m + 1)))
    (hshape : ∀ e ≤ st.params.m, Parallel.Spec.Shape st.params (p e))
    (hsame : ∀ e ≤ st.params.m, Parallel.Spec.SameCommitments (p e) (p 0))
    (hvalid : ∀ e ≤ st.params.m,
      Parallel.Spec.Valid st.params st.inputSet.M st.inputSet.M1 st.offset st.J (p e) (ξ e)) :
    Parallel.Spec.Rel st.params.G st.params.G1 st.params.U st.inputSet.M st.inputSet.M1 st.offset st.J
      (extractIndex st.params.n st.params.m ξ fun e => fullF (p e).f (ξ e))
      (extractKey st.params.m ξ fun e => (p e).z) (extractKey st.params.m ξ fun e => (p e).z1) ∨
    Parallel.Spec.ExtractedRelation st.params p ξ :=
  Parallel.C51_extract E st hst (C58_small_sums_parallel E _ hst.params_built) p ξ hξ hshape hsame hvalid

/-- C58: if a proof of the batch violates its equations, fewer than one in `2 ^ 252` of the vectors of non-zero weights make the
verifier's sum vanish. -/
theorem C58_weights (params : Params P) (M : List P) (sts : List (Statement P)) (ps : List (Proof (ZMod ℓ) P))
    (ξs : List (ZMod ℓ)) (h1 : sts.length = ps.length) (h2 : ξs.length = ps.length) (i : Fin ps.length)
    (hv : ¬ Valid params M (sts[i.1]'(by omega)).J ps[i.1] (ξs[i.1]'(by omega))) :
    2 ^ 252 * #{w ∈ Fintype.piFinset (fun _ : Fin ps.length × Fin 4 => univ.erase (0 : ZMod ℓ)) |
        batchSum params M sts ps ξs (weightList w) = 0}
      < #(Fintype.piFinset (fun _ : Fin ps.length × Fin 4 => univ.erase (0 : ZMod ℓ))) := by
  have h := C19_count params M sts ps ξs h1 h2 i hv (univ.erase (0 : ZMod ℓ))
  have hc : #(univ.erase (0 : ZMod ℓ)) = ℓ - 1 := by
    rw [card_erase_of_mem (mem_univ _), card_univ, ZMod.card]
  have hcard : Fintype.card (Fin ps.length × Fin 4) = 4 * ps.length := by simp [mul_comm]
  rw [Fintype.card_piFinset, Finset.prod_const, Finset.card_univ, hcard, hc]
  rw [hc] at h
  have hpos : 0 < ps.length := by have := i.2; omega
  exact fraction _ _ _ _ (by omega) (Nat.pow_pos (by norm_num)) (by norm_num) h

/-- C58: the same for parallel proofs. -/
theorem C58_weights_parallel (params : Parallel.Params P) (M M1 : List P) (sts : List (Parallel.Statement P))
    (ps : List (Parallel.Proof (ZMod ℓ) P)) (ξs : List (ZMod ℓ)) (h1 : sts.length = ps.length) (h2 : ξs.length = ps.length)
    (i : Fin ps.length)
    (hv : ¬ Parallel.Spec.Valid params M M1 (sts[i.1]'(by omega)).offset (sts[i.1]'(by omega)).J ps[i.1]
      (ξs[i.1]'(by omega))) :
    2 ^ 252 * #{w ∈ Fintype.piFinset (fun _ : Fin ps.length × Fin 5 => univ.erase (0 : ZMod ℓ)) |
        Parallel.Spec.batchSum params M M1 sts ps ξs (Parallel.Spec.weightList w) = 0}
      < #(Fintype.piFinset (fun _ : Fin ps.length × Fin 5 => univ.erase (0 : ZMod ℓ))) := by
  have h := Parallel.C50_weight_count params M M1 sts ps ξs h1 h2 i hv (univ.erase (0 : ZMod ℓ))
  have hc : #(univ.erase (0 : ZMod ℓ)) = ℓ - 1 := by
    rw [card_erase_of_mem (mem_univ _), card_univ, ZMod.card]
  have hcard : Fintype.card (Fin ps.length × Fin 5) = 5 * ps.length := by simp [mul_comm]
  rw [Fintype.card_piFinset, Finset.prod_const, Finset.card_univ, hcard, hc]
  rw [hc] at h
  have hpos : 0 < ps.length := by have := i.2; omega
  exact fraction _ _ _ _ (by omega) (Nat.pow_pos (by norm_num)) (by norm_num) h

/-- C58: in a group of `ℓ` elements every non-identity element generates. -/
theorem C58_generates (hcard : Nat.card P = ℓ) (H : P) (hH : H ≠ 0) (Q : P) : ∃ x : ZMod ℓ, Q = x • H := by
  have : Finite P := Nat.finite_of_card_ne_zero (by rw [hcard]; norm_num)
  have hinj : Function.Injective fun x : ZMod ℓ => x • H := by
    intro x y hxy
    simp only at hxy
    rw [← sub_eq_zero, ← sub_smul] at hxy
    exact sub_eq_zero.1 ((smul_eq_zero.1 hxy).resolve_right hH)
  have hb := hinj.bijective_of_nat_card_le (by rw [hcard, Nat.card_zmod])
  obtain ⟨x, hx⟩ := hb.2 Q
  exact ⟨x, hx.symm⟩

/-- C58: so a commitment mask hides perfectly. -/
theorem C58_masks (params : Params P) (hcard : Nat.card P = ℓ) (hH : params.CommitmentH ≠ 0) :
    MaskGenerates (ZMod ℓ) params := fun Q _ => C58_generates hcard _ hH Q

/-- C58: and so do the masks of parallel proofs, those of `X1` included. -/
theorem C58_masks_parallel (params : Parallel.Params P) (hcard : Nat.card P = ℓ) (hH : params.CommitmentH ≠ 0)
    (hG1 : params.G1 ≠ 0) :
    Parallel.Spec.MaskGenerates (ZMod ℓ) params ∧ Parallel.Spec.Generates (ZMod ℓ) params.G1 :=
  ⟨fun Q _ => C58_generates hcard _ hH Q, C58_generates hcard _ hG1⟩

theorem residues (q N : ℕ) [NeZero q] (s : ZMod q) : #{x ∈ range N | ((x : ℕ) : ZMod q) = s} ≤ N / q + 1 := by
  have h : #{x ∈ range N | ((x : ℕ) : ZMod q) = s} = Nat.count (· ≡ s.val [MOD q]) N := by
    rw [Nat.count_eq_card_filter_range]
    congr 1
    ext x
    simp only [mem_filter, and_congr_right_iff]
    intro _
    rw [← ZMod.natCast_eq_natCast_iff, ZMod.natCast_zmod_val]
  rw [h, Nat.count_modEq_card _ (Nat.pos_of_ne_zero (NeZero.ne q))]
  split <;> omega

/-- C58: a uniform 64-byte string reduced modulo `ℓ`, as challenges, weights and nonces are, takes each value with
probability at most `2 ^ -252`. -/
theorem C58_wide (s : ZMod ℓ) : #{x ∈ range (2 ^ 512) | ((x : ℕ) : ZMod ℓ) = s} ≤ 2 ^ 260 :=
  le_trans (residues ℓ (2 ^ 512) s) (by decide +kernel)

/-! ## A run over the scalar field of Ristretto -/

namespace Toy.Ristretto
open Triptych.Toy (env get transcript cfg)

abbrev S := ZMod ℓ

def params : Params S := get ⟨0, 0, 0, 0, [], 0, []⟩ (Params.new (env ℓ) 2 2)
theorem params_new : Params.new (env ℓ) 2 2 = .ok params := by decide +kernel
def keys : List S := [(3 : S), 5, 7, 11].map fun r => r • params.G
def inputSet : InputSet S := get ⟨[], []⟩ (InputSet.new (env ℓ) keys)
theorem inputSet_new : InputSet.new (env ℓ) keys = .ok inputSet := by decide +kernel
def witness : Witness S S := get ⟨params, 0, 0⟩ (Witness.new params 2 7)
theorem witness_new : Witness.new params 2 (7 : S) = .ok witness := by decide +kernel
def statement : Statement S := get ⟨params, inputSet, 0, []⟩
  (Statement.new (env ℓ) params inputSet witness.computeLinkingTag)
theorem statement_new : Statement.new (env ℓ) params inputSet witness.computeLinkingTag = .ok statement := by
  decide +kernel
def proof : Proof S S := get ⟨0, 0, 0, 0, [], [], [], 0, 0, 0⟩ (Proof.proveWithRng (env ℓ) nullRng witness statement () transcript).1
theorem proof_new : (Proof.proveWithRng (env ℓ) nullRng witness statement () transcript).1 = .ok proof := by
  decide +kernel
theorem verify_ok : (Proof.verify (env ℓ) cfg proof statement transcript).1 = .ok () := by decide +kernel

/-- The environment after rewinding, as in `Verif.Props.Soundness`. -/
def fork (c : ℕ) : Env S S :=
  { env ℓ with challenge := fun t =>
      if t.getLast? = some (.challenge "xi" 64) then leBytes 64 c else (env ℓ).challenge t }

def forkProof (e : ℕ) : Proof S S :=
  get ⟨0, 0, 0, 0, [], [], [], 0, 0, 0⟩ (Proof.proveWithRng (fork (e + 10)) nullRng witness statement () transcript).1

theorem params_built : ParamsBuilt (env ℓ) params := ⟨_, _, _, _, params_new⟩
theorem statement_built : StatementBuilt (env ℓ) statement :=
  ⟨_, _, _, params_built, Or.inl ⟨_, inputSet_new⟩, statement_new⟩

end Toy.Ristretto

/-- The prover and the verifier run over the real scalar field. -/
example : (Proof.verify (Toy.env ℓ) Toy.cfg Toy.Ristretto.proof Toy.Ristretto.statement Toy.transcript).1 = .ok () :=
  Toy.Ristretto.verify_ok

/-- C58_extract: three valid answers, over the real scalar field, from which position 2 and key 7 are computed. -/
example : StatementBuilt (Toy.env ℓ) Toy.Ristretto.statement ∧ Toy.Ristretto.statement.params.m = 2 ∧
    (∀ e ≤ 2, Shape Toy.Ristretto.statement.params (Toy.Ristretto.forkProof e)) ∧
    (∀ e ≤ 2, SameCommitments (Toy.Ristretto.forkProof e) (Toy.Ristretto.forkProof 0)) ∧
    (∀ e ≤ 2, Valid Toy.Ristretto.statement.params Toy.Ristretto.statement.inputSet.M Toy.Ristretto.statement.J
      (Toy.Ristretto.forkProof e) (e + 10)) ∧
    extractIndex 2 2 (fun e => (e + 10 : ZMod ℓ)) (fun e => fullF (Toy.Ristretto.forkProof e).f (e + 10)) = 2 ∧
    extractKey 2 (fun e => (e + 10 : ZMod ℓ)) (fun e => (Toy.Ristretto.forkProof e).z) = 7 := by
  have h1 : ∀ e ≤ 2, (Toy.Ristretto.forkProof e).X.length = Toy.Ristretto.statement.params.m ∧
      (Toy.Ristretto.forkProof e).Y.length = Toy.Ristretto.statement.params.m ∧
      (Toy.Ristretto.forkProof e).f.length = Toy.Ristretto.statement.params.m ∧
      ∀ row ∈ (Toy.Ristretto.forkProof e).f, row.length = Toy.Ristretto.statement.params.n - 1 := by decide +kernel
  have h2 : ∀ e ≤ 2, E1 Toy.Ristretto.statement.params (Toy.Ristretto.forkProof e) (e + 10) = 0 ∧
      E2 Toy.Ristretto.statement.params (Toy.Ristretto.forkProof e) (e + 10) = 0 ∧
      E3 Toy.Ristretto.statement.params Toy.Ristretto.statement.inputSet.M (Toy.Ristretto.forkProof e) (e + 10) = 0 ∧
      E4 Toy.Ristretto.statement.params Toy.Ristretto.statement.J (Toy.Ristretto.forkProof e) (e + 10) = 0 := by
    decide +kernel
  refine ⟨Toy.Ristretto.statement_built, by decide +kernel, fun e he => ?_, ?_, fun e he => ?_, by decide +kernel,
    by decide +kernel⟩
  · exact ⟨(h1 e he).1, (h1 e he).2.1, (h1 e he).2.2.1, (h1 e he).2.2.2⟩
  · simp only [SameCommitments]
    decide +kernel
  · exact ⟨(h2 e he).1, (h2 e he).2.1, (h2 e he).2.2.1, (h2 e he).2.2.2⟩

/-- C58_weights: a proof with a changed response violates its equations. C58_masks: the group `ZMod ℓ` and its mask generator. -/
example : ¬ Valid Toy.Ristretto.params Toy.Ristretto.inputSet.M Toy.Ristretto.statement.J
      { Toy.Ristretto.proof with z := Toy.Ristretto.proof.z + 1 }
      (challenge (Toy.env ℓ) Toy.transcript Toy.Ristretto.statement Toy.Ristretto.proof) ∧
    Nat.card (ZMod ℓ) = ℓ ∧ Toy.Ristretto.params.CommitmentH ≠ 0 := by
  refine ⟨fun h => ?_, Nat.card_zmod _, by decide +kernel⟩
  have := h.e4
  revert this
  decide +kernel

/-- C58_masks_parallel: the parameters of `TriptychParameters::new` over `ZMod ℓ`. -/
example : ∃ params, Parallel.Params.new (Toy.env ℓ) 2 2 = .ok params ∧ params.CommitmentH ≠ 0 ∧ params.G1 ≠ 0 := by
  refine ⟨Toy.get ⟨0, 0, 0, 0, 0, [], 0, []⟩ (Parallel.Params.new (Toy.env ℓ) 2 2), ?_, ?_, ?_⟩ <;> decide +kernel

end Triptych
