import Verif.Props.Attack

/-! # Holders of a few keys make few unlinkable signatures: C88

A program outputs several proofs, for any statements with common generators. It may ask for challenges, weight seeds and weights,
all of which are random. If all proofs are accepted and no two have the same linking tag, there are more proofs than keys the
program was given only if rewinding it yields another key, or a relation among the commitment generators. -/
set_option autoImplicit false
set_option linter.unusedSectionVars false
set_option linter.unusedVariables false

namespace Triptych
open Spec Finset Function

namespace Spec.AttackProgram
variable {S B A X V Y α β : Type}

/-- The program, with its output changed by `f`. -/
def map (f : α → β) : AttackProgram S B A X V Y α → AttackProgram S B A X V Y β
  | done a => .done (f a)
  | challenge s next => .challenge s fun b => (next b).map f
  | seed a next => .seed a fun x => (next x).map f
  | weights v next => .weights v fun y => (next y).map f

/-- The program, with only the `i`-th output. -/
def part {ι : Type} (c : AttackProgram S B A X V Y (ι → α)) (i : ι) : AttackProgram S B A X V Y α := c.map fun x => x i

theorem run_map (f : α → β) (O : S → B) (H : A → X) (W : V → Y) (c : AttackProgram S B A X V Y α) :
    (c.map f).run O H W = f (c.run O H W) := by
  induction c with
  | done a => rfl
  | challenge s next ih => exact ih _
  | seed a next ih => exact ih _
  | weights v next ih => exact ih _

theorem atMost_map (f : α → β) (c : AttackProgram S B A X V Y α) :
    ∀ {Q R T : ℕ}, c.AtMost Q R T → (c.map f).AtMost Q R T := by
  induction c with
  | done a => intros; trivial
  | challenge s next ih => intro Q R T h; exact ⟨h.1, fun x => ih x (h.2 x)⟩
  | seed a next ih => intro Q R T h; exact ⟨h.1, fun x => ih x (h.2 x)⟩
  | weights v next ih => intro Q R T h; exact ⟨h.1, fun y => ih y (h.2 y)⟩

end Spec.AttackProgram

variable {F P : Type} [Field F] [AddCommGroup P] [Module F P] [DecidableEq F] [DecidableEq P]

/-- As `Rewinds`, where the extracted signing key is none of the keys in `K`. -/
def Spec.RewindsOutside {κ : Type} (K : Finset F) (E : Env F P) (S : Finset Transcript) (sts : κ → Statement P)
    (c : OracleProgram S Block (Forgery κ F P)) (O : S → Block) (s : S) : Prop :=
  ∃ (k : κ) (b : ℕ → Block), Set.InjOn (fun e => E.scalarOfWide (b e).bytes) (range ((sts k).params.m + 1)) ∧
    (∀ e ≤ (sts k).params.m, (c.run (update O s (b e))).k = k ∧ Forges E S sts c (update O s (b e))) ∧
    (Rel (sts k).params.G (sts k).params.U (sts k).inputSet.M (sts k).J
      (extractIndex (sts k).params.n (sts k).params.m (fun e => E.scalarOfWide (b e).bytes)
        fun e => fullF (c.run (update O s (b e))).p.f (E.scalarOfWide (b e).bytes))
      (extractKey (sts k).params.m (fun e => E.scalarOfWide (b e).bytes) fun e => (c.run (update O s (b e))).p.z) ∧
      extractKey (sts k).params.m (fun e => E.scalarOfWide (b e).bytes) (fun e => (c.run (update O s (b e))).p.z) ∉ K ∨
    ExtractedRelation (sts k).params (fun e => (c.run (update O s (b e))).p) fun e => E.scalarOfWide (b e).bytes)

/-- As `Rewinds`, where a relation among the commitment generators is extracted. -/
def Spec.RewindsToRelation {κ : Type} (E : Env F P) (S : Finset Transcript) (sts : κ → Statement P)
    (c : OracleProgram S Block (Forgery κ F P)) (O : S → Block) (s : S) : Prop :=
  ∃ (k : κ) (b : ℕ → Block), Set.InjOn (fun e => E.scalarOfWide (b e).bytes) (range ((sts k).params.m + 1)) ∧
    (∀ e ≤ (sts k).params.m, (c.run (update O s (b e))).k = k ∧ Forges E S sts c (update O s (b e))) ∧
    ExtractedRelation (sts k).params (fun e => (c.run (update O s (b e))).p) fun e => E.scalarOfWide (b e).bytes

/-- The verifier accepts every proof, and no two of the proofs have the same linking tag. -/
def Spec.AcceptedUnlinkable {κ : Type} (E : Env F P) (cfg : Config) (S A : Finset Transcript) (sts : κ → Statement P) {N j : ℕ}
    (x : Fin j → Forgery κ F P) (O : S → Block) (H : A → Seed) (W : Seed → Fin N → Block) : Prop :=
  (∀ i, AcceptedForgery E cfg S A sts (x i) O H W) ∧ ∀ i i', (sts (x i).k).J = (sts (x i').k).J → i = i'

/-- Each key is good for one linking tag only. -/
theorem tag_outside {j : ℕ} (U : P) (hU : U ≠ 0) (K : Finset F) (hK : #K ≤ j) (J : Fin (j + 1) → P)
    (hJ : ∀ i i', J i = J i' → i = i') : ∃ i, ∀ r ∈ K, r • J i ≠ U := by
  by_contra h
  push Not at h
  choose f hf1 hf2 using h
  have hinj : Injective f := by
    intro i i' he
    apply hJ
    have h1 : f i • (J i - J i') = 0 := by rw [smul_sub, hf2, he, hf2, sub_self]
    rcases smul_eq_zero.1 h1 with h2 | h2
    · have h3 := hf2 i
      rw [h2, zero_smul] at h3
      exact absurd h3.symm hU
    · exact sub_eq_zero.1 h2
  have h1 : #(univ.image f) = j + 1 := by rw [card_image_of_injective _ hinj, card_univ, Fintype.card_fin]
  have h2 : #(univ.image f) ≤ #K := card_le_card fun r hr => by
    obtain ⟨i, -, rfl⟩ := mem_image.1 hr
    exact hf1 i
  omega

theorem rewinds_outside {κ : Type} (K : Finset F) (E : Env F P) (S : Finset Transcript) (sts : κ → Statement P) (U : P)
    (hU : ∀ k, (sts k).params.U = U) (c : OracleProgram S Block (Forgery κ F P)) (O : S → Block) (s : S)
    (h : RewindsFor (fun k => ∀ r ∈ K, r • (sts k).J ≠ U) E S sts c O s) : RewindsOutside K E S sts c O s := by
  obtain ⟨k, b, h1, h2, h3, h4⟩ := h
  refine ⟨k, b, h2, h3, ?_⟩
  rcases h4 with h4 | h4
  · refine Or.inl ⟨h4, fun hK => h1 _ hK ?_⟩
    rw [← hU k]
    exact h4.2
  · exact Or.inr h4

/-- C88: a ring of which all keys are in `keys` gives no other key, so only a relation remains. -/
theorem C88_all_keys {κ : Type} [Fintype F] (keys : Finset P) (G : P) (hG : G ≠ 0) :
    #{r : F | r • G ∈ keys} ≤ #keys ∧
    ∀ (E : Env F P) (S : Finset Transcript) (sts : κ → Statement P) (hsub : ∀ k, ∀ M ∈ (sts k).inputSet.M, M ∈ keys)
      (hGG : ∀ k, (sts k).params.G = G) (c : OracleProgram S Block (Forgery κ F P)) (O : S → Block) (s : S),
      RewindsOutside ({r : F | r • G ∈ keys} : Finset F) E S sts c O s → RewindsToRelation E S sts c O s := by
  constructor
  · apply card_le_card_of_injOn (fun r : F => r • G)
    · intro r hr
      simpa using hr
    · intro r _ r' _ h
      exact smul_left_injective F hG h
  · rintro E S sts hsub hGG c O s ⟨k, b, h1, h2, h3⟩
    refine ⟨k, b, h1, h2, ?_⟩
    rcases h3 with ⟨h3, h4⟩ | h3
    · refine absurd ?_ h4
      simp only [mem_filter, mem_univ, true_and]
      have h5 := h3.1
      rw [hGG] at h5
      exact hsub k _ (List.mem_of_getElem? h5)
    · exact h3

local notation "ℓ" => (2 ^ 252 + 27742317777372353535851937790883648493 : ℕ)

theorem avg_sum {A ι : Type} [Fintype A] (s : Finset ι) (f : ι → A → ℚ) :
    (avg fun a => ∑ i ∈ s, f i a) = ∑ i ∈ s, avg (f i) := by
  simp only [avg]
  rw [Finset.sum_comm, Finset.sum_div]

theorem avg_sum₃ {A B C ι : Type} [Fintype A] [Fintype B] [Fintype C] (s : Finset ι) (f : ι → A → B → C → ℚ) :
    (avg fun a => avg fun b => avg fun c => ∑ i ∈ s, f i a b c) = ∑ i ∈ s, avg fun a => avg fun b => avg fun c => f i a b c := by
  simp only [avg_sum]

theorem ind_le_sum {ι : Type} (s : Finset ι) (p : Prop) (q : ι → Prop) (h : p → ∃ i ∈ s, q i) :
    ind p ≤ ∑ i ∈ s, ind (q i) := by
  by_cases hp : p
  · obtain ⟨i, hi, hq⟩ := h hp
    rw [ind_pos hp, ← ind_pos hq]
    exact single_le_sum (fun i _ => ind_nonneg (q i)) hi
  · rw [ind_neg hp]
    exact sum_nonneg fun i _ => ind_nonneg (q i)

open Classical in
/-- C88: a program asking for at most `Q` challenges, `R` seeds and the weights of `T` seeds outputs `j + 1` proofs; `K` are at most
`j` keys. The probability that all proofs are accepted and have different linking tags is at most `j + 1` times
`m (Q + 1) / 2 ^ 252 + (R + 1) 4 / 2 ^ 64 + 1 / 2 ^ 174`, plus the expected number of questions at which rewinding the program, for
one of the proofs, yields a signing key that is not in `K`, or a relation among the commitment generators. -/
theorem C88_ristretto {κ : Type} {P : Type} [AddCommGroup P] [Module (ZMod ℓ) P] [DecidableEq P]
    (E : Env (ZMod ℓ) P) (hE : E.Lawful) (hwide : ∀ b, E.scalarOfWide b = ((leNat b : ℕ) : ZMod ℓ)) (cfg : Config)
    (S A : Finset Transcript) (hS : ∀ t ∈ S, t.getLast? = some (.challenge "xi" 64)) (sts : κ → Statement P)
    (hst : ∀ k, StatementBuilt E (sts k)) (hinj : ∀ k k', (sts k).hash = (sts k').hash → k = k')
    (U : P) (hU : U ≠ 0) (hUU : ∀ k, (sts k).params.U = U) (m : ℕ) (hm : ∀ k, (sts k).params.m ≤ m)
    (j : ℕ) (K : Finset (ZMod ℓ)) (hK : #K ≤ j)
    (c : AttackProgram S Block A Seed Seed (Fin (1 * 2 * 4) → Block) (Fin (j + 1) → Forgery κ (ZMod ℓ) P)) (Q R T : ℕ)
    (hc : c.AtMost Q R T) :
    (avg fun O : S → Block => avg fun H : A → Seed => avg fun W : Seed → Fin (1 * 2 * 4) → Block =>
      ind (AcceptedUnlinkable E cfg S A sts (c.run O H W) O H W)) ≤
      (j + 1) * (m * (Q + 1) / 2 ^ 252 + ((R + 1) * (4 / 2 ^ 64) + 1 / 2 ^ 174)) +
      avg fun O : S → Block => avg fun H : A → Seed => avg fun W : Seed → Fin (1 * 2 * 4) → Block =>
        ∑ i, (#{s ∈ ((c.part i).challengesOnly H W).touched (Forgery.crit E S sts) O |
          RewindsOutside K E S sts ((c.part i).challengesOnly H W) O s} : ℚ) := by
  have key := fun i : Fin (j + 1) => attack_good E hE hwide cfg S A hS sts hst hinj (fun k => ∀ r ∈ K, r • (sts k).J ≠ U) m hm
    (c.part i) Q R T (AttackProgram.atMost_map _ _ hc)
  generalize (m * (Q + 1) / 2 ^ 252 + ((R + 1) * (4 / 2 ^ 64) + 1 / 2 ^ 174) : ℚ) = ε at key ⊢
  have h1 : ∀ (O : S → Block) (H : A → Seed) (W : Seed → Fin (1 * 2 * 4) → Block),
      ind (AcceptedUnlinkable E cfg S A sts (c.run O H W) O H W) ≤ ∑ i : Fin (j + 1),
        ind ((∀ r ∈ K, r • (sts ((c.part i).run O H W).k).J ≠ U) ∧
          AcceptedForgery E cfg S A sts ((c.part i).run O H W) O H W) := by
    intro O H W
    apply ind_le_sum
    rintro ⟨h1, h2⟩
    obtain ⟨i, hi⟩ := tag_outside U hU K hK (fun i => (sts (c.run O H W i).k).J) h2
    refine ⟨i, mem_univ i, ?_⟩
    rw [AttackProgram.part, AttackProgram.run_map]
    exact ⟨hi, h1 i⟩
  refine (avg_mono _ _ fun O => avg_mono _ _ fun H => avg_mono _ _ fun W => h1 O H W).trans ?_
  rw [avg_sum₃, avg_sum₃]
  refine (sum_le_sum fun i _ => key i).trans ?_
  rw [sum_add_distrib, sum_const, card_univ, Fintype.card_fin, nsmul_eq_mul, Nat.cast_add, Nat.cast_one]
  refine add_le_add_right (sum_le_sum fun i _ => avg_mono _ _ fun O => avg_mono _ _ fun H => avg_mono _ _ fun W => ?_) _
  rw [Nat.cast_le]
  refine card_le_card fun s hs => ?_
  rw [mem_filter] at hs ⊢
  exact ⟨hs.1, rewinds_outside K E S sts U hUU _ O s hs.2⟩

open Classical in
/-- C88 for whole rings: if the rings of all statements together consist of `j` keys, the probability that `j + 1` proofs with
different linking tags are all accepted is bounded in the same way, where only relations among the commitment generators
are extracted. -/
theorem C88_ring {κ : Type} {P : Type} [AddCommGroup P] [Module (ZMod ℓ) P] [DecidableEq P]
    (E : Env (ZMod ℓ) P) (hE : E.Lawful) (hwide : ∀ b, E.scalarOfWide b = ((leNat b : ℕ) : ZMod ℓ)) (cfg : Config)
    (S A : Finset Transcript) (hS : ∀ t ∈ S, t.getLast? = some (.challenge "xi" 64)) (sts : κ → Statement P)
    (hst : ∀ k, StatementBuilt E (sts k)) (hinj : ∀ k k', (sts k).hash = (sts k').hash → k = k')
    (G : P) (hG : G ≠ 0) (hGG : ∀ k, (sts k).params.G = G)
    (U : P) (hU : U ≠ 0) (hUU : ∀ k, (sts k).params.U = U) (m : ℕ) (hm : ∀ k, (sts k).params.m ≤ m)
    (j : ℕ) (keys : Finset P) (hsub : ∀ k, ∀ M ∈ (sts k).inputSet.M, M ∈ keys) (hkeys : #keys ≤ j)
    (c : AttackProgram S Block A Seed Seed (Fin (1 * 2 * 4) → Block) (Fin (j + 1) → Forgery κ (ZMod ℓ) P)) (Q R T : ℕ)
    (hc : c.AtMost Q R T) :
    (avg fun O : S → Block => avg fun H : A → Seed => avg fun W : Seed → Fin (1 * 2 * 4) → Block =>
      ind (AcceptedUnlinkable E cfg S A sts (c.run O H W) O H W)) ≤
      (j + 1) * (m * (Q + 1) / 2 ^ 252 + ((R + 1) * (4 / 2 ^ 64) + 1 / 2 ^ 174)) +
      avg fun O : S → Block => avg fun H : A → Seed => avg fun W : Seed → Fin (1 * 2 * 4) → Block =>
        ∑ i, (#{s ∈ ((c.part i).challengesOnly H W).touched (Forgery.crit E S sts) O |
          RewindsToRelation E S sts ((c.part i).challengesOnly H W) O s} : ℚ) := by
  obtain ⟨h1, h2⟩ := C88_all_keys (κ := κ) (F := ZMod ℓ) keys G hG
  refine (C88_ristretto E hE hwide cfg S A hS sts hst hinj U hU hUU m hm j _ (h1.trans hkeys) c Q R T hc).trans ?_
  refine add_le_add_right (avg_mono _ _ fun O => avg_mono _ _ fun H => avg_mono _ _ fun W => sum_le_sum fun i _ => ?_) _
  rw [Nat.cast_le]
  refine card_le_card fun s hs => ?_
  rw [mem_filter] at hs ⊢
  exact ⟨hs.1, h2 E S sts hsub hGG _ O s hs.2⟩

/-- Who knows a key succeeds, for the challenge from the transcript determined by the nonces. -/
theorem honest_forges {κ : Type} (E : Env F P) (S : Finset Transcript) (sts : κ → Statement P)
    (hst : ∀ k, StatementBuilt E (sts k)) (k : κ) (t : Transcript) (l : ℕ) (r : F)
    (hrel : Rel (sts k).params.G (sts k).params.U (sts k).inputSet.M (sts k).J l r) (nn : Nonces F)
    (h : Forgery.point E sts ⟨k, t, honestProof (sts k).params (sts k).inputSet.M (sts k).J l r nn 0⟩ ∈ S) (O : S → Block) :
    Forges E S sts (.done ⟨k, t, honestProof (sts k).params (sts k).inputSet.M (sts k).J l r nn
      (E.scalarOfWide (O ⟨_, h⟩).bytes)⟩) O := by
  refine ⟨h, honest_shape _ _ _ _ _ nn _, ?_⟩
  have e := challenge_withOracle E S O t (sts k) (honestProof (sts k).params (sts k).inputSet.M (sts k).J l r nn
    (E.scalarOfWide (O ⟨_, h⟩).bytes)) ⟨_, h⟩ rfl
  show Valid _ _ _ _ (challenge (withOracle E S O) t (sts k) (honestProof (sts k).params (sts k).inputSet.M (sts k).J l r nn
    (E.scalarOfWide (O ⟨_, h⟩).bytes)))
  rw [e]
  have hl : l < (sts k).params.n ^ (sts k).params.m := by
    have h1 := (List.getElem?_eq_some_iff.1 hrel.1).1
    rw [(hst k).ok.length] at h1
    exact h1
  exact honest_valid _ (hst k).ok.params _ _ _ _ nn hl hrel _

namespace Toy.Ristretto
open Triptych.Toy (env get transcript)

def witness2 : Witness S S := get ⟨params, 0, 0⟩ (Witness.new params 3 11)

/-- The statement of the holder of the key 11. -/
def statement2 : Statement S := get ⟨params, inputSet, 0, []⟩
  (Statement.new (env ℓ) params inputSet witness2.computeLinkingTag)
theorem statement2_new : Statement.new (env ℓ) params inputSet witness2.computeLinkingTag = .ok statement2 := by
  decide +kernel
theorem statement2_built : StatementBuilt (env ℓ) statement2 :=
  ⟨_, _, _, params_built, Or.inl ⟨_, inputSet_new⟩, statement2_new⟩

def sts (k : Bool) : Statement S := if k then statement2 else statement

theorem sts_built (k : Bool) : StatementBuilt (env ℓ) (sts k) := by
  cases k
  · exact statement_built
  · exact statement2_built

def index (k : Bool) : ℕ := if k then 3 else 2
def key (k : Bool) : S := if k then 11 else 7

theorem sts_rel (k : Bool) : Rel (sts k).params.G (sts k).params.U (sts k).inputSet.M (sts k).J (index k) (key k) := by
  cases k
  · exact ⟨by decide +kernel, by decide +kernel⟩
  · exact ⟨by decide +kernel, by decide +kernel⟩

/-- What the holder of the key outputs for the challenge `ξ`. -/
noncomputable def output (nn : Nonces S) (k : Bool) (ξ : S) : Forgery Bool S S :=
  ⟨k, transcript, honestProof (sts k).params (sts k).inputSet.M (sts k).J (index k) (key k) nn ξ⟩

noncomputable def domain (nn : Nonces S) : Finset Transcript :=
  univ.image fun k => Forgery.point (env ℓ) sts (output nn k 0)

theorem mem_domain (nn : Nonces S) (k : Bool) : Forgery.point (env ℓ) sts (output nn k 0) ∈ domain nn :=
  mem_image_of_mem _ (mem_univ k)

/-- The holders of two keys, as one program. -/
noncomputable def both (nn : Nonces S) {A X V Y : Type} : AttackProgram (domain nn) Block A X V Y (Fin 2 → Forgery Bool S S) :=
  .challenge ⟨_, mem_domain nn false⟩ fun b => .challenge ⟨_, mem_domain nn true⟩ fun b' =>
    .done ![output nn false ((env ℓ).scalarOfWide b.bytes), output nn true ((env ℓ).scalarOfWide b'.bytes)]

theorem output_forges (nn : Nonces S) (k : Bool) (O : domain nn → Block) :
    Forges (env ℓ) (domain nn) sts (.done (output nn k ((env ℓ).scalarOfWide (O ⟨_, mem_domain nn k⟩).bytes))) O :=
  honest_forges (env ℓ) (domain nn) sts sts_built k transcript (index k) (key k) (sts_rel k) nn (mem_domain nn k) O

theorem both_run (nn : Nonces S) {A X V Y : Type} (O : domain nn → Block) (H : A → X) (W : V → Y) (i : Fin 2) :
    ∃ k, (i = 0 ↔ k = false) ∧
      (both nn).run O H W i = output nn k ((env ℓ).scalarOfWide (O ⟨_, mem_domain nn k⟩).bytes) := by
  refine Fin.cases ⟨false, ?_, rfl⟩ (fun i => Fin.cases ⟨true, ?_, rfl⟩ (fun i => i.elim0) i) i
  · simp
  · simp

theorem sts_hash : ∀ k k', (sts k).hash = (sts k').hash → k = k' := by decide +kernel
theorem sts_tag : ∀ k k', (sts k).J = (sts k').J → k = k' := by decide +kernel
theorem sts_U : ∀ k, (sts k).params.U = params.U := by decide +kernel
theorem sts_G : ∀ k, (sts k).params.G = params.G := by decide +kernel
theorem sts_m : ∀ k, (sts k).params.m ≤ 2 := by decide +kernel

end Toy.Ristretto

theorem forges_congr {κ : Type} (E : Env F P) (S : Finset Transcript) (sts : κ → Statement P)
    (c c' : OracleProgram S Block (Forgery κ F P)) (O : S → Block) (h : c.run O = c'.run O) :
    Forges E S sts c O ↔ Forges E S sts c' O := by
  simp only [Forges, h]

/-- The holders of the keys 7 and 11 of a ring as one program meet the hypotheses of `C88_ristretto` for `K = {7}`: they make two
valid proofs with different linking tags, and the second key is not in `K`. -/
example (nn : Nonces (ZMod ℓ)) (A : Finset Transcript) :
    (∀ t ∈ Toy.Ristretto.domain nn, t.getLast? = some (.challenge "xi" 64)) ∧
    (∀ k, StatementBuilt (Toy.env ℓ) (Toy.Ristretto.sts k)) ∧
    (∀ k k', (Toy.Ristretto.sts k).hash = (Toy.Ristretto.sts k').hash → k = k') ∧
    (∀ k, (Toy.Ristretto.sts k).params.U = Toy.Ristretto.params.U) ∧ Toy.Ristretto.params.U ≠ 0 ∧
    (∀ k, (Toy.Ristretto.sts k).params.m ≤ 2) ∧ #({7} : Finset (ZMod ℓ)) ≤ 1 ∧
    (Toy.Ristretto.both nn : AttackProgram _ _ A Seed Seed (Fin (1 * 2 * 4) → Block) _).AtMost 2 0 0 ∧
    ∀ (O : Toy.Ristretto.domain nn → Block) (H : A → Seed) (W : Seed → Fin (1 * 2 * 4) → Block),
      (∀ i, Forges (Toy.env ℓ) (Toy.Ristretto.domain nn) Toy.Ristretto.sts
        (((Toy.Ristretto.both nn).part i).challengesOnly H W) O) ∧
      ∀ i i', (Toy.Ristretto.sts ((Toy.Ristretto.both nn).run O H W i).k).J =
        (Toy.Ristretto.sts ((Toy.Ristretto.both nn).run O H W i').k).J → i = i' := by
  refine ⟨fun t ht => ?_, Toy.Ristretto.sts_built, Toy.Ristretto.sts_hash, Toy.Ristretto.sts_U, by decide +kernel,
    Toy.Ristretto.sts_m, (card_singleton _).le, ⟨by norm_num, fun _ => ⟨by norm_num, fun _ => trivial⟩⟩,
    fun O H W => ⟨fun i => ?_, fun i i' h => ?_⟩⟩
  · obtain ⟨k, -, rfl⟩ := mem_image.1 ht
    exact challengeTranscript_getLast _ _ _ _ _ _ _ _ _
  · obtain ⟨k, -, hk⟩ := Toy.Ristretto.both_run nn O H W i
    refine (forges_congr _ _ _ _ (.done _) O ?_).2 (Toy.Ristretto.output_forges nn k O)
    rw [AttackProgram.run_challengesOnly, AttackProgram.part, AttackProgram.run_map, hk]
    rfl
  · obtain ⟨k, h1, hk⟩ := Toy.Ristretto.both_run nn O H W i
    obtain ⟨k', h1', hk'⟩ := Toy.Ristretto.both_run nn O H W i'
    rw [hk, hk'] at h
    have := Toy.Ristretto.sts_tag k k' h
    subst this
    have := h1.trans h1'.symm
    clear * - this
    omega

theorem Toy.Ristretto.sts_keys : ∀ k, (sts k).inputSet.M = keys := by decide +kernel

/-- The four keys of the ring: the hypotheses of `C88_ring`. -/
example : (∀ k, ∀ M ∈ (Toy.Ristretto.sts k).inputSet.M, M ∈ Toy.Ristretto.keys.toFinset) ∧ #Toy.Ristretto.keys.toFinset ≤ 4 ∧
    (∀ k, (Toy.Ristretto.sts k).params.G = Toy.Ristretto.params.G) ∧ Toy.Ristretto.params.G ≠ 0 := by
  refine ⟨fun k M hM => List.mem_toFinset.2 (by rw [← Toy.Ristretto.sts_keys k]; exact hM), (List.toFinset_card_le _).trans ?_,
    Toy.Ristretto.sts_G, by decide +kernel⟩
  rw [Toy.Ristretto.keys, List.length_map]
  rfl

end Triptych
