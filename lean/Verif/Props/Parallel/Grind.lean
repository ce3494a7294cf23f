import Verif.Lemmas.Parallel.Seeds
import Verif.Props.Grind

/-! # Looking for convenient weights of parallel proofs: C81, C82

The weights of a batch depend on each of its proofs only through a seed of 64 bits. C57 shows how this can be used to get an
invalid proof accepted with about `2 ^ 64` steps of work. Here we show that there is no essentially better way, when the functions
giving the seeds and the weights are random. -/
set_option autoImplicit false
set_option linter.unusedSectionVars false
set_option linter.unusedVariables false

namespace Triptych.Parallel
open Finset Function
open Triptych.Parallel.Spec
open Triptych.Spec (avg Block Block.bytes weightKey weightTranscript queryPoint withSeeds Seed GrindProgram weightBound)

variable {F P : Type} [Field F] [AddCommGroup P] [Module F P] [DecidableEq F] [DecidableEq P]

/-- With the seeds `H` and the weights `W`, the output is an invalid proof that is accepted. The transcript from which the
verifier derives its seed is in `A`. -/
def Spec.AcceptedInvalid {κ : Type} (E : Env F P) (cfg : Config) (A : Finset Transcript) (sts : κ → Statement P) {N : ℕ}
    (x : Forgery κ F P) (H : A → Seed) (W : Seed → Fin N → Block) : Prop :=
  responseTranscript E x.t (sts x.k) x.p ∈ A ∧
    ¬ Valid (sts x.k).params (sts x.k).inputSet.M (sts x.k).inputSet.M1 (sts x.k).offset (sts x.k).J x.p (challenge E x.t (sts x.k) x.p) ∧
    (Proof.verify (withSeeds E "Parallel Triptych verifier weights" A H (fun s : Seed => [s.val]) W) cfg x.p (sts x.k) x.t).1 = .ok ()

/-- With the seeds `H` and the weights `W`, the output is a batch of `k + 1` proofs, one of them invalid, which is accepted. The
transcripts from which the verifier derives the seeds are in `A`. -/
def Spec.AcceptedInvalidBatch {κ : Type} (E : Env F P) (cfg : Config) (A : Finset Transcript) (sts : κ → Statement P) {k N : ℕ}
    (x : Fin (k + 1) → Forgery κ F P) (H : A → Seed) (W : (Fin (k + 1) → Seed) → Fin N → Block) : Prop :=
  (∀ i, responseTranscript E (x i).t (sts (x i).k) (x i).p ∈ A) ∧
    (∃ i, ¬ Valid (sts (x 0).k).params (sts (x 0).k).inputSet.M (sts (x 0).k).inputSet.M1 (sts (x i).k).offset (sts (x i).k).J (x i).p
      (challenge E (x i).t (sts (x i).k) (x i).p)) ∧
    (Proof.verifyBatch (withSeeds E "Parallel Triptych verifier weights" A H (fun s => List.ofFn fun i => (s i).val) W) cfg
      (List.ofFn fun i => sts (x i).k) (List.ofFn fun i => (x i).p) (List.ofFn fun i => (x i).t)).1 = .ok ()

open Classical in
/-- The transcript giving the seed of a proof, if it is in `A`. -/
noncomputable def seedPoint {κ : Type} (E : Env F P) (A : Finset Transcript) (sts : κ → Statement P) (x : Forgery κ F P) : Option A :=
  if h : responseTranscript E x.t (sts x.k) x.p ∈ A then some ⟨_, h⟩ else none

open Classical in
/-- The transcripts giving the seeds of a batch, if they are in `A`. -/
noncomputable def seedPoints {κ : Type} (E : Env F P) (A : Finset Transcript) (sts : κ → Statement P) {k : ℕ}
    (x : Fin (k + 1) → Forgery κ F P) : Option (Fin (k + 1) → A) :=
  if h : ∀ i, responseTranscript E (x i).t (sts (x i).k) (x i).p ∈ A then some fun i => ⟨_, h i⟩ else none

/-- The batch is an invalid one with seed transcripts `a`. -/
def InvalidFor {κ : Type} (E : Env F P) (A : Finset Transcript) (sts : κ → Statement P) {k : ℕ}
    (x : Fin (k + 1) → Forgery κ F P) (a : Fin (k + 1) → A) : Prop :=
  (∀ i, responseTranscript E (x i).t (sts (x i).k) (x i).p = a i) ∧ (∀ i, Shape (sts (x 0).k).params (x i).p) ∧
    InvalidBatch E (sts (x 0).k) (List.ofFn fun i : Fin k => sts (x i.succ).k) (List.ofFn fun i => (x i).p) (List.ofFn fun i => (x i).t)

open Classical in
/-- The tables of weights for which an invalid batch with seed transcripts `a` may be accepted. -/
noncomputable def badTables [Fintype F] {κ : Type} (E : Env F P) (A : Finset Transcript) (sts : κ → Statement P) (k j : ℕ)
    (a : Fin (k + 1) → A) : Finset (Fin ((k + 1) * j * 5) → Block) :=
  {τ | ∃ x : Fin (k + 1) → Forgery κ F P, InvalidFor E A sts x a ∧
    BadTable E (sts (x 0).k) (List.ofFn fun i : Fin k => sts (x i.succ).k) (List.ofFn fun i => (x i).p) (List.ofFn fun i => (x i).t) τ}

theorem mem_badTables [Fintype F] {κ : Type} (E : Env F P) (A : Finset Transcript) (sts : κ → Statement P) (k j : ℕ)
    (a : Fin (k + 1) → A) (τ : Fin ((k + 1) * j * 5) → Block) : τ ∈ badTables E A sts k j a ↔
      ∃ x : Fin (k + 1) → Forgery κ F P, InvalidFor E A sts x a ∧
    BadTable E (sts (x 0).k) (List.ofFn fun i : Fin k => sts (x i.succ).k) (List.ofFn fun i => (x i).p) (List.ofFn fun i => (x i).t) τ := by
  classical
  rw [badTables]
  exact mem_filter.trans (and_iff_right (mem_univ _))

theorem badTables_card [Fintype F] {κ : Type} (E : Env F P) (hE : E.Lawful) (A : Finset Transcript) (sts : κ → Statement P)
    (hst : ∀ k, StatementBuilt E (sts k)) (hinj : ∀ k k', (sts k).hash = (sts k').hash → k = k')
    (D K : ℕ) (hD : D = 2 ^ 512) (hK : ∀ x : F, #{b : Block | E.scalarOfWide b.bytes = x} ≤ K) (hK2 : K < D) (k j : ℕ)
    (a : Fin (k + 1) → A) :
    (#(badTables E A sts k j a) : ℚ) ≤ weightBound 5 (Fintype.card F) K D (k + 1) j *
      Fintype.card (Fin ((k + 1) * j * 5) → Block) := by
  have hcard : (0 : ℚ) < Fintype.card (Fin ((k + 1) * j * 5) → Block) := by exact_mod_cast Fintype.card_pos
  rw [← div_le_iff₀ hcard, ← avg_ind_mem]
  by_cases hne : ∃ x : Fin (k + 1) → Forgery κ F P, InvalidFor E A sts x a
  · obtain ⟨x, hx1, hx2, hx3⟩ := hne
    refine le_trans (avg_mono _ _ fun τ => ind_mono ?_) (badTable_avg E (sts (x 0).k) (List.ofFn fun i : Fin k => sts (x i.succ).k)
      (List.ofFn fun i => (x i).p) (List.ofFn fun i => (x i).t) (by simp) (by simp) hx3 D K hD hK hK2 (k := k + 1) (by simp) j)
    rw [mem_badTables]
    rintro ⟨y, ⟨hy1, hy2, hy3⟩, hy4⟩
    have hk : (y 0).k = (x 0).k := hinj _ _ (response_hash E hE _ _ _ _ _ _ ((hy1 0).trans (hx1 0).symm))
    have hxy : y = x := by
      funext i
      refine response_inj E hE sts hinj (sts (x 0).k).params (hst _).ok.params.n (y i) (x i) (hk ▸ hy2 i) (hx2 i)
        ((hy1 i).trans (hx1 i).symm)
    subst hxy
    exact hy4
  · have : ∀ τ, ind (τ ∈ badTables E A sts k j a) = 0 := fun τ => ind_neg fun h => by
      rw [mem_badTables] at h
      obtain ⟨x, h, -⟩ := h
      exact hne ⟨x, h⟩
    simp only [this]
    rw [avg_const]
    exact weightBound_nonneg _ _ _ _ _ _ hK2

/-- If an invalid batch is accepted, the table of its weights is bad. -/
theorem bad_of_accepted [Fintype F] {κ : Type} (E E' : Env F P) (cfg : Config) (A : Finset Transcript)
    (sts : κ → Statement P) (hE' : E' = { E with prf := E'.prf }) (hst : ∀ k, StatementBuilt E (sts k)) {k j : ℕ}
    (x : Fin (k + 1) → Forgery κ F P)
    (h1 : ∀ i, responseTranscript E (x i).t (sts (x i).k) (x i).p ∈ A)
    (h2 : ∃ i, ¬ Valid (sts (x 0).k).params (sts (x 0).k).inputSet.M (sts (x 0).k).inputSet.M1 (sts (x i).k).offset (sts (x i).k).J (x i).p
      (challenge E (x i).t (sts (x i).k) (x i).p))
    (h3 : (Proof.verifyBatch E' cfg (List.ofFn fun i => sts (x i).k) (List.ofFn fun i => (x i).p)
      (List.ofFn fun i => (x i).t)).1 = .ok ())
    (τ : Fin ((k + 1) * j * 5) → Block)
    (hτ : ∀ i (hi : i < (k + 1) * j * 5), E'.prf (queryPoint (weightKey "Parallel Triptych verifier weights"
      (List.ofFn fun i => weightSeed E' (x i).t (sts (x i).k) (x i).p)) i) 64 = (τ ⟨i, hi⟩).bytes) :
    τ ∈ badTables E A sts k j fun i => ⟨_, h1 i⟩ := by
  rw [hE'] at h3 hτ
  generalize E'.prf = prf at h3 hτ
  clear hE'
  rw [List.ofFn_succ (f := fun i => sts (x i).k)] at h3
  have hb : StatementBuilt { E with prf := prf } (sts (x 0).k) := hst _
  obtain ⟨i, hi⟩ := h2
  have hpre := (C50_accepted _ cfg _ _ _ _ hb h3).1
  have hinv : InvalidBatch { E with prf := prf } (sts (x 0).k) (List.ofFn fun i : Fin k => sts (x i.succ).k)
      (List.ofFn fun i => (x i).p) (List.ofFn fun i => (x i).t) := by
    refine ⟨i.val, sts (x i).k, (x i).p, challenge E (x i).t (sts (x i).k) (x i).p, ?_, ?_, ?_, hi⟩
    · rw [← List.ofFn_succ (f := fun i => sts (x i).k)]
      exact ofFn_some _ i
    · exact ofFn_some _ i
    · rw [← List.ofFn_succ (f := fun i => sts (x i).k), challenges, zip_ofFn, zip_ofFn, List.map_ofFn]
      exact ofFn_some _ i
  rw [mem_badTables]
  refine ⟨x, ⟨fun i => rfl, fun i => hpre.shapes _ (List.mem_ofFn.2 ⟨i, rfl⟩), hinv⟩, ?_⟩
  refine accepted_rows { E with prf := prf } cfg _ _ _ _ hb h3 hinv (k := k + 1) (by simp) τ fun i hi => ?_
  rw [← hτ i hi]
  congr 3
  rw [← List.ofFn_succ (f := fun i => sts (x i).k), seeds, zip_ofFn, zip_ofFn, List.map_ofFn]
  rfl

/-- C81: a program that asks for at most `Q` seeds and for the weights of at most `T` seeds outputs an invalid proof that is
accepted with probability at most `(Q + 1) (T / 2 ^ 64 + β)`, where `β` is the probability of C77 that an invalid proof is
accepted with a random table of weights. -/
theorem C81_accept [Fintype F] {κ : Type} (E : Env F P) (hE : E.Lawful) (cfg : Config) (A : Finset Transcript)
    (sts : κ → Statement P) (hst : ∀ k, StatementBuilt E (sts k)) (hinj : ∀ k k', (sts k).hash = (sts k').hash → k = k')
    (D K : ℕ) (hD : D = 2 ^ 512) (hK : ∀ x : F, #{b : Block | E.scalarOfWide b.bytes = x} ≤ K) (hK2 : K < D) (j : ℕ)
    (c : GrindProgram A Seed Seed (Fin (1 * j * 5) → Block) (Forgery κ F P)) (Q T : ℕ) (hc : c.AtMost Q T) :
    (avg fun H : A → Seed => avg fun W : Seed → Fin (1 * j * 5) → Block => ind (AcceptedInvalid E cfg A sts (c.run H W) H W)) ≤
      (Q + 1) * (T / 2 ^ 64 + weightBound 5 (Fintype.card F) K D 1 j) := by
  have hb := grind_bound (X := Seed) (seedPoint E A sts) (fun a => badTables E A sts 0 j fun _ => a) _
    (fun a => badTables_card E hE A sts hst hinj D K hD hK hK2 0 j _) (weightBound_nonneg _ _ _ _ _ _ hK2) c Q T hc
  rw [Fintype.card_fin] at hb
  refine le_trans (avg_mono _ _ fun H => avg_mono _ _ fun W => ind_mono ?_) (hb.trans (le_of_eq (by push_cast; rfl)))
  rintro ⟨h1, h2, h3⟩
  generalize hx : c.run H W = x at h1 h2 h3
  refine ⟨⟨_, h1⟩, by rw [hx, seedPoint, dif_pos h1], ?_⟩
  refine bad_of_accepted E _ cfg A sts rfl hst (k := 0) (fun _ => x) (fun _ => h1) ⟨0, h2⟩ h3 (W (H ⟨_, h1⟩)) fun i hi => ?_
  rw [← withSeeds_table E "Parallel Triptych verifier weights" A H (fun s : Seed => [s.val]) W ?_ ?_ (H ⟨_, h1⟩) i hi]
  · congr 3
    show [_] = _
    rw [withSeeds_weightSeed _ _ _ _ _ _ _ _ _ h1]
  · intro s s' h
    exact Fin.ext (List.cons.inj h).1
  · intro v x hx
    rw [List.mem_singleton.1 hx]
    exact v.2

/-- C82: a program that asks for at most `Q` seeds and `T` times for weights outputs a batch of `k` proofs that is accepted
although one of them is invalid with probability at most `(Q + k) (Q + k + k (T + 1)) / 2 ^ 64 + (T + 1) β`, where `β` is the
probability of C77 that an invalid batch is accepted with a random table of weights. -/
theorem C82_accept [Fintype F] {κ : Type} (E : Env F P) (hE : E.Lawful) (cfg : Config) (A : Finset Transcript)
    (sts : κ → Statement P) (hst : ∀ k, StatementBuilt E (sts k)) (hinj : ∀ k k', (sts k).hash = (sts k').hash → k = k')
    (D K : ℕ) (hD : D = 2 ^ 512) (hK : ∀ x : F, #{b : Block | E.scalarOfWide b.bytes = x} ≤ K) (hK2 : K < D) (k j : ℕ)
    (c : GrindProgram A Seed (Fin (k + 1) → Seed) (Fin ((k + 1) * j * 5) → Block) (Fin (k + 1) → Forgery κ F P))
    (Q T : ℕ) (hc : c.AtMost Q T) :
    (avg fun H : A → Seed => avg fun W : (Fin (k + 1) → Seed) → Fin ((k + 1) * j * 5) → Block =>
      ind (AcceptedInvalidBatch E cfg A sts (c.run H W) H W)) ≤
      (Q + (k + 1 : ℕ)) * ((Q + (k + 1 : ℕ) + (k + 1 : ℕ) * (T + 1)) / 2 ^ 64) +
        (T + 1) * weightBound 5 (Fintype.card F) K D (k + 1) j := by
  have hb := batch_bound (X := Seed) (badTables E A sts k j) (seedPoints E A sts) _
    (fun a => badTables_card E hE A sts hst hinj D K hD hK hK2 k j a) (weightBound_nonneg _ _ _ _ _ _ hK2) c Q T hc
  rw [Fintype.card_fin] at hb
  refine le_trans (avg_mono _ _ fun H => avg_mono _ _ fun W => ind_mono ?_) (hb.trans (le_of_eq (by push_cast; rfl)))
  rintro ⟨h1, h2, h3⟩
  generalize hx : c.run H W = x at h1 h2 h3
  refine ⟨fun i => ⟨_, h1 i⟩, by rw [seedPoints, dif_pos h1], ?_⟩
  refine bad_of_accepted E _ cfg A sts rfl hst (k := k) x h1 h2 h3 (W (H ∘ fun i => ⟨_, h1 i⟩)) fun i hi => ?_
  rw [← withSeeds_table E "Parallel Triptych verifier weights" A H (fun s => List.ofFn fun i => (s i).val) W seed_list_injective seed_lt
    (H ∘ fun i => ⟨_, h1 i⟩) i hi]
  congr 3
  congr 1
  funext i
  exact withSeeds_weightSeed _ _ _ _ _ _ _ _ _ (h1 i)

local notation "ℓ" => (2 ^ 252 + 27742317777372353535851937790883648493 : ℕ)

/-- C81 for Ristretto: the probability is at most `(Q + 1) (T / 2 ^ 64 + 1 / 2 ^ 251)`. -/
theorem C81_ristretto {P : Type} [AddCommGroup P] [Module (ZMod ℓ) P] [DecidableEq P] {κ : Type} (E : Env (ZMod ℓ) P)
    (hE : E.Lawful) (hwide : ∀ b, E.scalarOfWide b = ((leNat b : ℕ) : ZMod ℓ)) (cfg : Config) (A : Finset Transcript)
    (sts : κ → Statement P) (hst : ∀ k, StatementBuilt E (sts k)) (hinj : ∀ k k', (sts k).hash = (sts k').hash → k = k')
    (c : GrindProgram A Seed Seed (Fin (1 * 2 * 5) → Block) (Forgery κ (ZMod ℓ) P)) (Q T : ℕ) (hc : c.AtMost Q T) :
    (avg fun H : A → Seed => avg fun W : Seed → Fin (1 * 2 * 5) → Block => ind (AcceptedInvalid E cfg A sts (c.run H W) H W)) ≤
      (Q + 1) * (T / 2 ^ 64 + 1 / 2 ^ 251) := by
  obtain ⟨z, hz⟩ : ∃ z, z = 2 ^ 252 := ⟨_, rfl⟩
  obtain ⟨D, hD⟩ : ∃ D, D = 2 ^ 512 := ⟨_, rfl⟩
  have hD' : 256 ^ 64 ≤ D := by rw [hD, show (256 : ℕ) = 2 ^ 8 by norm_num, ← pow_mul]
  obtain ⟨a1, a2⟩ := weightBound_ristretto 5 D z 1 (by norm_num) (by norm_num) hz hD (by norm_num) (by norm_num)
  refine (C81_accept E hE cfg A sts hst hinj D (D / ℓ + 1) hD
    (fun x => by simp only [hwide]; exact blocks_value ℓ D hD' x) a1 2 c Q T hc).trans ?_
  have h0 : (0 : ℚ) ≤ Q + 1 := add_nonneg (Nat.cast_nonneg _) zero_le_one
  exact mul_le_mul_of_nonneg_left (add_le_add_right a2 _) h0

/-- C82 for Ristretto: the probability is at most `(Q + k) (Q + k + k (T + 1)) / 2 ^ 64 + (T + 1) / 2 ^ 251`. -/
theorem C82_ristretto {P : Type} [AddCommGroup P] [Module (ZMod ℓ) P] [DecidableEq P] {κ : Type} (E : Env (ZMod ℓ) P)
    (hE : E.Lawful) (hwide : ∀ b, E.scalarOfWide b = ((leNat b : ℕ) : ZMod ℓ)) (cfg : Config) (A : Finset Transcript)
    (sts : κ → Statement P) (hst : ∀ k, StatementBuilt E (sts k)) (hinj : ∀ k k', (sts k).hash = (sts k').hash → k = k') (k : ℕ)
    (c : GrindProgram A Seed (Fin (k + 1) → Seed) (Fin ((k + 1) * 2 * 5) → Block) (Fin (k + 1) → Forgery κ (ZMod ℓ) P))
    (Q T : ℕ) (hc : c.AtMost Q T) :
    (avg fun H : A → Seed => avg fun W : (Fin (k + 1) → Seed) → Fin ((k + 1) * 2 * 5) → Block =>
      ind (AcceptedInvalidBatch E cfg A sts (c.run H W) H W)) ≤
      (Q + (k + 1 : ℕ)) * ((Q + (k + 1 : ℕ) + (k + 1 : ℕ) * (T + 1)) / 2 ^ 64) + (T + 1) * (1 / 2 ^ 251) := by
  have hT : (0 : ℚ) ≤ T + 1 := add_nonneg (Nat.cast_nonneg _) zero_le_one
  by_cases hk32 : k + 1 ≤ 2 ^ 32
  · obtain ⟨z, hz⟩ : ∃ z, z = 2 ^ 252 := ⟨_, rfl⟩
    obtain ⟨D, hD⟩ : ∃ D, D = 2 ^ 512 := ⟨_, rfl⟩
    have hD' : 256 ^ 64 ≤ D := by rw [hD, show (256 : ℕ) = 2 ^ 8 by norm_num, ← pow_mul]
    obtain ⟨a1, a2⟩ := weightBound_ristretto 5 D z (k + 1) (by norm_num) (by norm_num) hz hD (by omega) hk32
    refine (C82_accept E hE cfg A sts hst hinj D (D / ℓ + 1) hD
      (fun x => by simp only [hwide]; exact blocks_value ℓ D hD' x) a1 k 2 c Q T hc).trans ?_
    exact add_le_add_right (mul_le_mul_of_nonneg_left a2 hT) _
  · have h0 : ∀ (H : A → Seed) (W : (Fin (k + 1) → Seed) → Fin ((k + 1) * 2 * 5) → Block),
        ind (AcceptedInvalidBatch E cfg A sts (c.run H W) H W) = 0 := by
      intro H W
      refine ind_neg ?_
      rintro ⟨-, -, h⟩
      rw [List.ofFn_succ (f := fun i => sts (c.run H W i).k)] at h
      have := (C50_accepted _ cfg _ _ _ _ (statementBuilt_withSeeds E _ A H _ W _ (hst _)) h).2.1.1
      rw [u32Max, List.length_ofFn] at this
      omega
    simp only [h0]
    rw [avg_const, avg_const]
    positivity

/-- A program that asks for the seed of the proof it holds and for the weights it gives, and outputs the proof: it meets the
hypotheses of `C81_accept` and `C81_ristretto`. -/
example (A : Finset Transcript) (a : A) : ∃ c : GrindProgram A Seed Seed (Fin (1 * 2 * 5) → Block) (Forgery Unit (ZMod ℓ) (ZMod ℓ)),
    c.AtMost 1 1 ∧ (Triptych.Toy.env ℓ).Lawful ∧ (∀ b, (Triptych.Toy.env ℓ).scalarOfWide b = ((leNat b : ℕ) : ZMod ℓ)) ∧
    (∀ k : Unit, StatementBuilt (Triptych.Toy.env ℓ) ((fun _ => Toy.Ristretto.statement) k)) ∧
    (∀ k k' : Unit, Toy.Ristretto.statement.hash = Toy.Ristretto.statement.hash → k = k') ∧
    ¬ Valid Toy.Ristretto.statement.params Toy.Ristretto.statement.inputSet.M Toy.Ristretto.statement.inputSet.M1
      Toy.Ristretto.statement.offset Toy.Ristretto.statement.J Toy.Ristretto.badProof
      (challenge (Triptych.Toy.env ℓ) Triptych.Toy.transcript Toy.Ristretto.statement Toy.Ristretto.badProof) := by
  have h := Toy.Ristretto.badProof_invalid
  have hb := Toy.Ristretto.statement_built
  generalize Toy.Ristretto.statement = st at *
  generalize Toy.Ristretto.badProof = p at *
  exact ⟨.seed a fun x => .weights x fun τ => .done ⟨(), Triptych.Toy.transcript, p⟩,
    ⟨by norm_num, fun _ => ⟨by norm_num, fun _ => trivial⟩⟩,
    Triptych.Toy.env_lawful ℓ (by norm_num), fun _ => rfl, fun _ => hb, fun _ _ _ => rfl, fun h' => h h'.e4⟩

/-- The same for batches of two proofs. -/
example (A : Finset Transcript) (a : A) (p : Proof (ZMod ℓ) (ZMod ℓ)) : ∃ c : GrindProgram A Seed (Fin 2 → Seed) (Fin (2 * 2 * 5) → Block)
    (Fin 2 → Forgery Unit (ZMod ℓ) (ZMod ℓ)), c.AtMost 1 1 :=
  ⟨.seed a fun x => .weights (fun _ => x) fun τ => .done fun i => ⟨(), Triptych.Toy.transcript,
    { p with z := p.z + (τ 0 0 : ℕ) * i.val }⟩,
    ⟨by norm_num, fun _ => ⟨by norm_num, fun _ => trivial⟩⟩⟩

end Triptych.Parallel
