import Verif.Props.RewindChosen
import Verif.Lemmas.DLog

/-! # Forging is as hard as computing a discrete logarithm: C105

C98 extracts from a successful attack a signing key or a relation among the commitment generators. Here the generators are random
points, as hashing to the group is meant to give, and the honest users' keys are random numbers. Then either yields the discrete
logarithm of a given point: an explicit algorithm sets up the public data from the given point, runs the attack with the extractor, and
computes the discrete logarithm from what it yields. -/
set_option autoImplicit false
set_option linter.unusedSectionVars false
set_option linter.unusedVariables false

namespace Triptych
open Spec Finset Function

/-- The environment in which the generators are `g`: the hash inputs from which `new` derives the generators give strings `enc X` that
are mapped to the points `X` of `g`. -/
def Spec.withGenerators {F P : Type} [Zero P] (E : Env F P) (enc : P → Bytes) {n m : ℕ} (g : Generators n m P) : Env F P :=
  { E with xof := fun input offset len =>
      if input = POINT_U ++ leBytes 8 VERSION then enc g.2.2.1
      else if input = POINT_COMMITMENT_H ++ leBytes 8 VERSION then enc g.2.1.1
      else if h : input = POINT_COMMITMENT_G ++ leBytes 8 VERSION ++ leBytes 4 n ++ leBytes 4 m ∧ offset / 64 < n * m then
        enc (g.1 ⟨offset / 64, h.2⟩)
      else E.xof input offset len }

/-- The parameters with the generators `g`. -/
def Spec.paramsOf {F P : Type} [Zero P] (E : Env F P) {n m : ℕ} (g : Generators n m P) : Params P :=
  ⟨n, m, E.basepoint, g.2.2.1, List.ofFn g.1, g.2.1.1,
    ((Params.hashTranscript E n m E.basepoint g.2.2.1 (List.ofFn g.1) g.2.1.1).challengeBytes E "hash" TRANSCRIPT_HASH_BYTES).1⟩

/-- C105: with the generators `g`, `new` returns the parameters with the generators `g`. -/
theorem C105_params {F P : Type} [Zero P] (E : Env F P) (enc : P → Bytes) (henc : ∀ X, E.pointOfUniform (enc X) = X) {n m : ℕ}
    (hnm : ∃ params, Params.new E n m = .ok params) (g : Generators n m P) :
    Params.new (withGenerators E enc g) n m = .ok (paramsOf E g) := by
  obtain ⟨params, hp⟩ := hnm
  have h1 : POINT_COMMITMENT_H ++ leBytes 8 VERSION ≠ POINT_U ++ leBytes 8 VERSION := by decide +kernel
  have h2 : POINT_COMMITMENT_G ++ leBytes 8 VERSION ++ leBytes 4 n ++ leBytes 4 m ≠ POINT_U ++ leBytes 8 VERSION := by
    intro h
    have := congrArg List.length h
    simp only [List.length_append, leBytes_length] at this
    revert this
    decide +kernel
  have h3 : POINT_COMMITMENT_G ++ leBytes 8 VERSION ++ leBytes 4 n ++ leBytes 4 m ≠ POINT_COMMITMENT_H ++ leBytes 8 VERSION := by
    intro h
    have := congrArg List.length h
    simp only [List.length_append, leBytes_length] at this
    revert this
    decide +kernel
  have hU : (withGenerators E enc g).pointOfUniform ((withGenerators E enc g).xof (POINT_U ++ leBytes 8 VERSION) 0 64) = g.2.2.1 := by
    rw [withGenerators]
    dsimp only
    rw [if_pos rfl, henc]
  have hH : Params.commitmentH (withGenerators E enc g) = g.2.1.1 := by
    rw [Params.commitmentH, withGenerators]
    dsimp only
    rw [if_neg h1, if_pos rfl, henc]
  have hG : (List.range (n * m)).map (Params.commitmentG (withGenerators E enc g) n m) = List.ofFn g.1 := by
    rw [List.ofFn_eq_map, ← List.map_coe_finRange_eq_range, List.map_map]
    refine List.map_congr_left fun i _ => ?_
    rw [Function.comp, Params.commitmentG, withGenerators]
    dsimp only
    have hi : 64 * i.val / 64 = i.val := Nat.mul_div_cancel_left _ (by norm_num)
    rw [if_neg h2, if_neg h3, dif_pos ⟨rfl, by rw [hi]; exact i.2⟩, henc]
    exact congrArg g.1 (Fin.ext hi)
  rw [Params.new, Params.newWithGenerators] at hp ⊢
  dsimp only at hp ⊢
  rw [hU, hH]
  split at hp
  · cases hp
  rename_i c1
  split at hp
  · cases hp
  rename_i c2
  split at hp
  · cases hp
  rename_i c3
  rw [if_neg c1, if_neg c2, if_neg c3]
  cases hc : checkedMul n m with
  | none => rw [hc] at hp; cases hp
  | some nm =>
    have hnm : nm = n * m := by
      rw [checkedMul] at hc
      split at hc
      · exact (Option.some.inj hc).symm
      · cases hc
    subst hnm
    dsimp only
    rw [hG]
    rfl

section
variable {F P : Type} [Field F] [AddCommGroup P] [Module F P] [DecidableEq F] [DecidableEq P]

/-- An attack, everything in which may depend on the public data: the statements it is about, the signatures by honest users it may
request, and the program. -/
structure Spec.Attack (n m : ℕ) (P υ κ γ prog : Type) [Zero P] where
  sts : Public n m P υ → κ → Statement P
  /-- whose signature is requested -/
  user : Public n m P υ → γ → υ
  /-- for which statement -/
  stmt : Public n m P υ → γ → κ
  /-- with which transcript -/
  transcript : Public n m P υ → γ → Transcript
  /-- where the user's key is in the ring -/
  position : Public n m P υ → γ → ℕ
  prog : Public n m P υ → prog

/-- The request to a user with the signing key `r`. -/
def Spec.Attack.request {n m : ℕ} {υ κ γ prog : Type} (a : Attack n m P υ κ γ prog) (pub : Public n m P υ) (r : υ → F) (g : γ) :
    Request κ F :=
  ⟨a.stmt pub g, a.transcript pub g, a.position pub g, r (a.user pub g)⟩

/-- The attack is about statements with the published parameters, with different hashes; users are asked to sign for rings with their
keys at the given position and for their linking tags, and challenges of signatures are derived from transcripts in `S`. -/
structure Spec.Attack.Legal {n m : ℕ} {υ κ γ prog : Type} (F : Type) [Field F] [Module F P] (E : Env F P) (enc : P → Bytes)
    (S : Finset Transcript) (a : Attack n m P υ κ γ prog) : Prop where
  built : ∀ (g : Generators n m P) (x : υ → Fˣ) k, StatementBuilt (withGenerators E enc g) (a.sts (publish E.basepoint g x) k)
  params : ∀ (g : Generators n m P) (x : υ → Fˣ) k, (a.sts (publish E.basepoint g x) k).params = paramsOf E g
  inj : ∀ (g : Generators n m P) (x : υ → Fˣ) k k', (a.sts (publish E.basepoint g x) k).hash = (a.sts (publish E.basepoint g x) k').hash →
    k = k'
  key : ∀ (g : Generators n m P) (x : υ → Fˣ) c,
    (a.sts (publish E.basepoint g x) (a.stmt (publish E.basepoint g x) c)).inputSet.M[a.position (publish E.basepoint g x) c]? =
      some ((publish E.basepoint g x).key (a.user (publish E.basepoint g x) c))
  tag : ∀ (g : Generators n m P) (x : υ → Fˣ) c, (a.sts (publish E.basepoint g x) (a.stmt (publish E.basepoint g x) c)).J =
      (publish E.basepoint g x).tag (a.user (publish E.basepoint g x) c)
  point : ∀ (g : Generators n m P) (x : υ → Fˣ) c coins, signTranscript E (paramsOf E g) (a.sts (publish E.basepoint g x))
    (a.request (publish E.basepoint g x) (fun i => (x i : F)) c) coins ∈ S

/-- All members of the ring are honest users' keys, or the linking tag is an honest user's. -/
def Spec.Targets {n m : ℕ} {υ : Type} (pub : Public n m P υ) (st : Statement P) : Prop :=
  (∀ X ∈ st.inputSet.M, ∃ i, X = pub.key i) ∨ ∃ i, st.J = pub.tag i

/-- The candidates for the discrete logarithm of `Y` from the runs kept by the extractor, if the public data was set up with `ρ`: the
extracted key divided by the factor `t i` of each user's key, and the answers from the relations. -/
noncomputable def Spec.candidates {n m : ℕ} {υ κ : Type} [Fintype υ] (E : Env F P) (ρ : SetupCoins n m F υ) :
    List (Block × Forgery κ F P) → List F
  | [] => []
  | x :: L =>
    let ξ := fun e => E.scalarOfWide (nth x L e).1.bytes
    let p := fun e => (nth x L e).2.p
    (univ : Finset υ).toList.map (fun i => extractKey m ξ (fun e => (p e).z) / ρ.t i) ++
    (List.range (m + 1)).map (fun e => relationAnswer ρ (fun j i => defect ξ (fun e' => fullF (p e').f (ξ e') j i) e)
      (defect ξ (fun e' => (p e').zA) e)) ++
    [relationAnswer ρ (fun j i => defect ξ (fun e' => fullF (p e').f (ξ e') j i * (ξ e' - fullF (p e').f (ξ e') j i)) 2)
      (defect ξ (fun e' => (p e').zC) 2)]

/-- The first candidate that is the discrete logarithm of `Y`. -/
def Spec.pick (G Y : P) (L : List F) : F := (L.find? fun y => y • G = Y).getD 0

/-- The randomness of the solver, after the public data is set up: seeds, weights, the simulated signers' choices, challenges, and the
answers for rewinding. -/
abbrev Spec.SolverCoins (F : Type) (n m : ℕ) (S A : Finset Transcript) (V Y : Type) (q τ : ℕ) :=
  (A → Seed) × (V → Y) × (Fin q → Block × (HybridCoins F n m × (Fin (m - 1) → F))) × (S → Block) × (Fin m → Fin τ → Block)

/-- The runs of the attack `c` kept by the extractor, with simulated signers who know no key. -/
noncomputable def Spec.keptRuns {n m : ℕ} {υ κ γ prog V Y : Type} (E : Env F P) (enc : P → Bytes) (S A : Finset Transcript) [Nonempty S]
    (a : Attack n m P υ κ γ prog)
    (c : prog → ChosenProgram S Block A Seed V Y γ (Option (Proof F P)) (Forgery κ F P)) {q τ : ℕ}
    (d : Block × (HybridCoins F n m × (Fin (m - 1) → F)))
    (pub : Public n m P υ) (ω : SolverCoins F n m S A V Y q τ) : List (Block × Forgery κ F P) :=
  extractor (withGenerators E enc pub.gens) S (a.sts pub)
    (((c (a.prog pub)).signingOnly ω.1 ω.2.1).simulated (fun g => simKeyless E S (paramsOf E pub.gens) (a.sts pub)
      (a.request pub (fun _ => 0) g)) (extend d ω.2.2.1) []) ω.2.2.2.1 (tries ω.2.2.2.2)

/-- The solver for discrete logarithms: set up the public data from `Y`, run the attack and the extractor, and pick. -/
noncomputable def Spec.solver {n m : ℕ} {υ κ γ prog V Y : Type} [Fintype υ] (E : Env F P) (enc : P → Bytes) (S A : Finset Transcript) [Nonempty S]
    (a : Attack n m P υ κ γ prog)
    (c : prog → ChosenProgram S Block A Seed V Y γ (Option (Proof F P)) (Forgery κ F P)) {q τ : ℕ}
    (d : Block × (HybridCoins F n m × (Fin (m - 1) → F)))
    (X : {X : P // X ≠ 0}) (ρ : SetupCoins n m F υ) (ω : SolverCoins F n m S A V Y q τ) : F :=
  pick E.basepoint X.1 (candidates E ρ (keptRuns E enc S A a c d (setup E.basepoint X ρ) ω))

theorem pick_eq {G : P} (hG : G ≠ 0) {L : List F} {y : F} (h : y ∈ L) : pick G (y • G) L = y := by
  rw [pick]
  cases hf : L.find? fun z => z • G = y • G with
  | none => exact absurd (List.find?_eq_none.1 hf y h) (by simp)
  | some z =>
    have h1 := List.find?_some hf
    rw [decide_eq_true_eq] at h1
    exact smul_inj hG h1

/-- What the kept runs yield is a discrete logarithm. -/
theorem candidates_solve [Fintype F] [Fintype P] {n m : ℕ} {υ κ γ prog V Y : Type} [Fintype υ] (E : Env F P) (enc : P → Bytes) (S A : Finset Transcript)
    [Nonempty S] (a : Attack n m P υ κ γ prog) (ha : a.Legal F E enc S) (hG : E.basepoint ≠ 0)
    (c : prog → ChosenProgram S Block A Seed V Y γ (Option (Proof F P)) (Forgery κ F P)) {q τ : ℕ}
    (d : Block × (HybridCoins F n m × (Fin (m - 1) → F))) (g : Generators n m P) (x : υ → Fˣ)
    (ω : SolverCoins F n m S A V Y q τ)
    (hy : Yields (fun r => ∃ i, r • E.basepoint = (publish E.basepoint g x).key i) (withGenerators E enc g)
      (a.sts (publish E.basepoint g x)) (keptRuns E enc S A a c d (publish E.basepoint g x) ω)) :
    (∀ (y : Fˣ) ρ, (setup E.basepoint ⟨(y : F) • E.basepoint, unit_smul_ne hG y⟩ ρ).gens = g → (fun i => ρ.t i * y) = x →
        solver E enc S A a c d ⟨(y : F) • E.basepoint, unit_smul_ne hG y⟩ ρ ω = y) ∨
      ∃ (z : ℕ → ℕ → F) (s : F), Relation n m (List.ofFn g.1) g.2.1.1 z s ∧
        ∀ (y : Fˣ) ρ, (setup E.basepoint ⟨(y : F) • E.basepoint, unit_smul_ne hG y⟩ ρ).gens = g → (fun i => ρ.t i * y) = x →
          timesY ρ z s ≠ 0 → solver E enc S A a c d ⟨(y : F) • E.basepoint, unit_smul_ne hG y⟩ ρ ω = y := by
  have hpar := ha.params g x
  have hset : ∀ (y : Fˣ) (ρ : SetupCoins n m F υ), (setup E.basepoint ⟨(y : F) • E.basepoint, unit_smul_ne hG y⟩ ρ).gens = g →
      (fun i => ρ.t i * y) = x → setup E.basepoint ⟨(y : F) • E.basepoint, unit_smul_ne hG y⟩ ρ = publish E.basepoint g x := by
    intro y ρ h1 h2
    rw [setup_publish E.basepoint hG y ρ, h1, h2]
  have hsolve : ∀ (y : Fˣ) (ρ : SetupCoins n m F υ), (setup E.basepoint ⟨(y : F) • E.basepoint, unit_smul_ne hG y⟩ ρ).gens = g →
      (fun i => ρ.t i * y) = x → (y : F) ∈ candidates E ρ (keptRuns E enc S A a c d (publish E.basepoint g x) ω) →
      solver E enc S A a c d ⟨(y : F) • E.basepoint, unit_smul_ne hG y⟩ ρ ω = y := by
    intro y ρ h1 h2 h3
    rw [solver, hset y ρ h1 h2]
    exact pick_eq hG h3
  have hrelation : ∀ (z : ℕ → ℕ → F) (s : F), Relation n m (List.ofFn g.1) g.2.1.1 z s →
      (∀ ρ : SetupCoins n m F υ, relationAnswer ρ z s ∈ candidates E ρ (keptRuns E enc S A a c d (publish E.basepoint g x) ω)) →
      ∃ (z : ℕ → ℕ → F) (s : F), Relation n m (List.ofFn g.1) g.2.1.1 z s ∧
        ∀ (y : Fˣ) ρ, (setup E.basepoint ⟨(y : F) • E.basepoint, unit_smul_ne hG y⟩ ρ).gens = g → (fun i => ρ.t i * y) = x →
          timesY ρ z s ≠ 0 → solver E enc S A a c d ⟨(y : F) • E.basepoint, unit_smul_ne hG y⟩ ρ ω = y := by
    intro z s hr hmem
    refine ⟨z, s, hr, fun y ρ h1 h2 h3 => hsolve y ρ h1 h2 ?_⟩
    have h4 := relationAnswer_eq E.basepoint hG y ρ z s (by rw [h1]; exact hr.1) h3
    rw [← h4]
    exact hmem ρ
  cases hL : keptRuns E enc S A a c d (publish E.basepoint g x) ω with
  | nil => rw [hL] at hy; exact hy.elim
  | cons b L =>
    rw [hL] at hy hsolve hrelation
    rw [Yields, hpar] at hy
    rcases hy with ⟨-, i, hi⟩ | ⟨e, he, hr⟩ | hr
    · refine Or.inl fun y ρ h1 h2 => hsolve y ρ h1 h2 ?_
      have h3 := smul_inj hG hi
      rw [← h2, Units.val_mul] at h3
      rw [candidates]
      refine List.mem_append_left _ (List.mem_append_left _ (List.mem_map.2 ⟨i, mem_toList.2 (mem_univ i), ?_⟩))
      refine (div_eq_iff (ρ.t i).ne_zero).2 ?_
      rw [mul_comm]
      exact h3
    · refine Or.inr (hrelation _ _ hr fun ρ => ?_)
      rw [candidates]
      exact List.mem_append_left _ (List.mem_append_right _ (List.mem_map.2 ⟨e, List.mem_range.2 (Nat.lt_succ_of_le he), rfl⟩))
    · refine Or.inr (hrelation _ _ hr fun ρ => ?_)
      rw [candidates]
      exact List.mem_append_right _ List.mem_cons_self

/-- If an attack succeeds no more often than the extractor yields an honest user's key or a relation, up to `ε`, it succeeds no more
often than the solver solves, up to `ε` and one over the size of the field. -/
theorem dlog_bound [Fintype F] [Fintype P] {n m : ℕ} {υ κ γ prog V Y : Type} [Fintype υ] [DecidableEq υ] [Fintype Y] [Fintype V] [DecidableEq V]
    (E : Env F P) (enc : P → Bytes)
    (S A : Finset Transcript) [Nonempty S] (a : Attack n m P υ κ γ prog) (ha : a.Legal F E enc S) (hG : E.basepoint ≠ 0)
    (hgen : ∀ X : P, ∃ x : F, x • E.basepoint = X)
    (c : prog → ChosenProgram S Block A Seed V Y γ (Option (Proof F P)) (Forgery κ F P)) {q τ : ℕ}
    (d : Block × (HybridCoins F n m × (Fin (m - 1) → F))) (ε : ℚ) (win : Generators n m P → (υ → Fˣ) → ℚ)
    (hwin : ∀ g x, win g x ≤ ε + avg fun H : A → Seed => avg fun W : V → Y =>
      avg fun coins : Fin q → Block × (HybridCoins F n m × (Fin (m - 1) → F)) => avg fun O : S → Block =>
      avg fun tape : Fin m → Fin τ → Block => ind (Yields (fun r => ∃ i, r • E.basepoint = (publish E.basepoint g x).key i)
        (withGenerators E enc g) (a.sts (publish E.basepoint g x)) (keptRuns E enc S A a c d (publish E.basepoint g x) (H, W, coins, O, tape)))) :
    (avg fun g => avg fun x => win g x) ≤ ε + (1 / Fintype.card F +
      avg fun y : Fˣ => avg fun ρ : SetupCoins n m F υ => avg fun ω : SolverCoins F n m S A V Y q τ =>
        ind (solver E enc S A a c d ⟨(y : F) • E.basepoint, unit_smul_ne hG y⟩ ρ ω = y)) := by
  have hne : Nonempty {X : P // X ≠ 0} := ⟨⟨E.basepoint, hG⟩⟩
  have h1 := dlog_setup (n := n) (m := m) E.basepoint hG hgen (fun g (x : υ → Fˣ) (ω : SolverCoins F n m S A V Y q τ) =>
      Yields (fun r => ∃ i, r • E.basepoint = (publish E.basepoint g x).key i)
        (withGenerators E enc g) (a.sts (publish E.basepoint g x)) (keptRuns E enc S A a c d (publish E.basepoint g x) ω))
    (fun X ρ ω => solver E enc S A a c d X ρ ω • E.basepoint = X.1)
    (fun g x ω hy => by
      rcases candidates_solve E enc S A a ha hG c d g x ω hy with h | ⟨z, s, hr, h⟩
      · exact Or.inl fun y ρ h1 h2 => by rw [h y ρ h1 h2]
      · exact Or.inr ⟨z, s, hr, fun y ρ h1 h2 h3 => by rw [h y ρ h1 h2 h3]⟩)
  have h2 : (avg fun g => avg fun x => win g x) ≤ ε + avg fun g : Generators n m P => avg fun x : υ → Fˣ =>
      avg fun ω : SolverCoins F n m S A V Y q τ => ind (Yields (fun r => ∃ i, r • E.basepoint = (publish E.basepoint g x).key i)
        (withGenerators E enc g) (a.sts (publish E.basepoint g x)) (keptRuns E enc S A a c d (publish E.basepoint g x) ω)) := by
    refine (avg_mono _ _ fun g => avg_mono _ _ fun x => hwin g x).trans (le_of_eq ?_)
    simp only [avg_add, avg_const, avg_prod]
  refine h2.trans (add_le_add_right (h1.trans (add_le_add_right (avg_mono _ _ fun y => avg_mono _ _ fun ρ => avg_mono _ _ fun ω => ?_) _)) _)
  by_cases h : solver E enc S A a c d ⟨(y : F) • E.basepoint, unit_smul_ne hG y⟩ ρ ω • E.basepoint = (y : F) • E.basepoint
  · rw [ind_pos h, ind_pos (smul_inj hG h)]
  · rw [ind_neg h]; exact ind_nonneg _

theorem lawful_withGenerators {E : Env F P} (hE : E.Lawful) (enc : P → Bytes) {n m : ℕ} (g : Generators n m P) :
    (withGenerators E enc g).Lawful :=
  ⟨hE.1, hE.2, hE.3, hE.4, hE.5, hE.6⟩

/-- Whoever knows a key of a statement that targets honest users knows an honest user's key. -/
theorem targets_key {n m : ℕ} {υ : Type} (G : P) (g : Generators n m P) (x : υ → Fˣ) (st : Statement P) (hU : st.params.U = g.2.2.1)
    (hGp : st.params.G = G) (h : Targets (publish G g x) st) (r : F) (h1 : r • st.params.G ∈ st.inputSet.M) (h2 : r • st.J = st.params.U) :
    ∃ i, r • G = (publish G g x).key i := by
  rw [hGp] at h1
  rcases h with h | ⟨i, h⟩
  · exact h _ h1
  · refine ⟨i, ?_⟩
    rw [h, hU] at h2
    have h3 : r • (x i : F)⁻¹ • g.2.2.1 = (1 : F) • g.2.2.1 := by rw [one_smul]; exact h2
    rw [smul_smul] at h3
    have h4 := smul_inj g.2.2.2 h3
    have h5 : r = x i := by
      rw [mul_inv_eq_one₀ (x i).ne_zero] at h4
      exact h4
    rw [h5]
    rfl

/-- Requests to honest users are for statements they have the key of. -/
theorem legal_rel {n m : ℕ} {υ κ γ prog : Type} (E : Env F P) (enc : P → Bytes) (S : Finset Transcript)
    (a : Attack n m P υ κ γ prog) (ha : a.Legal F E enc S) (g : Generators n m P) (x : υ → Fˣ) (c : γ) :
    Spec.Rel (paramsOf E g).G (paramsOf E g).U
      (a.sts (publish E.basepoint g x) (a.request (publish E.basepoint g x) (fun i => (x i : F)) c).k).inputSet.M
      (a.sts (publish E.basepoint g x) (a.request (publish E.basepoint g x) (fun i => (x i : F)) c).k).J
      (a.request (publish E.basepoint g x) (fun i => (x i : F)) c).l (a.request (publish E.basepoint g x) (fun i => (x i : F)) c).r := by
  refine ⟨ha.key g x c, ?_⟩
  show ((x _ : Fˣ) : F) • (a.sts (publish E.basepoint g x) (a.stmt (publish E.basepoint g x) c)).J = g.2.2.1
  rw [ha.tag g x c]
  show ((x _ : Fˣ) : F) • ((x _ : Fˣ) : F)⁻¹ • g.2.2.1 = g.2.2.1
  rw [smul_smul, mul_inv_cancel₀ (Units.ne_zero _), one_smul]

end

local notation "ℓ" => (2 ^ 252 + 27742317777372353535851937790883648493 : ℕ)

theorem card_ristretto_le (b : ℚ) : 1 / (Fintype.card (ZMod ℓ) : ℚ) + b ≤ 1 / 2 ^ 252 + b := by
  rw [ZMod.card]
  refine add_le_add_left (one_div_le_one_div_of_le (by positivity) ?_) _
  push_cast
  norm_num

/-- `C105_forge` for statements with the property `good`, and a program made from that of the attack. -/
theorem dlog_good {υ κ γ prog : Type} [Fintype υ] [DecidableEq υ] {P : Type} [AddCommGroup P] [Module (ZMod ℓ) P] [DecidableEq P] [Fintype P]
    (E : Env (ZMod ℓ) P) (hE : E.Lawful) (hwide : ∀ b, E.scalarOfWide b = ((leNat b : ℕ) : ZMod ℓ))
    (hG : E.basepoint ≠ 0) (hgen : ∀ X : P, ∃ x : ZMod ℓ, x • E.basepoint = X)
    (enc : P → Bytes) (henc : ∀ X, E.pointOfUniform (enc X) = X) (cfg : Config)
    (S A : Finset Transcript) [Nonempty S] (hS : ∀ t ∈ S, t.getLast? = some (.challenge "xi" 64))
    {n m : ℕ} (hnm : ∃ params, Params.new E n m = .ok params)
    (a : Attack n m P υ κ γ prog)
    (c : prog → ChosenProgram S Block A Seed Seed (Fin (1 * 2 * 4) → Block) γ (Option (Proof (ZMod ℓ) P)) (Forgery κ (ZMod ℓ) P))
    (ha : a.Legal (ZMod ℓ) E enc S) (good : Generators n m P → (υ → (ZMod ℓ)ˣ) → κ → Prop)
    (hgood : ∀ g x k, good g x k → ∀ r : ZMod ℓ, r • E.basepoint ∈ (a.sts (publish E.basepoint g x) k).inputSet.M →
      r • (a.sts (publish E.basepoint g x) k).J = g.2.2.1 → ∃ i, r • E.basepoint = (publish E.basepoint g x).key i)
    (Q R T q : ℕ) (hc : ∀ pub, (c (a.prog pub)).AtMost Q R T q)
    (d : Block × (HybridCoins (ZMod ℓ) n m × (Fin (m - 1) → ZMod ℓ))) (τ : ℕ) :
    (avg fun g : Generators n m P => avg fun x : υ → (ZMod ℓ)ˣ => avg fun O : S → Block => avg fun H : A → Seed =>
      avg fun W : Seed → Fin (1 * 2 * 4) → Block =>
      ((c (a.prog (publish E.basepoint g x))).signingOnly H W).withSigner
        (fun c => signPoint E S (paramsOf E g) (a.sts (publish E.basepoint g x)) (a.request (publish E.basepoint g x) (fun i => (x i : ZMod ℓ)) c))
        (fun c => signAnswer E (paramsOf E g) (a.sts (publish E.basepoint g x)) (a.request (publish E.basepoint g x) (fun i => (x i : ZMod ℓ)) c))
        (fun y used O => good g x y.k ∧
          AcceptedNew (withGenerators E enc g) cfg S A (a.sts (publish E.basepoint g x)) y used O H W) O []) ≤
      q * (Q + q) / 2 ^ 252 + (Q + 1) * (m / (τ + 1) + m * m / 2 ^ 252) + ((R + 1) * (4 / 2 ^ 64) + 1 / 2 ^ 174) + (1 / 2 ^ 252 +
      avg fun y : (ZMod ℓ)ˣ => avg fun ρ : SetupCoins n m (ZMod ℓ) υ =>
        avg fun ω : SolverCoins (ZMod ℓ) n m S A Seed (Fin (1 * 2 * 4) → Block) q τ =>
        ind (solver E enc S A a c d ⟨(y : ZMod ℓ) • E.basepoint, unit_smul_ne hG y⟩ ρ ω = y)) := by
  refine (dlog_bound E enc S A a ha hG hgen c (q := q) (τ := τ) d (q * (Q + q) / 2 ^ 252 + (Q + 1) * (m / (τ + 1) + m * m / 2 ^ 252) +
    ((R + 1) * (4 / 2 ^ 64) + 1 / 2 ^ 174)) _ fun g x => ?_).trans ?_
  · exact chosen_extract_good (withGenerators E enc g) (lawful_withGenerators hE enc g) hwide cfg S A hS (paramsOf E g)
      ⟨n, m, E.basepoint, _, C105_params E enc henc hnm g⟩ g.2.1.2 (a.sts (publish E.basepoint g x)) (ha.built g x)
      (good g x) (fun r => ∃ i, r • E.basepoint = (publish E.basepoint g x).key i)
      (fun k hk r h1 h2 => by
        rw [ha.params] at h1 h2
        exact hgood g x k hk r h1 h2)
      (ha.params g x) (ha.inj g x) (a.request (publish E.basepoint g x) fun i => (x i : ZMod ℓ)) (legal_rel E enc S a ha g x)
      (ha.point g x) (c (a.prog (publish E.basepoint g x))) Q R T q (hc _) d τ
  · exact add_le_add_right (card_ristretto_le _) _

/-- C105: random generators, honest users `υ` with random signing keys, and an attack with at most `Q` challenges, `R` seeds, the weights
of `T` seeds and `q` signatures of honest users of its choice. The probability that the verifier accepts its output, which no user made, for
a ring of honest users' keys or with an honest user's linking tag, is at most that of the solver to compute the discrete logarithm of a
random point, with the error terms of C98 and one over the group order. -/
theorem C105_forge {υ κ γ : Type} [Fintype υ] [DecidableEq υ] {P : Type} [AddCommGroup P] [Module (ZMod ℓ) P] [DecidableEq P] [Fintype P]
    (E : Env (ZMod ℓ) P) (hE : E.Lawful) (hwide : ∀ b, E.scalarOfWide b = ((leNat b : ℕ) : ZMod ℓ))
    (hG : E.basepoint ≠ 0) (hgen : ∀ X : P, ∃ x : ZMod ℓ, x • E.basepoint = X)
    (enc : P → Bytes) (henc : ∀ X, E.pointOfUniform (enc X) = X) (cfg : Config)
    (S A : Finset Transcript) [Nonempty S] (hS : ∀ t ∈ S, t.getLast? = some (.challenge "xi" 64))
    {n m : ℕ} (hnm : ∃ params, Params.new E n m = .ok params)
    (a : Attack n m P υ κ γ
      (ChosenProgram S Block A Seed Seed (Fin (1 * 2 * 4) → Block) γ (Option (Proof (ZMod ℓ) P)) (Forgery κ (ZMod ℓ) P)))
    (ha : a.Legal (ZMod ℓ) E enc S) (Q R T q : ℕ) (hc : ∀ pub, (a.prog pub).AtMost Q R T q)
    (d : Block × (HybridCoins (ZMod ℓ) n m × (Fin (m - 1) → ZMod ℓ))) (τ : ℕ) :
    (avg fun g : Generators n m P => avg fun x : υ → (ZMod ℓ)ˣ => avg fun O : S → Block => avg fun H : A → Seed =>
      avg fun W : Seed → Fin (1 * 2 * 4) → Block =>
      ((a.prog (publish E.basepoint g x)).signingOnly H W).withSigner
        (fun c => signPoint E S (paramsOf E g) (a.sts (publish E.basepoint g x)) (a.request (publish E.basepoint g x) (fun i => (x i : ZMod ℓ)) c))
        (fun c => signAnswer E (paramsOf E g) (a.sts (publish E.basepoint g x)) (a.request (publish E.basepoint g x) (fun i => (x i : ZMod ℓ)) c))
        (fun y used O => Targets (publish E.basepoint g x) (a.sts (publish E.basepoint g x) y.k) ∧
          AcceptedNew (withGenerators E enc g) cfg S A (a.sts (publish E.basepoint g x)) y used O H W) O []) ≤
      q * (Q + q) / 2 ^ 252 + (Q + 1) * (m / (τ + 1) + m * m / 2 ^ 252) + ((R + 1) * (4 / 2 ^ 64) + 1 / 2 ^ 174) + (1 / 2 ^ 252 +
      avg fun y : (ZMod ℓ)ˣ => avg fun ρ : SetupCoins n m (ZMod ℓ) υ =>
        avg fun ω : SolverCoins (ZMod ℓ) n m S A Seed (Fin (1 * 2 * 4) → Block) q τ =>
        ind (solver E enc S A a id d ⟨(y : ZMod ℓ) • E.basepoint, unit_smul_ne hG y⟩ ρ ω = y)) := by
  exact dlog_good E hE hwide hG hgen enc henc cfg S A hS hnm a id ha
    (fun g x k => Targets (publish E.basepoint g x) (a.sts (publish E.basepoint g x) k))
    (fun g x k hk r h1 h2 => targets_key E.basepoint g x _ (by rw [ha.params]; rfl) (by rw [ha.params]; rfl) hk r
      (by rw [ha.params]; exact h1) (by rw [ha.params]; exact h2)) Q R T q hc d τ

/-- If of the keys in the rings `M` at most `j` have not the property `hon`, one of `j + 1` different tags has a ring in which only keys
with this property can have this tag. -/
theorem links_owned {F P : Type} [Field F] [AddCommGroup P] [Module F P] [DecidableEq F] [DecidableEq P] {G : P} (hG : G ≠ 0)
    (hgen : ∀ X : P, ∃ x : F, x • G = X) (U : P) (hU : U ≠ 0) {j : ℕ} (M : Fin (j + 1) → List P) (J : Fin (j + 1) → P)
    (hJ : ∀ i i', J i = J i' → i = i') (hon : P → Prop) (h : ∃ own : Finset P, #own ≤ j ∧ ∀ i, ∀ X ∈ M i, X ∈ own ∨ hon X) :
    ∃ i, ∀ r : F, r • G ∈ M i → r • J i = U → hon (r • G) := by
  obtain ⟨own, h1, h2⟩ := h
  obtain ⟨i, hi⟩ := tag_outside U hU (own.image fun X => (hgen X).choose) (card_image_le.trans h1) J hJ
  exact ⟨i, fun r h3 h4 => (h2 i _ h3).resolve_left fun h5 =>
    hi r (mem_image.2 ⟨_, h5, smul_inj hG (hgen (r • G)).choose_spec⟩) h4⟩

/-- C105 for linking tags: the probability that the verifier accepts `j + 1` outputs with different linking tags, which no user made, in
an outcome in which at most `j` of the keys in their rings are not honest users', is at most the sum of those of `j + 1` solvers, with error terms. -/
theorem C105_links {υ κ γ : Type} [Fintype υ] [DecidableEq υ] {P : Type} [AddCommGroup P] [Module (ZMod ℓ) P] [DecidableEq P] [Fintype P]
    (E : Env (ZMod ℓ) P) (hE : E.Lawful) (hwide : ∀ b, E.scalarOfWide b = ((leNat b : ℕ) : ZMod ℓ))
    (hG : E.basepoint ≠ 0) (hgen : ∀ X : P, ∃ x : ZMod ℓ, x • E.basepoint = X)
    (enc : P → Bytes) (henc : ∀ X, E.pointOfUniform (enc X) = X) (cfg : Config)
    (S A : Finset Transcript) [Nonempty S] (hS : ∀ t ∈ S, t.getLast? = some (.challenge "xi" 64))
    {n m : ℕ} (hnm : ∃ params, Params.new E n m = .ok params) (j : ℕ)
    (a : Attack n m P υ κ γ
      (ChosenProgram S Block A Seed Seed (Fin (1 * 2 * 4) → Block) γ (Option (Proof (ZMod ℓ) P)) (Fin (j + 1) → Forgery κ (ZMod ℓ) P)))
    (ha : a.Legal (ZMod ℓ) E enc S)
    (Q R T q : ℕ) (hc : ∀ pub, (a.prog pub).AtMost Q R T q)
    (d : Block × (HybridCoins (ZMod ℓ) n m × (Fin (m - 1) → ZMod ℓ))) (τ : ℕ) :
    (avg fun g : Generators n m P => avg fun x : υ → (ZMod ℓ)ˣ => avg fun O : S → Block => avg fun H : A → Seed =>
      avg fun W : Seed → Fin (1 * 2 * 4) → Block =>
      ((a.prog (publish E.basepoint g x)).signingOnly H W).withSigner
        (fun c => signPoint E S (paramsOf E g) (a.sts (publish E.basepoint g x)) (a.request (publish E.basepoint g x) (fun i => (x i : ZMod ℓ)) c))
        (fun c => signAnswer E (paramsOf E g) (a.sts (publish E.basepoint g x)) (a.request (publish E.basepoint g x) (fun i => (x i : ZMod ℓ)) c))
        (fun y used O => (∃ own : Finset P, #own ≤ j ∧ ∀ i, ∀ X ∈ (a.sts (publish E.basepoint g x) (y i).k).inputSet.M,
            X ∈ own ∨ ∃ u, X = (publish E.basepoint g x).key u) ∧
          AcceptedNewUnlinkable (withGenerators E enc g) cfg S A (a.sts (publish E.basepoint g x)) y used O H W) O []) ≤
      (j + 1) * (q * (Q + q) / 2 ^ 252 + (Q + 1) * (m / (τ + 1) + m * m / 2 ^ 252) + ((R + 1) * (4 / 2 ^ 64) + 1 / 2 ^ 174) + 1 / 2 ^ 252) +
      ∑ i, avg fun y : (ZMod ℓ)ˣ => avg fun ρ : SetupCoins n m (ZMod ℓ) υ =>
        avg fun ω : SolverCoins (ZMod ℓ) n m S A Seed (Fin (1 * 2 * 4) → Block) q τ =>
        ind (solver E enc S A a (fun c => c.part i) d ⟨(y : ZMod ℓ) • E.basepoint, unit_smul_ne hG y⟩ ρ ω = y) := by
  let good : Generators n m P → (υ → (ZMod ℓ)ˣ) → κ → Prop := fun g x k => ∀ r : ZMod ℓ,
    r • E.basepoint ∈ (a.sts (publish E.basepoint g x) k).inputSet.M → r • (a.sts (publish E.basepoint g x) k).J = g.2.2.1 →
      ∃ u, r • E.basepoint = (publish E.basepoint g x).key u
  have hgood : ∀ g x k, good g x k → ∀ r : ZMod ℓ, r • E.basepoint ∈ (a.sts (publish E.basepoint g x) k).inputSet.M →
      r • (a.sts (publish E.basepoint g x) k).J = g.2.2.1 → ∃ i, r • E.basepoint = (publish E.basepoint g x).key i := fun g x k hk => hk
  have key := fun i : Fin (j + 1) => dlog_good E hE hwide hG hgen enc henc cfg S A hS hnm a (fun c => c.part i) ha good hgood Q R T q
    (fun pub => ChosenProgram.atMost_map _ _ (hc pub)) d τ
  have hg1 : ∀ g x k, (∀ r : ZMod ℓ, r • E.basepoint ∈ (a.sts (publish E.basepoint g x) k).inputSet.M →
      r • (a.sts (publish E.basepoint g x) k).J = g.2.2.1 → ∃ u, r • E.basepoint = (publish E.basepoint g x).key u) → good g x k :=
    fun g x k h => h
  clear_value good
  generalize (q * (Q + q) / 2 ^ 252 + (Q + 1) * (m / (τ + 1) + m * m / 2 ^ 252) + ((R + 1) * (4 / 2 ^ 64) + 1 / 2 ^ 174) : ℚ) = ε at key ⊢
  have hne : Nonempty (Coins (ZMod ℓ) n m) := ⟨⟨fun _ _ => 0, 0, 0, 0, 0, fun _ => 0⟩⟩
  have h1 := fun (g : Generators n m P) (x : υ → (ZMod ℓ)ˣ) (O : S → Block) (H : A → Seed) (W : Seed → Fin (1 * 2 * 4) → Block) =>
    withSigner_parts
      (fun c => signPoint E S (paramsOf E g) (a.sts (publish E.basepoint g x)) (a.request (publish E.basepoint g x) (fun i => (x i : ZMod ℓ)) c))
      (fun c => signAnswer E (paramsOf E g) (a.sts (publish E.basepoint g x)) (a.request (publish E.basepoint g x) (fun i => (x i : ZMod ℓ)) c))
      (fun y used O => (∃ own : Finset P, #own ≤ j ∧ ∀ i, ∀ X ∈ (a.sts (publish E.basepoint g x) (y i).k).inputSet.M,
            X ∈ own ∨ ∃ u, X = (publish E.basepoint g x).key u) ∧
          AcceptedNewUnlinkable (withGenerators E enc g) cfg S A (a.sts (publish E.basepoint g x)) y used O H W)
      (fun y used O => good g x y.k ∧ AcceptedNew (withGenerators E enc g) cfg S A (a.sts (publish E.basepoint g x)) y used O H W) O
      (fun y used h => by
        obtain ⟨i, hi⟩ := links_owned hG hgen g.2.2.1 g.2.2.2 (fun i => (a.sts (publish E.basepoint g x) (y i).k).inputSet.M)
          (fun i => (a.sts (publish E.basepoint g x) (y i).k).J) h.2.2 (fun X => ∃ u, X = (publish E.basepoint g x).key u) h.1
        exact ⟨i, hg1 g x _ hi, h.2.1 i⟩) (a.prog (publish E.basepoint g x)) Q R T q (hc _) H W
  refine (avg_mono _ _ fun g => avg_mono _ _ fun x => avg_mono _ _ fun O => avg_mono _ _ fun H => avg_mono _ _ fun W => h1 g x O H W).trans ?_
  simp only [avg_sum]
  refine (sum_le_sum fun i _ => key i).trans (le_of_eq ?_)
  rw [sum_add_distrib, sum_add_distrib, sum_const, sum_const, card_univ, Fintype.card_fin, nsmul_eq_mul, nsmul_eq_mul, Nat.cast_add,
    Nat.cast_one]
  ring

/-- C105 for batches: `verify_batch` accepts a batch in which a proof that no user made is for a ring of honest users' keys or has an
honest user's linking tag. -/
theorem C105_batch {υ κ γ : Type} [Fintype υ] [DecidableEq υ] {P : Type} [AddCommGroup P] [Module (ZMod ℓ) P] [DecidableEq P] [Fintype P]
    (E : Env (ZMod ℓ) P) (hE : E.Lawful) (hwide : ∀ b, E.scalarOfWide b = ((leNat b : ℕ) : ZMod ℓ))
    (hG : E.basepoint ≠ 0) (hgen : ∀ X : P, ∃ x : ZMod ℓ, x • E.basepoint = X)
    (enc : P → Bytes) (henc : ∀ X, E.pointOfUniform (enc X) = X) (cfg : Config)
    (S A : Finset Transcript) [Nonempty S] (hS : ∀ t ∈ S, t.getLast? = some (.challenge "xi" 64))
    {n m : ℕ} (hnm : ∃ params, Params.new E n m = .ok params) (k : ℕ)
    (a : Attack n m P υ κ γ (ChosenProgram S Block A Seed (Fin (k + 1) → Seed) (Fin ((k + 1) * 2 * 4) → Block) γ (Option (Proof (ZMod ℓ) P))
      (Fin (k + 1) → Forgery κ (ZMod ℓ) P)))
    (ha : a.Legal (ZMod ℓ) E enc S)
    (hM : ∀ (g : Generators n m P) (x : υ → (ZMod ℓ)ˣ) k k',
      (a.sts (publish E.basepoint g x) k).inputSet.hash = (a.sts (publish E.basepoint g x) k').inputSet.hash →
      (a.sts (publish E.basepoint g x) k).inputSet.M = (a.sts (publish E.basepoint g x) k').inputSet.M)
    (Q R T q : ℕ) (hc : ∀ pub, (a.prog pub).AtMost Q R T q)
    (d : Block × (HybridCoins (ZMod ℓ) n m × (Fin (m - 1) → ZMod ℓ))) (τ : ℕ) :
    (avg fun g : Generators n m P => avg fun x : υ → (ZMod ℓ)ˣ => avg fun O : S → Block => avg fun H : A → Seed =>
      avg fun W : (Fin (k + 1) → Seed) → Fin ((k + 1) * 2 * 4) → Block =>
      ((a.prog (publish E.basepoint g x)).signingOnly H W).withSigner
        (fun c => signPoint E S (paramsOf E g) (a.sts (publish E.basepoint g x)) (a.request (publish E.basepoint g x) (fun i => (x i : ZMod ℓ)) c))
        (fun c => signAnswer E (paramsOf E g) (a.sts (publish E.basepoint g x)) (a.request (publish E.basepoint g x) (fun i => (x i : ZMod ℓ)) c))
        (fun y used O => (∃ i, Targets (publish E.basepoint g x) (a.sts (publish E.basepoint g x) (y i).k) ∧
            NewPoint (withGenerators E enc g) S (a.sts (publish E.basepoint g x)) (y i) used) ∧
          AcceptedBatch (withGenerators E enc g) cfg S A (a.sts (publish E.basepoint g x)) y O H W) O []) ≤
      (k + 1) * (q * (Q + q) / 2 ^ 252 + (Q + 1) * (m / (τ + 1) + m * m / 2 ^ 252) + 1 / 2 ^ 252) +
      ((R + (k + 1 : ℕ)) * ((R + (k + 1 : ℕ) + (k + 1 : ℕ) * (T + 1)) / 2 ^ 64) + (T + 1) * (1 / 2 ^ 251)) +
      ∑ i, avg fun y : (ZMod ℓ)ˣ => avg fun ρ : SetupCoins n m (ZMod ℓ) υ =>
        avg fun ω : SolverCoins (ZMod ℓ) n m S A (Fin (k + 1) → Seed) (Fin ((k + 1) * 2 * 4) → Block) q τ =>
        ind (solver E enc S A a (fun c => c.part i) d ⟨(y : ZMod ℓ) • E.basepoint, unit_smul_ne hG y⟩ ρ ω = y) := by
  have hne : Nonempty (Coins (ZMod ℓ) n m) := ⟨⟨fun _ _ => 0, 0, 0, 0, 0, fun _ => 0⟩⟩
  have hne' : Nonempty {X : P // X ≠ 0} := ⟨⟨E.basepoint, hG⟩⟩
  have key := fun i : Fin (k + 1) => (dlog_bound E enc S A a ha hG hgen (fun c => c.part i) (q := q) (τ := τ) d
    (q * (Q + q) / 2 ^ 252 + (Q + 1) * (m / (τ + 1) + m * m / 2 ^ 252))
    (fun g x => avg fun H : A → Seed => avg fun W : (Fin (k + 1) → Seed) → Fin ((k + 1) * 2 * 4) → Block => avg fun O : S → Block =>
      (((a.prog (publish E.basepoint g x)).part i).signingOnly H W).withSigner
        (fun c => signPoint E S (paramsOf E g) (a.sts (publish E.basepoint g x)) (a.request (publish E.basepoint g x) (fun i => (x i : ZMod ℓ)) c))
        (fun c => signAnswer E (paramsOf E g) (a.sts (publish E.basepoint g x)) (a.request (publish E.basepoint g x) (fun i => (x i : ZMod ℓ)) c))
        (fun y used O => Targets (publish E.basepoint g x) (a.sts (publish E.basepoint g x) y.k) ∧
          NewForgery (withGenerators E enc g) S (a.sts (publish E.basepoint g x)) y used O) O [])
    (fun g x => by
      have h3 := fun (H : A → Seed) (W : (Fin (k + 1) → Seed) → Fin ((k + 1) * 2 * 4) → Block) =>
        signing_extract_ristretto (withGenerators E enc g) (lawful_withGenerators hE enc g) hwide S (paramsOf E g)
        ⟨n, m, E.basepoint, _, C105_params E enc henc hnm g⟩ g.2.1.2 (a.sts (publish E.basepoint g x)) (ha.built g x)
        (fun k => Targets (publish E.basepoint g x) (a.sts (publish E.basepoint g x) k))
        (fun r => ∃ i, r • E.basepoint = (publish E.basepoint g x).key i)
        (fun k hk r h1 h2 => targets_key E.basepoint g x _ (by rw [ha.params]; rfl) (by rw [ha.params]; rfl) hk r h1 h2)
        (ha.params g x) (ha.inj g x) (a.request (publish E.basepoint g x) fun i => (x i : ZMod ℓ)) (legal_rel E enc S a ha g x)
        (ha.point g x) (((a.prog (publish E.basepoint g x)).part i).signingOnly H W) Q q
        (ChosenProgram.atMost_signingOnly H W _ (ChosenProgram.atMost_map _ _ (hc _))) d τ
      have h4 := avg_mono _ _ fun H => avg_mono _ _ fun W => h3 H W
      have h5 : ∀ (ε : ℚ) (f : (A → Seed) → ((Fin (k + 1) → Seed) → Fin ((k + 1) * 2 * 4) → Block) → ℚ),
        (avg fun H => avg fun W => ε + f H W) = ε + avg fun H => avg fun W => f H W := fun ε f => by simp only [avg_add, avg_const]
      rw [h5] at h4
      exact h4)).trans
    (add_le_add_right (card_ristretto_le _) _)
  have h1 := fun (g : Generators n m P) (x : υ → (ZMod ℓ)ˣ) (O : S → Block) (H : A → Seed)
      (W : (Fin (k + 1) → Seed) → Fin ((k + 1) * 2 * 4) → Block) =>
    withSigner_le_add
      (fun c => signPoint E S (paramsOf E g) (a.sts (publish E.basepoint g x)) (a.request (publish E.basepoint g x) (fun i => (x i : ZMod ℓ)) c))
      (fun c => signAnswer E (paramsOf E g) (a.sts (publish E.basepoint g x)) (a.request (publish E.basepoint g x) (fun i => (x i : ZMod ℓ)) c))
      (fun y used O => (∃ i, Targets (publish E.basepoint g x) (a.sts (publish E.basepoint g x) (y i).k) ∧
            NewPoint (withGenerators E enc g) S (a.sts (publish E.basepoint g x)) (y i) used) ∧
          AcceptedBatch (withGenerators E enc g) cfg S A (a.sts (publish E.basepoint g x)) y O H W)
      (fun y used O => ∃ i, Targets (publish E.basepoint g x) (a.sts (publish E.basepoint g x) (y i).k) ∧
          NewForgery (withGenerators E enc g) S (a.sts (publish E.basepoint g x)) (y i) used O)
      (fun y _ O => AcceptedInvalidBatch (withOracle (withGenerators E enc g) S O) cfg A (a.sts (publish E.basepoint g x)) y H W) O
      (fun y used h => (accepted_batch_cases (withGenerators E enc g) cfg S A hS (paramsOf E g) (a.sts (publish E.basepoint g x))
        (ha.built g x) (ha.params g x) (hM g x) y O H W h.2).imp_left fun h' => by
        obtain ⟨i, ht, hn⟩ := h.1
        exact ⟨i, ht, hn, h' i⟩)
      ((a.prog (publish E.basepoint g x)).signingOnly H W) Q q (ChosenProgram.atMost_signingOnly H W _ (hc _))
  have h1' := fun (g : Generators n m P) (x : υ → (ZMod ℓ)ˣ) (O : S → Block) (H : A → Seed)
      (W : (Fin (k + 1) → Seed) → Fin ((k + 1) * 2 * 4) → Block) =>
    (h1 g x O H W).trans (add_le_add_left (withSigner_parts
      (fun c => signPoint E S (paramsOf E g) (a.sts (publish E.basepoint g x)) (a.request (publish E.basepoint g x) (fun i => (x i : ZMod ℓ)) c))
      (fun c => signAnswer E (paramsOf E g) (a.sts (publish E.basepoint g x)) (a.request (publish E.basepoint g x) (fun i => (x i : ZMod ℓ)) c)) _
      (fun y used O => Targets (publish E.basepoint g x) (a.sts (publish E.basepoint g x) y.k) ∧
          NewForgery (withGenerators E enc g) S (a.sts (publish E.basepoint g x)) y used O) O (fun y used h => h)
      (a.prog (publish E.basepoint g x)) Q R T q (hc _) H W) _)
  have h2 := fun (g : Generators n m P) (x : υ → (ZMod ℓ)ˣ) => signer_grind
    (fun c => signPoint E S (paramsOf E g) (a.sts (publish E.basepoint g x)) (a.request (publish E.basepoint g x) (fun i => (x i : ZMod ℓ)) c))
    (fun c => signAnswer E (paramsOf E g) (a.sts (publish E.basepoint g x)) (a.request (publish E.basepoint g x) (fun i => (x i : ZMod ℓ)) c))
    (fun y H W O => AcceptedInvalidBatch (withOracle (withGenerators E enc g) S O) cfg A (a.sts (publish E.basepoint g x)) y H W)
    (a.prog (publish E.basepoint g x)) Q R T q (hc _)
    ((R + (k + 1 : ℕ)) * ((R + (k + 1 : ℕ) + (k + 1 : ℕ) * (T + 1)) / 2 ^ 64) + (T + 1) * (1 / 2 ^ 251))
    (by positivity) fun O f hf => C79_ristretto (withOracle (withGenerators E enc g) S O)
      (lawful_withOracle _ (lawful_withGenerators hE enc g) S O) hwide cfg A (a.sts (publish E.basepoint g x))
      (fun k => statementBuilt_withOracle _ S O hS _ (ha.built g x k)) (ha.inj g x) k f R T hf
  generalize (q * (Q + q) / 2 ^ 252 + (Q + 1) * (m / (τ + 1) + m * m / 2 ^ 252) : ℚ) = ε at key ⊢
  generalize ((R + (k + 1 : ℕ)) * ((R + (k + 1 : ℕ) + (k + 1 : ℕ) * (T + 1)) / 2 ^ 64) + (T + 1) * (1 / 2 ^ 251) : ℚ) = ε' at h2 ⊢
  have h3 := fun (g : Generators n m P) (x : υ → (ZMod ℓ)ˣ) =>
    (avg_mono _ _ fun O => avg_mono _ _ fun H => avg_mono _ _ fun W => h1' g x O H W)
  simp only [avg_add₃, avg_sum₃] at h3
  have h4 := fun (g : Generators n m P) (x : υ → (ZMod ℓ)ˣ) =>
    (h3 g x).trans (add_le_add (sum_le_sum fun i _ => le_of_eq (avg_swap _)) (h2 g x))
  refine (avg_mono _ _ fun g => avg_mono _ _ fun x => h4 g x).trans ?_
  simp only [avg_add, avg_const, avg_sum]
  refine (add_le_add_left (sum_le_sum fun i _ => (le_of_eq (by simp only [avg_sum])).trans (key i)) _).trans (le_of_eq ?_)
  rw [sum_add_distrib, sum_add_distrib, sum_const, sum_const, card_univ, Fintype.card_fin, nsmul_eq_mul, nsmul_eq_mul, Nat.cast_add,
    Nat.cast_one]
  ring

section
variable {F P : Type} [Field F] [AddCommGroup P] [Module F P] [DecidableEq F] [DecidableEq P]

/-- A statement with two honest users: the first key at position 0, the second everywhere else, and the first user's linking tag. -/
def Spec.pairStatement {n m : ℕ} (E : Env F P) (pub : Public n m P Bool) : Statement P :=
  let M := pub.key false :: List.replicate ((paramsOf E pub.gens).getN - 1) (pub.key true)
  let h := ((InputSet.hashTranscript E M M.length).challengeBytes E "hash" TRANSCRIPT_HASH_BYTES).1
  ⟨paramsOf E pub.gens, ⟨M, h⟩, pub.tag false,
    ((Statement.hashTranscript E (paramsOf E pub.gens).hash h (pub.tag false)).challengeBytes E "hash" TRANSCRIPT_HASH_BYTES).1⟩

/-- An attack on two honest users: it requests a signature by the first one and looks at a seed, at weights and at a challenge. -/
def Spec.pairAttack {n m : ℕ} (E : Env F P) {S A : Finset Transcript} (s : S) (a : A) {V Y α : Type} (v : V) (t : Transcript)
    (out : Option (Proof F P) → α) :
    Attack n m P Bool Unit Unit (ChosenProgram S Block A Seed V Y Unit (Option (Proof F P)) α) where
  sts pub _ := pairStatement E pub
  user _ _ := false
  stmt _ _ := ()
  transcript _ _ := t
  position _ _ := 0
  prog _ := .sign () fun p => .seed a fun _ => .weights v fun _ => .challenge s fun _ => .done (out p)

theorem pairStatement_built {n m : ℕ} (E : Env F P) (hG : E.basepoint ≠ 0) (enc : P → Bytes) (henc : ∀ X, E.pointOfUniform (enc X) = X)
    (hnm : ∃ params, Params.new E n m = .ok params) (g : Generators n m P) (x : Bool → Fˣ) :
    StatementBuilt (withGenerators E enc g) (pairStatement E (publish E.basepoint g x)) := by
  have hp : ParamsBuilt (withGenerators E enc g) (paramsOf E g) := ⟨n, m, E.basepoint, _, C105_params E enc henc hnm g⟩
  have hN := C02_sizes _ _ _ _ _ _ (C105_params E enc henc hnm g)
  have hlen : ((publish E.basepoint g x).key false :: List.replicate ((paramsOf E g).getN - 1) ((publish E.basepoint g x).key true)).length =
      (paramsOf E g).getN := by
    rw [List.length_cons, List.length_replicate]
    have := hN.2.2.2.2.2.1
    omega
  have h0 : (0 : P) ∉ (publish E.basepoint g x).key false :: List.replicate ((paramsOf E g).getN - 1) ((publish E.basepoint g x).key true) := by
    intro h
    rcases List.mem_cons.1 h with h | h
    · exact unit_smul_ne hG (x false) h.symm
    · exact unit_smul_ne hG (x true) (List.eq_of_mem_replicate h).symm
  refine ⟨paramsOf E g, (pairStatement E (publish E.basepoint g x)).inputSet, (publish E.basepoint g x).tag false, hp,
    Or.inl ⟨(publish E.basepoint g x).key false :: List.replicate ((paramsOf E g).getN - 1) ((publish E.basepoint g x).key true), ?_⟩, ?_⟩
  · rw [InputSet.new, InputSet.newInternal, if_pos]
    · rfl
    · have := hN.2.2.2.2.2.2.1
      rw [hlen, u32Max]
      omega
  · rw [Statement.new, if_neg (show ¬ (pairStatement E (publish E.basepoint g x)).inputSet.M.length ≠ (paramsOf E g).getN from not_not.2 hlen),
      if_neg (show (0 : P) ∉ (pairStatement E (publish E.basepoint g x)).inputSet.M from h0)]
    rfl

/-- The transcripts from which the first user's challenges can be derived. -/
noncomputable def Spec.pairDomain [Fintype F] [Fintype P] {n m : ℕ} (E : Env F P) (t : Transcript) : Finset Transcript :=
  (univ : Finset ((Generators n m P × (Bool → Fˣ)) × Coins F n m)).image fun y =>
    signTranscript E (paramsOf E y.1.1) (fun _ : Unit => pairStatement E (publish E.basepoint y.1.1 y.1.2)) ⟨(), t, 0, (y.1.2 false : F)⟩ y.2

theorem pair_legal [Fintype F] [Fintype P] {n m : ℕ} (E : Env F P) (hG : E.basepoint ≠ 0) (enc : P → Bytes)
    (henc : ∀ X, E.pointOfUniform (enc X) = X) (hnm : ∃ params, Params.new E n m = .ok params) (A : Finset Transcript) (a : A)
    {V Y α : Type} (v : V) (t : Transcript) (out : Option (Proof F P) → α) :
    ∃ (S : Finset Transcript) (_ : Nonempty S) (b : Attack n m P Bool Unit Unit
        (ChosenProgram S Block A Seed V Y Unit (Option (Proof F P)) α)),
      b.Legal F E enc S ∧ (∀ pub, (b.prog pub).AtMost 1 1 1 1) ∧ (∀ t ∈ S, t.getLast? = some (.challenge "xi" 64)) ∧
      (∀ g (x : Bool → Fˣ) k, Targets (publish E.basepoint g x) (b.sts (publish E.basepoint g x) k)) ∧
      ∀ pub k k', b.sts pub k = b.sts pub k' := by
  have hne : Nonempty ((Generators n m P × (Bool → Fˣ)) × Coins F n m) :=
    ⟨((fun _ => 0, ⟨E.basepoint, hG⟩, ⟨E.basepoint, hG⟩), fun _ => 1), ⟨0, 0, 0, 0, 0, 0⟩⟩
  have hS : (pairDomain (n := n) (m := m) E t).Nonempty := (univ_nonempty (α := (Generators n m P × (Bool → Fˣ)) × Coins F n m)).image _
  obtain ⟨s, hs⟩ := hS
  refine ⟨pairDomain (n := n) (m := m) E t, ⟨⟨s, hs⟩⟩, pairAttack E ⟨s, hs⟩ a v t out,
    ⟨fun g x _ => pairStatement_built E hG enc henc hnm g x, fun _ _ _ => rfl, fun _ _ _ _ _ => rfl, fun _ _ _ => rfl, fun _ _ _ => rfl,
    fun g x _ coins => mem_image.2 ⟨((g, x), coins), mem_univ _, rfl⟩⟩,
    fun _ => ⟨by norm_num, fun _ => ⟨by norm_num, fun _ => ⟨by norm_num, fun _ => ⟨by norm_num, fun _ => trivial⟩⟩⟩⟩, fun t' ht => ?_,
    fun g x _ => Or.inr ⟨false, rfl⟩, fun _ _ _ => rfl⟩
  obtain ⟨c, -, rfl⟩ := mem_image.1 ht
  exact challengeTranscript_getLast _ _ _ _ _ _ _ _ _

end

namespace Toy

/-- The toy environment with a map to the group that reaches every point. -/
def hashEnv (p : ℕ) [NeZero p] : Env (ZMod p) (ZMod p) := { env p with pointOfUniform := fun b => (leNat b : ZMod p) }

theorem hashEnv_enc (X : ZMod ℓ) : (hashEnv ℓ).pointOfUniform (leBytes 32 X.val) = X := by
  show ((leNat (leBytes 32 X.val) : ℕ) : ZMod ℓ) = X
  rw [leNat_leBytes 32 _ (lt_of_lt_of_le (ZMod.val_lt X) (by norm_num)), ZMod.natCast_zmod_val]

theorem lawful_map {F P : Type} {E : Env F P} (h : E.Lawful) (f : Bytes → P) : Env.Lawful { E with pointOfUniform := f } :=
  ⟨h.1, h.2, h.3, h.4, h.5, h.6⟩

theorem hashEnv_lawful : (hashEnv ℓ).Lawful := lawful_map (env_lawful ℓ (by norm_num)) _

theorem hashEnv_params : ∃ params, Params.new (hashEnv ℓ) 2 2 = .ok params := ⟨_, rfl⟩

theorem hashEnv_basepoint : (hashEnv ℓ).basepoint ≠ 0 := one_ne_zero

end Toy

/-- The toy environment and an attack on two honest users meet the hypotheses of `C105_forge`. -/
example (A : Finset Transcript) (a : A) (v : Seed) (p : Proof (ZMod ℓ) (ZMod ℓ)) :
    (Toy.hashEnv ℓ).Lawful ∧ (∀ b, (Toy.hashEnv ℓ).scalarOfWide b = ((leNat b : ℕ) : ZMod ℓ)) ∧ (Toy.hashEnv ℓ).basepoint ≠ 0 ∧
    (∀ X : ZMod ℓ, ∃ x : ZMod ℓ, x • (Toy.hashEnv ℓ).basepoint = X) ∧
    (∀ X, (Toy.hashEnv ℓ).pointOfUniform (leBytes 32 X.val) = X) ∧ (∃ params, Params.new (Toy.hashEnv ℓ) 2 2 = .ok params) ∧
    ∃ (S : Finset Transcript) (_ : Nonempty S) (b : Attack 2 2 (ZMod ℓ) Bool Unit Unit
        (ChosenProgram S Block A Seed Seed (Fin (1 * 2 * 4) → Block) Unit (Option (Proof (ZMod ℓ) (ZMod ℓ))) (Forgery Unit (ZMod ℓ) (ZMod ℓ)))),
      b.Legal (ZMod ℓ) (Toy.hashEnv ℓ) (fun X => leBytes 32 X.val) S ∧ (∀ pub, (b.prog pub).AtMost 1 1 1 1) ∧
      (∀ t ∈ S, t.getLast? = some (.challenge "xi" 64)) ∧
      (∀ g (x : Bool → (ZMod ℓ)ˣ) k, Targets (publish (Toy.hashEnv ℓ).basepoint g x) (b.sts (publish (Toy.hashEnv ℓ).basepoint g x) k)) ∧
      ∀ pub k k', b.sts pub k = b.sts pub k' :=
  ⟨Toy.hashEnv_lawful, fun _ => rfl, Toy.hashEnv_basepoint, fun X => ⟨X, mul_one X⟩, Toy.hashEnv_enc, Toy.hashEnv_params,
    pair_legal (Toy.hashEnv ℓ) Toy.hashEnv_basepoint _ Toy.hashEnv_enc Toy.hashEnv_params A a v Toy.transcript fun x => ⟨(), [], x.getD p⟩⟩

/-- The same for `k + 1` outputs: the hypotheses of `C105_batch` and, for `Y` the weights of one proof and `V = Seed`, of `C105_links`. -/
example (A : Finset Transcript) (a : A) (k : ℕ) (V Y : Type) (v : V) (p : Proof (ZMod ℓ) (ZMod ℓ)) :
    ∃ (S : Finset Transcript) (_ : Nonempty S) (b : Attack 2 2 (ZMod ℓ) Bool Unit Unit
        (ChosenProgram S Block A Seed V Y Unit (Option (Proof (ZMod ℓ) (ZMod ℓ))) (Fin (k + 1) → Forgery Unit (ZMod ℓ) (ZMod ℓ)))),
      b.Legal (ZMod ℓ) (Toy.hashEnv ℓ) (fun X => leBytes 32 X.val) S ∧ (∀ pub, (b.prog pub).AtMost 1 1 1 1) ∧
      (∀ t ∈ S, t.getLast? = some (.challenge "xi" 64)) ∧
      (∀ g (x : Bool → (ZMod ℓ)ˣ) k, Targets (publish (Toy.hashEnv ℓ).basepoint g x) (b.sts (publish (Toy.hashEnv ℓ).basepoint g x) k)) ∧
      ∀ pub k k', b.sts pub k = b.sts pub k' :=
  pair_legal (Toy.hashEnv ℓ) Toy.hashEnv_basepoint _ Toy.hashEnv_enc Toy.hashEnv_params A a v Toy.transcript fun x _ => ⟨(), [], x.getD p⟩

end Triptych
