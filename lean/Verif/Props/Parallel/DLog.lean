import Verif.Props.Parallel.RewindChosen
import Verif.Props.DLog
import Verif.Lemmas.Parallel.DLog

/-! # Forging parallel proofs is as hard as computing a discrete logarithm: C106, C107

As C105, with the additional generator `G1`, also random. C107 is about amounts: if the second components of the ring and the offset are
commitments with known openings, all to other amounts than the offset, then a proof cannot be found, not even with a signing key. -/
set_option autoImplicit false
set_option linter.unusedSectionVars false
set_option linter.unusedVariables false

namespace Triptych.Parallel
open Finset Function
open Triptych.Parallel.Spec
open Triptych.Spec (avg extend locate Block Block.bytes withSeeds withOracle Seed ChosenProgram SigningProgram OracleProgram fullF SmallSums extractIndex
  extractKey nth tries unit_smul_ne SetupCoins timesY relationAnswer Relation defect pick)

/-- The environment in which the generators are `g`: the hash inputs from which `new` derives the generators give strings `enc X` that
are mapped to the points `X` of `g`. -/
def Spec.withGenerators {F P : Type} [Zero P] (E : Env F P) (enc : P → Bytes) {n m : ℕ} (g : Generators n m P) : Env F P :=
  { E with xof := fun input offset len =>
      if input = POINT_U ++ leBytes 8 VERSION then enc g.1.2.2.1
      else if input = POINT_G1 ++ leBytes 8 VERSION then enc g.2.1
      else if input = POINT_COMMITMENT_H ++ leBytes 8 VERSION then enc g.1.2.1.1
      else if h : input = POINT_COMMITMENT_G ++ leBytes 8 VERSION ++ leBytes 4 n ++ leBytes 4 m ∧ offset / 64 < n * m then
        enc (g.1.1 ⟨offset / 64, h.2⟩)
      else E.xof input offset len }

/-- The parameters with the generators `g`. -/
def Spec.paramsOf {F P : Type} [Zero P] (E : Env F P) {n m : ℕ} (g : Generators n m P) : Params P :=
  ⟨n, m, E.basepoint, g.2.1, g.1.2.2.1, List.ofFn g.1.1, g.1.2.1.1,
    ((Params.hashTranscript E n m E.basepoint g.2.1 g.1.2.2.1 (List.ofFn g.1.1) g.1.2.1.1).challengeBytes E "hash" TRANSCRIPT_HASH_BYTES).1⟩

/-- C106: with the generators `g`, `new` returns the parameters with the generators `g`. -/
theorem C106_params {F P : Type} [Zero P] (E : Env F P) (enc : P → Bytes) (henc : ∀ X, E.pointOfUniform (enc X) = X) {n m : ℕ}
    (hnm : ∃ params, Params.new E n m = .ok params) (g : Generators n m P) :
    Params.new (withGenerators E enc g) n m = .ok (paramsOf E g) := by
  obtain ⟨params, hp⟩ := hnm
  have h1 : POINT_COMMITMENT_H ++ leBytes 8 VERSION ≠ POINT_U ++ leBytes 8 VERSION := by decide +kernel
  have h1' : POINT_COMMITMENT_H ++ leBytes 8 VERSION ≠ POINT_G1 ++ leBytes 8 VERSION := by decide +kernel
  have h0 : POINT_G1 ++ leBytes 8 VERSION ≠ POINT_U ++ leBytes 8 VERSION := by decide +kernel
  have h2 : POINT_COMMITMENT_G ++ leBytes 8 VERSION ++ leBytes 4 n ++ leBytes 4 m ≠ POINT_U ++ leBytes 8 VERSION := by
    intro h
    have := congrArg List.length h
    simp only [List.length_append, leBytes_length] at this
    revert this
    decide +kernel
  have h3 : POINT_COMMITMENT_G ++ leBytes 8 VERSION ++ leBytes 4 n ++ leBytes 4 m ≠ POINT_COMMITMENT_H ++ leBytes 8 VERSION := by
    intro h
    have := congrArg List.length h
    simp only [List.length_append, leBytes_length] at this
    revert this
    decide +kernel
  have h4 : POINT_COMMITMENT_G ++ leBytes 8 VERSION ++ leBytes 4 n ++ leBytes 4 m ≠ POINT_G1 ++ leBytes 8 VERSION := by
    intro h
    have := congrArg List.length h
    simp only [List.length_append, leBytes_length] at this
    revert this
    decide +kernel
  have hU : (withGenerators E enc g).pointOfUniform ((withGenerators E enc g).xof (POINT_U ++ leBytes 8 VERSION) 0 64) = g.1.2.2.1 := by
    rw [withGenerators]
    dsimp only
    rw [if_pos rfl, henc]
  have hG1 : (withGenerators E enc g).pointOfUniform ((withGenerators E enc g).xof (POINT_G1 ++ leBytes 8 VERSION) 0 64) = g.2.1 := by
    rw [withGenerators]
    dsimp only
    rw [if_neg h0, if_pos rfl, henc]
  have hH : Params.commitmentH (withGenerators E enc g) = g.1.2.1.1 := by
    rw [Params.commitmentH, withGenerators]
    dsimp only
    rw [if_neg h1, if_neg h1', if_pos rfl, henc]
  have hG : (List.range (n * m)).map (Params.commitmentG (withGenerators E enc g) n m) = List.ofFn g.1.1 := by
    rw [List.ofFn_eq_map, ← List.map_coe_finRange_eq_range, List.map_map]
    refine List.map_congr_left fun i _ => ?_
    rw [Function.comp, Params.commitmentG, withGenerators]
    dsimp only
    have hi : 64 * i.val / 64 = i.val := Nat.mul_div_cancel_left _ (by norm_num)
    rw [if_neg h2, if_neg h4, if_neg h3, dif_pos ⟨rfl, by rw [hi]; exact i.2⟩, henc]
    exact congrArg g.1.1 (Fin.ext hi)
  rw [Params.new, Params.newWithGenerators] at hp ⊢
  dsimp only at hp ⊢
  rw [hU, hG1, hH]
  split at hp
  · cases hp
  rename_i c1
  split at hp
  · cases hp
  rename_i c2
  split at hp
  · cases hp
  rename_i c3
  rw [if_neg c1, if_neg c2, if_neg c3]
  cases hc : checkedMul n m with
  | none => rw [hc] at hp; cases hp
  | some nm =>
    have hnm : nm = n * m := by
      rw [checkedMul] at hc
      split at hc
      · exact (Option.some.inj hc).symm
      · cases hc
    subst hnm
    dsimp only
    rw [hG]
    rfl

section
variable {F P : Type} [Field F] [AddCommGroup P] [Module F P] [DecidableEq F] [DecidableEq P]

/-- An attack, everything in which may depend on the public data: the statements it is about, the signatures by honest users it may
request, and the program. -/
structure Spec.Attack (n m : ℕ) (F P υ κ γ prog : Type) [Zero P] where
  sts : Public n m P υ → κ → Statement P
  /-- whose signature is requested -/
  user : Public n m P υ → γ → υ
  /-- for which statement -/
  stmt : Public n m P υ → γ → κ
  /-- with which transcript -/
  transcript : Public n m P υ → γ → Transcript
  /-- where the user's key is in the ring -/
  position : Public n m P υ → γ → ℕ
  /-- the number behind the second component there, minus the offset -/
  r1 : Public n m P υ → γ → F
  prog : Public n m P υ → prog

/-- The request to a user with the signing key `r`. -/
def Spec.Attack.request {n m : ℕ} {υ κ γ prog : Type} (a : Attack n m F P υ κ γ prog) (pub : Public n m P υ) (r : υ → F) (g : γ) :
    Request κ F :=
  ⟨a.stmt pub g, a.transcript pub g, a.position pub g, r (a.user pub g), a.r1 pub g⟩

/-- The attack is about statements with the published parameters, with different hashes; users are asked to sign for rings with their
keys at the given position, with second components that are the offset plus known multiples of `G1`, and for their linking tags; and challenges of signatures are derived from transcripts in `S`. -/
structure Spec.Attack.Legal {n m : ℕ} {υ κ γ prog : Type} (E : Env F P) (enc : P → Bytes)
    (S : Finset Transcript) (a : Attack n m F P υ κ γ prog) : Prop where
  built : ∀ (g : Generators n m P) (x : υ → Fˣ) k, StatementBuilt (withGenerators E enc g) (a.sts (publish E.basepoint g x) k)
  params : ∀ (g : Generators n m P) (x : υ → Fˣ) k, (a.sts (publish E.basepoint g x) k).params = paramsOf E g
  inj : ∀ (g : Generators n m P) (x : υ → Fˣ) k k', (a.sts (publish E.basepoint g x) k).hash = (a.sts (publish E.basepoint g x) k').hash →
    k = k'
  key : ∀ (g : Generators n m P) (x : υ → Fˣ) c,
    (a.sts (publish E.basepoint g x) (a.stmt (publish E.basepoint g x) c)).inputSet.M[a.position (publish E.basepoint g x) c]? =
      some ((publish E.basepoint g x).key (a.user (publish E.basepoint g x) c))
  key1 : ∀ (g : Generators n m P) (x : υ → Fˣ) c,
    (a.sts (publish E.basepoint g x) (a.stmt (publish E.basepoint g x) c)).inputSet.M1[a.position (publish E.basepoint g x) c]? =
      some (a.r1 (publish E.basepoint g x) c • g.2.1 + (a.sts (publish E.basepoint g x) (a.stmt (publish E.basepoint g x) c)).offset)
  tag : ∀ (g : Generators n m P) (x : υ → Fˣ) c, (a.sts (publish E.basepoint g x) (a.stmt (publish E.basepoint g x) c)).J =
      (publish E.basepoint g x).tag (a.user (publish E.basepoint g x) c)
  point : ∀ (g : Generators n m P) (x : υ → Fˣ) c coins, signTranscript E (paramsOf E g) (a.sts (publish E.basepoint g x))
    (a.request (publish E.basepoint g x) (fun i => (x i : F)) c) coins ∈ S

/-- All members of the ring are honest users' keys, or the linking tag is an honest user's. -/
def Spec.Targets {n m : ℕ} {υ : Type} (pub : Public n m P υ) (st : Statement P) : Prop :=
  (∀ X ∈ st.inputSet.M, ∃ i, X = pub.key i) ∨ ∃ i, st.J = pub.tag i

/-- An amount and a mask. -/
structure Spec.Opening (F : Type) where
  amount : F
  mask : F

/-- `X` is a commitment to the amount with the mask. -/
def Spec.Opening.Opens (G G1 : P) (o : Opening F) (X : P) : Prop := X = o.amount • G + o.mask • G1

/-- Openings that somebody knows of the offset and of second components in the ring of a statement. -/
structure Spec.Openings (F : Type) where
  offset : Opening F
  members : List (Opening F)

/-- No openings of members are known. -/
def Spec.noOpenings {n m : ℕ} {υ κ : Type} : Public n m P υ → κ → Openings F := fun _ _ => ⟨⟨0, 0⟩, []⟩

/-- All second components in the ring are commitments to other amounts than the offset. -/
def Spec.OtherAmounts {n m : ℕ} {υ : Type} (G : P) (pub : Public n m P υ) (o : Openings F) (st : Statement P) : Prop :=
  o.offset.Opens G pub.gens.2.1 st.offset ∧
  ∀ X ∈ st.inputSet.M1, ∃ v ∈ o.members, v.Opens G pub.gens.2.1 X ∧ v.amount ≠ o.offset.amount

/-- The candidates for the discrete logarithm of `Y` from the runs kept by the extractor, if the public data was set up with `ρ`: the
extracted key divided by the factor `t i` of each user's key, for each opening the difference of the amounts divided by that of the
extracted number and the masks and by the factor of `G1`, and the answers from the relations. -/
noncomputable def Spec.candidates {n m : ℕ} {υ κ : Type} [Fintype υ] (E : Env F P) (opens : κ → Openings F) (ρ : SetupCoins n m F (Option υ)) :
    List (Block × Forgery κ F P) → List F
  | [] => []
  | x :: L =>
    let ξ := fun e => E.scalarOfWide (nth x L e).1.bytes
    let p := fun e => (nth x L e).2.p
    (univ : Finset υ).toList.map (fun i => extractKey m ξ (fun e => (p e).z) / ρ.t (some i)) ++
    (opens x.2.k).members.map (fun v => (v.amount - (opens x.2.k).offset.amount) /
      ((extractKey m ξ (fun e => (p e).z1) - (v.mask - (opens x.2.k).offset.mask)) * ρ.t none)) ++
    (List.range (m + 1)).map (fun e => relationAnswer ρ (fun j i => defect ξ (fun e' => fullF (p e').f (ξ e') j i) e)
      (defect ξ (fun e' => (p e').zA) e)) ++
    [relationAnswer ρ (fun j i => defect ξ (fun e' => fullF (p e').f (ξ e') j i * (ξ e' - fullF (p e').f (ξ e') j i)) 2)
      (defect ξ (fun e' => (p e').zC) 2)]

/-- An honest user's key, or a number that, with a known opening to another amount than that of the offset, gives the discrete logarithm
of `G1`. -/
def Spec.Wanted {n m : ℕ} {υ : Type} (G : P) (pub : Public n m P υ) (o : Openings F) (r r1 : F) : Prop :=
  (∃ i, r • G = pub.key i) ∨
  ∃ v ∈ o.members, v.amount ≠ o.offset.amount ∧
    (v.amount - o.offset.amount) • G = (r1 - (v.mask - o.offset.mask)) • pub.gens.2.1

/-- The randomness of the solver, after the public data is set up: seeds, weights, the simulated signers' choices, challenges, and the
answers for rewinding. -/
abbrev Spec.SolverCoins (F : Type) (n m : ℕ) (S A : Finset Transcript) (V Y : Type) (q τ : ℕ) :=
  (A → Seed) × (V → Y) × (Fin q → Block × (HybridCoins F n m × (Fin (m - 1) → F))) × (S → Block) × (Fin m → Fin τ → Block)

/-- The runs of the attack `c` kept by the extractor, with simulated signers who know no key. -/
noncomputable def Spec.keptRuns {n m : ℕ} {υ κ γ prog V Y : Type} (E : Env F P) (enc : P → Bytes) (S A : Finset Transcript) [Nonempty S]
    (a : Attack n m F P υ κ γ prog)
    (c : prog → ChosenProgram S Block A Seed V Y γ (Option (Proof F P)) (Forgery κ F P)) {q τ : ℕ}
    (d : Block × (HybridCoins F n m × (Fin (m - 1) → F)))
    (pub : Public n m P υ) (ω : SolverCoins F n m S A V Y q τ) : List (Block × Forgery κ F P) :=
  extractor (withGenerators E enc pub.gens) S (a.sts pub)
    (((c (a.prog pub)).signingOnly ω.1 ω.2.1).simulated (fun g => simKeyless E S (paramsOf E pub.gens) (a.sts pub)
      (a.request pub (fun _ => 0) g)) (extend d ω.2.2.1) []) ω.2.2.2.1 (tries ω.2.2.2.2)

/-- The solver for discrete logarithms: set up the public data from `Y`, run the attack and the extractor, and pick. -/
noncomputable def Spec.solver {n m : ℕ} {υ κ γ prog V Y : Type} [Fintype υ] (E : Env F P) (enc : P → Bytes) (S A : Finset Transcript) [Nonempty S]
    (a : Attack n m F P υ κ γ prog) (opens : Public n m P υ → κ → Openings F)
    (c : prog → ChosenProgram S Block A Seed V Y γ (Option (Proof F P)) (Forgery κ F P)) {q τ : ℕ}
    (d : Block × (HybridCoins F n m × (Fin (m - 1) → F)))
    (X : {X : P // X ≠ 0}) (ρ : SetupCoins n m F (Option υ)) (ω : SolverCoins F n m S A V Y q τ) : F :=
  pick E.basepoint X.1 (candidates E (opens (setup E.basepoint X ρ)) ρ (keptRuns E enc S A a c d (setup E.basepoint X ρ) ω))

/-- What the kept runs yield is a discrete logarithm. -/
theorem candidates_solve [Fintype F] [Fintype P] {n m : ℕ} {υ κ γ prog V Y : Type} [Fintype υ] (E : Env F P) (enc : P → Bytes) (S A : Finset Transcript)
    [Nonempty S] (a : Attack n m F P υ κ γ prog) (ha : a.Legal E enc S) (opens : Public n m P υ → κ → Openings F) (hG : E.basepoint ≠ 0)
    (c : prog → ChosenProgram S Block A Seed V Y γ (Option (Proof F P)) (Forgery κ F P)) {q τ : ℕ}
    (d : Block × (HybridCoins F n m × (Fin (m - 1) → F))) (g : Generators n m P) (x : υ → Fˣ)
    (ω : SolverCoins F n m S A V Y q τ)
    (hy : Yields (fun k => Wanted E.basepoint (publish E.basepoint g x) (opens (publish E.basepoint g x) k)) (withGenerators E enc g)
      (a.sts (publish E.basepoint g x)) (keptRuns E enc S A a c d (publish E.basepoint g x) ω)) :
    (∀ (y : Fˣ) ρ, (setup E.basepoint ⟨(y : F) • E.basepoint, unit_smul_ne hG y⟩ ρ).gens = g → (fun i => ρ.t (some i) * y) = x →
        solver E enc S A a opens c d ⟨(y : F) • E.basepoint, unit_smul_ne hG y⟩ ρ ω = y) ∨
      ∃ (z : ℕ → ℕ → F) (s : F), Relation n m (List.ofFn g.1.1) g.1.2.1.1 z s ∧
        ∀ (y : Fˣ) ρ, (setup E.basepoint ⟨(y : F) • E.basepoint, unit_smul_ne hG y⟩ ρ).gens = g → (fun i => ρ.t (some i) * y) = x →
          timesY ρ z s ≠ 0 → solver E enc S A a opens c d ⟨(y : F) • E.basepoint, unit_smul_ne hG y⟩ ρ ω = y := by
  have hpar := ha.params g x
  have hset : ∀ (y : Fˣ) (ρ : SetupCoins n m F (Option υ)), (setup E.basepoint ⟨(y : F) • E.basepoint, unit_smul_ne hG y⟩ ρ).gens = g →
      (fun i => ρ.t (some i) * y) = x → setup E.basepoint ⟨(y : F) • E.basepoint, unit_smul_ne hG y⟩ ρ = publish E.basepoint g x := by
    intro y ρ h1 h2
    rw [setup_publish E.basepoint hG y ρ, h1, h2]
  have hsolve : ∀ (y : Fˣ) (ρ : SetupCoins n m F (Option υ)), (setup E.basepoint ⟨(y : F) • E.basepoint, unit_smul_ne hG y⟩ ρ).gens = g →
      (fun i => ρ.t (some i) * y) = x → (y : F) ∈ candidates E (opens (publish E.basepoint g x)) ρ (keptRuns E enc S A a c d (publish E.basepoint g x) ω) →
      solver E enc S A a opens c d ⟨(y : F) • E.basepoint, unit_smul_ne hG y⟩ ρ ω = y := by
    intro y ρ h1 h2 h3
    rw [solver, hset y ρ h1 h2]
    exact pick_eq hG h3
  have hrelation : ∀ (z : ℕ → ℕ → F) (s : F), Relation n m (List.ofFn g.1.1) g.1.2.1.1 z s →
      (∀ ρ : SetupCoins n m F (Option υ), relationAnswer ρ z s ∈ candidates E (opens (publish E.basepoint g x)) ρ (keptRuns E enc S A a c d (publish E.basepoint g x) ω)) →
      ∃ (z : ℕ → ℕ → F) (s : F), Relation n m (List.ofFn g.1.1) g.1.2.1.1 z s ∧
        ∀ (y : Fˣ) ρ, (setup E.basepoint ⟨(y : F) • E.basepoint, unit_smul_ne hG y⟩ ρ).gens = g → (fun i => ρ.t (some i) * y) = x →
          timesY ρ z s ≠ 0 → solver E enc S A a opens c d ⟨(y : F) • E.basepoint, unit_smul_ne hG y⟩ ρ ω = y := by
    intro z s hr hmem
    refine ⟨z, s, hr, fun y ρ h1 h2 h3 => hsolve y ρ h1 h2 ?_⟩
    have h4 := relationAnswer_eq E.basepoint hG y ρ z s (by
      rw [show (Triptych.Spec.setup E.basepoint ⟨(y : F) • E.basepoint, unit_smul_ne hG y⟩ ρ).gens = g.1 from congrArg Prod.fst h1]
      exact hr.1) h3
    rw [← h4]
    exact hmem ρ
  cases hL : keptRuns E enc S A a c d (publish E.basepoint g x) ω with
  | nil => rw [hL] at hy; exact hy.elim
  | cons b L =>
    rw [hL] at hy hsolve hrelation
    rw [Yields, hpar] at hy
    rw [ExtractedRelation] at hy
    rcases hy with ⟨-, ⟨i, hi⟩ | ⟨v, hv, hne, hv1⟩⟩ | ⟨e, he, hr⟩ | hr
    · refine Or.inl fun y ρ h1 h2 => hsolve y ρ h1 h2 ?_
      have h3 := smul_inj hG hi
      rw [← h2, Units.val_mul] at h3
      rw [candidates]
      refine List.mem_append_left _ (List.mem_append_left _ (List.mem_append_left _ (List.mem_map.2 ⟨i, mem_toList.2 (mem_univ i), ?_⟩)))
      refine (div_eq_iff (ρ.t (some i)).ne_zero).2 ?_
      rw [mul_comm]
      exact h3
    · refine Or.inl fun y ρ h1 h2 => hsolve y ρ h1 h2 ?_
      have h3 : (publish E.basepoint g x).gens.2.1 = (ρ.t none * y : F) • E.basepoint := by
        rw [mul_smul]
        exact (congrArg (fun g : Generators n m P => g.2.1) h1).symm
      rw [h3, smul_smul] at hv1
      have h4 := smul_inj hG hv1
      rw [candidates]
      refine List.mem_append_left _ (List.mem_append_left _ (List.mem_append_right _ (List.mem_map.2 ⟨v, hv, ?_⟩)))
      have h5 : v.amount - (opens (publish E.basepoint g x) b.2.k).offset.amount ≠ 0 := sub_ne_zero.2 hne
      refine (div_eq_iff ?_).2 ?_
      · intro h6
        refine h5 (h4.trans ?_)
        rw [← mul_assoc]
        exact (congrArg (· * (y : F)) h6).trans (zero_mul _)
      · rw [mul_comm, mul_assoc]
        exact h4
    · refine Or.inr (hrelation _ _ hr fun ρ => ?_)
      rw [candidates]
      exact List.mem_append_left _ (List.mem_append_right _ (List.mem_map.2 ⟨e, List.mem_range.2 (Nat.lt_succ_of_le he), rfl⟩))
    · refine Or.inr (hrelation _ _ hr fun ρ => ?_)
      rw [candidates]
      exact List.mem_append_right _ List.mem_cons_self

/-- If an attack succeeds no more often than the extractor yields an honest user's key or a relation, up to `ε`, it succeeds no more
often than the solver solves, up to `ε` and one over the size of the field. -/
theorem dlog_bound [Fintype F] [Fintype P] {n m : ℕ} {υ κ γ prog V Y : Type} [Fintype υ] [DecidableEq υ] [Fintype Y] [Fintype V] [DecidableEq V]
    (E : Env F P) (enc : P → Bytes)
    (S A : Finset Transcript) [Nonempty S] (a : Attack n m F P υ κ γ prog) (ha : a.Legal E enc S) (opens : Public n m P υ → κ → Openings F) (hG : E.basepoint ≠ 0)
    (hgen : ∀ X : P, ∃ x : F, x • E.basepoint = X)
    (c : prog → ChosenProgram S Block A Seed V Y γ (Option (Proof F P)) (Forgery κ F P)) {q τ : ℕ}
    (d : Block × (HybridCoins F n m × (Fin (m - 1) → F))) (ε : ℚ) (win : Generators n m P → (υ → Fˣ) → ℚ)
    (hwin : ∀ g x, win g x ≤ ε + avg fun H : A → Seed => avg fun W : V → Y =>
      avg fun coins : Fin q → Block × (HybridCoins F n m × (Fin (m - 1) → F)) => avg fun O : S → Block =>
      avg fun tape : Fin m → Fin τ → Block => ind (Yields (fun k => Wanted E.basepoint (publish E.basepoint g x) (opens (publish E.basepoint g x) k))
        (withGenerators E enc g) (a.sts (publish E.basepoint g x)) (keptRuns E enc S A a c d (publish E.basepoint g x) (H, W, coins, O, tape)))) :
    (avg fun g => avg fun x => win g x) ≤ ε + (1 / Fintype.card F +
      avg fun y : Fˣ => avg fun ρ : SetupCoins n m F (Option υ) => avg fun ω : SolverCoins F n m S A V Y q τ =>
        ind (solver E enc S A a opens c d ⟨(y : F) • E.basepoint, unit_smul_ne hG y⟩ ρ ω = y)) := by
  have hne : Nonempty {X : P // X ≠ 0} := ⟨⟨E.basepoint, hG⟩⟩
  have h1 := dlog_setup (n := n) (m := m) E.basepoint hG hgen (fun g (x : υ → Fˣ) (ω : SolverCoins F n m S A V Y q τ) =>
      Yields (fun k => Wanted E.basepoint (publish E.basepoint g x) (opens (publish E.basepoint g x) k))
        (withGenerators E enc g) (a.sts (publish E.basepoint g x)) (keptRuns E enc S A a c d (publish E.basepoint g x) ω))
    (fun X ρ ω => solver E enc S A a opens c d X ρ ω • E.basepoint = X.1)
    (fun g x ω hy => by
      rcases candidates_solve E enc S A a ha opens hG c d g x ω hy with h | ⟨z, s, hr, h⟩
      · exact Or.inl fun y ρ h1 h2 => by rw [h y ρ h1 h2]
      · exact Or.inr ⟨z, s, hr, fun y ρ h1 h2 h3 => by rw [h y ρ h1 h2 h3]⟩)
  have h2 : (avg fun g => avg fun x => win g x) ≤ ε + avg fun g : Generators n m P => avg fun x : υ → Fˣ =>
      avg fun ω : SolverCoins F n m S A V Y q τ => ind (Yields (fun k => Wanted E.basepoint (publish E.basepoint g x) (opens (publish E.basepoint g x) k))
        (withGenerators E enc g) (a.sts (publish E.basepoint g x)) (keptRuns E enc S A a c d (publish E.basepoint g x) ω)) := by
    refine (avg_mono _ _ fun g => avg_mono _ _ fun x => hwin g x).trans (le_of_eq ?_)
    simp only [avg_add, avg_const, avg_prod]
  refine h2.trans (add_le_add_right (h1.trans (add_le_add_right (avg_mono _ _ fun y => avg_mono _ _ fun ρ => avg_mono _ _ fun ω => ?_) _)) _)
  by_cases h : solver E enc S A a opens c d ⟨(y : F) • E.basepoint, unit_smul_ne hG y⟩ ρ ω • E.basepoint = (y : F) • E.basepoint
  · rw [ind_pos h, ind_pos (smul_inj hG h)]
  · rw [ind_neg h]; exact ind_nonneg _

theorem lawful_withGenerators {E : Env F P} (hE : E.Lawful) (enc : P → Bytes) {n m : ℕ} (g : Generators n m P) :
    (withGenerators E enc g).Lawful :=
  ⟨hE.1, hE.2, hE.3, hE.4, hE.5, hE.6⟩

/-- Whoever knows a key of a statement that targets honest users knows an honest user's key. -/
theorem targets_key {n m : ℕ} {υ : Type} (G : P) (g : Generators n m P) (x : υ → Fˣ) (st : Statement P) (hU : st.params.U = g.1.2.2.1)
    (hGp : st.params.G = G) (h : Targets (publish G g x) st) (r : F) (h1 : r • st.params.G ∈ st.inputSet.M) (h2 : r • st.J = st.params.U) :
    ∃ i, r • G = (publish G g x).key i := by
  rw [hGp] at h1
  rcases h with h | ⟨i, h⟩
  · exact h _ h1
  · refine ⟨i, ?_⟩
    rw [h, hU] at h2
    have h3 : r • (x i : F)⁻¹ • g.1.2.2.1 = (1 : F) • g.1.2.2.1 := by rw [one_smul]; exact h2
    rw [smul_smul] at h3
    have h4 := smul_inj g.1.2.2.2 h3
    have h5 : r = x i := by
      rw [mul_inv_eq_one₀ (x i).ne_zero] at h4
      exact h4
    rw [h5]
    rfl

/-- Requests to honest users are for statements they have the key of. -/
theorem legal_rel {n m : ℕ} {υ κ γ prog : Type} (E : Env F P) (enc : P → Bytes) (S : Finset Transcript)
    (a : Attack n m F P υ κ γ prog) (ha : a.Legal E enc S) (g : Generators n m P) (x : υ → Fˣ) (c : γ) :
    Rel (paramsOf E g).G (paramsOf E g).G1 (paramsOf E g).U
      (a.sts (publish E.basepoint g x) (a.request (publish E.basepoint g x) (fun i => (x i : F)) c).k).inputSet.M
      (a.sts (publish E.basepoint g x) (a.request (publish E.basepoint g x) (fun i => (x i : F)) c).k).inputSet.M1
      (a.sts (publish E.basepoint g x) (a.request (publish E.basepoint g x) (fun i => (x i : F)) c).k).offset
      (a.sts (publish E.basepoint g x) (a.request (publish E.basepoint g x) (fun i => (x i : F)) c).k).J
      (a.request (publish E.basepoint g x) (fun i => (x i : F)) c).l (a.request (publish E.basepoint g x) (fun i => (x i : F)) c).r
      (a.request (publish E.basepoint g x) (fun i => (x i : F)) c).r1 := by
  refine ⟨ha.key g x c, ha.key1 g x c, ?_⟩
  show ((x _ : Fˣ) : F) • (a.sts (publish E.basepoint g x) (a.stmt (publish E.basepoint g x) c)).J = g.1.2.2.1
  rw [ha.tag g x c]
  show ((x _ : Fˣ) : F) • ((x _ : Fˣ) : F)⁻¹ • g.1.2.2.1 = g.1.2.2.1
  rw [smul_smul, mul_inv_cancel₀ (Units.ne_zero _), one_smul]

/-- Whoever knows the number of a position in a ring with other amounts knows the discrete logarithm of `G1`. -/
theorem amounts_wanted {n m : ℕ} {υ : Type} (G : P) (pub : Public n m P υ) (o : Openings F) (st : Statement P) (h : OtherAmounts G pub o st)
    (l : ℕ) (r r1 : F) (h1 : st.inputSet.M1[l]? = some (r1 • pub.gens.2.1 + st.offset)) : Wanted G pub o r r1 := by
  obtain ⟨v, hv, hv1, hv2⟩ := h.2 _ (List.mem_of_getElem? h1)
  refine Or.inr ⟨v, hv, hv2, ?_⟩
  have h2 := h.1
  rw [Opening.Opens] at h2 hv1
  rw [h2] at hv1
  have h3 : r1 • pub.gens.2.1 = v.amount • G + v.mask • pub.gens.2.1 - (o.offset.amount • G + o.offset.mask • pub.gens.2.1) :=
    eq_sub_of_add_eq hv1
  rw [sub_smul, sub_smul, sub_smul, h3]
  abel

end

local notation "ℓ" => (2 ^ 252 + 27742317777372353535851937790883648493 : ℕ)

/-- `C106_forge` for statements with the property `good`, and a program made from that of the attack. -/
theorem dlog_good {υ κ γ prog : Type} [Fintype υ] [DecidableEq υ] {P : Type} [AddCommGroup P] [Module (ZMod ℓ) P] [DecidableEq P] [Fintype P]
    (E : Env (ZMod ℓ) P) (hE : E.Lawful) (hwide : ∀ b, E.scalarOfWide b = ((leNat b : ℕ) : ZMod ℓ))
    (hG : E.basepoint ≠ 0) (hgen : ∀ X : P, ∃ x : ZMod ℓ, x • E.basepoint = X)
    (enc : P → Bytes) (henc : ∀ X, E.pointOfUniform (enc X) = X) (cfg : Config)
    (S A : Finset Transcript) [Nonempty S] (hS : ∀ t ∈ S, t.getLast? = some (.challenge "xi" 64))
    {n m : ℕ} (hnm : ∃ params, Params.new E n m = .ok params)
    (a : Attack n m (ZMod ℓ) P υ κ γ prog)
    (c : prog → ChosenProgram S Block A Seed Seed (Fin (1 * 2 * 5) → Block) γ (Option (Proof (ZMod ℓ) P)) (Forgery κ (ZMod ℓ) P))
    (ha : a.Legal E enc S) (opens : Public n m P υ → κ → Openings (ZMod ℓ)) (good : Generators n m P → (υ → (ZMod ℓ)ˣ) → κ → Prop)
    (hgood : ∀ g x k, good g x k → ∀ l r r1, Rel E.basepoint g.2.1 g.1.2.2.1 (a.sts (publish E.basepoint g x) k).inputSet.M
      (a.sts (publish E.basepoint g x) k).inputSet.M1 (a.sts (publish E.basepoint g x) k).offset (a.sts (publish E.basepoint g x) k).J l r r1 →
      Wanted E.basepoint (publish E.basepoint g x) (opens (publish E.basepoint g x) k) r r1)
    (Q R T q : ℕ) (hc : ∀ pub, (c (a.prog pub)).AtMost Q R T q)
    (d : Block × (HybridCoins (ZMod ℓ) n m × (Fin (m - 1) → ZMod ℓ))) (τ : ℕ) :
    (avg fun g : Generators n m P => avg fun x : υ → (ZMod ℓ)ˣ => avg fun O : S → Block => avg fun H : A → Seed =>
      avg fun W : Seed → Fin (1 * 2 * 5) → Block =>
      ((c (a.prog (publish E.basepoint g x))).signingOnly H W).withSigner
        (fun c => signPoint E S (paramsOf E g) (a.sts (publish E.basepoint g x)) (a.request (publish E.basepoint g x) (fun i => (x i : ZMod ℓ)) c))
        (fun c => signAnswer E (paramsOf E g) (a.sts (publish E.basepoint g x)) (a.request (publish E.basepoint g x) (fun i => (x i : ZMod ℓ)) c))
        (fun y used O => good g x y.k ∧
          AcceptedNew (withGenerators E enc g) cfg S A (a.sts (publish E.basepoint g x)) y used O H W) O []) ≤
      q * (Q + q) / 2 ^ 252 + (Q + 1) * (m / (τ + 1) + m * m / 2 ^ 252) + ((R + 1) * (5 / 2 ^ 64) + 1 / 2 ^ 107) + (1 / 2 ^ 252 +
      avg fun y : (ZMod ℓ)ˣ => avg fun ρ : SetupCoins n m (ZMod ℓ) (Option υ) =>
        avg fun ω : SolverCoins (ZMod ℓ) n m S A Seed (Fin (1 * 2 * 5) → Block) q τ =>
        ind (solver E enc S A a opens c d ⟨(y : ZMod ℓ) • E.basepoint, unit_smul_ne hG y⟩ ρ ω = y)) := by
  refine (dlog_bound E enc S A a ha opens hG hgen c (q := q) (τ := τ) d (q * (Q + q) / 2 ^ 252 + (Q + 1) * (m / (τ + 1) + m * m / 2 ^ 252) +
    ((R + 1) * (5 / 2 ^ 64) + 1 / 2 ^ 107)) _ fun g x => ?_).trans ?_
  · exact chosen_extract_good (withGenerators E enc g) (lawful_withGenerators hE enc g) hwide cfg S A hS (paramsOf E g)
      ⟨n, m, E.basepoint, _, _, C106_params E enc henc hnm g⟩ g.1.2.1.2 (a.sts (publish E.basepoint g x)) (ha.built g x)
      (good g x) (fun k => Wanted E.basepoint (publish E.basepoint g x) (opens (publish E.basepoint g x) k))
      (fun k hk l r r1 h1 => by
        rw [ha.params] at h1
        exact hgood g x k hk l r r1 h1)
      (ha.params g x) (ha.inj g x) (a.request (publish E.basepoint g x) fun i => (x i : ZMod ℓ)) (legal_rel E enc S a ha g x)
      (ha.point g x) (c (a.prog (publish E.basepoint g x))) Q R T q (hc _) d τ
  · exact add_le_add_right (card_ristretto_le _) _

/-- C106: random generators, honest users `υ` with random signing keys, and an attack with at most `Q` challenges, `R` seeds, the weights
of `T` seeds and `q` signatures of honest users of its choice. The probability that the verifier accepts its output, which no user made, for
a ring of honest users' keys or with an honest user's linking tag, is at most that of the solver to compute the discrete logarithm of a
random point, with the error terms of C99 and one over the group order. -/
theorem C106_forge {υ κ γ : Type} [Fintype υ] [DecidableEq υ] {P : Type} [AddCommGroup P] [Module (ZMod ℓ) P] [DecidableEq P] [Fintype P]
    (E : Env (ZMod ℓ) P) (hE : E.Lawful) (hwide : ∀ b, E.scalarOfWide b = ((leNat b : ℕ) : ZMod ℓ))
    (hG : E.basepoint ≠ 0) (hgen : ∀ X : P, ∃ x : ZMod ℓ, x • E.basepoint = X)
    (enc : P → Bytes) (henc : ∀ X, E.pointOfUniform (enc X) = X) (cfg : Config)
    (S A : Finset Transcript) [Nonempty S] (hS : ∀ t ∈ S, t.getLast? = some (.challenge "xi" 64))
    {n m : ℕ} (hnm : ∃ params, Params.new E n m = .ok params)
    (a : Attack n m (ZMod ℓ) P υ κ γ
      (ChosenProgram S Block A Seed Seed (Fin (1 * 2 * 5) → Block) γ (Option (Proof (ZMod ℓ) P)) (Forgery κ (ZMod ℓ) P)))
    (ha : a.Legal E enc S) (Q R T q : ℕ) (hc : ∀ pub, (a.prog pub).AtMost Q R T q)
    (d : Block × (HybridCoins (ZMod ℓ) n m × (Fin (m - 1) → ZMod ℓ))) (τ : ℕ) :
    (avg fun g : Generators n m P => avg fun x : υ → (ZMod ℓ)ˣ => avg fun O : S → Block => avg fun H : A → Seed =>
      avg fun W : Seed → Fin (1 * 2 * 5) → Block =>
      ((a.prog (publish E.basepoint g x)).signingOnly H W).withSigner
        (fun c => signPoint E S (paramsOf E g) (a.sts (publish E.basepoint g x)) (a.request (publish E.basepoint g x) (fun i => (x i : ZMod ℓ)) c))
        (fun c => signAnswer E (paramsOf E g) (a.sts (publish E.basepoint g x)) (a.request (publish E.basepoint g x) (fun i => (x i : ZMod ℓ)) c))
        (fun y used O => Targets (publish E.basepoint g x) (a.sts (publish E.basepoint g x) y.k) ∧
          AcceptedNew (withGenerators E enc g) cfg S A (a.sts (publish E.basepoint g x)) y used O H W) O []) ≤
      q * (Q + q) / 2 ^ 252 + (Q + 1) * (m / (τ + 1) + m * m / 2 ^ 252) + ((R + 1) * (5 / 2 ^ 64) + 1 / 2 ^ 107) + (1 / 2 ^ 252 +
      avg fun y : (ZMod ℓ)ˣ => avg fun ρ : SetupCoins n m (ZMod ℓ) (Option υ) =>
        avg fun ω : SolverCoins (ZMod ℓ) n m S A Seed (Fin (1 * 2 * 5) → Block) q τ =>
        ind (solver E enc S A a noOpenings id d ⟨(y : ZMod ℓ) • E.basepoint, unit_smul_ne hG y⟩ ρ ω = y)) := by
  exact dlog_good E hE hwide hG hgen enc henc cfg S A hS hnm a id ha noOpenings
    (fun g x k => Targets (publish E.basepoint g x) (a.sts (publish E.basepoint g x) k))
    (fun g x k hk l r r1 h1 => Or.inl (targets_key E.basepoint g x _ (by rw [ha.params]; rfl) (by rw [ha.params]; rfl) hk r
      (by rw [ha.params]; exact List.mem_of_getElem? h1.1) (by rw [ha.params]; exact h1.2.2))) Q R T q hc d τ

/-- C107: the offset and the second components in the rings are commitments with known openings. The probability that the verifier accepts
an output, which no user made, for a statement in which all second components are commitments to other amounts than the offset, is at most
that of the solver, with the same error terms. -/
theorem C107_amount {υ κ γ : Type} [Fintype υ] [DecidableEq υ] {P : Type} [AddCommGroup P] [Module (ZMod ℓ) P] [DecidableEq P] [Fintype P]
    (E : Env (ZMod ℓ) P) (hE : E.Lawful) (hwide : ∀ b, E.scalarOfWide b = ((leNat b : ℕ) : ZMod ℓ))
    (hG : E.basepoint ≠ 0) (hgen : ∀ X : P, ∃ x : ZMod ℓ, x • E.basepoint = X)
    (enc : P → Bytes) (henc : ∀ X, E.pointOfUniform (enc X) = X) (cfg : Config)
    (S A : Finset Transcript) [Nonempty S] (hS : ∀ t ∈ S, t.getLast? = some (.challenge "xi" 64))
    {n m : ℕ} (hnm : ∃ params, Params.new E n m = .ok params)
    (a : Attack n m (ZMod ℓ) P υ κ γ
      (ChosenProgram S Block A Seed Seed (Fin (1 * 2 * 5) → Block) γ (Option (Proof (ZMod ℓ) P)) (Forgery κ (ZMod ℓ) P)))
    (ha : a.Legal E enc S) (opens : Public n m P υ → κ → Openings (ZMod ℓ)) (Q R T q : ℕ) (hc : ∀ pub, (a.prog pub).AtMost Q R T q)
    (d : Block × (HybridCoins (ZMod ℓ) n m × (Fin (m - 1) → ZMod ℓ))) (τ : ℕ) :
    (avg fun g : Generators n m P => avg fun x : υ → (ZMod ℓ)ˣ => avg fun O : S → Block => avg fun H : A → Seed =>
      avg fun W : Seed → Fin (1 * 2 * 5) → Block =>
      ((a.prog (publish E.basepoint g x)).signingOnly H W).withSigner
        (fun c => signPoint E S (paramsOf E g) (a.sts (publish E.basepoint g x)) (a.request (publish E.basepoint g x) (fun i => (x i : ZMod ℓ)) c))
        (fun c => signAnswer E (paramsOf E g) (a.sts (publish E.basepoint g x)) (a.request (publish E.basepoint g x) (fun i => (x i : ZMod ℓ)) c))
        (fun y used O => OtherAmounts E.basepoint (publish E.basepoint g x) (opens (publish E.basepoint g x) y.k)
            (a.sts (publish E.basepoint g x) y.k) ∧
          AcceptedNew (withGenerators E enc g) cfg S A (a.sts (publish E.basepoint g x)) y used O H W) O []) ≤
      q * (Q + q) / 2 ^ 252 + (Q + 1) * (m / (τ + 1) + m * m / 2 ^ 252) + ((R + 1) * (5 / 2 ^ 64) + 1 / 2 ^ 107) + (1 / 2 ^ 252 +
      avg fun y : (ZMod ℓ)ˣ => avg fun ρ : SetupCoins n m (ZMod ℓ) (Option υ) =>
        avg fun ω : SolverCoins (ZMod ℓ) n m S A Seed (Fin (1 * 2 * 5) → Block) q τ =>
        ind (solver E enc S A a opens id d ⟨(y : ZMod ℓ) • E.basepoint, unit_smul_ne hG y⟩ ρ ω = y)) := by
  exact dlog_good E hE hwide hG hgen enc henc cfg S A hS hnm a id ha opens
    (fun g x k => OtherAmounts E.basepoint (publish E.basepoint g x) (opens (publish E.basepoint g x) k) (a.sts (publish E.basepoint g x) k))
    (fun g x k hk l r r1 h1 => amounts_wanted E.basepoint (publish E.basepoint g x) _ _ hk l r r1 h1.2.1) Q R T q hc d τ

/-- C106 for linking tags: the probability that the verifier accepts `j + 1` outputs with different linking tags, which no user made, in
an outcome in which at most `j` of the keys in their rings are not honest users', is at most the sum of those of `j + 1` solvers, with error terms. -/
theorem C106_links {υ κ γ : Type} [Fintype υ] [DecidableEq υ] {P : Type} [AddCommGroup P] [Module (ZMod ℓ) P] [DecidableEq P] [Fintype P]
    (E : Env (ZMod ℓ) P) (hE : E.Lawful) (hwide : ∀ b, E.scalarOfWide b = ((leNat b : ℕ) : ZMod ℓ))
    (hG : E.basepoint ≠ 0) (hgen : ∀ X : P, ∃ x : ZMod ℓ, x • E.basepoint = X)
    (enc : P → Bytes) (henc : ∀ X, E.pointOfUniform (enc X) = X) (cfg : Config)
    (S A : Finset Transcript) [Nonempty S] (hS : ∀ t ∈ S, t.getLast? = some (.challenge "xi" 64))
    {n m : ℕ} (hnm : ∃ params, Params.new E n m = .ok params) (j : ℕ)
    (a : Attack n m (ZMod ℓ) P υ κ γ
      (ChosenProgram S Block A Seed Seed (Fin (1 * 2 * 5) → Block) γ (Option (Proof (ZMod ℓ) P)) (Fin (j + 1) → Forgery κ (ZMod ℓ) P)))
    (ha : a.Legal E enc S)
    (Q R T q : ℕ) (hc : ∀ pub, (a.prog pub).AtMost Q R T q)
    (d : Block × (HybridCoins (ZMod ℓ) n m × (Fin (m - 1) → ZMod ℓ))) (τ : ℕ) :
    (avg fun g : Generators n m P => avg fun x : υ → (ZMod ℓ)ˣ => avg fun O : S → Block => avg fun H : A → Seed =>
      avg fun W : Seed → Fin (1 * 2 * 5) → Block =>
      ((a.prog (publish E.basepoint g x)).signingOnly H W).withSigner
        (fun c => signPoint E S (paramsOf E g) (a.sts (publish E.basepoint g x)) (a.request (publish E.basepoint g x) (fun i => (x i : ZMod ℓ)) c))
        (fun c => signAnswer E (paramsOf E g) (a.sts (publish E.basepoint g x)) (a.request (publish E.basepoint g x) (fun i => (x i : ZMod ℓ)) c))
        (fun y used O => (∃ own : Finset P, #own ≤ j ∧ ∀ i, ∀ X ∈ (a.sts (publish E.basepoint g x) (y i).k).inputSet.M,
            X ∈ own ∨ ∃ u, X = (publish E.basepoint g x).key u) ∧
          AcceptedNewUnlinkable (withGenerators E enc g) cfg S A (a.sts (publish E.basepoint g x)) y used O H W) O []) ≤
      (j + 1) * (q * (Q + q) / 2 ^ 252 + (Q + 1) * (m / (τ + 1) + m * m / 2 ^ 252) + ((R + 1) * (5 / 2 ^ 64) + 1 / 2 ^ 107) + 1 / 2 ^ 252) +
      ∑ i, avg fun y : (ZMod ℓ)ˣ => avg fun ρ : SetupCoins n m (ZMod ℓ) (Option υ) =>
        avg fun ω : SolverCoins (ZMod ℓ) n m S A Seed (Fin (1 * 2 * 5) → Block) q τ =>
        ind (solver E enc S A a noOpenings (fun c => c.part i) d ⟨(y : ZMod ℓ) • E.basepoint, unit_smul_ne hG y⟩ ρ ω = y) := by
  let good : Generators n m P → (υ → (ZMod ℓ)ˣ) → κ → Prop := fun g x k => ∀ r : ZMod ℓ,
    r • E.basepoint ∈ (a.sts (publish E.basepoint g x) k).inputSet.M → r • (a.sts (publish E.basepoint g x) k).J = g.1.2.2.1 →
      ∃ u, r • E.basepoint = (publish E.basepoint g x).key u
  have hgood : ∀ g x k, good g x k → ∀ l r r1, Rel E.basepoint g.2.1 g.1.2.2.1 (a.sts (publish E.basepoint g x) k).inputSet.M
      (a.sts (publish E.basepoint g x) k).inputSet.M1 (a.sts (publish E.basepoint g x) k).offset (a.sts (publish E.basepoint g x) k).J l r r1 →
      Wanted E.basepoint (publish E.basepoint g x) (noOpenings (publish E.basepoint g x) k) r r1 :=
    fun g x k hk l r r1 h1 => Or.inl (hk r (List.mem_of_getElem? h1.1) h1.2.2)
  have key := fun i : Fin (j + 1) => dlog_good E hE hwide hG hgen enc henc cfg S A hS hnm a (fun c => c.part i) ha noOpenings good hgood Q R T q
    (fun pub => ChosenProgram.atMost_map _ _ (hc pub)) d τ
  have hg1 : ∀ g x k, (∀ r : ZMod ℓ, r • E.basepoint ∈ (a.sts (publish E.basepoint g x) k).inputSet.M →
      r • (a.sts (publish E.basepoint g x) k).J = g.1.2.2.1 → ∃ u, r • E.basepoint = (publish E.basepoint g x).key u) → good g x k :=
    fun g x k h => h
  clear_value good
  generalize (q * (Q + q) / 2 ^ 252 + (Q + 1) * (m / (τ + 1) + m * m / 2 ^ 252) + ((R + 1) * (5 / 2 ^ 64) + 1 / 2 ^ 107) : ℚ) = ε at key ⊢
  have hne : Nonempty (Coins (ZMod ℓ) n m) := ⟨⟨fun _ _ => 0, 0, 0, 0, 0, fun _ => 0, fun _ => 0⟩⟩
  have h1 := fun (g : Generators n m P) (x : υ → (ZMod ℓ)ˣ) (O : S → Block) (H : A → Seed) (W : Seed → Fin (1 * 2 * 5) → Block) =>
    withSigner_parts
      (fun c => signPoint E S (paramsOf E g) (a.sts (publish E.basepoint g x)) (a.request (publish E.basepoint g x) (fun i => (x i : ZMod ℓ)) c))
      (fun c => signAnswer E (paramsOf E g) (a.sts (publish E.basepoint g x)) (a.request (publish E.basepoint g x) (fun i => (x i : ZMod ℓ)) c))
      (fun y used O => (∃ own : Finset P, #own ≤ j ∧ ∀ i, ∀ X ∈ (a.sts (publish E.basepoint g x) (y i).k).inputSet.M,
            X ∈ own ∨ ∃ u, X = (publish E.basepoint g x).key u) ∧
          AcceptedNewUnlinkable (withGenerators E enc g) cfg S A (a.sts (publish E.basepoint g x)) y used O H W)
      (fun y used O => good g x y.k ∧ AcceptedNew (withGenerators E enc g) cfg S A (a.sts (publish E.basepoint g x)) y used O H W) O
      (fun y used h => by
        obtain ⟨i, hi⟩ := links_owned hG hgen g.1.2.2.1 g.1.2.2.2 (fun i => (a.sts (publish E.basepoint g x) (y i).k).inputSet.M)
          (fun i => (a.sts (publish E.basepoint g x) (y i).k).J) h.2.2 (fun X => ∃ u, X = (publish E.basepoint g x).key u) h.1
        exact ⟨i, hg1 g x _ hi, h.2.1 i⟩) (a.prog (publish E.basepoint g x)) Q R T q (hc _) H W
  refine (avg_mono _ _ fun g => avg_mono _ _ fun x => avg_mono _ _ fun O => avg_mono _ _ fun H => avg_mono _ _ fun W => h1 g x O H W).trans ?_
  simp only [avg_sum]
  refine (sum_le_sum fun i _ => key i).trans (le_of_eq ?_)
  rw [sum_add_distrib, sum_add_distrib, sum_const, sum_const, card_univ, Fintype.card_fin, nsmul_eq_mul, nsmul_eq_mul, Nat.cast_add,
    Nat.cast_one]
  ring

/-- `C106_batch` for statements with the property `good`. -/
theorem dlog_batch_good {υ κ γ : Type} [Fintype υ] [DecidableEq υ] {P : Type} [AddCommGroup P] [Module (ZMod ℓ) P] [DecidableEq P] [Fintype P]
    (E : Env (ZMod ℓ) P) (hE : E.Lawful) (hwide : ∀ b, E.scalarOfWide b = ((leNat b : ℕ) : ZMod ℓ))
    (hG : E.basepoint ≠ 0) (hgen : ∀ X : P, ∃ x : ZMod ℓ, x • E.basepoint = X)
    (enc : P → Bytes) (henc : ∀ X, E.pointOfUniform (enc X) = X) (cfg : Config)
    (S A : Finset Transcript) [Nonempty S] (hS : ∀ t ∈ S, t.getLast? = some (.challenge "xi" 64))
    {n m : ℕ} (hnm : ∃ params, Params.new E n m = .ok params) (k : ℕ)
    (a : Attack n m (ZMod ℓ) P υ κ γ (ChosenProgram S Block A Seed (Fin (k + 1) → Seed) (Fin ((k + 1) * 2 * 5) → Block) γ (Option (Proof (ZMod ℓ) P))
      (Fin (k + 1) → Forgery κ (ZMod ℓ) P)))
    (ha : a.Legal E enc S) (opens : Public n m P υ → κ → Openings (ZMod ℓ)) (good : Generators n m P → (υ → (ZMod ℓ)ˣ) → κ → Prop)
    (hgood : ∀ g x k, good g x k → ∀ l r r1, Rel E.basepoint g.2.1 g.1.2.2.1 (a.sts (publish E.basepoint g x) k).inputSet.M
      (a.sts (publish E.basepoint g x) k).inputSet.M1 (a.sts (publish E.basepoint g x) k).offset (a.sts (publish E.basepoint g x) k).J l r r1 →
      Wanted E.basepoint (publish E.basepoint g x) (opens (publish E.basepoint g x) k) r r1)
    (hM : ∀ (g : Generators n m P) (x : υ → (ZMod ℓ)ˣ) k k',
      (a.sts (publish E.basepoint g x) k).inputSet.hash = (a.sts (publish E.basepoint g x) k').inputSet.hash →
      (a.sts (publish E.basepoint g x) k).inputSet.M = (a.sts (publish E.basepoint g x) k').inputSet.M ∧
      (a.sts (publish E.basepoint g x) k).inputSet.M1 = (a.sts (publish E.basepoint g x) k').inputSet.M1)
    (Q R T q : ℕ) (hc : ∀ pub, (a.prog pub).AtMost Q R T q)
    (d : Block × (HybridCoins (ZMod ℓ) n m × (Fin (m - 1) → ZMod ℓ))) (τ : ℕ) :
    (avg fun g : Generators n m P => avg fun x : υ → (ZMod ℓ)ˣ => avg fun O : S → Block => avg fun H : A → Seed =>
      avg fun W : (Fin (k + 1) → Seed) → Fin ((k + 1) * 2 * 5) → Block =>
      ((a.prog (publish E.basepoint g x)).signingOnly H W).withSigner
        (fun c => signPoint E S (paramsOf E g) (a.sts (publish E.basepoint g x)) (a.request (publish E.basepoint g x) (fun i => (x i : ZMod ℓ)) c))
        (fun c => signAnswer E (paramsOf E g) (a.sts (publish E.basepoint g x)) (a.request (publish E.basepoint g x) (fun i => (x i : ZMod ℓ)) c))
        (fun y used O => (∃ i, good g x (y i).k ∧
            NewPoint (withGenerators E enc g) S (a.sts (publish E.basepoint g x)) (y i) used) ∧
          AcceptedBatch (withGenerators E enc g) cfg S A (a.sts (publish E.basepoint g x)) y O H W) O []) ≤
      (k + 1) * (q * (Q + q) / 2 ^ 252 + (Q + 1) * (m / (τ + 1) + m * m / 2 ^ 252) + 1 / 2 ^ 252) +
      ((R + (k + 1 : ℕ)) * ((R + (k + 1 : ℕ) + (k + 1 : ℕ) * (T + 1)) / 2 ^ 64) + (T + 1) * (1 / 2 ^ 251)) +
      ∑ i, avg fun y : (ZMod ℓ)ˣ => avg fun ρ : SetupCoins n m (ZMod ℓ) (Option υ) =>
        avg fun ω : SolverCoins (ZMod ℓ) n m S A (Fin (k + 1) → Seed) (Fin ((k + 1) * 2 * 5) → Block) q τ =>
        ind (solver E enc S A a opens (fun c => c.part i) d ⟨(y : ZMod ℓ) • E.basepoint, unit_smul_ne hG y⟩ ρ ω = y) := by
  have hne : Nonempty (Coins (ZMod ℓ) n m) := ⟨⟨fun _ _ => 0, 0, 0, 0, 0, fun _ => 0, fun _ => 0⟩⟩
  have hne' : Nonempty {X : P // X ≠ 0} := ⟨⟨E.basepoint, hG⟩⟩
  have key := fun i : Fin (k + 1) => (dlog_bound E enc S A a ha opens hG hgen (fun c => c.part i) (q := q) (τ := τ) d
    (q * (Q + q) / 2 ^ 252 + (Q + 1) * (m / (τ + 1) + m * m / 2 ^ 252))
    (fun g x => avg fun H : A → Seed => avg fun W : (Fin (k + 1) → Seed) → Fin ((k + 1) * 2 * 5) → Block => avg fun O : S → Block =>
      (((a.prog (publish E.basepoint g x)).part i).signingOnly H W).withSigner
        (fun c => signPoint E S (paramsOf E g) (a.sts (publish E.basepoint g x)) (a.request (publish E.basepoint g x) (fun i => (x i : ZMod ℓ)) c))
        (fun c => signAnswer E (paramsOf E g) (a.sts (publish E.basepoint g x)) (a.request (publish E.basepoint g x) (fun i => (x i : ZMod ℓ)) c))
        (fun y used O => good g x y.k ∧
          NewForgery (withGenerators E enc g) S (a.sts (publish E.basepoint g x)) y used O) O [])
    (fun g x => by
      have h3 := fun (H : A → Seed) (W : (Fin (k + 1) → Seed) → Fin ((k + 1) * 2 * 5) → Block) =>
        signing_extract_ristretto (withGenerators E enc g) (lawful_withGenerators hE enc g) hwide S (paramsOf E g)
        ⟨n, m, E.basepoint, _, _, C106_params E enc henc hnm g⟩ g.1.2.1.2 (a.sts (publish E.basepoint g x)) (ha.built g x)
        (good g x) (fun k => Wanted E.basepoint (publish E.basepoint g x) (opens (publish E.basepoint g x) k))
        (fun k hk l r r1 h1 => by
          rw [ha.params] at h1
          exact hgood g x k hk l r r1 h1)
        (ha.params g x) (ha.inj g x) (a.request (publish E.basepoint g x) fun i => (x i : ZMod ℓ)) (legal_rel E enc S a ha g x)
        (ha.point g x) (((a.prog (publish E.basepoint g x)).part i).signingOnly H W) Q q
        (ChosenProgram.atMost_signingOnly H W _ (ChosenProgram.atMost_map _ _ (hc _))) d τ
      have h4 := avg_mono _ _ fun H => avg_mono _ _ fun W => h3 H W
      have h5 : ∀ (ε : ℚ) (f : (A → Seed) → ((Fin (k + 1) → Seed) → Fin ((k + 1) * 2 * 5) → Block) → ℚ),
        (avg fun H => avg fun W => ε + f H W) = ε + avg fun H => avg fun W => f H W := fun ε f => by simp only [avg_add, avg_const]
      rw [h5] at h4
      exact h4)).trans
    (add_le_add_right (card_ristretto_le _) _)
  have h1 := fun (g : Generators n m P) (x : υ → (ZMod ℓ)ˣ) (O : S → Block) (H : A → Seed)
      (W : (Fin (k + 1) → Seed) → Fin ((k + 1) * 2 * 5) → Block) =>
    withSigner_le_add
      (fun c => signPoint E S (paramsOf E g) (a.sts (publish E.basepoint g x)) (a.request (publish E.basepoint g x) (fun i => (x i : ZMod ℓ)) c))
      (fun c => signAnswer E (paramsOf E g) (a.sts (publish E.basepoint g x)) (a.request (publish E.basepoint g x) (fun i => (x i : ZMod ℓ)) c))
      (fun y used O => (∃ i, good g x (y i).k ∧
            NewPoint (withGenerators E enc g) S (a.sts (publish E.basepoint g x)) (y i) used) ∧
          AcceptedBatch (withGenerators E enc g) cfg S A (a.sts (publish E.basepoint g x)) y O H W)
      (fun y used O => ∃ i, good g x (y i).k ∧
          NewForgery (withGenerators E enc g) S (a.sts (publish E.basepoint g x)) (y i) used O)
      (fun y _ O => AcceptedInvalidBatch (withOracle (withGenerators E enc g) S O) cfg A (a.sts (publish E.basepoint g x)) y H W) O
      (fun y used h => (accepted_batch_cases (withGenerators E enc g) cfg S A hS (paramsOf E g) (a.sts (publish E.basepoint g x))
        (ha.built g x) (ha.params g x) (hM g x) y O H W h.2).imp_left fun h' => by
        obtain ⟨i, ht, hn⟩ := h.1
        exact ⟨i, ht, hn, h' i⟩)
      ((a.prog (publish E.basepoint g x)).signingOnly H W) Q q (ChosenProgram.atMost_signingOnly H W _ (hc _))
  have h1' := fun (g : Generators n m P) (x : υ → (ZMod ℓ)ˣ) (O : S → Block) (H : A → Seed)
      (W : (Fin (k + 1) → Seed) → Fin ((k + 1) * 2 * 5) → Block) =>
    (h1 g x O H W).trans (add_le_add_left (withSigner_parts
      (fun c => signPoint E S (paramsOf E g) (a.sts (publish E.basepoint g x)) (a.request (publish E.basepoint g x) (fun i => (x i : ZMod ℓ)) c))
      (fun c => signAnswer E (paramsOf E g) (a.sts (publish E.basepoint g x)) (a.request (publish E.basepoint g x) (fun i => (x i : ZMod ℓ)) c)) _
      (fun y used O => good g x y.k ∧
          NewForgery (withGenerators E enc g) S (a.sts (publish E.basepoint g x)) y used O) O (fun y used h => h)
      (a.prog (publish E.basepoint g x)) Q R T q (hc _) H W) _)
  have h2 := fun (g : Generators n m P) (x : υ → (ZMod ℓ)ˣ) => signer_grind
    (fun c => signPoint E S (paramsOf E g) (a.sts (publish E.basepoint g x)) (a.request (publish E.basepoint g x) (fun i => (x i : ZMod ℓ)) c))
    (fun c => signAnswer E (paramsOf E g) (a.sts (publish E.basepoint g x)) (a.request (publish E.basepoint g x) (fun i => (x i : ZMod ℓ)) c))
    (fun y H W O => AcceptedInvalidBatch (withOracle (withGenerators E enc g) S O) cfg A (a.sts (publish E.basepoint g x)) y H W)
    (a.prog (publish E.basepoint g x)) Q R T q (hc _)
    ((R + (k + 1 : ℕ)) * ((R + (k + 1 : ℕ) + (k + 1 : ℕ) * (T + 1)) / 2 ^ 64) + (T + 1) * (1 / 2 ^ 251))
    (by positivity) fun O f hf => C82_ristretto (withOracle (withGenerators E enc g) S O)
      (lawful_withOracle _ (lawful_withGenerators hE enc g) S O) hwide cfg A (a.sts (publish E.basepoint g x))
      (fun k => statementBuilt_withOracle _ S O hS _ (ha.built g x k)) (ha.inj g x) k f R T hf
  generalize (q * (Q + q) / 2 ^ 252 + (Q + 1) * (m / (τ + 1) + m * m / 2 ^ 252) : ℚ) = ε at key ⊢
  generalize ((R + (k + 1 : ℕ)) * ((R + (k + 1 : ℕ) + (k + 1 : ℕ) * (T + 1)) / 2 ^ 64) + (T + 1) * (1 / 2 ^ 251) : ℚ) = ε' at h2 ⊢
  have h3 := fun (g : Generators n m P) (x : υ → (ZMod ℓ)ˣ) =>
    (avg_mono _ _ fun O => avg_mono _ _ fun H => avg_mono _ _ fun W => h1' g x O H W)
  simp only [avg_add₃, avg_sum₃] at h3
  have h4 := fun (g : Generators n m P) (x : υ → (ZMod ℓ)ˣ) =>
    (h3 g x).trans (add_le_add (sum_le_sum fun i _ => le_of_eq (avg_swap _)) (h2 g x))
  refine (avg_mono _ _ fun g => avg_mono _ _ fun x => h4 g x).trans ?_
  simp only [avg_add, avg_const, avg_sum]
  refine (add_le_add_left (sum_le_sum fun i _ => (le_of_eq (by simp only [avg_sum])).trans (key i)) _).trans (le_of_eq ?_)
  rw [sum_add_distrib, sum_add_distrib, sum_const, sum_const, card_univ, Fintype.card_fin, nsmul_eq_mul, nsmul_eq_mul, Nat.cast_add,
    Nat.cast_one]
  ring

/-- C106 for batches: `verify_batch` accepts a batch in which a proof that no user made is for a ring of honest users' keys or has an
honest user's linking tag. -/
theorem C106_batch {υ κ γ : Type} [Fintype υ] [DecidableEq υ] {P : Type} [AddCommGroup P] [Module (ZMod ℓ) P] [DecidableEq P] [Fintype P]
    (E : Env (ZMod ℓ) P) (hE : E.Lawful) (hwide : ∀ b, E.scalarOfWide b = ((leNat b : ℕ) : ZMod ℓ))
    (hG : E.basepoint ≠ 0) (hgen : ∀ X : P, ∃ x : ZMod ℓ, x • E.basepoint = X)
    (enc : P → Bytes) (henc : ∀ X, E.pointOfUniform (enc X) = X) (cfg : Config)
    (S A : Finset Transcript) [Nonempty S] (hS : ∀ t ∈ S, t.getLast? = some (.challenge "xi" 64))
    {n m : ℕ} (hnm : ∃ params, Params.new E n m = .ok params) (k : ℕ)
    (a : Attack n m (ZMod ℓ) P υ κ γ (ChosenProgram S Block A Seed (Fin (k + 1) → Seed) (Fin ((k + 1) * 2 * 5) → Block) γ (Option (Proof (ZMod ℓ) P))
      (Fin (k + 1) → Forgery κ (ZMod ℓ) P)))
    (ha : a.Legal E enc S)
    (hM : ∀ (g : Generators n m P) (x : υ → (ZMod ℓ)ˣ) k k',
      (a.sts (publish E.basepoint g x) k).inputSet.hash = (a.sts (publish E.basepoint g x) k').inputSet.hash →
      (a.sts (publish E.basepoint g x) k).inputSet.M = (a.sts (publish E.basepoint g x) k').inputSet.M ∧
      (a.sts (publish E.basepoint g x) k).inputSet.M1 = (a.sts (publish E.basepoint g x) k').inputSet.M1)
    (Q R T q : ℕ) (hc : ∀ pub, (a.prog pub).AtMost Q R T q)
    (d : Block × (HybridCoins (ZMod ℓ) n m × (Fin (m - 1) → ZMod ℓ))) (τ : ℕ) :
    (avg fun g : Generators n m P => avg fun x : υ → (ZMod ℓ)ˣ => avg fun O : S → Block => avg fun H : A → Seed =>
      avg fun W : (Fin (k + 1) → Seed) → Fin ((k + 1) * 2 * 5) → Block =>
      ((a.prog (publish E.basepoint g x)).signingOnly H W).withSigner
        (fun c => signPoint E S (paramsOf E g) (a.sts (publish E.basepoint g x)) (a.request (publish E.basepoint g x) (fun i => (x i : ZMod ℓ)) c))
        (fun c => signAnswer E (paramsOf E g) (a.sts (publish E.basepoint g x)) (a.request (publish E.basepoint g x) (fun i => (x i : ZMod ℓ)) c))
        (fun y used O => (∃ i, Targets (publish E.basepoint g x) (a.sts (publish E.basepoint g x) (y i).k) ∧
            NewPoint (withGenerators E enc g) S (a.sts (publish E.basepoint g x)) (y i) used) ∧
          AcceptedBatch (withGenerators E enc g) cfg S A (a.sts (publish E.basepoint g x)) y O H W) O []) ≤
      (k + 1) * (q * (Q + q) / 2 ^ 252 + (Q + 1) * (m / (τ + 1) + m * m / 2 ^ 252) + 1 / 2 ^ 252) +
      ((R + (k + 1 : ℕ)) * ((R + (k + 1 : ℕ) + (k + 1 : ℕ) * (T + 1)) / 2 ^ 64) + (T + 1) * (1 / 2 ^ 251)) +
      ∑ i, avg fun y : (ZMod ℓ)ˣ => avg fun ρ : SetupCoins n m (ZMod ℓ) (Option υ) =>
        avg fun ω : SolverCoins (ZMod ℓ) n m S A (Fin (k + 1) → Seed) (Fin ((k + 1) * 2 * 5) → Block) q τ =>
        ind (solver E enc S A a noOpenings (fun c => c.part i) d ⟨(y : ZMod ℓ) • E.basepoint, unit_smul_ne hG y⟩ ρ ω = y) := by
  exact dlog_batch_good E hE hwide hG hgen enc henc cfg S A hS hnm k a ha noOpenings
    (fun g x k => Targets (publish E.basepoint g x) (a.sts (publish E.basepoint g x) k))
    (fun g x k hk l r r1 h1 => Or.inl (targets_key E.basepoint g x _ (by rw [ha.params]; rfl) (by rw [ha.params]; rfl) hk r
      (by rw [ha.params]; exact List.mem_of_getElem? h1.1) (by rw [ha.params]; exact h1.2.2))) hM Q R T q hc d τ

/-- C107 for batches: `verify_batch` accepts a batch in which a proof that no user made is for a statement with other amounts. -/
theorem C107_batch {υ κ γ : Type} [Fintype υ] [DecidableEq υ] {P : Type} [AddCommGroup P] [Module (ZMod ℓ) P] [DecidableEq P] [Fintype P]
    (E : Env (ZMod ℓ) P) (hE : E.Lawful) (hwide : ∀ b, E.scalarOfWide b = ((leNat b : ℕ) : ZMod ℓ))
    (hG : E.basepoint ≠ 0) (hgen : ∀ X : P, ∃ x : ZMod ℓ, x • E.basepoint = X)
    (enc : P → Bytes) (henc : ∀ X, E.pointOfUniform (enc X) = X) (cfg : Config)
    (S A : Finset Transcript) [Nonempty S] (hS : ∀ t ∈ S, t.getLast? = some (.challenge "xi" 64))
    {n m : ℕ} (hnm : ∃ params, Params.new E n m = .ok params) (k : ℕ)
    (a : Attack n m (ZMod ℓ) P υ κ γ (ChosenProgram S Block A Seed (Fin (k + 1) → Seed) (Fin ((k + 1) * 2 * 5) → Block) γ (Option (Proof (ZMod ℓ) P))
      (Fin (k + 1) → Forgery κ (ZMod ℓ) P)))
    (ha : a.Legal E enc S) (opens : Public n m P υ → κ → Openings (ZMod ℓ))
    (hM : ∀ (g : Generators n m P) (x : υ → (ZMod ℓ)ˣ) k k',
      (a.sts (publish E.basepoint g x) k).inputSet.hash = (a.sts (publish E.basepoint g x) k').inputSet.hash →
      (a.sts (publish E.basepoint g x) k).inputSet.M = (a.sts (publish E.basepoint g x) k').inputSet.M ∧
      (a.sts (publish E.basepoint g x) k).inputSet.M1 = (a.sts (publish E.basepoint g x) k').inputSet.M1)
    (Q R T q : ℕ) (hc : ∀ pub, (a.prog pub).AtMost Q R T q)
    (d : Block × (HybridCoins (ZMod ℓ) n m × (Fin (m - 1) → ZMod ℓ))) (τ : ℕ) :
    (avg fun g : Generators n m P => avg fun x : υ → (ZMod ℓ)ˣ => avg fun O : S → Block => avg fun H : A → Seed =>
      avg fun W : (Fin (k + 1) → Seed) → Fin ((k + 1) * 2 * 5) → Block =>
      ((a.prog (publish E.basepoint g x)).signingOnly H W).withSigner
        (fun c => signPoint E S (paramsOf E g) (a.sts (publish E.basepoint g x)) (a.request (publish E.basepoint g x) (fun i => (x i : ZMod ℓ)) c))
        (fun c => signAnswer E (paramsOf E g) (a.sts (publish E.basepoint g x)) (a.request (publish E.basepoint g x) (fun i => (x i : ZMod ℓ)) c))
        (fun y used O => (∃ i, OtherAmounts E.basepoint (publish E.basepoint g x) (opens (publish E.basepoint g x) (y i).k)
              (a.sts (publish E.basepoint g x) (y i).k) ∧
            NewPoint (withGenerators E enc g) S (a.sts (publish E.basepoint g x)) (y i) used) ∧
          AcceptedBatch (withGenerators E enc g) cfg S A (a.sts (publish E.basepoint g x)) y O H W) O []) ≤
      (k + 1) * (q * (Q + q) / 2 ^ 252 + (Q + 1) * (m / (τ + 1) + m * m / 2 ^ 252) + 1 / 2 ^ 252) +
      ((R + (k + 1 : ℕ)) * ((R + (k + 1 : ℕ) + (k + 1 : ℕ) * (T + 1)) / 2 ^ 64) + (T + 1) * (1 / 2 ^ 251)) +
      ∑ i, avg fun y : (ZMod ℓ)ˣ => avg fun ρ : SetupCoins n m (ZMod ℓ) (Option υ) =>
        avg fun ω : SolverCoins (ZMod ℓ) n m S A (Fin (k + 1) → Seed) (Fin ((k + 1) * 2 * 5) → Block) q τ =>
        ind (solver E enc S A a opens (fun c => c.part i) d ⟨(y : ZMod ℓ) • E.basepoint, unit_smul_ne hG y⟩ ρ ω = y) := by
  exact dlog_batch_good E hE hwide hG hgen enc henc cfg S A hS hnm k a ha opens
    (fun g x k => OtherAmounts E.basepoint (publish E.basepoint g x) (opens (publish E.basepoint g x) k) (a.sts (publish E.basepoint g x) k))
    (fun g x k hk l r r1 h1 => amounts_wanted E.basepoint (publish E.basepoint g x) _ _ hk l r r1 h1.2.1) hM Q R T q hc d τ

/-- The openings, for commitments whose amounts are multiples of `h • G` instead of `G`. -/
def Spec.Openings.scaled {F : Type} [Mul F] (h : F) (o : Openings F) : Openings F :=
  ⟨⟨o.offset.amount * h, o.offset.mask⟩, o.members.map fun v => ⟨v.amount * h, v.mask⟩⟩

theorem otherAmounts_scaled {F P : Type} [Field F] [AddCommGroup P] [Module F P] {n m : ℕ} {υ : Type} (G : P) (h : Fˣ)
    (pub : Public n m P υ) (o : Openings F) (st : Statement P)
    (ho : OtherAmounts ((h : F) • G) pub o st) : OtherAmounts G pub (o.scaled (h : F)) st := by
  have e : ∀ (v : Opening F) (X : P), v.Opens ((h : F) • G) pub.gens.2.1 X → Opening.Opens G pub.gens.2.1 ⟨v.amount * h, v.mask⟩ X := by
    intro v X hv
    rw [Opening.Opens] at hv ⊢
    rw [hv, smul_smul]
  refine ⟨e _ _ ho.1, fun X hX => ?_⟩
  obtain ⟨v, hv, hv1, hv2⟩ := ho.2 X hX
  exact ⟨⟨v.amount * h, v.mask⟩, List.mem_map.2 ⟨v, hv, rfl⟩, e _ _ hv1, fun h' => hv2 (mul_right_cancel₀ h.ne_zero h')⟩

theorem avg_generator {F P : Type} [Field F] [AddCommGroup P] [Module F P] [DecidableEq F] [DecidableEq P] [Fintype F] [Fintype P]
    (G : P) (hG : G ≠ 0) (hgen : ∀ X : P, ∃ x : F, x • G = X) (f : {H : P // H ≠ 0} → ℚ) :
    avg f = avg fun h : Fˣ => f ⟨(h : F) • G, unit_smul_ne hG h⟩ := by
  refine (avg_equiv (unitEquiv G hG hgen 1) _ _ fun u => ?_).symm
  have e : unitEquiv G hG hgen 1 u = ⟨(u : F) • G, unit_smul_ne hG _⟩ := by
    refine Subtype.ext ?_
    show (u : F) • ((1 : Fˣ) : F) • G = (u : F) • G
    rw [Units.val_one, one_smul]
  rw [e]

/-- C107 with a separate random generator `H` for the amounts, as in the example of the repository: commitments are `amount • H + mask • G1`,
and everything in the attack may depend on `H`. -/
theorem C107_ringct {υ κ γ : Type} [Fintype υ] [DecidableEq υ] {P : Type} [AddCommGroup P] [Module (ZMod ℓ) P] [DecidableEq P] [Fintype P]
    (E : Env (ZMod ℓ) P) (hE : E.Lawful) (hwide : ∀ b, E.scalarOfWide b = ((leNat b : ℕ) : ZMod ℓ))
    (hG : E.basepoint ≠ 0) (hgen : ∀ X : P, ∃ x : ZMod ℓ, x • E.basepoint = X)
    (enc : P → Bytes) (henc : ∀ X, E.pointOfUniform (enc X) = X) (cfg : Config)
    (S A : Finset Transcript) [Nonempty S] (hS : ∀ t ∈ S, t.getLast? = some (.challenge "xi" 64))
    {n m : ℕ} (hnm : ∃ params, Params.new E n m = .ok params)
    (a : {H : P // H ≠ 0} → Attack n m (ZMod ℓ) P υ κ γ
      (ChosenProgram S Block A Seed Seed (Fin (1 * 2 * 5) → Block) γ (Option (Proof (ZMod ℓ) P)) (Forgery κ (ZMod ℓ) P)))
    (ha : ∀ H, (a H).Legal E enc S) (opens : {H : P // H ≠ 0} → Public n m P υ → κ → Openings (ZMod ℓ)) (Q R T q : ℕ) (hc : ∀ H pub, ((a H).prog pub).AtMost Q R T q)
    (d : Block × (HybridCoins (ZMod ℓ) n m × (Fin (m - 1) → ZMod ℓ))) (τ : ℕ) :
    (avg fun H₀ : {H : P // H ≠ 0} => avg fun g : Generators n m P => avg fun x : υ → (ZMod ℓ)ˣ => avg fun O : S → Block => avg fun H : A → Seed =>
      avg fun W : Seed → Fin (1 * 2 * 5) → Block =>
      (((a H₀).prog (publish E.basepoint g x)).signingOnly H W).withSigner
        (fun c => signPoint E S (paramsOf E g) ((a H₀).sts (publish E.basepoint g x)) ((a H₀).request (publish E.basepoint g x) (fun i => (x i : ZMod ℓ)) c))
        (fun c => signAnswer E (paramsOf E g) ((a H₀).sts (publish E.basepoint g x)) ((a H₀).request (publish E.basepoint g x) (fun i => (x i : ZMod ℓ)) c))
        (fun y used O => OtherAmounts H₀.1 (publish E.basepoint g x) (opens H₀ (publish E.basepoint g x) y.k)
            ((a H₀).sts (publish E.basepoint g x) y.k) ∧
          AcceptedNew (withGenerators E enc g) cfg S A ((a H₀).sts (publish E.basepoint g x)) y used O H W) O []) ≤
      q * (Q + q) / 2 ^ 252 + (Q + 1) * (m / (τ + 1) + m * m / 2 ^ 252) + ((R + 1) * (5 / 2 ^ 64) + 1 / 2 ^ 107) + (1 / 2 ^ 252 +
      avg fun h : (ZMod ℓ)ˣ => avg fun y : (ZMod ℓ)ˣ => avg fun ρ : SetupCoins n m (ZMod ℓ) (Option υ) =>
        avg fun ω : SolverCoins (ZMod ℓ) n m S A Seed (Fin (1 * 2 * 5) → Block) q τ =>
        ind (solver E enc S A (a ⟨(h : ZMod ℓ) • E.basepoint, unit_smul_ne hG h⟩)
          (fun pub k => (opens ⟨(h : ZMod ℓ) • E.basepoint, unit_smul_ne hG h⟩ pub k).scaled (h : ZMod ℓ)) id d ⟨(y : ZMod ℓ) • E.basepoint, unit_smul_ne hG y⟩ ρ ω = y)) := by
  have key := fun h : (ZMod ℓ)ˣ => C107_amount E hE hwide hG hgen enc henc cfg S A hS hnm (a ⟨(h : ZMod ℓ) • E.basepoint, unit_smul_ne hG h⟩)
    (ha _) (fun pub k => (opens ⟨(h : ZMod ℓ) • E.basepoint, unit_smul_ne hG h⟩ pub k).scaled (h : ZMod ℓ)) Q R T q (hc _) d τ
  generalize (q * (Q + q) / 2 ^ 252 + (Q + 1) * (m / (τ + 1) + m * m / 2 ^ 252) + ((R + 1) * (5 / 2 ^ 64) + 1 / 2 ^ 107) : ℚ) = ε at key ⊢
  generalize (1 / 2 ^ 252 : ℚ) = δ at key ⊢
  rw [avg_generator E.basepoint hG hgen]
  have hne : Nonempty (Coins (ZMod ℓ) n m) := ⟨⟨fun _ _ => 0, 0, 0, 0, 0, fun _ => 0, fun _ => 0⟩⟩
  refine (avg_mono _ _ fun h => (avg_mono _ _ fun g => avg_mono _ _ fun x => avg_mono _ _ fun O => avg_mono _ _ fun H => avg_mono _ _ fun W => ?_).trans
    (key h)).trans (le_of_eq ?_)
  · exact withSigner_le _ _ _ _ O (fun y used hy => ⟨otherAmounts_scaled _ h _ _ _ hy.1, hy.2⟩) _ Q q
      (ChosenProgram.atMost_signingOnly H W _ (hc _ _))
  · simp only [avg_add, avg_const]

/-- The same for batches. -/
theorem C107_ringct_batch {υ κ γ : Type} [Fintype υ] [DecidableEq υ] {P : Type} [AddCommGroup P] [Module (ZMod ℓ) P] [DecidableEq P] [Fintype P]
    (E : Env (ZMod ℓ) P) (hE : E.Lawful) (hwide : ∀ b, E.scalarOfWide b = ((leNat b : ℕ) : ZMod ℓ))
    (hG : E.basepoint ≠ 0) (hgen : ∀ X : P, ∃ x : ZMod ℓ, x • E.basepoint = X)
    (enc : P → Bytes) (henc : ∀ X, E.pointOfUniform (enc X) = X) (cfg : Config)
    (S A : Finset Transcript) [Nonempty S] (hS : ∀ t ∈ S, t.getLast? = some (.challenge "xi" 64))
    {n m : ℕ} (hnm : ∃ params, Params.new E n m = .ok params) (k : ℕ)
    (a : {H : P // H ≠ 0} → Attack n m (ZMod ℓ) P υ κ γ (ChosenProgram S Block A Seed (Fin (k + 1) → Seed) (Fin ((k + 1) * 2 * 5) → Block) γ (Option (Proof (ZMod ℓ) P))
      (Fin (k + 1) → Forgery κ (ZMod ℓ) P)))
    (ha : ∀ H, (a H).Legal E enc S) (opens : {H : P // H ≠ 0} → Public n m P υ → κ → Openings (ZMod ℓ))
    (hM : ∀ H₀ (g : Generators n m P) (x : υ → (ZMod ℓ)ˣ) k k',
      ((a H₀).sts (publish E.basepoint g x) k).inputSet.hash = ((a H₀).sts (publish E.basepoint g x) k').inputSet.hash →
      ((a H₀).sts (publish E.basepoint g x) k).inputSet.M = ((a H₀).sts (publish E.basepoint g x) k').inputSet.M ∧
      ((a H₀).sts (publish E.basepoint g x) k).inputSet.M1 = ((a H₀).sts (publish E.basepoint g x) k').inputSet.M1)
    (Q R T q : ℕ) (hc : ∀ H pub, ((a H).prog pub).AtMost Q R T q)
    (d : Block × (HybridCoins (ZMod ℓ) n m × (Fin (m - 1) → ZMod ℓ))) (τ : ℕ) :
    (avg fun H₀ : {H : P // H ≠ 0} => avg fun g : Generators n m P => avg fun x : υ → (ZMod ℓ)ˣ => avg fun O : S → Block => avg fun H : A → Seed =>
      avg fun W : (Fin (k + 1) → Seed) → Fin ((k + 1) * 2 * 5) → Block =>
      (((a H₀).prog (publish E.basepoint g x)).signingOnly H W).withSigner
        (fun c => signPoint E S (paramsOf E g) ((a H₀).sts (publish E.basepoint g x)) ((a H₀).request (publish E.basepoint g x) (fun i => (x i : ZMod ℓ)) c))
        (fun c => signAnswer E (paramsOf E g) ((a H₀).sts (publish E.basepoint g x)) ((a H₀).request (publish E.basepoint g x) (fun i => (x i : ZMod ℓ)) c))
        (fun y used O => (∃ i, OtherAmounts H₀.1 (publish E.basepoint g x) (opens H₀ (publish E.basepoint g x) (y i).k)
              ((a H₀).sts (publish E.basepoint g x) (y i).k) ∧
            NewPoint (withGenerators E enc g) S ((a H₀).sts (publish E.basepoint g x)) (y i) used) ∧
          AcceptedBatch (withGenerators E enc g) cfg S A ((a H₀).sts (publish E.basepoint g x)) y O H W) O []) ≤
      (k + 1) * (q * (Q + q) / 2 ^ 252 + (Q + 1) * (m / (τ + 1) + m * m / 2 ^ 252) + 1 / 2 ^ 252) +
      ((R + (k + 1 : ℕ)) * ((R + (k + 1 : ℕ) + (k + 1 : ℕ) * (T + 1)) / 2 ^ 64) + (T + 1) * (1 / 2 ^ 251)) +
      ∑ i, avg fun h : (ZMod ℓ)ˣ => avg fun y : (ZMod ℓ)ˣ => avg fun ρ : SetupCoins n m (ZMod ℓ) (Option υ) =>
        avg fun ω : SolverCoins (ZMod ℓ) n m S A (Fin (k + 1) → Seed) (Fin ((k + 1) * 2 * 5) → Block) q τ =>
        ind (solver E enc S A (a ⟨(h : ZMod ℓ) • E.basepoint, unit_smul_ne hG h⟩)
          (fun pub k => (opens ⟨(h : ZMod ℓ) • E.basepoint, unit_smul_ne hG h⟩ pub k).scaled (h : ZMod ℓ)) (fun c => c.part i) d ⟨(y : ZMod ℓ) • E.basepoint, unit_smul_ne hG y⟩ ρ ω = y) := by
  have key := fun h : (ZMod ℓ)ˣ => C107_batch E hE hwide hG hgen enc henc cfg S A hS hnm k (a ⟨(h : ZMod ℓ) • E.basepoint, unit_smul_ne hG h⟩)
    (ha _) (fun pub k => (opens ⟨(h : ZMod ℓ) • E.basepoint, unit_smul_ne hG h⟩ pub k).scaled (h : ZMod ℓ)) (hM _) Q R T q (hc _) d τ
  generalize ((k + 1) * (q * (Q + q) / 2 ^ 252 + (Q + 1) * (m / (τ + 1) + m * m / 2 ^ 252) + 1 / 2 ^ 252) +
      ((R + (k + 1 : ℕ)) * ((R + (k + 1 : ℕ) + (k + 1 : ℕ) * (T + 1)) / 2 ^ 64) + (T + 1) * (1 / 2 ^ 251)) : ℚ) = ε at key ⊢
  rw [avg_generator E.basepoint hG hgen]
  have hne : Nonempty (Coins (ZMod ℓ) n m) := ⟨⟨fun _ _ => 0, 0, 0, 0, 0, fun _ => 0, fun _ => 0⟩⟩
  refine (avg_mono _ _ fun h => (avg_mono _ _ fun g => avg_mono _ _ fun x => avg_mono _ _ fun O => avg_mono _ _ fun H => avg_mono _ _ fun W => ?_).trans
    (key h)).trans (le_of_eq ?_)
  · exact withSigner_le _ _ _ _ O (fun y used hy => ⟨hy.1.imp fun i hi => ⟨otherAmounts_scaled _ h _ _ _ hi.1, hi.2⟩, hy.2⟩) _ Q q
      (ChosenProgram.atMost_signingOnly H W _ (hc _ _))
  · simp only [avg_add, avg_const, avg_sum]

section
variable {F P : Type} [Field F] [AddCommGroup P] [Module F P] [DecidableEq F] [DecidableEq P]

/-- An amount of which `G1` is not the multiple of the basepoint. -/
def Spec.pairAmount {n m : ℕ} (E : Env F P) (pub : Public n m P Bool) : F := if E.basepoint = pub.gens.2.1 then 2 else 1

/-- Two statements with two honest users: the first key at position 0, the second everywhere else, and the first user's linking tag. All
second components are `G1`, commitments to the amount 0 with the mask 1. The offset is 0 in one statement, and a commitment to another
amount in the other one. -/
def Spec.pairStatement {n m : ℕ} (E : Env F P) (pub : Public n m P Bool) (b : Bool) : Statement P :=
  let M := pub.key false :: List.replicate ((paramsOf E pub.gens).getN - 1) (pub.key true)
  let M1 := List.replicate (paramsOf E pub.gens).getN pub.gens.2.1
  let h := ((InputSet.hashTranscript E M M1 M.length).challengeBytes E "hash" TRANSCRIPT_HASH_BYTES).1
  let offset := if b then pairAmount E pub • E.basepoint else 0
  ⟨paramsOf E pub.gens, ⟨M, M1, h⟩, offset, pub.tag false,
    ((Statement.hashTranscript E (paramsOf E pub.gens).hash h offset (pub.tag false)).challengeBytes E "hash" TRANSCRIPT_HASH_BYTES).1⟩

/-- The openings. -/
def Spec.pairOpenings {n m : ℕ} (E : Env F P) (pub : Public n m P Bool) (b : Bool) : Openings F :=
  ⟨⟨if b then pairAmount E pub else 0, 0⟩, [⟨0, 1⟩]⟩

/-- An attack on two honest users: it requests a signature by the first one for the first statement and looks at a seed, at weights and at
a challenge. -/
def Spec.pairAttack {n m : ℕ} (E : Env F P) {S A : Finset Transcript} (s : S) (a : A) {V Y α : Type} (v : V) (t : Transcript)
    (out : Option (Proof F P) → α) :
    Attack n m F P Bool Bool Unit (ChosenProgram S Block A Seed V Y Unit (Option (Proof F P)) α) where
  sts pub b := pairStatement E pub b
  user _ _ := false
  stmt _ _ := false
  transcript _ _ := t
  position _ _ := 0
  r1 _ _ := 1
  prog _ := .sign () fun p => .seed a fun _ => .weights v fun _ => .challenge s fun _ => .done (out p)

theorem pairAmount_ne {n m : ℕ} (E : Env F P) (pub : Public n m P Bool) (h2 : (2 : F) ≠ 0) : (pairAmount E pub : F) ≠ 0 := by
  rw [pairAmount]
  split
  · exact h2
  · exact one_ne_zero

theorem pairAmount_smul {n m : ℕ} (E : Env F P) (hG : E.basepoint ≠ 0) (pub : Public n m P Bool) :
    (pairAmount E pub : F) • E.basepoint ≠ pub.gens.2.1 := by
  rw [pairAmount]
  split
  · rename_i h
    rw [← h, two_smul]
    intro h'
    exact hG (by simpa using h')
  · rename_i h
    rw [one_smul]
    exact h

theorem getN_pos {E : Env F P} {p : Params P} (h : ParamsBuilt E p) : 0 < p.getN := by
  rw [h.ok.getN]
  have := h.ok.n
  exact Nat.pow_pos (by omega)

theorem pairStatement_built {n m : ℕ} (E : Env F P) (hG : E.basepoint ≠ 0) (enc : P → Bytes) (henc : ∀ X, E.pointOfUniform (enc X) = X)
    (hnm : ∃ params, Params.new E n m = .ok params) (g : Generators n m P) (x : Bool → Fˣ) (b : Bool) :
    StatementBuilt (withGenerators E enc g) (pairStatement E (publish E.basepoint g x) b) := by
  have hp : ParamsBuilt (withGenerators E enc g) (paramsOf E g) := ⟨n, m, E.basepoint, _, _, C106_params E enc henc hnm g⟩
  have hN1 : 0 < (paramsOf E g).getN := getN_pos hp
  have hN2 : (paramsOf E g).getN ≤ u32Max := by
    rw [Params.getN, u32Max]
    exact Nat.le_pred_of_lt (Nat.mod_lt _ (by norm_num))
  have hlen : ((publish E.basepoint g x).key false :: List.replicate ((paramsOf E g).getN - 1) ((publish E.basepoint g x).key true)).length =
      (paramsOf E g).getN := by
    rw [List.length_cons, List.length_replicate]
    omega
  have h0 : (0 : P) ∉ (publish E.basepoint g x).key false :: List.replicate ((paramsOf E g).getN - 1) ((publish E.basepoint g x).key true) := by
    intro h
    rcases List.mem_cons.1 h with h | h
    · exact unit_smul_ne hG (x false) h.symm
    · exact unit_smul_ne hG (x true) (List.eq_of_mem_replicate h).symm
  have h1 : (0 : P) ∉ (List.replicate (paramsOf E g).getN g.2.1).map fun p => p - (pairStatement E (publish E.basepoint g x) b).offset := by
    intro h
    obtain ⟨X, hX, hX1⟩ := List.mem_map.1 h
    rw [List.eq_of_mem_replicate hX, sub_eq_zero] at hX1
    cases b with
    | false => exact g.2.2 hX1
    | true => exact pairAmount_smul E hG (publish E.basepoint g x) hX1.symm
  refine ⟨paramsOf E g, (pairStatement E (publish E.basepoint g x) b).inputSet, (pairStatement E (publish E.basepoint g x) b).offset,
    (publish E.basepoint g x).tag false, hp,
    Or.inl ⟨(publish E.basepoint g x).key false :: List.replicate ((paramsOf E g).getN - 1) ((publish E.basepoint g x).key true),
      List.replicate (paramsOf E g).getN g.2.1, ?_⟩, ?_⟩
  · rw [InputSet.new, if_neg (by rw [hlen, List.length_replicate]; exact fun h => h rfl), InputSet.newInternal, if_pos (by rw [hlen]; exact hN2)]
    rfl
  · rw [Statement.new, if_neg (show ¬ (pairStatement E (publish E.basepoint g x) b).inputSet.M.length ≠ (paramsOf E g).getN from not_not.2 hlen),
      if_neg (show (0 : P) ∉ (pairStatement E (publish E.basepoint g x) b).inputSet.M from h0),
      if_neg (show (0 : P) ∉ (pairStatement E (publish E.basepoint g x) b).inputSet.M1.map _ from h1)]
    rfl

theorem pair_amounts {n m : ℕ} (E : Env F P) (h2 : (2 : F) ≠ 0) (g : Generators n m P) (x : Bool → Fˣ) :
    OtherAmounts E.basepoint (publish E.basepoint g x) (pairOpenings E (publish E.basepoint g x) true)
      (pairStatement E (publish E.basepoint g x) true) := by
  refine ⟨?_, fun X hX => ⟨⟨0, 1⟩, List.mem_cons_self, ?_, (pairAmount_ne E _ h2).symm⟩⟩
  · show pairAmount E (publish E.basepoint g x) • E.basepoint = pairAmount E (publish E.basepoint g x) • E.basepoint + (0 : F) • _
    rw [zero_smul, add_zero]
  · show X = (0 : F) • E.basepoint + (1 : F) • g.2.1
    rw [zero_smul, zero_add, one_smul]
    exact List.eq_of_mem_replicate hX

/-- The transcripts from which the first user's challenges can be derived. -/
noncomputable def Spec.pairDomain [Fintype F] [Fintype P] {n m : ℕ} (E : Env F P) (t : Transcript) : Finset Transcript :=
  (univ : Finset ((Generators n m P × (Bool → Fˣ)) × Coins F n m)).image fun y =>
    signTranscript E (paramsOf E y.1.1) (pairStatement E (publish E.basepoint y.1.1 y.1.2)) ⟨false, t, 0, (y.1.2 false : F), 1⟩ y.2

/-- If the transcript's hash never collides, there is an attack that meets the hypotheses, with both kinds of statements. -/
theorem pair_legal [Fintype F] [Fintype P] {n m : ℕ} (E : Env F P) (hE : E.Lawful) (hG : E.basepoint ≠ 0) (h2 : (2 : F) ≠ 0)
    (hinj : Injective E.challenge) (enc : P → Bytes)
    (henc : ∀ X, E.pointOfUniform (enc X) = X) (hnm : ∃ params, Params.new E n m = .ok params) (A : Finset Transcript) (a : A)
    {V Y α : Type} (v : V) (t : Transcript) (out : Option (Proof F P) → α) :
    ∃ (S : Finset Transcript) (_ : Nonempty S) (b : Attack n m F P Bool Bool Unit
        (ChosenProgram S Block A Seed V Y Unit (Option (Proof F P)) α)),
      b.Legal E enc S ∧ (∀ pub, (b.prog pub).AtMost 1 1 1 1) ∧ (∀ t ∈ S, t.getLast? = some (.challenge "xi" 64)) ∧
      (∀ g (x : Bool → Fˣ) k, Targets (publish E.basepoint g x) (b.sts (publish E.basepoint g x) k)) ∧
      (∀ g (x : Bool → Fˣ), OtherAmounts E.basepoint (publish E.basepoint g x) (pairOpenings E (publish E.basepoint g x) true)
        (b.sts (publish E.basepoint g x) true)) ∧
      ∀ pub k k', (b.sts pub k).inputSet = (b.sts pub k').inputSet := by
  have hne : Nonempty ((Generators n m P × (Bool → Fˣ)) × Coins F n m) :=
    ⟨(((fun _ => 0, ⟨E.basepoint, hG⟩, ⟨E.basepoint, hG⟩), ⟨E.basepoint, hG⟩), fun _ => 1), ⟨0, 0, 0, 0, 0, 0, 0⟩⟩
  have hS : (pairDomain (n := n) (m := m) E t).Nonempty := (univ_nonempty (α := (Generators n m P × (Bool → Fˣ)) × Coins F n m)).image _
  obtain ⟨s, hs⟩ := hS
  refine ⟨pairDomain (n := n) (m := m) E t, ⟨⟨s, hs⟩⟩, pairAttack E ⟨s, hs⟩ a v t out,
    ⟨fun g x b => pairStatement_built E hG enc henc hnm g x b, fun _ _ _ => rfl, fun g x k k' h => ?_, fun _ _ _ => rfl, fun g x c => ?_,
      fun _ _ _ => rfl, fun g x _ coins => mem_image.2 ⟨((g, x), coins), mem_univ _, rfl⟩⟩,
    fun _ => ⟨by norm_num, fun _ => ⟨by norm_num, fun _ => ⟨by norm_num, fun _ => ⟨by norm_num, fun _ => trivial⟩⟩⟩⟩, fun t' ht => ?_,
    fun g x _ => Or.inr ⟨false, rfl⟩, fun g x => pair_amounts E h2 g x, fun _ _ _ => rfl⟩
  · have h3 := hinj h
    have h4 : E.compress (pairStatement E (publish E.basepoint g x) k).offset = E.compress (pairStatement E (publish E.basepoint g x) k').offset := by
      have h5 := (List.append_inj' h3 rfl).1
      rw [Statement.hashTranscript, Statement.hashTranscript] at h5
      simpa [Transcript.appendMessage, pairStatement] using h5
    have h5 := congrArg E.decompress h4
    rw [hE.point_decode_encode, hE.point_decode_encode] at h5
    have h6 := Option.some.inj h5
    have h7 : (pairAmount E (publish E.basepoint g x) : F) • E.basepoint ≠ 0 := smul_ne_zero (pairAmount_ne E _ h2) hG
    cases k <;> cases k'
    · rfl
    · exact absurd h6.symm h7
    · exact absurd h6 h7
    · rfl
  · have hp : ParamsBuilt (withGenerators E enc g) (paramsOf E g) := ⟨n, m, E.basepoint, _, _, C106_params E enc henc hnm g⟩
    show (List.replicate (paramsOf E g).getN g.2.1)[0]? = some ((1 : F) • g.2.1 + 0)
    rw [List.getElem?_replicate, if_pos (getN_pos hp), one_smul, add_zero]
  · obtain ⟨c, -, rfl⟩ := mem_image.1 ht
    exact challengeTranscript_getLast _ _ _ _ _ _ _ _ _ _

end

namespace Toy

instance : Countable Op := by
  have h0 : Injective Char.toNat := fun a b h => Char.ext (UInt32.toNat_inj.1 h)
  have h1 : Countable Char := h0.countable
  have h2 : Countable String := (show Injective String.toList from fun a b h => String.toList_inj.1 h).countable
  have h3 : Countable UInt8 := (show Injective UInt8.toNat from fun a b h => UInt8.toNat_inj.1 h).countable
  have h4 : Countable Bytes := inferInstanceAs (Countable (List UInt8))
  refine (show Injective (fun o : Op => match o with
    | .append l b => (Sum.inl (l, b) : (String × Bytes) ⊕ (String × ℕ))
    | .challenge l k => Sum.inr (l, k)) from ?_).countable
  intro a b h
  cases a <;> cases b <;> simp_all

/-- A hash of transcripts that never collides. -/
noncomputable def perfectHash (t : Transcript) : Bytes := List.replicate ((Countable.exists_injective_nat Transcript).choose t) 0

theorem perfectHash_injective : Injective perfectHash := by
  intro a b h
  have h1 := congrArg List.length h
  rw [perfectHash, perfectHash, List.length_replicate, List.length_replicate] at h1
  exact (Countable.exists_injective_nat Transcript).choose_spec h1

/-- The toy environment with a map to the group that reaches every point, and that hash. -/
noncomputable def perfectEnv : Env (ZMod ℓ) (ZMod ℓ) := { Triptych.Toy.hashEnv ℓ with challenge := perfectHash }

theorem lawful_challenge {F P : Type} {E : Env F P} (h : E.Lawful) (f : Transcript → Bytes) : Env.Lawful { E with challenge := f } :=
  ⟨h.1, h.2, h.3, h.4, h.5, h.6⟩

theorem perfectEnv_lawful : perfectEnv.Lawful := lawful_challenge Triptych.Toy.hashEnv_lawful _

theorem perfectEnv_params : ∃ params, Params.new perfectEnv 2 2 = .ok params := ⟨_, rfl⟩

theorem two_ne : (2 : ZMod ℓ) ≠ 0 := by decide +kernel

end Toy

/-- An environment and an attack on two honest users meet the hypotheses of `C106_forge` and `C107_amount`. -/
example (A : Finset Transcript) (a : A) (v : Seed) (p : Proof (ZMod ℓ) (ZMod ℓ)) :
    Toy.perfectEnv.Lawful ∧ (∀ b, Toy.perfectEnv.scalarOfWide b = ((leNat b : ℕ) : ZMod ℓ)) ∧ Toy.perfectEnv.basepoint ≠ 0 ∧
    (∀ X : ZMod ℓ, ∃ x : ZMod ℓ, x • Toy.perfectEnv.basepoint = X) ∧
    (∀ X, Toy.perfectEnv.pointOfUniform (leBytes 32 X.val) = X) ∧ (∃ params, Params.new Toy.perfectEnv 2 2 = .ok params) ∧
    ∃ (S : Finset Transcript) (_ : Nonempty S) (b : Attack 2 2 (ZMod ℓ) (ZMod ℓ) Bool Bool Unit
        (ChosenProgram S Block A Seed Seed (Fin (1 * 2 * 5) → Block) Unit (Option (Proof (ZMod ℓ) (ZMod ℓ))) (Forgery Bool (ZMod ℓ) (ZMod ℓ)))),
      b.Legal Toy.perfectEnv (fun X => leBytes 32 X.val) S ∧ (∀ pub, (b.prog pub).AtMost 1 1 1 1) ∧
      (∀ t ∈ S, t.getLast? = some (.challenge "xi" 64)) ∧
      (∀ g (x : Bool → (ZMod ℓ)ˣ) k, Targets (publish Toy.perfectEnv.basepoint g x) (b.sts (publish Toy.perfectEnv.basepoint g x) k)) ∧
      (∀ g (x : Bool → (ZMod ℓ)ˣ), OtherAmounts Toy.perfectEnv.basepoint (publish Toy.perfectEnv.basepoint g x)
        (pairOpenings Toy.perfectEnv (publish Toy.perfectEnv.basepoint g x) true) (b.sts (publish Toy.perfectEnv.basepoint g x) true)) ∧
      ∀ pub k k', (b.sts pub k).inputSet = (b.sts pub k').inputSet :=
  ⟨Toy.perfectEnv_lawful, fun _ => rfl, Triptych.Toy.hashEnv_basepoint, fun X => ⟨X, mul_one X⟩, Triptych.Toy.hashEnv_enc, Toy.perfectEnv_params,
    pair_legal Toy.perfectEnv Toy.perfectEnv_lawful Triptych.Toy.hashEnv_basepoint Toy.two_ne Toy.perfectHash_injective _ Triptych.Toy.hashEnv_enc
      Toy.perfectEnv_params A a v Triptych.Toy.transcript fun x => ⟨true, [], x.getD p⟩⟩

/-- For every generator `H` of the amounts, the second statement is one with other amounts, as in `C107_ringct`. -/
example (H : {H : ZMod ℓ // H ≠ 0}) (g : Generators 2 2 (ZMod ℓ)) (x : Bool → (ZMod ℓ)ˣ) :
    ∃ o : Openings (ZMod ℓ), OtherAmounts H.1 (publish Toy.perfectEnv.basepoint g x) o
      (pairStatement Toy.perfectEnv (publish Toy.perfectEnv.basepoint g x) true) := by
  refine ⟨_, otherAmounts_scaled H.1 (Units.mk0 H.1 H.2)⁻¹ _ (pairOpenings Toy.perfectEnv (publish Toy.perfectEnv.basepoint g x) true) _ ?_⟩
  have e : (((Units.mk0 H.1 H.2)⁻¹ : (ZMod ℓ)ˣ) : ZMod ℓ) • H.1 = Toy.perfectEnv.basepoint := by
    rw [smul_eq_mul, Units.val_inv_eq_inv_val, Units.val_mk0]
    exact inv_mul_cancel₀ H.2
  rw [e]
  exact pair_amounts Toy.perfectEnv Toy.two_ne g x

/-- The same for `k + 1` outputs: the hypotheses of `C106_batch`, `C107_batch` and, for `Y` the weights of one proof and `V = Seed`, of
`C106_links`. -/
example (A : Finset Transcript) (a : A) (k : ℕ) (V Y : Type) (v : V) (p : Proof (ZMod ℓ) (ZMod ℓ)) :
    ∃ (S : Finset Transcript) (_ : Nonempty S) (b : Attack 2 2 (ZMod ℓ) (ZMod ℓ) Bool Bool Unit
        (ChosenProgram S Block A Seed V Y Unit (Option (Proof (ZMod ℓ) (ZMod ℓ))) (Fin (k + 1) → Forgery Bool (ZMod ℓ) (ZMod ℓ)))),
      b.Legal Toy.perfectEnv (fun X => leBytes 32 X.val) S ∧ (∀ pub, (b.prog pub).AtMost 1 1 1 1) ∧
      (∀ t ∈ S, t.getLast? = some (.challenge "xi" 64)) ∧
      (∀ g (x : Bool → (ZMod ℓ)ˣ) k, Targets (publish Toy.perfectEnv.basepoint g x) (b.sts (publish Toy.perfectEnv.basepoint g x) k)) ∧
      (∀ g (x : Bool → (ZMod ℓ)ˣ), OtherAmounts Toy.perfectEnv.basepoint (publish Toy.perfectEnv.basepoint g x)
        (pairOpenings Toy.perfectEnv (publish Toy.perfectEnv.basepoint g x) true) (b.sts (publish Toy.perfectEnv.basepoint g x) true)) ∧
      ∀ pub k k', (b.sts pub k).inputSet = (b.sts pub k').inputSet :=
  pair_legal Toy.perfectEnv Toy.perfectEnv_lawful Triptych.Toy.hashEnv_basepoint Toy.two_ne Toy.perfectHash_injective _ Triptych.Toy.hashEnv_enc
    Toy.perfectEnv_params A a v Triptych.Toy.transcript fun x _ => ⟨true, [], x.getD p⟩

end Triptych.Parallel
