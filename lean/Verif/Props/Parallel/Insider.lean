import Verif.Props.Parallel.DLog
import Verif.Props.Insider
import Verif.Lemmas.Parallel.Insider

/-! # Forging parallel proofs with corrupted users: C110

As C106 and C107, for programs that may ask for the signing keys of honest users of their choice at any time. -/
set_option autoImplicit false
set_option linter.unusedSectionVars false
set_option linter.unusedVariables false

namespace Triptych.Parallel
open Finset Function
open Triptych.Parallel.Spec
open Triptych.Spec (avg extend locate Block Block.bytes withSeeds withOracle Seed ChosenProgram SigningProgram OracleProgram InsiderProgram fullF SmallSums
  extractIndex extractKey nth tries unit_smul_ne SetupCoins timesY relationAnswer Relation defect pick mixKeys knownKeys outside)

section
variable {F P : Type} [Field F] [AddCommGroup P] [Module F P] [DecidableEq F] [DecidableEq P]

open Classical in
/-- The forgery `out` of the output, if `ok`, and otherwise one that does not count. -/
noncomputable def Spec.guarded {υ κ α : Type} (S : Finset Transcript) (ok : List υ → κ → Prop) (out : α → Forgery κ F P) (y : α × List υ) :
    Forgery κ F P :=
  if ok y.2 (out y.1).k then out y.1 else { out y.1 with t := outside S }

/-- No corrupted user has both its key in the ring and its linking tag in the statement. -/
def Spec.cleanFor {n m : ℕ} {υ κ : Type} (sts : Public n m P υ → κ → Statement P) (pub : Public n m P υ) (C : List υ) (k : κ) : Prop :=
  Clean pub C (sts pub k).inputSet.M (sts pub k).J

/-- The program that gets the keys `x`, with guarded output. -/
noncomputable def Spec.insider {υ κ α B A X V Y γ δ : Type} (S : Finset Transcript) (ok : List υ → κ → Prop)
    (out : α → Forgery κ F P) (x : υ → F) (c : InsiderProgram S B A X V Y γ δ υ F α) :
    ChosenProgram S B A X V Y γ δ (Forgery κ F P) :=
  (c.withKeys x []).map (guarded S ok out)

/-- The solver for discrete logarithms that knows the keys `x0` of the users that are not in `D`: set up the public data from `X`, run
the attack and the extractor, and pick. -/
noncomputable def Spec.insiderSolver {n m : ℕ} {υ κ γ α V Y : Type} [DecidableEq υ] (E : Env F P) (enc : P → Bytes) (S A : Finset Transcript)
    [Nonempty S] (a : Attack n m F P υ κ γ (InsiderProgram S Block A Seed V Y γ (Option (Proof F P)) υ F α))
    (opens : Public n m P υ → κ → Openings F) (ok : Public n m P υ → List υ → κ → Prop) (out : α → Forgery κ F P)
    (D : Finset υ) {q τ : ℕ} (d : Block × (HybridCoins F n m × (Fin (m - 1) → F)))
    (X : {X : P // X ≠ 0}) (x0 : υ → Fˣ) (ρ : SetupCoins n m F (Option D)) (ω : SolverCoins F n m S A V Y q τ) : F :=
  let pub := mixPublic D x0 E.basepoint (setup E.basepoint X ρ)
  pick E.basepoint X.1 (candidates E (opens pub) ρ (keptRuns E enc S A a (insider S (ok pub) out (knownKeys D x0)) d pub ω))

/-- What the kept runs yield is a candidate. -/
theorem candidates_mem [Fintype F] [Fintype P] {n m : ℕ} {υ κ : Type} [Fintype υ] (E : Env F P) (enc : P → Bytes) (hG : E.basepoint ≠ 0)
    (opens : κ → Openings F) (sts : κ → Statement P) (g : Generators n m P) (x : υ → Fˣ) (hpar : ∀ k, (sts k).params = paramsOf E g)
    (L : List (Block × Forgery κ F P))
    (hy : Yields (fun k => Wanted E.basepoint (publish E.basepoint g x) (opens k)) (withGenerators E enc g) sts L) :
    (∀ (y : Fˣ) ρ, (setup E.basepoint ⟨(y : F) • E.basepoint, unit_smul_ne hG y⟩ ρ).gens = g → (fun i => ρ.t (some i) * y) = x →
        (y : F) ∈ candidates E opens ρ L) ∨
      ∃ (z : ℕ → ℕ → F) (s : F), Relation n m (List.ofFn g.1.1) g.1.2.1.1 z s ∧
        ∀ (y : Fˣ) ρ, (setup E.basepoint ⟨(y : F) • E.basepoint, unit_smul_ne hG y⟩ ρ).gens = g → (fun i => ρ.t (some i) * y) = x →
          timesY ρ z s ≠ 0 → (y : F) ∈ candidates E opens ρ L := by
  have hrelation : ∀ (z : ℕ → ℕ → F) (s : F), Relation n m (List.ofFn g.1.1) g.1.2.1.1 z s →
      (∀ ρ : SetupCoins n m F (Option υ), relationAnswer ρ z s ∈ candidates E opens ρ L) →
      ∃ (z : ℕ → ℕ → F) (s : F), Relation n m (List.ofFn g.1.1) g.1.2.1.1 z s ∧
        ∀ (y : Fˣ) ρ, (setup E.basepoint ⟨(y : F) • E.basepoint, unit_smul_ne hG y⟩ ρ).gens = g → (fun i => ρ.t (some i) * y) = x →
          timesY ρ z s ≠ 0 → (y : F) ∈ candidates E opens ρ L := by
    intro z s hr hmem
    refine ⟨z, s, hr, fun y ρ h1 h2 h3 => ?_⟩
    have h4 := relationAnswer_eq E.basepoint hG y ρ z s (by
      rw [show (Triptych.Spec.setup E.basepoint ⟨(y : F) • E.basepoint, unit_smul_ne hG y⟩ ρ).gens = g.1 from congrArg Prod.fst h1]
      exact hr.1) h3
    rw [← h4]
    exact hmem ρ
  cases L with
  | nil => exact hy.elim
  | cons b L =>
    rw [Yields, hpar] at hy
    rw [ExtractedRelation] at hy
    rcases hy with ⟨-, ⟨i, hi⟩ | ⟨v, hv, hne, hv1⟩⟩ | ⟨e, he, hr⟩ | hr
    · refine Or.inl fun y ρ h1 h2 => ?_
      have h3 := smul_inj hG hi
      rw [← h2, Units.val_mul] at h3
      rw [candidates]
      refine List.mem_append_left _ (List.mem_append_left _ (List.mem_append_left _ (List.mem_map.2 ⟨i, mem_toList.2 (mem_univ i), ?_⟩)))
      refine (div_eq_iff (ρ.t (some i)).ne_zero).2 ?_
      rw [mul_comm]
      exact h3
    · refine Or.inl fun y ρ h1 h2 => ?_
      have h3 : (publish E.basepoint g x).gens.2.1 = (ρ.t none * y : F) • E.basepoint := by
        rw [mul_smul]
        exact (congrArg (fun g : Generators n m P => g.2.1) h1).symm
      rw [h3, smul_smul] at hv1
      have h4 := smul_inj hG hv1
      rw [candidates]
      refine List.mem_append_left _ (List.mem_append_left _ (List.mem_append_right _ (List.mem_map.2 ⟨v, hv, ?_⟩)))
      have h5 : v.amount - (opens b.2.k).offset.amount ≠ 0 := sub_ne_zero.2 hne
      refine (div_eq_iff ?_).2 ?_
      · intro h6
        refine h5 (h4.trans ?_)
        rw [← mul_assoc]
        exact (congrArg (· * (y : F)) h6).trans (zero_mul _)
      · rw [mul_comm, mul_assoc]
        exact h4
    · refine Or.inr (hrelation _ _ hr fun ρ => ?_)
      rw [candidates]
      exact List.mem_append_left _ (List.mem_append_right _ (List.mem_map.2 ⟨e, List.mem_range.2 (Nat.lt_succ_of_le he), rfl⟩))
    · refine Or.inr (hrelation _ _ hr fun ρ => ?_)
      rw [candidates]
      exact List.mem_append_right _ List.mem_cons_self

theorem yields_mono {κ : Type} {want want' : κ → F → F → Prop} (E : Env F P) (sts : κ → Statement P) (h : ∀ k r r1, want k r r1 → want' k r r1)
    (L : List (Block × Forgery κ F P)) (hy : Yields want E sts L) : Yields want' E sts L := by
  cases L with
  | nil => exact hy
  | cons x L => exact hy.imp_left fun h1 => ⟨h1.1, h _ _ _ h1.2⟩

/-- The key of a user in `D`, or a number that, with a known opening to another amount than that of the offset, gives the discrete logarithm
of `G1`. -/
def Spec.WantedIn {n m : ℕ} {υ : Type} (D : Finset υ) (G : P) (pub : Public n m P υ) (o : Openings F) (r r1 : F) : Prop :=
  (∃ i ∈ D, r • G = pub.key i) ∨
  ∃ v ∈ o.members, v.amount ≠ o.offset.amount ∧
    (v.amount - o.offset.amount) • G = (r1 - (v.mask - o.offset.mask)) • pub.gens.2.1

/-- If the runs of the program that does not get the keys of the users in `D` yield a relation or what is wanted, the solver solves. -/
theorem insider_bound [Fintype F] [Fintype P] {n m : ℕ} {υ κ γ α V Y : Type} [Fintype υ] [DecidableEq υ] [Fintype Y] [Fintype V] [DecidableEq V]
    (E : Env F P) (enc : P → Bytes) (S A : Finset Transcript) [Nonempty S]
    (a : Attack n m F P υ κ γ (InsiderProgram S Block A Seed V Y γ (Option (Proof F P)) υ F α))
    (opens : Public n m P υ → κ → Openings F) (ok : Public n m P υ → List υ → κ → Prop) (out : α → Forgery κ F P)
    (ha : a.Legal E enc S) (hG : E.basepoint ≠ 0) (hgen : ∀ X : P, ∃ x : F, x • E.basepoint = X) (D : Finset υ) {q τ : ℕ}
    (d : Block × (HybridCoins F n m × (Fin (m - 1) → F))) :
    (avg fun g : Generators n m P => avg fun x : υ → Fˣ => avg fun ω : SolverCoins F n m S A V Y q τ =>
      ind (Yields (fun k => WantedIn D E.basepoint (publish E.basepoint g x) (opens (publish E.basepoint g x) k)) (withGenerators E enc g)
        (a.sts (publish E.basepoint g x)) (keptRuns E enc S A a (insider S (ok (publish E.basepoint g x)) out
          (knownKeys D x)) d (publish E.basepoint g x) ω))) ≤
      1 / Fintype.card F + avg fun y : Fˣ => avg fun x0 : υ → Fˣ => avg fun ρ : SetupCoins n m F (Option D) =>
        avg fun ω : SolverCoins F n m S A V Y q τ =>
          ind (insiderSolver E enc S A a opens ok out D d ⟨(y : F) • E.basepoint, unit_smul_ne hG y⟩ x0 ρ ω = y) := by
  rw [avg_comm (fun (y : Fˣ) (x0 : υ → Fˣ) => avg fun ρ : SetupCoins n m F (Option D) =>
        avg fun ω : SolverCoins F n m S A V Y q τ =>
          ind (insiderSolver E enc S A a opens ok out D d ⟨(y : F) • E.basepoint, unit_smul_ne hG y⟩ x0 ρ ω = y))]
  rw [← avg_const (α := υ → Fˣ) (1 / (Fintype.card F : ℚ)), ← avg_add]
  refine le_of_eq_of_le (congrArg avg (funext fun g => avg_mixKeys D _)) ?_
  rw [avg_comm]
  refine avg_mono _ _ fun x0 => ?_
  have h1 := dlog_setup (n := n) (m := m) E.basepoint hG hgen (fun g (x : D → Fˣ) (ω : SolverCoins F n m S A V Y q τ) =>
      Yields (fun k => WantedIn D E.basepoint (publish E.basepoint g (mixKeys D x0 x)) (opens (publish E.basepoint g (mixKeys D x0 x)) k))
        (withGenerators E enc g) (a.sts (publish E.basepoint g (mixKeys D x0 x)))
        (keptRuns E enc S A a (insider S (ok (publish E.basepoint g (mixKeys D x0 x))) out (knownKeys D (mixKeys D x0 x))) d
          (publish E.basepoint g (mixKeys D x0 x)) ω))
    (fun X ρ ω => insiderSolver E enc S A a opens ok out D d X x0 ρ ω • E.basepoint = X.1) (fun g x ω hy => ?_)
  · refine h1.trans (add_le_add_right (avg_mono _ _ fun y => avg_mono _ _ fun ρ => avg_mono _ _ fun ω => ?_) _)
    by_cases h : insiderSolver E enc S A a opens ok out D d ⟨(y : F) • E.basepoint, unit_smul_ne hG y⟩ x0 ρ ω • E.basepoint = (y : F) • E.basepoint
    · rw [ind_pos h, ind_pos (smul_inj hG h)]
    · rw [ind_neg h]; exact ind_nonneg _
  · have hset : ∀ (y : Fˣ) (ρ : SetupCoins n m F (Option D)), (setup E.basepoint ⟨(y : F) • E.basepoint, unit_smul_ne hG y⟩ ρ).gens = g →
        (fun i => ρ.t (some i) * y) = x → mixPublic D x0 E.basepoint (setup E.basepoint ⟨(y : F) • E.basepoint, unit_smul_ne hG y⟩ ρ) =
          publish E.basepoint g (mixKeys D x0 x) := by
      intro y ρ h1 h2
      rw [setup_publish E.basepoint hG y ρ, h1, h2, mixPublic_publish]
    have hsolve : ∀ (y : Fˣ) (ρ : SetupCoins n m F (Option D)), (setup E.basepoint ⟨(y : F) • E.basepoint, unit_smul_ne hG y⟩ ρ).gens = g →
        (fun i => ρ.t (some i) * y) = x → (y : F) ∈ candidates E (opens (publish E.basepoint g (mixKeys D x0 x))) ρ
          (keptRuns E enc S A a (insider S (ok (publish E.basepoint g (mixKeys D x0 x))) out (knownKeys D x0)) d
            (publish E.basepoint g (mixKeys D x0 x)) ω) →
        insiderSolver E enc S A a opens ok out D d ⟨(y : F) • E.basepoint, unit_smul_ne hG y⟩ x0 ρ ω • E.basepoint = (y : F) • E.basepoint := by
      intro y ρ h1 h2 h3
      rw [insiderSolver, hset y ρ h1 h2]
      dsimp only
      rw [pick_eq hG h3]
    rw [knownKeys_mixKeys] at hy
    have hy' : Yields (fun k => Wanted E.basepoint (publish E.basepoint g x) (opens (publish E.basepoint g (mixKeys D x0 x)) k))
        (withGenerators E enc g) (a.sts (publish E.basepoint g (mixKeys D x0 x)))
        (keptRuns E enc S A a (insider S (ok (publish E.basepoint g (mixKeys D x0 x))) out (knownKeys D x0)) d
          (publish E.basepoint g (mixKeys D x0 x)) ω) := by
      refine yields_mono _ _ (fun k r r1 hr => ?_) _ hy
      rcases hr with ⟨i, hi, h⟩ | h
      · refine Or.inl ⟨⟨i, hi⟩, h.trans ?_⟩
        show (mixKeys D x0 x i : F) • E.basepoint = (x ⟨i, hi⟩ : F) • E.basepoint
        rw [mixKeys, dif_pos hi]
      · exact Or.inr h
    rcases candidates_mem E enc hG _ _ g x (ha.params g _) _ hy' with h | ⟨z, s, hr, h⟩
    · exact Or.inl fun y ρ h1 h2 => hsolve y ρ h1 h2 (h y ρ h1 h2)
    · exact Or.inr ⟨z, s, hr, fun y ρ h1 h2 h3 => hsolve y ρ h1 h2 (h y ρ h1 h2 h3)⟩

open Classical in
/-- The extractor gives the same if runs differ only where they do not count. -/
theorem extractor_congr {κ : Type} (E : Env F P) (S : Finset Transcript) (sts : κ → Statement P)
    (c c' : OracleProgram S Block (Forgery κ F P)) (O : S → Block) (bs : List Block) (h : c'.run O = c.run O)
    (hb : ∀ s : S, (c.run O).crit E S sts = some s → ∀ b, c'.run (update O s b) = c.run (update O s b) ∨
      ((c'.run (update O s b)).crit E S sts ≠ some s ∧ (c.run (update O s b)).crit E S sts ≠ some s)) :
    extractor E S sts c' O bs = extractor E S sts c O bs :=
  OracleProgram.rewind_congr c c' _ _ _ O bs h hb

open Classical in
/-- The runs that are kept are at the point of the first run. -/
theorem extractor_crit {κ : Type} (E : Env F P) (S : Finset Transcript) (sts : κ → Statement P)
    (c : OracleProgram S Block (Forgery κ F P)) (O : S → Block) (bs : List Block) (y : Block × Forgery κ F P)
    (hy : y ∈ extractor E S sts c O bs) : ∃ s, (c.run O).crit E S sts = some s ∧ y.2.crit E S sts = some s := by
  rw [extractor, OracleProgram.rewind] at hy
  cases hs : (c.run O).crit E S sts with
  | none => rw [hs] at hy; cases hy
  | some s =>
    rw [hs] at hy
    exact ⟨s, rfl, ((collect_sound c _ _ _ O s _ [] y hy).resolve_left (by simp)).2.1⟩

/-- A guarded output that counts is ok. -/
theorem guarded_crit {υ κ α : Type} (E : Env F P) (S : Finset Transcript) (ok : List υ → κ → Prop) (sts : κ → Statement P)
    (out : α → Forgery κ F P) (y : α × List υ) (s : S) (h : (guarded S ok out y).crit E S sts = some s) :
    guarded S ok out y = out y.1 ∧ ok y.2 (out y.1).k := by
  classical
  by_cases hu : ok y.2 (out y.1).k
  · refine ⟨?_, hu⟩
    rw [guarded]
    exact if_pos hu
  · exfalso
    rw [guarded, if_neg hu, Forgery.crit_eq, Forgery.point, challengeTranscript] at h
    have h1 := outside_length S s.1 s.2
    have h2 := congrArg List.length h
    rw [List.append_assoc, List.append_assoc, List.append_assoc, List.append_assoc, List.length_append] at h2
    dsimp only at h2
    omega

/-- If the runs yield the key of `u`, they are the same without the key of `u`. -/
theorem insider_same {n m : ℕ} {υ κ γ α V Y : Type} [Fintype υ] [DecidableEq υ]
    (E : Env F P) (hE : E.Lawful) (enc : P → Bytes) (S A : Finset Transcript) [Nonempty S]
    (a : Attack n m F P υ κ γ (InsiderProgram S Block A Seed V Y γ (Option (Proof F P)) υ F α)) (out : α → Forgery κ F P)
    (ha : a.Legal E enc S) (hG : E.basepoint ≠ 0) {q τ : ℕ}
    (d : Block × (HybridCoins F n m × (Fin (m - 1) → F))) (g : Generators n m P) (x : υ → Fˣ) (ω : SolverCoins F n m S A V Y q τ) (u : υ)
    (hy : Yields (fun _ r _ => r • E.basepoint = (publish E.basepoint g x).key u) (withGenerators E enc g)
      (a.sts (publish E.basepoint g x)) (keptRuns E enc S A a (insider S (cleanFor a.sts (publish E.basepoint g x)) out
        fun i => (x i : F)) d (publish E.basepoint g x) ω))
    (hn : ¬ Yields (fun _ _ _ => False) (withGenerators E enc g)
      (a.sts (publish E.basepoint g x)) (keptRuns E enc S A a (insider S (cleanFor a.sts (publish E.basepoint g x)) out
        fun i => (x i : F)) d (publish E.basepoint g x) ω)) :
    keptRuns E enc S A a (insider S (cleanFor a.sts (publish E.basepoint g x)) out
        (knownKeys {u} x)) d (publish E.basepoint g x) ω =
      keptRuns E enc S A a (insider S (cleanFor a.sts (publish E.basepoint g x)) out
        fun i => (x i : F)) d (publish E.basepoint g x) ω := by
  classical
  have hinj := ha.inj g x
  have hpar := ha.params g x
  obtain ⟨pub, hpub⟩ : ∃ pub, pub = publish E.basepoint g x := ⟨_, rfl⟩
  have hkey : pub.key u = (x u : F) • E.basepoint := by rw [hpub]; rfl
  have htag : pub.tag u = (x u : F)⁻¹ • g.1.2.2.1 := by rw [hpub]; rfl
  have hgens : pub.gens = g := by rw [hpub]; rfl
  rw [← hpub] at hy hn hinj hpar ⊢
  obtain ⟨sts, hsts⟩ : ∃ sts, sts = a.sts pub := ⟨_, rfl⟩
  obtain ⟨ok, hok⟩ : ∃ ok, ok = cleanFor a.sts pub := ⟨_, rfl⟩
  have hok' : ∀ C k, ok C k → Clean pub C (sts k).inputSet.M (sts k).J := by
    intro C k h
    rw [hok] at h
    rw [hsts]
    exact h
  rw [← hok] at hy hn ⊢
  clear hok
  rw [← hsts] at hy hn hinj hpar
  rw [keptRuns] at hy hn ⊢
  rw [keptRuns]
  rw [hgens, ← hsts] at hy hn ⊢
  generalize hsim : (fun c => simKeyless E S (paramsOf E g) sts (a.request pub (fun _ => 0) c)) = sim at hy hn ⊢
  generalize hE' : withGenerators E enc g = E' at hy hn ⊢
  have hE'l : E'.Lawful := by rw [← hE']; exact lawful_withGenerators hE enc g
  rw [insider] at hy hn ⊢
  rw [insider]
  generalize hc : a.prog pub = c at hy hn ⊢
  obtain ⟨H, W, coins, O, tape⟩ := ω
  dsimp only at hy hn ⊢
  -- the runs
  have hrun := InsiderProgram.withKeys_congr sim H W (fun i => (x i : F)) (knownKeys {u} x) u (fun i hi => by
    rw [knownKeys, if_neg (by simpa using hi)]) c [] (extend d coins) []
  have hmap := fun (x : υ → F) => run_simulated_map sim H W (guarded S ok out) (c.withKeys x []) (extend d coins) []
  have hsame : ∀ (y y' : Forgery κ F P) (s : S), y.crit E' S sts = some s → y'.crit E' S sts = some s → y'.k = y.k := by
    intro y y' s h1 h2
    have h := (Forgery.crit_eq.1 h2).trans (Forgery.crit_eq.1 h1).symm
    rw [Forgery.point, Forgery.point] at h
    obtain ⟨-, h2, -⟩ := challengeTranscript_inj hE'l _ _ _ _ _ _ _ _ _ _ _ _ _ _ _ _ _ _ h
    exact hinj _ _ h2
  -- a statement with the key and the linking tag of `u` does not count when `u` is corrupted
  have htouch : ∀ (y : α × List υ) (s : S), u ∈ y.2 → pub.key u ∈ (sts (out y.1).k).inputSet.M → (sts (out y.1).k).J = pub.tag u →
      (guarded S ok out y).crit E' S sts ≠ some s := by
    intro y s hu h1 h2 h3
    exact hok' _ _ (guarded_crit E' S ok sts out y s h3).2 u hu h1 h2
  obtain ⟨run, hrunc⟩ : ∃ run, run = (((c.withKeys (fun i => (x i : F)) []).map (guarded S ok out)).signingOnly H W).simulated sim
    (extend d coins) [] := ⟨_, rfl⟩
  have hmap1 := hmap fun i => (x i : F)
  rw [← hrunc] at hy hn hmap1 ⊢
  have hk : ∃ s k, (run.run O).crit E' S sts = some s ∧ (∀ y : Forgery κ F P, y.crit E' S sts = some s → y.k = k) ∧
      pub.key u ∈ (sts k).inputSet.M ∧ (sts k).J = pub.tag u := by
    have hsound := extractor_crit E' S sts run O (tries tape)
    generalize extractor E' S sts run O (tries tape) = L at hy hn hsound
    cases L with
    | nil => exact hy.elim
    | cons b L =>
      obtain ⟨s, hs, hb⟩ := hsound b List.mem_cons_self
      refine ⟨s, b.2.k, hs, fun y hy => hsame _ _ s hb hy, ?_⟩
      rcases hy with ⟨hr, hw⟩ | h
      · obtain ⟨r, hr0⟩ : ∃ r : F, r = extractKey (sts b.2.k).params.m (fun e => E'.scalarOfWide (nth b L e).1.bytes)
          fun e => (nth b L e).2.p.z := ⟨_, rfl⟩
        rw [← hr0] at hr hw
        rw [hpar] at hr
        have hr1 := List.mem_of_getElem? hr.1
        have hr2 : r • (sts b.2.k).J = g.1.2.2.1 := hr.2.2
        have hr3 : r • E.basepoint ∈ (sts b.2.k).inputSet.M := hr1
        rw [hw] at hr3
        refine ⟨hr3, ?_⟩
        rw [hkey] at hw
        have hr4 := smul_inj hG hw
        rw [htag, ← hr2, hr4, smul_smul, inv_mul_cancel₀ (Units.ne_zero _), one_smul]
      · exact absurd (Or.inr h) hn
  obtain ⟨s, k, hcr, hk1, hk2, hk3⟩ := hk
  have hout : ∀ (y : α × List υ) (s' : S), s' = s → u ∈ y.2 → (guarded S ok out y).crit E' S sts ≠ some s' := by
    rintro y s' rfl hu h3
    have h4 := guarded_crit E' S ok sts out y s' h3
    have h5 := hk1 _ h3
    rw [h4.1] at h5
    exact htouch y s' hu (by rw [h5]; exact hk2) (by rw [h5]; exact hk3) h3
  refine extractor_congr E' S sts _ _ O _ ?_ ?_
  · rw [hmap, hmap1]
    rcases hrun O with h | ⟨-, h⟩
    · rw [h]
    · rw [hmap1] at hcr
      exact absurd hcr (hout _ s rfl h)
  · intro s' hs' b
    have hss : s' = s := Option.some.inj (hs'.symm.trans hcr)
    rw [hmap, hmap1]
    rcases hrun (update O s' b) with h | ⟨h1, h2⟩
    · rw [h]; exact Or.inl rfl
    · exact Or.inr ⟨hout _ s' hss h1, hout _ s' hss h2⟩

/-- The probability that the solver computes the discrete logarithm `y` of a random point, with random keys of the users it knows. -/
noncomputable def Spec.insiderSuccess [Fintype F] {n m : ℕ} {υ κ γ α V Y : Type} [Fintype υ] [DecidableEq υ] [Fintype Y] [Fintype V]
    [DecidableEq V] (E : Env F P) (hG : E.basepoint ≠ 0) (enc : P → Bytes) (S A : Finset Transcript) [Nonempty S]
    (a : Attack n m F P υ κ γ (InsiderProgram S Block A Seed V Y γ (Option (Proof F P)) υ F α))
    (opens : Public n m P υ → κ → Openings F) (ok : Public n m P υ → List υ → κ → Prop) (out : α → Forgery κ F P) (q τ : ℕ)
    (d : Block × (HybridCoins F n m × (Fin (m - 1) → F))) (D : Finset υ) : ℚ :=
  avg fun y : Fˣ => avg fun x0 : υ → Fˣ => avg fun ρ : SetupCoins n m F (Option D) => avg fun ω : SolverCoins F n m S A V Y q τ =>
    ind (insiderSolver E enc S A a opens ok out D d ⟨(y : F) • E.basepoint, unit_smul_ne hG y⟩ x0 ρ ω = y)

/-- If an attack succeeds no more often than the extractor yields an honest user's key or a relation, up to `ε`, it succeeds no more
often than the solvers solve, up to `ε` and the number of solvers over the size of the field. -/
theorem insider_sum [Fintype F] [Fintype P] {n m : ℕ} {υ κ γ α V Y : Type} [Fintype υ] [DecidableEq υ] [Fintype Y] [Fintype V] [DecidableEq V]
    (E : Env F P) (hE : E.Lawful) (enc : P → Bytes) (S A : Finset Transcript) [Nonempty S]
    (a : Attack n m F P υ κ γ (InsiderProgram S Block A Seed V Y γ (Option (Proof F P)) υ F α)) (out : α → Forgery κ F P)
    (ha : a.Legal E enc S) (hG : E.basepoint ≠ 0) (hgen : ∀ X : P, ∃ x : F, x • E.basepoint = X) {q τ : ℕ}
    (d : Block × (HybridCoins F n m × (Fin (m - 1) → F))) (ε : ℚ) (win : Generators n m P → (υ → Fˣ) → ℚ)
    (hwin : ∀ g x, win g x ≤ ε + avg fun H : A → Seed => avg fun W : V → Y =>
      avg fun coins : Fin q → Block × (HybridCoins F n m × (Fin (m - 1) → F)) => avg fun O : S → Block =>
      avg fun tape : Fin m → Fin τ → Block => ind (Yields (fun _ r _ => ∃ i, r • E.basepoint = (publish E.basepoint g x).key i)
        (withGenerators E enc g) (a.sts (publish E.basepoint g x)) (keptRuns E enc S A a (insider S (cleanFor a.sts (publish E.basepoint g x)) out fun i => (x i : F)) d (publish E.basepoint g x) (H, W, coins, O, tape)))) :
    (avg fun g => avg fun x => win g x) ≤ ε + ((Fintype.card υ + 1) * (1 / Fintype.card F) + (insiderSuccess E hG enc S A a noOpenings (cleanFor a.sts) out q τ d ∅ +
      ∑ u, insiderSuccess E hG enc S A a noOpenings (cleanFor a.sts) out q τ d {u})) := by
  have hne : Nonempty {X : P // X ≠ 0} := ⟨⟨E.basepoint, hG⟩⟩
  have h2 : (avg fun g => avg fun x => win g x) ≤ ε + avg fun g : Generators n m P => avg fun x : υ → Fˣ =>
      avg fun ω : SolverCoins F n m S A V Y q τ => ind (Yields (fun _ r _ => ∃ i, r • E.basepoint = (publish E.basepoint g x).key i)
        (withGenerators E enc g) (a.sts (publish E.basepoint g x)) (keptRuns E enc S A a (insider S (cleanFor a.sts (publish E.basepoint g x)) out fun i => (x i : F)) d (publish E.basepoint g x) ω)) := by
    refine (avg_mono _ _ fun g => avg_mono _ _ fun x => hwin g x).trans (le_of_eq ?_)
    simp only [avg_add, avg_const, avg_prod]
  have h3 := insider_bound E enc S A a noOpenings (cleanFor a.sts) out ha hG hgen ∅ (q := q) (τ := τ) d
  have h4 := sum_le_sum fun (u : υ) (_ : u ∈ univ) => insider_bound E enc S A a noOpenings (cleanFor a.sts) out ha hG hgen {u} (q := q) (τ := τ) d
  rw [sum_add_distrib, sum_const, card_univ, nsmul_eq_mul] at h4
  refine h2.trans (add_le_add_right ?_ _)
  have h5 : (Fintype.card υ + 1) * (1 / (Fintype.card F : ℚ)) + (insiderSuccess E hG enc S A a noOpenings (cleanFor a.sts) out q τ d ∅ +
      ∑ u, insiderSuccess E hG enc S A a noOpenings (cleanFor a.sts) out q τ d {u}) =
      (1 / (Fintype.card F : ℚ) + insiderSuccess E hG enc S A a noOpenings (cleanFor a.sts) out q τ d ∅) + (Fintype.card υ * (1 / (Fintype.card F : ℚ)) +
        ∑ u, insiderSuccess E hG enc S A a noOpenings (cleanFor a.sts) out q τ d {u}) := by ring
  rw [h5]
  refine le_trans ?_ (add_le_add h3 h4)
  rw [← avg_sum, ← avg_add]
  refine avg_mono _ _ fun g => ?_
  rw [← avg_sum, ← avg_add]
  refine avg_mono _ _ fun x => ?_
  rw [← avg_sum, ← avg_add]
  refine avg_mono _ _ fun ω => ?_
  have hknown : knownKeys ∅ x = fun i => (x i : F) := by
    funext i
    rw [knownKeys, if_neg (notMem_empty i)]
  rw [hknown]
  by_cases hn : Yields (fun _ _ _ => False) (withGenerators E enc g)
      (a.sts (publish E.basepoint g x)) (keptRuns E enc S A a (insider S (cleanFor a.sts (publish E.basepoint g x)) out
        fun i => (x i : F)) d (publish E.basepoint g x) ω)
  · have h6 := ind_pos (yields_mono (want' := fun k => WantedIn ∅ E.basepoint (publish E.basepoint g x) (noOpenings (publish E.basepoint g x) k)) _ _
      (fun k r r1 (hr : False) => hr.elim) _ hn)
    refine le_trans ?_ (add_le_add_left (le_of_eq h6.symm) _)
    exact (ind_le_one _).trans (le_add_of_nonneg_right (sum_nonneg fun u _ => ind_nonneg _))
  · refine le_add_of_nonneg_of_le (ind_nonneg _) (ind_le_sum _ _ _ fun hy => ?_)
    have hu : ∃ u, Yields (fun _ r _ => r • E.basepoint = (publish E.basepoint g x).key u) (withGenerators E enc g)
      (a.sts (publish E.basepoint g x)) (keptRuns E enc S A a (insider S (cleanFor a.sts (publish E.basepoint g x)) out
        fun i => (x i : F)) d (publish E.basepoint g x) ω) := by
      generalize keptRuns E enc S A a _ d (publish E.basepoint g x) ω = L at hy hn
      cases L with
      | nil => exact hy.elim
      | cons b L =>
        rcases hy with ⟨h1, i, h6⟩ | h1
        · exact ⟨i, Or.inl ⟨h1, h6⟩⟩
        · exact absurd (Or.inr h1) hn
    obtain ⟨u, hu⟩ := hu
    refine ⟨u, mem_univ u, ?_⟩
    rw [insider_same E hE enc S A a out ha hG d g x ω u hu hn]
    exact yields_mono _ _ (fun k r r1 hr => Or.inl ⟨u, mem_singleton_self u, hr⟩) _ hu

/-- As `insider_sum`, with the openings of the amounts and with all keys known to the solver. -/
theorem insider_open [Fintype F] [Fintype P] {n m : ℕ} {υ κ γ α V Y : Type} [Fintype υ] [DecidableEq υ] [Fintype Y] [Fintype V] [DecidableEq V]
    (E : Env F P) (enc : P → Bytes) (S A : Finset Transcript) [Nonempty S]
    (a : Attack n m F P υ κ γ (InsiderProgram S Block A Seed V Y γ (Option (Proof F P)) υ F α)) (out : α → Forgery κ F P)
    (ha : a.Legal E enc S) (hG : E.basepoint ≠ 0) (hgen : ∀ X : P, ∃ x : F, x • E.basepoint = X)
    (opens : Public n m P υ → κ → Openings F) {q τ : ℕ}
    (d : Block × (HybridCoins F n m × (Fin (m - 1) → F))) (ε : ℚ) (win : Generators n m P → (υ → Fˣ) → ℚ)
    (hwin : ∀ g x, win g x ≤ ε + avg fun H : A → Seed => avg fun W : V → Y =>
      avg fun coins : Fin q → Block × (HybridCoins F n m × (Fin (m - 1) → F)) => avg fun O : S → Block =>
      avg fun tape : Fin m → Fin τ → Block => ind (Yields (fun k => WantedIn ∅ E.basepoint (publish E.basepoint g x) (opens (publish E.basepoint g x) k))
        (withGenerators E enc g) (a.sts (publish E.basepoint g x)) (keptRuns E enc S A a (insider S (fun _ _ => True) out fun i => (x i : F)) d (publish E.basepoint g x) (H, W, coins, O, tape)))) :
    (avg fun g => avg fun x => win g x) ≤ ε + (1 / Fintype.card F + insiderSuccess E hG enc S A a opens (fun _ _ _ => True) out q τ d ∅) := by
  have hne : Nonempty {X : P // X ≠ 0} := ⟨⟨E.basepoint, hG⟩⟩
  have h3 := insider_bound E enc S A a opens (fun _ _ _ => True) out ha hG hgen ∅ (q := q) (τ := τ) d
  have h2 : (avg fun g => avg fun x => win g x) ≤ ε + avg fun g : Generators n m P => avg fun x : υ → Fˣ =>
      avg fun ω : SolverCoins F n m S A V Y q τ => ind (Yields (fun k => WantedIn ∅ E.basepoint (publish E.basepoint g x) (opens (publish E.basepoint g x) k))
        (withGenerators E enc g) (a.sts (publish E.basepoint g x)) (keptRuns E enc S A a (insider S (fun _ _ => True) out fun i => (x i : F)) d (publish E.basepoint g x) ω)) := by
    refine (avg_mono _ _ fun g => avg_mono _ _ fun x => hwin g x).trans (le_of_eq ?_)
    simp only [avg_add, avg_const, avg_prod]
  refine h2.trans (add_le_add_right (le_trans (le_of_eq ?_) h3) _)
  have hknown : ∀ x : υ → Fˣ, knownKeys ∅ x = fun i => (x i : F) := fun x => by
    funext i
    rw [knownKeys, if_neg (notMem_empty i)]
  simp only [hknown]

end

theorem Spec.Untouched.targets {n m : ℕ} {P υ : Type} [AddCommGroup P] {pub : Public n m P υ} {C : List υ} {st : Statement P}
    (h : Untouched pub C st.inputSet.M st.J) : Targets pub st :=
  h.imp (fun h X hX => (h X hX).1) fun h => h.1

theorem Spec.Untouched.clean {n m : ℕ} {P υ : Type} [AddCommGroup P] {pub : Public n m P υ} {C : List υ} {st : Statement P}
    (h : Untouched pub C st.inputSet.M st.J) : Clean pub C st.inputSet.M st.J := by
  intro i hi hk hJ
  rcases h with h | h
  · exact (h _ hk).2 i hi rfl
  · exact h.2 i hi hJ

local notation "ℓ" => (2 ^ 252 + 27742317777372353535851937790883648493 : ℕ)

theorem card_ristretto_mul (k : ℕ) (b : ℚ) : (k + 1) * (1 / (Fintype.card (ZMod ℓ) : ℚ)) + b ≤ (k + 1) / 2 ^ 252 + b := by
  rw [ZMod.card, mul_one_div]
  refine add_le_add_left (div_le_div_of_nonneg_left (by positivity) (by positivity) ?_) _
  push_cast
  norm_num

/-- The bound for a property of statements for which the extracted key can only be an honest user's. -/
theorem insider_good {υ κ γ α : Type} [Fintype υ] [DecidableEq υ] {P : Type} [AddCommGroup P] [Module (ZMod ℓ) P] [DecidableEq P] [Fintype P]
    (E : Env (ZMod ℓ) P) (hE : E.Lawful) (hwide : ∀ b, E.scalarOfWide b = ((leNat b : ℕ) : ZMod ℓ))
    (hG : E.basepoint ≠ 0) (hgen : ∀ X : P, ∃ x : ZMod ℓ, x • E.basepoint = X)
    (enc : P → Bytes) (henc : ∀ X, E.pointOfUniform (enc X) = X) (cfg : Config)
    (S A : Finset Transcript) [Nonempty S] (hS : ∀ t ∈ S, t.getLast? = some (.challenge "xi" 64))
    {n m : ℕ} (hnm : ∃ params, Params.new E n m = .ok params)
    (a : Attack n m (ZMod ℓ) P υ κ γ (InsiderProgram S Block A Seed Seed (Fin (1 * 2 * 5) → Block) γ (Option (Proof (ZMod ℓ) P)) υ (ZMod ℓ) α))
    (out : α → Forgery κ (ZMod ℓ) P) (ha : a.Legal E enc S) (good : Generators n m P → (υ → (ZMod ℓ)ˣ) → κ → Prop)
    (hgood : ∀ g x k, good g x k → ∀ r : ZMod ℓ, r • E.basepoint ∈ (a.sts (publish E.basepoint g x) k).inputSet.M →
      r • (a.sts (publish E.basepoint g x) k).J = g.1.2.2.1 → ∃ i, r • E.basepoint = (publish E.basepoint g x).key i)
    (Q R T q : ℕ) (hc : ∀ pub, (a.prog pub).AtMost Q R T q)
    (d : Block × (HybridCoins (ZMod ℓ) n m × (Fin (m - 1) → ZMod ℓ))) (τ : ℕ) :
    (avg fun g : Generators n m P => avg fun x : υ → (ZMod ℓ)ˣ => avg fun O : S → Block => avg fun H : A → Seed =>
      avg fun W : Seed → Fin (1 * 2 * 5) → Block =>
      ((insider S (cleanFor a.sts (publish E.basepoint g x)) out (fun i => (x i : ZMod ℓ))
        (a.prog (publish E.basepoint g x))).signingOnly H W).withSigner
        (fun c => signPoint E S (paramsOf E g) (a.sts (publish E.basepoint g x)) (a.request (publish E.basepoint g x) (fun i => (x i : ZMod ℓ)) c))
        (fun c => signAnswer E (paramsOf E g) (a.sts (publish E.basepoint g x)) (a.request (publish E.basepoint g x) (fun i => (x i : ZMod ℓ)) c))
        (fun y used O => good g x y.k ∧
          AcceptedNew (withGenerators E enc g) cfg S A (a.sts (publish E.basepoint g x)) y used O H W) O []) ≤
      q * (Q + q) / 2 ^ 252 + (Q + 1) * (m / (τ + 1) + m * m / 2 ^ 252) + ((R + 1) * (5 / 2 ^ 64) + 1 / 2 ^ 107) +
      ((Fintype.card υ + 1) / 2 ^ 252 + (insiderSuccess E hG enc S A a noOpenings (cleanFor a.sts) out q τ d ∅ + ∑ u, insiderSuccess E hG enc S A a noOpenings (cleanFor a.sts) out q τ d {u})) := by
  have hne : Nonempty {X : P // X ≠ 0} := ⟨⟨E.basepoint, hG⟩⟩
  refine (insider_sum E hE enc S A a out ha hG hgen (q := q) (τ := τ) d (q * (Q + q) / 2 ^ 252 + (Q + 1) * (m / (τ + 1) + m * m / 2 ^ 252) +
    ((R + 1) * (5 / 2 ^ 64) + 1 / 2 ^ 107)) _ fun g x => ?_).trans (add_le_add_right (card_ristretto_mul _ _) _)
  exact chosen_extract_good (withGenerators E enc g) (lawful_withGenerators hE enc g) hwide cfg S A hS (paramsOf E g)
      ⟨n, m, E.basepoint, _, _, C106_params E enc henc hnm g⟩ g.1.2.1.2 (a.sts (publish E.basepoint g x)) (ha.built g x)
      (good g x) (fun _ r _ => ∃ i, r • E.basepoint = (publish E.basepoint g x).key i)
      (fun k hk l r r1 h1 => by
        rw [ha.params] at h1
        exact hgood g x k hk r (List.mem_of_getElem? h1.1) h1.2.2)
      (ha.params g x) (ha.inj g x) (a.request (publish E.basepoint g x) fun i => (x i : ZMod ℓ)) (legal_rel E enc S a ha g x)
      (ha.point g x) (insider S (cleanFor a.sts (publish E.basepoint g x)) out (fun i => (x i : ZMod ℓ))
        (a.prog (publish E.basepoint g x))) Q R T q
      (ChosenProgram.atMost_map _ _ (InsiderProgram.atMost_withKeys _ _ _ (hc _))) d τ

/-- C110: random generators, honest users `υ` with random signing keys, and an attack with at most `Q` challenges, `R` seeds, the weights
of `T` seeds and `q` signatures of honest users of its choice, which may also ask for the keys of honest users of its choice, at any time.
The probability that the verifier accepts its output, which no user made, for a ring of keys of honest users it did not corrupt, or with
the linking tag of such a user, is at most the sum of the probabilities that one of the solvers computes the discrete logarithm of a
random point, with error terms. The solvers know the keys of all honest users, or of all but one. -/
theorem C110_forge {υ κ γ : Type} [Fintype υ] [DecidableEq υ] {P : Type} [AddCommGroup P] [Module (ZMod ℓ) P] [DecidableEq P] [Fintype P]
    (E : Env (ZMod ℓ) P) (hE : E.Lawful) (hwide : ∀ b, E.scalarOfWide b = ((leNat b : ℕ) : ZMod ℓ))
    (hG : E.basepoint ≠ 0) (hgen : ∀ X : P, ∃ x : ZMod ℓ, x • E.basepoint = X)
    (enc : P → Bytes) (henc : ∀ X, E.pointOfUniform (enc X) = X) (cfg : Config)
    (S A : Finset Transcript) [Nonempty S] (hS : ∀ t ∈ S, t.getLast? = some (.challenge "xi" 64))
    {n m : ℕ} (hnm : ∃ params, Params.new E n m = .ok params)
    (a : Attack n m (ZMod ℓ) P υ κ γ (InsiderProgram S Block A Seed Seed (Fin (1 * 2 * 5) → Block) γ (Option (Proof (ZMod ℓ) P)) υ (ZMod ℓ)
      (Forgery κ (ZMod ℓ) P)))
    (ha : a.Legal E enc S) (Q R T q : ℕ) (hc : ∀ pub, (a.prog pub).AtMost Q R T q)
    (d : Block × (HybridCoins (ZMod ℓ) n m × (Fin (m - 1) → ZMod ℓ))) (τ : ℕ) :
    (avg fun g : Generators n m P => avg fun x : υ → (ZMod ℓ)ˣ => avg fun O : S → Block => avg fun H : A → Seed =>
      avg fun W : Seed → Fin (1 * 2 * 5) → Block =>
      (((a.prog (publish E.basepoint g x)).withKeys (fun i => (x i : ZMod ℓ)) []).signingOnly H W).withSigner
        (fun c => signPoint E S (paramsOf E g) (a.sts (publish E.basepoint g x)) (a.request (publish E.basepoint g x) (fun i => (x i : ZMod ℓ)) c))
        (fun c => signAnswer E (paramsOf E g) (a.sts (publish E.basepoint g x)) (a.request (publish E.basepoint g x) (fun i => (x i : ZMod ℓ)) c))
        (fun y used O => Untouched (publish E.basepoint g x) y.2 (a.sts (publish E.basepoint g x) y.1.k).inputSet.M
            (a.sts (publish E.basepoint g x) y.1.k).J ∧
          AcceptedNew (withGenerators E enc g) cfg S A (a.sts (publish E.basepoint g x)) y.1 used O H W) O []) ≤
      q * (Q + q) / 2 ^ 252 + (Q + 1) * (m / (τ + 1) + m * m / 2 ^ 252) + ((R + 1) * (5 / 2 ^ 64) + 1 / 2 ^ 107) +
      ((Fintype.card υ + 1) / 2 ^ 252 + (insiderSuccess E hG enc S A a noOpenings (cleanFor a.sts) id q τ d ∅ + ∑ u, insiderSuccess E hG enc S A a noOpenings (cleanFor a.sts) id q τ d {u})) := by
  have hne : Nonempty (Coins (ZMod ℓ) n m) := ⟨⟨fun _ _ => 0, 0, 0, 0, 0, fun _ => 0, fun _ => 0⟩⟩
  have h1 := fun (g : Generators n m P) (x : υ → (ZMod ℓ)ˣ) (O : S → Block) (H : A → Seed) (W : Seed → Fin (1 * 2 * 5) → Block) =>
    withSigner_map_le
      (fun c => signPoint E S (paramsOf E g) (a.sts (publish E.basepoint g x)) (a.request (publish E.basepoint g x) (fun i => (x i : ZMod ℓ)) c))
      (fun c => signAnswer E (paramsOf E g) (a.sts (publish E.basepoint g x)) (a.request (publish E.basepoint g x) (fun i => (x i : ZMod ℓ)) c))
      (guarded S (cleanFor a.sts (publish E.basepoint g x)) id)
      (fun y used O => Untouched (publish E.basepoint g x) y.2 (a.sts (publish E.basepoint g x) y.1.k).inputSet.M
            (a.sts (publish E.basepoint g x) y.1.k).J ∧
          AcceptedNew (withGenerators E enc g) cfg S A (a.sts (publish E.basepoint g x)) y.1 used O H W)
      (fun y used O => Targets (publish E.basepoint g x) (a.sts (publish E.basepoint g x) y.k) ∧
          AcceptedNew (withGenerators E enc g) cfg S A (a.sts (publish E.basepoint g x)) y used O H W) O
      (fun y used h => by
        have e : guarded S (cleanFor a.sts (publish E.basepoint g x)) id y = y.1 := if_pos (Spec.Untouched.clean h.1)
        rw [e]
        exact ⟨Spec.Untouched.targets h.1, h.2⟩) ((a.prog (publish E.basepoint g x)).withKeys (fun i => (x i : ZMod ℓ)) []) Q R T q
      (InsiderProgram.atMost_withKeys _ _ _ (hc _)) H W
  refine (avg_mono _ _ fun g => avg_mono _ _ fun x => avg_mono _ _ fun O => avg_mono _ _ fun H => avg_mono _ _ fun W => h1 g x O H W).trans ?_
  exact insider_good E hE hwide hG hgen enc henc cfg S A hS hnm a id ha
    (fun g x k => Targets (publish E.basepoint g x) (a.sts (publish E.basepoint g x) k))
    (fun g x k hk r h1 h2 => targets_key E.basepoint g x _ (by rw [ha.params]; rfl) (by rw [ha.params]; rfl) hk r
      (by rw [ha.params]; exact h1) (by rw [ha.params]; exact h2)) Q R T q hc d τ

section
variable {F P : Type} [Field F] [AddCommGroup P] [Module F P] [DecidableEq F] [DecidableEq P]

/-- Of `j + 1` statements with different linking tags, one has a linking tag that is not a corrupted user's and can only be made with a
key of an honest user. -/
theorem links_good {n m j : ℕ} {υ κ : Type} [DecidableEq υ] (G : P) (hG : G ≠ 0) (hgen : ∀ X : P, ∃ x : F, x • G = X)
    (g : Generators n m P) (x : υ → Fˣ) (sts : κ → Statement P) (C : List υ) (k : Fin (j + 1) → κ)
    (h : ∃ own : Finset P, #own + #C.toFinset ≤ j ∧ ∀ i, ∀ X ∈ (sts (k i)).inputSet.M, X ∈ own ∨ ∃ u, X = (publish G g x).key u)
    (hJ : ∀ i i', (sts (k i)).J = (sts (k i')).J → i = i') :
    ∃ i, Clean (publish G g x) C (sts (k i)).inputSet.M (sts (k i)).J ∧ ∀ r : F, r • G ∈ (sts (k i)).inputSet.M →
        r • (sts (k i)).J = g.1.2.2.1 → ∃ i, r • G = (publish G g x).key i := by
  obtain ⟨own, h1, h2⟩ := h
  obtain ⟨i, hi⟩ := tag_outside g.1.2.2.1 g.1.2.2.2 (own.image (fun X => (hgen X).choose) ∪ C.toFinset.image fun u => (x u : F))
    (((card_union_le _ _).trans (add_le_add card_image_le card_image_le)).trans h1) (fun i => (sts (k i)).J) hJ
  refine ⟨i, fun u hu _ hJ => ?_, fun r h3 h4 => (h2 i _ h3).resolve_left fun h5 => ?_⟩
  · refine hi (x u) (mem_union_right _ (mem_image.2 ⟨u, List.mem_toFinset.2 hu, rfl⟩)) ?_
    rw [hJ]
    show (x u : F) • (x u : F)⁻¹ • g.1.2.2.1 = _
    rw [smul_smul, mul_inv_cancel₀ (Units.ne_zero _), one_smul]
  · exact hi r (mem_union_left _ (mem_image.2 ⟨_, h5, smul_inj hG (hgen (r • G)).choose_spec⟩)) h4

/-- As `amounts_wanted`. -/
theorem amounts_wantedIn {n m : ℕ} {υ : Type} (D : Finset υ) (G : P) (pub : Public n m P υ) (o : Openings F) (st : Statement P)
    (h : OtherAmounts G pub o st) (l : ℕ) (r r1 : F) (h1 : st.inputSet.M1[l]? = some (r1 • pub.gens.2.1 + st.offset)) :
    WantedIn D G pub o r r1 := by
  obtain ⟨v, hv, hv1, hv2⟩ := h.2 _ (List.mem_of_getElem? h1)
  refine Or.inr ⟨v, hv, hv2, ?_⟩
  have h2 := h.1
  rw [Opening.Opens] at h2 hv1
  rw [h2] at hv1
  have h3 : r1 • pub.gens.2.1 = v.amount • G + v.mask • pub.gens.2.1 - (o.offset.amount • G + o.offset.mask • pub.gens.2.1) :=
    eq_sub_of_add_eq hv1
  rw [sub_smul, sub_smul, sub_smul, h3]
  abel

theorem knownKeys_empty {υ : Type} [DecidableEq υ] (x : υ → Fˣ) : knownKeys ∅ x = fun i => (x i : F) := by
  funext i
  rw [knownKeys, if_neg (notMem_empty i)]

end

/-- C110 for linking tags: in an outcome in which the keys in the rings that are not honest users' and the corrupted users are at most
`j` in number, the verifier does not accept `j + 1` outputs with different linking tags which no user made, except with probability at
most the sum of the probabilities that one of the solvers computes the discrete logarithm of a random point, with error terms. -/
theorem C110_links {υ κ γ : Type} [Fintype υ] [DecidableEq υ] {P : Type} [AddCommGroup P] [Module (ZMod ℓ) P] [DecidableEq P] [Fintype P]
    (E : Env (ZMod ℓ) P) (hE : E.Lawful) (hwide : ∀ b, E.scalarOfWide b = ((leNat b : ℕ) : ZMod ℓ))
    (hG : E.basepoint ≠ 0) (hgen : ∀ X : P, ∃ x : ZMod ℓ, x • E.basepoint = X)
    (enc : P → Bytes) (henc : ∀ X, E.pointOfUniform (enc X) = X) (cfg : Config)
    (S A : Finset Transcript) [Nonempty S] (hS : ∀ t ∈ S, t.getLast? = some (.challenge "xi" 64))
    {n m : ℕ} (hnm : ∃ params, Params.new E n m = .ok params) (j : ℕ)
    (a : Attack n m (ZMod ℓ) P υ κ γ (InsiderProgram S Block A Seed Seed (Fin (1 * 2 * 5) → Block) γ (Option (Proof (ZMod ℓ) P)) υ (ZMod ℓ)
      (Fin (j + 1) → Forgery κ (ZMod ℓ) P)))
    (ha : a.Legal E enc S) (Q R T q : ℕ) (hc : ∀ pub, (a.prog pub).AtMost Q R T q)
    (d : Block × (HybridCoins (ZMod ℓ) n m × (Fin (m - 1) → ZMod ℓ))) (τ : ℕ) :
    (avg fun g : Generators n m P => avg fun x : υ → (ZMod ℓ)ˣ => avg fun O : S → Block => avg fun H : A → Seed =>
      avg fun W : Seed → Fin (1 * 2 * 5) → Block =>
      (((a.prog (publish E.basepoint g x)).withKeys (fun i => (x i : ZMod ℓ)) []).signingOnly H W).withSigner
        (fun c => signPoint E S (paramsOf E g) (a.sts (publish E.basepoint g x)) (a.request (publish E.basepoint g x) (fun i => (x i : ZMod ℓ)) c))
        (fun c => signAnswer E (paramsOf E g) (a.sts (publish E.basepoint g x)) (a.request (publish E.basepoint g x) (fun i => (x i : ZMod ℓ)) c))
        (fun y used O => (∃ own : Finset P, #own + #y.2.toFinset ≤ j ∧ ∀ i, ∀ X ∈ (a.sts (publish E.basepoint g x) (y.1 i).k).inputSet.M,
            X ∈ own ∨ ∃ u, X = (publish E.basepoint g x).key u) ∧
          AcceptedNewUnlinkable (withGenerators E enc g) cfg S A (a.sts (publish E.basepoint g x)) y.1 used O H W) O []) ≤
      (j + 1) * (q * (Q + q) / 2 ^ 252 + (Q + 1) * (m / (τ + 1) + m * m / 2 ^ 252) + ((R + 1) * (5 / 2 ^ 64) + 1 / 2 ^ 107) +
        (Fintype.card υ + 1) / 2 ^ 252) +
      ∑ i, (insiderSuccess E hG enc S A a noOpenings (cleanFor a.sts) (fun y => y i) q τ d ∅ + ∑ u, insiderSuccess E hG enc S A a noOpenings (cleanFor a.sts) (fun y => y i) q τ d {u}) := by
  have hne : Nonempty (Coins (ZMod ℓ) n m) := ⟨⟨fun _ _ => 0, 0, 0, 0, 0, fun _ => 0, fun _ => 0⟩⟩
  have key := fun i : Fin (j + 1) => insider_good E hE hwide hG hgen enc henc cfg S A hS hnm a (fun y => y i) ha
    (fun g x k => ∀ r : ZMod ℓ, r • E.basepoint ∈ (a.sts (publish E.basepoint g x) k).inputSet.M →
      r • (a.sts (publish E.basepoint g x) k).J = g.1.2.2.1 → ∃ i, r • E.basepoint = (publish E.basepoint g x).key i)
    (fun g x k hk => hk) Q R T q hc d τ
  generalize (q * (Q + q) / 2 ^ 252 + (Q + 1) * (m / (τ + 1) + m * m / 2 ^ 252) + ((R + 1) * (5 / 2 ^ 64) + 1 / 2 ^ 107) : ℚ) = ε at key ⊢
  have h1 := fun (g : Generators n m P) (x : υ → (ZMod ℓ)ˣ) (O : S → Block) (H : A → Seed) (W : Seed → Fin (1 * 2 * 5) → Block) =>
    withSigner_guarded
      (fun c => signPoint E S (paramsOf E g) (a.sts (publish E.basepoint g x)) (a.request (publish E.basepoint g x) (fun i => (x i : ZMod ℓ)) c))
      (fun c => signAnswer E (paramsOf E g) (a.sts (publish E.basepoint g x)) (a.request (publish E.basepoint g x) (fun i => (x i : ZMod ℓ)) c))
      (fun i => guarded S (cleanFor a.sts (publish E.basepoint g x)) (fun y : Fin (j + 1) → Forgery κ (ZMod ℓ) P => y i))
      (fun y used O => (∃ own : Finset P, #own + #y.2.toFinset ≤ j ∧ ∀ i, ∀ X ∈ (a.sts (publish E.basepoint g x) (y.1 i).k).inputSet.M,
            X ∈ own ∨ ∃ u, X = (publish E.basepoint g x).key u) ∧
          AcceptedNewUnlinkable (withGenerators E enc g) cfg S A (a.sts (publish E.basepoint g x)) y.1 used O H W)
      (fun C y => Clean (publish E.basepoint g x) C (a.sts (publish E.basepoint g x) y.k).inputSet.M (a.sts (publish E.basepoint g x) y.k).J)
      (fun y => ∀ r : ZMod ℓ, r • E.basepoint ∈ (a.sts (publish E.basepoint g x) y.k).inputSet.M →
        r • (a.sts (publish E.basepoint g x) y.k).J = g.1.2.2.1 → ∃ i, r • E.basepoint = (publish E.basepoint g x).key i)
      (fun y used O => AcceptedNew (withGenerators E enc g) cfg S A (a.sts (publish E.basepoint g x)) y used O H W) O
      (fun y used h => links_good E.basepoint hG hgen g x (a.sts (publish E.basepoint g x)) y.2 (fun i => (y.1 i).k) h.1 h.2.2 |>.imp
        fun i hi => ⟨hi.1, hi.2, h.2.1 i⟩)
      (fun y i h => if_pos h)
      ((a.prog (publish E.basepoint g x)).withKeys (fun i => (x i : ZMod ℓ)) []) Q R T q
      (InsiderProgram.atMost_withKeys _ _ _ (hc _)) H W
  refine (avg_mono _ _ fun g => avg_mono _ _ fun x => avg_mono _ _ fun O => avg_mono _ _ fun H => avg_mono _ _ fun W => h1 g x O H W).trans ?_
  simp only [avg_sum]
  refine (sum_le_sum fun i _ => key i).trans (le_of_eq ?_)
  rw [sum_add_distrib, sum_add_distrib, sum_const, sum_const, card_univ, Fintype.card_fin, nsmul_eq_mul, nsmul_eq_mul, Nat.cast_add,
    Nat.cast_one]
  ring

set_option maxHeartbeats 1000000 in
/-- C110 for batches: the probability that the verifier accepts a batch of `k + 1` outputs of which one is new and for a ring of keys of
honest users that were not corrupted, or with the linking tag of such a user, is at most the sum of the probabilities that one of the
solvers computes the discrete logarithm of a random point, with error terms. -/
theorem C110_batch {υ κ γ : Type} [Fintype υ] [DecidableEq υ] {P : Type} [AddCommGroup P] [Module (ZMod ℓ) P] [DecidableEq P] [Fintype P]
    (E : Env (ZMod ℓ) P) (hE : E.Lawful) (hwide : ∀ b, E.scalarOfWide b = ((leNat b : ℕ) : ZMod ℓ))
    (hG : E.basepoint ≠ 0) (hgen : ∀ X : P, ∃ x : ZMod ℓ, x • E.basepoint = X)
    (enc : P → Bytes) (henc : ∀ X, E.pointOfUniform (enc X) = X) (cfg : Config)
    (S A : Finset Transcript) [Nonempty S] (hS : ∀ t ∈ S, t.getLast? = some (.challenge "xi" 64))
    {n m : ℕ} (hnm : ∃ params, Params.new E n m = .ok params) (k : ℕ)
    (a : Attack n m (ZMod ℓ) P υ κ γ (InsiderProgram S Block A Seed (Fin (k + 1) → Seed) (Fin ((k + 1) * 2 * 5) → Block) γ (Option (Proof (ZMod ℓ) P))
      υ (ZMod ℓ) (Fin (k + 1) → Forgery κ (ZMod ℓ) P)))
    (ha : a.Legal E enc S)
    (hM : ∀ (g : Generators n m P) (x : υ → (ZMod ℓ)ˣ) k k',
      (a.sts (publish E.basepoint g x) k).inputSet.hash = (a.sts (publish E.basepoint g x) k').inputSet.hash →
      (a.sts (publish E.basepoint g x) k).inputSet.M = (a.sts (publish E.basepoint g x) k').inputSet.M ∧
      (a.sts (publish E.basepoint g x) k).inputSet.M1 = (a.sts (publish E.basepoint g x) k').inputSet.M1)
    (Q R T q : ℕ) (hc : ∀ pub, (a.prog pub).AtMost Q R T q)
    (d : Block × (HybridCoins (ZMod ℓ) n m × (Fin (m - 1) → ZMod ℓ))) (τ : ℕ) :
    (avg fun g : Generators n m P => avg fun x : υ → (ZMod ℓ)ˣ => avg fun O : S → Block => avg fun H : A → Seed =>
      avg fun W : (Fin (k + 1) → Seed) → Fin ((k + 1) * 2 * 5) → Block =>
      (((a.prog (publish E.basepoint g x)).withKeys (fun i => (x i : ZMod ℓ)) []).signingOnly H W).withSigner
        (fun c => signPoint E S (paramsOf E g) (a.sts (publish E.basepoint g x)) (a.request (publish E.basepoint g x) (fun i => (x i : ZMod ℓ)) c))
        (fun c => signAnswer E (paramsOf E g) (a.sts (publish E.basepoint g x)) (a.request (publish E.basepoint g x) (fun i => (x i : ZMod ℓ)) c))
        (fun y used O => (∃ i, Untouched (publish E.basepoint g x) y.2 (a.sts (publish E.basepoint g x) (y.1 i).k).inputSet.M
              (a.sts (publish E.basepoint g x) (y.1 i).k).J ∧
            NewPoint (withGenerators E enc g) S (a.sts (publish E.basepoint g x)) (y.1 i) used) ∧
          AcceptedBatch (withGenerators E enc g) cfg S A (a.sts (publish E.basepoint g x)) y.1 O H W) O []) ≤
      (k + 1) * (q * (Q + q) / 2 ^ 252 + (Q + 1) * (m / (τ + 1) + m * m / 2 ^ 252) + (Fintype.card υ + 1) / 2 ^ 252) +
      ((R + (k + 1 : ℕ)) * ((R + (k + 1 : ℕ) + (k + 1 : ℕ) * (T + 1)) / 2 ^ 64) + (T + 1) * (1 / 2 ^ 251)) +
      ∑ i, (insiderSuccess E hG enc S A a noOpenings (cleanFor a.sts) (fun y => y i) q τ d ∅ + ∑ u, insiderSuccess E hG enc S A a noOpenings (cleanFor a.sts) (fun y => y i) q τ d {u}) := by
  have hne : Nonempty (Coins (ZMod ℓ) n m) := ⟨⟨fun _ _ => 0, 0, 0, 0, 0, fun _ => 0, fun _ => 0⟩⟩
  have hne' : Nonempty {X : P // X ≠ 0} := ⟨⟨E.basepoint, hG⟩⟩
  have key := fun i : Fin (k + 1) => (insider_sum E hE enc S A a (fun y => y i) ha hG hgen (q := q) (τ := τ) d
    (q * (Q + q) / 2 ^ 252 + (Q + 1) * (m / (τ + 1) + m * m / 2 ^ 252))
    (fun g x => avg fun H : A → Seed => avg fun W : (Fin (k + 1) → Seed) → Fin ((k + 1) * 2 * 5) → Block => avg fun O : S → Block =>
      ((insider S (cleanFor a.sts (publish E.basepoint g x)) (fun y => y i) (fun i => (x i : ZMod ℓ))
        (a.prog (publish E.basepoint g x))).signingOnly H W).withSigner
        (fun c => signPoint E S (paramsOf E g) (a.sts (publish E.basepoint g x)) (a.request (publish E.basepoint g x) (fun i => (x i : ZMod ℓ)) c))
        (fun c => signAnswer E (paramsOf E g) (a.sts (publish E.basepoint g x)) (a.request (publish E.basepoint g x) (fun i => (x i : ZMod ℓ)) c))
        (fun y used O => Targets (publish E.basepoint g x) (a.sts (publish E.basepoint g x) y.k) ∧
          NewForgery (withGenerators E enc g) S (a.sts (publish E.basepoint g x)) y used O) O [])
    (fun g x => by
      have h3 := fun (H : A → Seed) (W : (Fin (k + 1) → Seed) → Fin ((k + 1) * 2 * 5) → Block) =>
        signing_extract_ristretto (withGenerators E enc g) (lawful_withGenerators hE enc g) hwide S (paramsOf E g)
        ⟨n, m, E.basepoint, _, _, C106_params E enc henc hnm g⟩ g.1.2.1.2 (a.sts (publish E.basepoint g x)) (ha.built g x)
        (fun k => Targets (publish E.basepoint g x) (a.sts (publish E.basepoint g x) k))
        (fun _ r _ => ∃ i, r • E.basepoint = (publish E.basepoint g x).key i)
        (fun k hk l r r1 h1 => targets_key E.basepoint g x _ (by rw [ha.params]; rfl) (by rw [ha.params]; rfl) hk r (List.mem_of_getElem? h1.1) h1.2.2)
        (ha.params g x) (ha.inj g x) (a.request (publish E.basepoint g x) fun i => (x i : ZMod ℓ)) (legal_rel E enc S a ha g x)
        (ha.point g x) ((insider S (cleanFor a.sts (publish E.basepoint g x)) (fun y => y i) (fun i => (x i : ZMod ℓ))
        (a.prog (publish E.basepoint g x))).signingOnly H W) Q q
        (ChosenProgram.atMost_signingOnly H W _ (ChosenProgram.atMost_map _ _ (InsiderProgram.atMost_withKeys _ _ _ (hc _)))) d τ
      have h4 := avg_mono _ _ fun H => avg_mono _ _ fun W => h3 H W
      have h5 : ∀ (ε : ℚ) (f : (A → Seed) → ((Fin (k + 1) → Seed) → Fin ((k + 1) * 2 * 5) → Block) → ℚ),
        (avg fun H => avg fun W => ε + f H W) = ε + avg fun H => avg fun W => f H W := fun ε f => by simp only [avg_add, avg_const]
      rw [h5] at h4
      exact h4)).trans
    (add_le_add_right (card_ristretto_mul _ _) _)
  have h1 := fun (g : Generators n m P) (x : υ → (ZMod ℓ)ˣ) (O : S → Block) (H : A → Seed)
      (W : (Fin (k + 1) → Seed) → Fin ((k + 1) * 2 * 5) → Block) =>
    withSigner_le_add
      (fun c => signPoint E S (paramsOf E g) (a.sts (publish E.basepoint g x)) (a.request (publish E.basepoint g x) (fun i => (x i : ZMod ℓ)) c))
      (fun c => signAnswer E (paramsOf E g) (a.sts (publish E.basepoint g x)) (a.request (publish E.basepoint g x) (fun i => (x i : ZMod ℓ)) c))
      (fun (y : (Fin (k + 1) → Forgery κ (ZMod ℓ) P) × List υ) used O => (∃ i, Untouched (publish E.basepoint g x) y.2 (a.sts (publish E.basepoint g x) (y.1 i).k).inputSet.M
              (a.sts (publish E.basepoint g x) (y.1 i).k).J ∧
            NewPoint (withGenerators E enc g) S (a.sts (publish E.basepoint g x)) (y.1 i) used) ∧
          AcceptedBatch (withGenerators E enc g) cfg S A (a.sts (publish E.basepoint g x)) y.1 O H W)
      (fun (y : (Fin (k + 1) → Forgery κ (ZMod ℓ) P) × List υ) used O => ∃ i, Untouched (publish E.basepoint g x) y.2 (a.sts (publish E.basepoint g x) (y.1 i).k).inputSet.M
              (a.sts (publish E.basepoint g x) (y.1 i).k).J ∧
          NewForgery (withGenerators E enc g) S (a.sts (publish E.basepoint g x)) (y.1 i) used O)
      (fun (y : (Fin (k + 1) → Forgery κ (ZMod ℓ) P) × List υ) _ O => AcceptedInvalidBatch (withOracle (withGenerators E enc g) S O) cfg A (a.sts (publish E.basepoint g x)) y.1 H W) O
      (fun y used h => (accepted_batch_cases (withGenerators E enc g) cfg S A hS (paramsOf E g) (a.sts (publish E.basepoint g x))
        (ha.built g x) (ha.params g x) (hM g x) y.1 O H W h.2).imp_left fun h' => by
        obtain ⟨i, ht, hn⟩ := h.1
        exact ⟨i, ht, ⟨hn, h' i⟩⟩)
      (((a.prog (publish E.basepoint g x)).withKeys (fun i => (x i : ZMod ℓ)) []).signingOnly H W) Q q
      (ChosenProgram.atMost_signingOnly H W _ (InsiderProgram.atMost_withKeys _ _ _ (hc _)))
  have h1a := fun (g : Generators n m P) (x : υ → (ZMod ℓ)ˣ) (O : S → Block) (H : A → Seed)
      (W : (Fin (k + 1) → Seed) → Fin ((k + 1) * 2 * 5) → Block) =>
    withSigner_guarded
      (fun c => signPoint E S (paramsOf E g) (a.sts (publish E.basepoint g x)) (a.request (publish E.basepoint g x) (fun i => (x i : ZMod ℓ)) c))
      (fun c => signAnswer E (paramsOf E g) (a.sts (publish E.basepoint g x)) (a.request (publish E.basepoint g x) (fun i => (x i : ZMod ℓ)) c))
      (fun i => guarded S (cleanFor a.sts (publish E.basepoint g x)) (fun y : Fin (k + 1) → Forgery κ (ZMod ℓ) P => y i))
      (fun y used O => ∃ i, Untouched (publish E.basepoint g x) y.2 (a.sts (publish E.basepoint g x) (y.1 i).k).inputSet.M
              (a.sts (publish E.basepoint g x) (y.1 i).k).J ∧
          NewForgery (withGenerators E enc g) S (a.sts (publish E.basepoint g x)) (y.1 i) used O)
      (fun C y => Untouched (publish E.basepoint g x) C (a.sts (publish E.basepoint g x) y.k).inputSet.M
              (a.sts (publish E.basepoint g x) y.k).J)
      (fun y => Targets (publish E.basepoint g x) (a.sts (publish E.basepoint g x) y.k))
      (fun y used O => NewForgery (withGenerators E enc g) S (a.sts (publish E.basepoint g x)) y used O) O
      (fun y used h => h.imp fun i hi => ⟨hi.1, Spec.Untouched.targets hi.1, hi.2⟩) (fun y i h => if_pos (Spec.Untouched.clean h))
      ((a.prog (publish E.basepoint g x)).withKeys (fun i => (x i : ZMod ℓ)) []) Q R T q
      (InsiderProgram.atMost_withKeys _ _ _ (hc _)) H W
  have h1b := fun (g : Generators n m P) (x : υ → (ZMod ℓ)ˣ) (O : S → Block) (H : A → Seed)
      (W : (Fin (k + 1) → Seed) → Fin ((k + 1) * 2 * 5) → Block) =>
    withSigner_map_le
      (fun c => signPoint E S (paramsOf E g) (a.sts (publish E.basepoint g x)) (a.request (publish E.basepoint g x) (fun i => (x i : ZMod ℓ)) c))
      (fun c => signAnswer E (paramsOf E g) (a.sts (publish E.basepoint g x)) (a.request (publish E.basepoint g x) (fun i => (x i : ZMod ℓ)) c))
      (fun y => y.1)
      (fun y _ O => AcceptedInvalidBatch (withOracle (withGenerators E enc g) S O) cfg A (a.sts (publish E.basepoint g x)) y.1 H W)
      (fun y _ O => AcceptedInvalidBatch (withOracle (withGenerators E enc g) S O) cfg A (a.sts (publish E.basepoint g x)) y H W) O
      (fun y used h => h) ((a.prog (publish E.basepoint g x)).withKeys (fun i => (x i : ZMod ℓ)) []) Q R T q
      (InsiderProgram.atMost_withKeys _ _ _ (hc _)) H W
  have h1' := fun (g : Generators n m P) (x : υ → (ZMod ℓ)ˣ) (O : S → Block) (H : A → Seed)
      (W : (Fin (k + 1) → Seed) → Fin ((k + 1) * 2 * 5) → Block) =>
    (h1 g x O H W).trans (add_le_add (h1a g x O H W) (h1b g x O H W))
  have h2 := fun (g : Generators n m P) (x : υ → (ZMod ℓ)ˣ) => signer_grind
    (fun c => signPoint E S (paramsOf E g) (a.sts (publish E.basepoint g x)) (a.request (publish E.basepoint g x) (fun i => (x i : ZMod ℓ)) c))
    (fun c => signAnswer E (paramsOf E g) (a.sts (publish E.basepoint g x)) (a.request (publish E.basepoint g x) (fun i => (x i : ZMod ℓ)) c))
    (fun y H W O => AcceptedInvalidBatch (withOracle (withGenerators E enc g) S O) cfg A (a.sts (publish E.basepoint g x)) y H W)
    (((a.prog (publish E.basepoint g x)).withKeys (fun i => (x i : ZMod ℓ)) []).map fun y => y.1) Q R T q
    (ChosenProgram.atMost_map _ _ (InsiderProgram.atMost_withKeys _ _ _ (hc _)))
    ((R + (k + 1 : ℕ)) * ((R + (k + 1 : ℕ) + (k + 1 : ℕ) * (T + 1)) / 2 ^ 64) + (T + 1) * (1 / 2 ^ 251))
    (by positivity) fun O f hf => C82_ristretto (withOracle (withGenerators E enc g) S O)
      (lawful_withOracle _ (lawful_withGenerators hE enc g) S O) hwide cfg A (a.sts (publish E.basepoint g x))
      (fun k => statementBuilt_withOracle _ S O hS _ (ha.built g x k)) (ha.inj g x) k f R T hf
  generalize (q * (Q + q) / 2 ^ 252 + (Q + 1) * (m / (τ + 1) + m * m / 2 ^ 252) : ℚ) = ε at key ⊢
  generalize ((R + (k + 1 : ℕ)) * ((R + (k + 1 : ℕ) + (k + 1 : ℕ) * (T + 1)) / 2 ^ 64) + (T + 1) * (1 / 2 ^ 251) : ℚ) = ε' at h2 ⊢
  have h3 := fun (g : Generators n m P) (x : υ → (ZMod ℓ)ˣ) =>
    (avg_mono _ _ fun O => avg_mono _ _ fun H => avg_mono _ _ fun W => h1' g x O H W)
  simp only [avg_add₃, avg_sum₃] at h3
  have h4 := fun (g : Generators n m P) (x : υ → (ZMod ℓ)ˣ) =>
    (h3 g x).trans (add_le_add (sum_le_sum fun i _ => le_of_eq (avg_swap _)) (h2 g x))
  refine (avg_mono _ _ fun g => avg_mono _ _ fun x => h4 g x).trans ?_
  simp only [avg_add, avg_const, avg_sum]
  refine (add_le_add_left (sum_le_sum fun i _ => key i) _).trans (le_of_eq ?_)
  rw [sum_add_distrib, sum_add_distrib, sum_const, sum_const, card_univ, Fintype.card_fin, nsmul_eq_mul, nsmul_eq_mul, Nat.cast_add,
    Nat.cast_one]
  ring


/-- C110 for amounts, as C107: the offset and the second components in the rings are commitments with known openings. Even with all users'
keys, the program does not make the verifier accept an output, which no user made, for a statement in which all second components are
commitments to other amounts than the offset, except with at most the probability that the solver, which knows all users' keys, computes
the discrete logarithm of a random point, with error terms. -/
theorem C110_amount {υ κ γ : Type} [Fintype υ] [DecidableEq υ] {P : Type} [AddCommGroup P] [Module (ZMod ℓ) P] [DecidableEq P] [Fintype P]
    (E : Env (ZMod ℓ) P) (hE : E.Lawful) (hwide : ∀ b, E.scalarOfWide b = ((leNat b : ℕ) : ZMod ℓ))
    (hG : E.basepoint ≠ 0) (hgen : ∀ X : P, ∃ x : ZMod ℓ, x • E.basepoint = X)
    (enc : P → Bytes) (henc : ∀ X, E.pointOfUniform (enc X) = X) (cfg : Config)
    (S A : Finset Transcript) [Nonempty S] (hS : ∀ t ∈ S, t.getLast? = some (.challenge "xi" 64))
    {n m : ℕ} (hnm : ∃ params, Params.new E n m = .ok params)
    (a : Attack n m (ZMod ℓ) P υ κ γ (InsiderProgram S Block A Seed Seed (Fin (1 * 2 * 5) → Block) γ (Option (Proof (ZMod ℓ) P)) υ (ZMod ℓ)
      (Forgery κ (ZMod ℓ) P)))
    (ha : a.Legal E enc S) (opens : Public n m P υ → κ → Openings (ZMod ℓ)) (Q R T q : ℕ) (hc : ∀ pub, (a.prog pub).AtMost Q R T q)
    (d : Block × (HybridCoins (ZMod ℓ) n m × (Fin (m - 1) → ZMod ℓ))) (τ : ℕ) :
    (avg fun g : Generators n m P => avg fun x : υ → (ZMod ℓ)ˣ => avg fun O : S → Block => avg fun H : A → Seed =>
      avg fun W : Seed → Fin (1 * 2 * 5) → Block =>
      (((a.prog (publish E.basepoint g x)).withKeys (fun i => (x i : ZMod ℓ)) []).signingOnly H W).withSigner
        (fun c => signPoint E S (paramsOf E g) (a.sts (publish E.basepoint g x)) (a.request (publish E.basepoint g x) (fun i => (x i : ZMod ℓ)) c))
        (fun c => signAnswer E (paramsOf E g) (a.sts (publish E.basepoint g x)) (a.request (publish E.basepoint g x) (fun i => (x i : ZMod ℓ)) c))
        (fun y used O => OtherAmounts E.basepoint (publish E.basepoint g x) (opens (publish E.basepoint g x) y.1.k)
            (a.sts (publish E.basepoint g x) y.1.k) ∧
          AcceptedNew (withGenerators E enc g) cfg S A (a.sts (publish E.basepoint g x)) y.1 used O H W) O []) ≤
      q * (Q + q) / 2 ^ 252 + (Q + 1) * (m / (τ + 1) + m * m / 2 ^ 252) + ((R + 1) * (5 / 2 ^ 64) + 1 / 2 ^ 107) +
      (1 / 2 ^ 252 + insiderSuccess E hG enc S A a opens (fun _ _ _ => True) id q τ d ∅) := by
  have hne : Nonempty {X : P // X ≠ 0} := ⟨⟨E.basepoint, hG⟩⟩
  have hne' : Nonempty (Coins (ZMod ℓ) n m) := ⟨⟨fun _ _ => 0, 0, 0, 0, 0, fun _ => 0, fun _ => 0⟩⟩
  have h1 := fun (g : Generators n m P) (x : υ → (ZMod ℓ)ˣ) (O : S → Block) (H : A → Seed) (W : Seed → Fin (1 * 2 * 5) → Block) =>
    withSigner_map_le
      (fun c => signPoint E S (paramsOf E g) (a.sts (publish E.basepoint g x)) (a.request (publish E.basepoint g x) (fun i => (x i : ZMod ℓ)) c))
      (fun c => signAnswer E (paramsOf E g) (a.sts (publish E.basepoint g x)) (a.request (publish E.basepoint g x) (fun i => (x i : ZMod ℓ)) c))
      (guarded S (fun _ _ => True) id)
      (fun y used O => OtherAmounts E.basepoint (publish E.basepoint g x) (opens (publish E.basepoint g x) y.1.k)
            (a.sts (publish E.basepoint g x) y.1.k) ∧
          AcceptedNew (withGenerators E enc g) cfg S A (a.sts (publish E.basepoint g x)) y.1 used O H W)
      (fun y used O => OtherAmounts E.basepoint (publish E.basepoint g x) (opens (publish E.basepoint g x) y.k)
            (a.sts (publish E.basepoint g x) y.k) ∧
          AcceptedNew (withGenerators E enc g) cfg S A (a.sts (publish E.basepoint g x)) y used O H W) O
      (fun y used h => by
        have e : guarded S (fun _ _ => True) id y = y.1 := if_pos trivial
        rw [e]
        exact h) ((a.prog (publish E.basepoint g x)).withKeys (fun i => (x i : ZMod ℓ)) []) Q R T q
      (InsiderProgram.atMost_withKeys _ _ _ (hc _)) H W
  refine (avg_mono _ _ fun g => avg_mono _ _ fun x => avg_mono _ _ fun O => avg_mono _ _ fun H => avg_mono _ _ fun W => h1 g x O H W).trans ?_
  refine (insider_open E enc S A a id ha hG hgen opens (q := q) (τ := τ) d (q * (Q + q) / 2 ^ 252 + (Q + 1) * (m / (τ + 1) + m * m / 2 ^ 252) +
    ((R + 1) * (5 / 2 ^ 64) + 1 / 2 ^ 107)) _ fun g x => ?_).trans (add_le_add_right (card_ristretto_le _) _)
  exact chosen_extract_good (withGenerators E enc g) (lawful_withGenerators hE enc g) hwide cfg S A hS (paramsOf E g)
      ⟨n, m, E.basepoint, _, _, C106_params E enc henc hnm g⟩ g.1.2.1.2 (a.sts (publish E.basepoint g x)) (ha.built g x)
      (fun k => OtherAmounts E.basepoint (publish E.basepoint g x) (opens (publish E.basepoint g x) k) (a.sts (publish E.basepoint g x) k))
      (fun k => WantedIn ∅ E.basepoint (publish E.basepoint g x) (opens (publish E.basepoint g x) k))
      (fun k hk l r r1 h1 => by
        rw [ha.params] at h1
        exact amounts_wantedIn ∅ E.basepoint (publish E.basepoint g x) _ _ hk l r r1 h1.2.1)
      (ha.params g x) (ha.inj g x) (a.request (publish E.basepoint g x) fun i => (x i : ZMod ℓ)) (legal_rel E enc S a ha g x)
      (ha.point g x) (insider S (fun _ _ => True) id (fun i => (x i : ZMod ℓ)) (a.prog (publish E.basepoint g x))) Q R T q
      (ChosenProgram.atMost_map _ _ (InsiderProgram.atMost_withKeys _ _ _ (hc _))) d τ

set_option maxHeartbeats 800000 in
/-- C110 for amounts and batches: `verify_batch` does not accept `k + 1` outputs of the program, one of which no user made for a statement
in which all second components are commitments to other amounts than the offset. -/
theorem C110_amount_batch {υ κ γ : Type} [Fintype υ] [DecidableEq υ] {P : Type} [AddCommGroup P] [Module (ZMod ℓ) P] [DecidableEq P] [Fintype P]
    (E : Env (ZMod ℓ) P) (hE : E.Lawful) (hwide : ∀ b, E.scalarOfWide b = ((leNat b : ℕ) : ZMod ℓ))
    (hG : E.basepoint ≠ 0) (hgen : ∀ X : P, ∃ x : ZMod ℓ, x • E.basepoint = X)
    (enc : P → Bytes) (henc : ∀ X, E.pointOfUniform (enc X) = X) (cfg : Config)
    (S A : Finset Transcript) [Nonempty S] (hS : ∀ t ∈ S, t.getLast? = some (.challenge "xi" 64))
    {n m : ℕ} (hnm : ∃ params, Params.new E n m = .ok params) (k : ℕ)
    (a : Attack n m (ZMod ℓ) P υ κ γ (InsiderProgram S Block A Seed (Fin (k + 1) → Seed) (Fin ((k + 1) * 2 * 5) → Block) γ (Option (Proof (ZMod ℓ) P))
      υ (ZMod ℓ) (Fin (k + 1) → Forgery κ (ZMod ℓ) P)))
    (ha : a.Legal E enc S) (opens : Public n m P υ → κ → Openings (ZMod ℓ))
    (hM : ∀ (g : Generators n m P) (x : υ → (ZMod ℓ)ˣ) k k',
      (a.sts (publish E.basepoint g x) k).inputSet.hash = (a.sts (publish E.basepoint g x) k').inputSet.hash →
      (a.sts (publish E.basepoint g x) k).inputSet.M = (a.sts (publish E.basepoint g x) k').inputSet.M ∧
      (a.sts (publish E.basepoint g x) k).inputSet.M1 = (a.sts (publish E.basepoint g x) k').inputSet.M1)
    (Q R T q : ℕ) (hc : ∀ pub, (a.prog pub).AtMost Q R T q)
    (d : Block × (HybridCoins (ZMod ℓ) n m × (Fin (m - 1) → ZMod ℓ))) (τ : ℕ) :
    (avg fun g : Generators n m P => avg fun x : υ → (ZMod ℓ)ˣ => avg fun O : S → Block => avg fun H : A → Seed =>
      avg fun W : (Fin (k + 1) → Seed) → Fin ((k + 1) * 2 * 5) → Block =>
      (((a.prog (publish E.basepoint g x)).withKeys (fun i => (x i : ZMod ℓ)) []).signingOnly H W).withSigner
        (fun c => signPoint E S (paramsOf E g) (a.sts (publish E.basepoint g x)) (a.request (publish E.basepoint g x) (fun i => (x i : ZMod ℓ)) c))
        (fun c => signAnswer E (paramsOf E g) (a.sts (publish E.basepoint g x)) (a.request (publish E.basepoint g x) (fun i => (x i : ZMod ℓ)) c))
        (fun y used O => (∃ i, OtherAmounts E.basepoint (publish E.basepoint g x) (opens (publish E.basepoint g x) (y.1 i).k) (a.sts (publish E.basepoint g x) (y.1 i).k) ∧
            NewPoint (withGenerators E enc g) S (a.sts (publish E.basepoint g x)) (y.1 i) used) ∧
          AcceptedBatch (withGenerators E enc g) cfg S A (a.sts (publish E.basepoint g x)) y.1 O H W) O []) ≤
      (k + 1) * (q * (Q + q) / 2 ^ 252 + (Q + 1) * (m / (τ + 1) + m * m / 2 ^ 252) + 1 / 2 ^ 252) +
      ((R + (k + 1 : ℕ)) * ((R + (k + 1 : ℕ) + (k + 1 : ℕ) * (T + 1)) / 2 ^ 64) + (T + 1) * (1 / 2 ^ 251)) +
      ∑ i, insiderSuccess E hG enc S A a opens (fun _ _ _ => True) (fun y => y i) q τ d ∅ := by
  have hne : Nonempty (Coins (ZMod ℓ) n m) := ⟨⟨fun _ _ => 0, 0, 0, 0, 0, fun _ => 0, fun _ => 0⟩⟩
  have hne' : Nonempty {X : P // X ≠ 0} := ⟨⟨E.basepoint, hG⟩⟩
  have key := fun i : Fin (k + 1) => (insider_open E enc S A a (fun y => y i) ha hG hgen opens (q := q) (τ := τ) d
    (q * (Q + q) / 2 ^ 252 + (Q + 1) * (m / (τ + 1) + m * m / 2 ^ 252))
    (fun g x => avg fun H : A → Seed => avg fun W : (Fin (k + 1) → Seed) → Fin ((k + 1) * 2 * 5) → Block => avg fun O : S → Block =>
      ((insider S (fun _ _ => True) (fun y => y i) (fun i => (x i : ZMod ℓ))
        (a.prog (publish E.basepoint g x))).signingOnly H W).withSigner
        (fun c => signPoint E S (paramsOf E g) (a.sts (publish E.basepoint g x)) (a.request (publish E.basepoint g x) (fun i => (x i : ZMod ℓ)) c))
        (fun c => signAnswer E (paramsOf E g) (a.sts (publish E.basepoint g x)) (a.request (publish E.basepoint g x) (fun i => (x i : ZMod ℓ)) c))
        (fun y used O => OtherAmounts E.basepoint (publish E.basepoint g x) (opens (publish E.basepoint g x) y.k) (a.sts (publish E.basepoint g x) y.k) ∧
          NewForgery (withGenerators E enc g) S (a.sts (publish E.basepoint g x)) y used O) O [])
    (fun g x => by
      have h3 := fun (H : A → Seed) (W : (Fin (k + 1) → Seed) → Fin ((k + 1) * 2 * 5) → Block) =>
        signing_extract_ristretto (withGenerators E enc g) (lawful_withGenerators hE enc g) hwide S (paramsOf E g)
        ⟨n, m, E.basepoint, _, _, C106_params E enc henc hnm g⟩ g.1.2.1.2 (a.sts (publish E.basepoint g x)) (ha.built g x)
        (fun k => OtherAmounts E.basepoint (publish E.basepoint g x) (opens (publish E.basepoint g x) k) (a.sts (publish E.basepoint g x) k))
        (fun k => WantedIn ∅ E.basepoint (publish E.basepoint g x) (opens (publish E.basepoint g x) k))
        (fun k hk l r r1 h1 => by
          rw [ha.params] at h1
          exact amounts_wantedIn ∅ E.basepoint (publish E.basepoint g x) _ _ hk l r r1 h1.2.1)
        (ha.params g x) (ha.inj g x) (a.request (publish E.basepoint g x) fun i => (x i : ZMod ℓ)) (legal_rel E enc S a ha g x)
        (ha.point g x) ((insider S (fun _ _ => True) (fun y => y i) (fun i => (x i : ZMod ℓ))
        (a.prog (publish E.basepoint g x))).signingOnly H W) Q q
        (ChosenProgram.atMost_signingOnly H W _ (ChosenProgram.atMost_map _ _ (InsiderProgram.atMost_withKeys _ _ _ (hc _)))) d τ
      have h4 := avg_mono _ _ fun H => avg_mono _ _ fun W => h3 H W
      have h5 : ∀ (ε : ℚ) (f : (A → Seed) → ((Fin (k + 1) → Seed) → Fin ((k + 1) * 2 * 5) → Block) → ℚ),
        (avg fun H => avg fun W => ε + f H W) = ε + avg fun H => avg fun W => f H W := fun ε f => by simp only [avg_add, avg_const]
      rw [h5] at h4
      exact h4)).trans
    (add_le_add_right (card_ristretto_le _) _)
  have h1 := fun (g : Generators n m P) (x : υ → (ZMod ℓ)ˣ) (O : S → Block) (H : A → Seed)
      (W : (Fin (k + 1) → Seed) → Fin ((k + 1) * 2 * 5) → Block) =>
    withSigner_le_add
      (fun c => signPoint E S (paramsOf E g) (a.sts (publish E.basepoint g x)) (a.request (publish E.basepoint g x) (fun i => (x i : ZMod ℓ)) c))
      (fun c => signAnswer E (paramsOf E g) (a.sts (publish E.basepoint g x)) (a.request (publish E.basepoint g x) (fun i => (x i : ZMod ℓ)) c))
      (fun (y : (Fin (k + 1) → Forgery κ (ZMod ℓ) P) × List υ) used O => (∃ i, OtherAmounts E.basepoint (publish E.basepoint g x) (opens (publish E.basepoint g x) (y.1 i).k) (a.sts (publish E.basepoint g x) (y.1 i).k) ∧
            NewPoint (withGenerators E enc g) S (a.sts (publish E.basepoint g x)) (y.1 i) used) ∧
          AcceptedBatch (withGenerators E enc g) cfg S A (a.sts (publish E.basepoint g x)) y.1 O H W)
      (fun (y : (Fin (k + 1) → Forgery κ (ZMod ℓ) P) × List υ) used O => ∃ i, OtherAmounts E.basepoint (publish E.basepoint g x) (opens (publish E.basepoint g x) (y.1 i).k) (a.sts (publish E.basepoint g x) (y.1 i).k) ∧
          NewForgery (withGenerators E enc g) S (a.sts (publish E.basepoint g x)) (y.1 i) used O)
      (fun (y : (Fin (k + 1) → Forgery κ (ZMod ℓ) P) × List υ) _ O => AcceptedInvalidBatch (withOracle (withGenerators E enc g) S O) cfg A (a.sts (publish E.basepoint g x)) y.1 H W) O
      (fun y used h => (accepted_batch_cases (withGenerators E enc g) cfg S A hS (paramsOf E g) (a.sts (publish E.basepoint g x))
        (ha.built g x) (ha.params g x) (hM g x) y.1 O H W h.2).imp_left fun h' => by
        obtain ⟨i, ht, hn⟩ := h.1
        exact ⟨i, ht, ⟨hn, h' i⟩⟩)
      (((a.prog (publish E.basepoint g x)).withKeys (fun i => (x i : ZMod ℓ)) []).signingOnly H W) Q q
      (ChosenProgram.atMost_signingOnly H W _ (InsiderProgram.atMost_withKeys _ _ _ (hc _)))
  have h1a := fun (g : Generators n m P) (x : υ → (ZMod ℓ)ˣ) (O : S → Block) (H : A → Seed)
      (W : (Fin (k + 1) → Seed) → Fin ((k + 1) * 2 * 5) → Block) =>
    withSigner_guarded
      (fun c => signPoint E S (paramsOf E g) (a.sts (publish E.basepoint g x)) (a.request (publish E.basepoint g x) (fun i => (x i : ZMod ℓ)) c))
      (fun c => signAnswer E (paramsOf E g) (a.sts (publish E.basepoint g x)) (a.request (publish E.basepoint g x) (fun i => (x i : ZMod ℓ)) c))
      (fun i => guarded S (fun _ _ => True) (fun y : Fin (k + 1) → Forgery κ (ZMod ℓ) P => y i))
      (fun (y : (Fin (k + 1) → Forgery κ (ZMod ℓ) P) × List υ) used O => ∃ i, OtherAmounts E.basepoint (publish E.basepoint g x) (opens (publish E.basepoint g x) (y.1 i).k) (a.sts (publish E.basepoint g x) (y.1 i).k) ∧
          NewForgery (withGenerators E enc g) S (a.sts (publish E.basepoint g x)) (y.1 i) used O)
      (fun (_ : List υ) (y : Forgery κ (ZMod ℓ) P) => OtherAmounts E.basepoint (publish E.basepoint g x) (opens (publish E.basepoint g x) y.k) (a.sts (publish E.basepoint g x) y.k))
      (fun (y : Forgery κ (ZMod ℓ) P) => OtherAmounts E.basepoint (publish E.basepoint g x) (opens (publish E.basepoint g x) y.k) (a.sts (publish E.basepoint g x) y.k))
      (fun (y : Forgery κ (ZMod ℓ) P) used O => NewForgery (withGenerators E enc g) S (a.sts (publish E.basepoint g x)) y used O) O
      (fun y used h => h.imp fun i hi => ⟨hi.1, hi.1, hi.2⟩) (fun y i h => if_pos trivial)
      ((a.prog (publish E.basepoint g x)).withKeys (fun i => (x i : ZMod ℓ)) []) Q R T q
      (InsiderProgram.atMost_withKeys _ _ _ (hc _)) H W
  have h1b := fun (g : Generators n m P) (x : υ → (ZMod ℓ)ˣ) (O : S → Block) (H : A → Seed)
      (W : (Fin (k + 1) → Seed) → Fin ((k + 1) * 2 * 5) → Block) =>
    withSigner_map_le
      (fun c => signPoint E S (paramsOf E g) (a.sts (publish E.basepoint g x)) (a.request (publish E.basepoint g x) (fun i => (x i : ZMod ℓ)) c))
      (fun c => signAnswer E (paramsOf E g) (a.sts (publish E.basepoint g x)) (a.request (publish E.basepoint g x) (fun i => (x i : ZMod ℓ)) c))
      (fun (y : (Fin (k + 1) → Forgery κ (ZMod ℓ) P) × List υ) => y.1)
      (fun (y : (Fin (k + 1) → Forgery κ (ZMod ℓ) P) × List υ) _ O => AcceptedInvalidBatch (withOracle (withGenerators E enc g) S O) cfg A (a.sts (publish E.basepoint g x)) y.1 H W)
      (fun (y : Fin (k + 1) → Forgery κ (ZMod ℓ) P) _ O => AcceptedInvalidBatch (withOracle (withGenerators E enc g) S O) cfg A (a.sts (publish E.basepoint g x)) y H W) O
      (fun y used h => h) ((a.prog (publish E.basepoint g x)).withKeys (fun i => (x i : ZMod ℓ)) []) Q R T q
      (InsiderProgram.atMost_withKeys _ _ _ (hc _)) H W
  have h1' := fun (g : Generators n m P) (x : υ → (ZMod ℓ)ˣ) (O : S → Block) (H : A → Seed)
      (W : (Fin (k + 1) → Seed) → Fin ((k + 1) * 2 * 5) → Block) =>
    (h1 g x O H W).trans (add_le_add (h1a g x O H W) (h1b g x O H W))
  have h2 := fun (g : Generators n m P) (x : υ → (ZMod ℓ)ˣ) => signer_grind
    (fun c => signPoint E S (paramsOf E g) (a.sts (publish E.basepoint g x)) (a.request (publish E.basepoint g x) (fun i => (x i : ZMod ℓ)) c))
    (fun c => signAnswer E (paramsOf E g) (a.sts (publish E.basepoint g x)) (a.request (publish E.basepoint g x) (fun i => (x i : ZMod ℓ)) c))
    (fun y H W O => AcceptedInvalidBatch (withOracle (withGenerators E enc g) S O) cfg A (a.sts (publish E.basepoint g x)) y H W)
    (((a.prog (publish E.basepoint g x)).withKeys (fun i => (x i : ZMod ℓ)) []).map fun y => y.1) Q R T q
    (ChosenProgram.atMost_map _ _ (InsiderProgram.atMost_withKeys _ _ _ (hc _)))
    ((R + (k + 1 : ℕ)) * ((R + (k + 1 : ℕ) + (k + 1 : ℕ) * (T + 1)) / 2 ^ 64) + (T + 1) * (1 / 2 ^ 251))
    (by positivity) fun O f hf => C82_ristretto (withOracle (withGenerators E enc g) S O)
      (lawful_withOracle _ (lawful_withGenerators hE enc g) S O) hwide cfg A (a.sts (publish E.basepoint g x))
      (fun k => statementBuilt_withOracle _ S O hS _ (ha.built g x k)) (ha.inj g x) k f R T hf
  generalize (q * (Q + q) / 2 ^ 252 + (Q + 1) * (m / (τ + 1) + m * m / 2 ^ 252) : ℚ) = ε at key ⊢
  generalize ((R + (k + 1 : ℕ)) * ((R + (k + 1 : ℕ) + (k + 1 : ℕ) * (T + 1)) / 2 ^ 64) + (T + 1) * (1 / 2 ^ 251) : ℚ) = ε' at h2 ⊢
  have h3 := fun (g : Generators n m P) (x : υ → (ZMod ℓ)ˣ) =>
    (avg_mono _ _ fun O => avg_mono _ _ fun H => avg_mono _ _ fun W => h1' g x O H W)
  simp only [avg_add₃, avg_sum₃] at h3
  have h4 := fun (g : Generators n m P) (x : υ → (ZMod ℓ)ˣ) =>
    (h3 g x).trans (add_le_add (sum_le_sum fun i _ => le_of_eq (avg_swap _)) (h2 g x))
  refine (avg_mono _ _ fun g => avg_mono _ _ fun x => h4 g x).trans ?_
  simp only [avg_add, avg_const, avg_sum]
  refine (add_le_add_left (sum_le_sum fun i _ => key i) _).trans (le_of_eq ?_)
  rw [sum_add_distrib, sum_add_distrib, sum_const, sum_const, card_univ, Fintype.card_fin, nsmul_eq_mul, nsmul_eq_mul, Nat.cast_add,
    Nat.cast_one]
  ring

/-- C110 for amounts with a separate random generator `H`, as in the example of the repository. -/
theorem C110_ringct {υ κ γ : Type} [Fintype υ] [DecidableEq υ] {P : Type} [AddCommGroup P] [Module (ZMod ℓ) P] [DecidableEq P] [Fintype P]
    (E : Env (ZMod ℓ) P) (hE : E.Lawful) (hwide : ∀ b, E.scalarOfWide b = ((leNat b : ℕ) : ZMod ℓ))
    (hG : E.basepoint ≠ 0) (hgen : ∀ X : P, ∃ x : ZMod ℓ, x • E.basepoint = X)
    (enc : P → Bytes) (henc : ∀ X, E.pointOfUniform (enc X) = X) (cfg : Config)
    (S A : Finset Transcript) [Nonempty S] (hS : ∀ t ∈ S, t.getLast? = some (.challenge "xi" 64))
    {n m : ℕ} (hnm : ∃ params, Params.new E n m = .ok params)
    (a : {H : P // H ≠ 0} → Attack n m (ZMod ℓ) P υ κ γ (InsiderProgram S Block A Seed Seed (Fin (1 * 2 * 5) → Block) γ
      (Option (Proof (ZMod ℓ) P)) υ (ZMod ℓ) (Forgery κ (ZMod ℓ) P)))
    (ha : ∀ H, (a H).Legal E enc S) (opens : {H : P // H ≠ 0} → Public n m P υ → κ → Openings (ZMod ℓ)) (Q R T q : ℕ)
    (hc : ∀ H pub, ((a H).prog pub).AtMost Q R T q) (d : Block × (HybridCoins (ZMod ℓ) n m × (Fin (m - 1) → ZMod ℓ))) (τ : ℕ) :
    (avg fun H₀ : {H : P // H ≠ 0} => avg fun g : Generators n m P => avg fun x : υ → (ZMod ℓ)ˣ => avg fun O : S → Block => avg fun H : A → Seed =>
      avg fun W : Seed → Fin (1 * 2 * 5) → Block =>
      ((((a H₀).prog (publish E.basepoint g x)).withKeys (fun i => (x i : ZMod ℓ)) []).signingOnly H W).withSigner
        (fun c => signPoint E S (paramsOf E g) ((a H₀).sts (publish E.basepoint g x)) ((a H₀).request (publish E.basepoint g x) (fun i => (x i : ZMod ℓ)) c))
        (fun c => signAnswer E (paramsOf E g) ((a H₀).sts (publish E.basepoint g x)) ((a H₀).request (publish E.basepoint g x) (fun i => (x i : ZMod ℓ)) c))
        (fun y used O => OtherAmounts H₀.1 (publish E.basepoint g x) (opens H₀ (publish E.basepoint g x) y.1.k)
            ((a H₀).sts (publish E.basepoint g x) y.1.k) ∧
          AcceptedNew (withGenerators E enc g) cfg S A ((a H₀).sts (publish E.basepoint g x)) y.1 used O H W) O []) ≤
      q * (Q + q) / 2 ^ 252 + (Q + 1) * (m / (τ + 1) + m * m / 2 ^ 252) + ((R + 1) * (5 / 2 ^ 64) + 1 / 2 ^ 107) +
      (1 / 2 ^ 252 + avg fun h : (ZMod ℓ)ˣ => insiderSuccess E hG enc S A (a ⟨(h : ZMod ℓ) • E.basepoint, unit_smul_ne hG h⟩)
        (fun pub k => (opens ⟨(h : ZMod ℓ) • E.basepoint, unit_smul_ne hG h⟩ pub k).scaled (h : ZMod ℓ)) (fun _ _ _ => True) id q τ d ∅) := by
  have key := fun h : (ZMod ℓ)ˣ => C110_amount E hE hwide hG hgen enc henc cfg S A hS hnm (a ⟨(h : ZMod ℓ) • E.basepoint, unit_smul_ne hG h⟩)
    (ha _) (fun pub k => (opens ⟨(h : ZMod ℓ) • E.basepoint, unit_smul_ne hG h⟩ pub k).scaled (h : ZMod ℓ)) Q R T q (hc _) d τ
  generalize (q * (Q + q) / 2 ^ 252 + (Q + 1) * (m / (τ + 1) + m * m / 2 ^ 252) + ((R + 1) * (5 / 2 ^ 64) + 1 / 2 ^ 107) : ℚ) = ε at key ⊢
  generalize (1 / 2 ^ 252 : ℚ) = δ at key ⊢
  rw [avg_generator E.basepoint hG hgen]
  have hne : Nonempty (Coins (ZMod ℓ) n m) := ⟨⟨fun _ _ => 0, 0, 0, 0, 0, fun _ => 0, fun _ => 0⟩⟩
  refine (avg_mono _ _ fun h => (avg_mono _ _ fun g => avg_mono _ _ fun x => avg_mono _ _ fun O => avg_mono _ _ fun H => avg_mono _ _ fun W => ?_).trans
    (key h)).trans (le_of_eq ?_)
  · exact withSigner_le _ _ _ _ O (fun y used hy => ⟨otherAmounts_scaled _ h _ _ _ hy.1, hy.2⟩) _ Q q
      (ChosenProgram.atMost_signingOnly H W _ (InsiderProgram.atMost_withKeys _ _ _ (hc _ _)))
  · simp only [avg_add, avg_const]

section
variable {F P : Type} [Field F] [AddCommGroup P] [Module F P] [DecidableEq F] [DecidableEq P]

/-- An attack on two honest users: it asks for the key of the second one, requests a signature by the first one for the first statement and
looks at a seed, at weights and at a challenge. -/
def Spec.insiderPair {n m : ℕ} (E : Env F P) {S A : Finset Transcript} (s : S) (a : A) {V Y α : Type} (v : V) (t : Transcript)
    (out : F → Option (Proof F P) → α) :
    Attack n m F P Bool Bool Unit (InsiderProgram S Block A Seed V Y Unit (Option (Proof F P)) Bool F α) where
  sts pub b := pairStatement E pub b
  user _ _ := false
  stmt _ _ := false
  transcript _ _ := t
  position _ _ := 0
  r1 _ _ := 1
  prog _ := .corrupt true fun r => .sign () fun p => .seed a fun _ => .weights v fun _ => .challenge s fun _ => .done (out r p)

/-- If the transcript's hash never collides, there is an attack that meets the hypotheses, with both kinds of statements. -/
theorem insider_legal [Fintype F] [Fintype P] {n m : ℕ} (E : Env F P) (hE : E.Lawful) (hG : E.basepoint ≠ 0) (h2 : (2 : F) ≠ 0)
    (hinj : Injective E.challenge) (enc : P → Bytes)
    (henc : ∀ X, E.pointOfUniform (enc X) = X) (hnm : ∃ params, Params.new E n m = .ok params) (A : Finset Transcript) (a : A)
    {V Y α : Type} (v : V) (t : Transcript) (out : F → Option (Proof F P) → α) :
    ∃ (S : Finset Transcript) (_ : Nonempty S) (b : Attack n m F P Bool Bool Unit
        (InsiderProgram S Block A Seed V Y Unit (Option (Proof F P)) Bool F α)),
      b.Legal E enc S ∧ (∀ pub, (b.prog pub).AtMost 1 1 1 1) ∧ (∀ t ∈ S, t.getLast? = some (.challenge "xi" 64)) ∧
      (∀ g (x : Bool → Fˣ) k, x false ≠ x true → Untouched (publish E.basepoint g x) [true] (b.sts (publish E.basepoint g x) k).inputSet.M
        (b.sts (publish E.basepoint g x) k).J) ∧
      (∀ g (x : Bool → Fˣ) k, ∀ X ∈ (b.sts (publish E.basepoint g x) k).inputSet.M, ∃ u, X = (publish E.basepoint g x).key u) ∧
      (∀ g (x : Bool → Fˣ), OtherAmounts E.basepoint (publish E.basepoint g x) (pairOpenings E (publish E.basepoint g x) true)
        (b.sts (publish E.basepoint g x) true)) ∧
      (∀ pub k k', (b.sts pub k).inputSet = (b.sts pub k').inputSet) ∧
      ∀ pub (x : Bool → F), ∃ next, (b.prog pub).withKeys x [] = .sign () next ∧ ∀ p y w c, (match next p with
        | .seed _ f => match f y with
          | .weights _ f => match f w with
            | .challenge _ f => match f c with
              | .done z => z = (out (x true) p, [true])
              | _ => False
            | _ => False
          | _ => False
        | _ => False) := by
  have hne : Nonempty ((Generators n m P × (Bool → Fˣ)) × Coins F n m) :=
    ⟨(((fun _ => 0, ⟨E.basepoint, hG⟩, ⟨E.basepoint, hG⟩), ⟨E.basepoint, hG⟩), fun _ => 1), ⟨0, 0, 0, 0, 0, 0, 0⟩⟩
  have hS : (pairDomain (n := n) (m := m) E t).Nonempty := (univ_nonempty (α := (Generators n m P × (Bool → Fˣ)) × Coins F n m)).image _
  obtain ⟨s, hs⟩ := hS
  refine ⟨pairDomain (n := n) (m := m) E t, ⟨⟨s, hs⟩⟩, insiderPair E ⟨s, hs⟩ a v t out,
    ⟨fun g x b => pairStatement_built E hG enc henc hnm g x b, fun _ _ _ => rfl, fun g x k k' h => ?_, fun _ _ _ => rfl, fun g x c => ?_,
      fun _ _ _ => rfl, fun g x _ coins => mem_image.2 ⟨((g, x), coins), mem_univ _, rfl⟩⟩,
    fun _ _ => ⟨by norm_num, fun _ => ⟨by norm_num, fun _ => ⟨by norm_num, fun _ => ⟨by norm_num, fun _ => trivial⟩⟩⟩⟩, fun t' ht => ?_,
    fun g x _ hx => Or.inr ⟨⟨false, rfl⟩, fun i hi h => ?_⟩, fun g x _ X hX => ?_, fun g x => pair_amounts E h2 g x, fun _ _ _ => rfl,
    fun pub x => ⟨_, rfl, fun _ _ _ _ => rfl⟩⟩
  · have h3 := hinj h
    have h4 : E.compress (pairStatement E (publish E.basepoint g x) k).offset = E.compress (pairStatement E (publish E.basepoint g x) k').offset := by
      have h5 := (List.append_inj' h3 rfl).1
      rw [Statement.hashTranscript, Statement.hashTranscript] at h5
      simpa [Transcript.appendMessage, pairStatement] using h5
    have h5 := congrArg E.decompress h4
    rw [hE.point_decode_encode, hE.point_decode_encode] at h5
    have h6 := Option.some.inj h5
    have h7 : (pairAmount E (publish E.basepoint g x) : F) • E.basepoint ≠ 0 := smul_ne_zero (pairAmount_ne E _ h2) hG
    cases k <;> cases k'
    · rfl
    · exact absurd h6.symm h7
    · exact absurd h6 h7
    · rfl
  · have hp : ParamsBuilt (withGenerators E enc g) (paramsOf E g) := ⟨n, m, E.basepoint, _, _, C106_params E enc henc hnm g⟩
    show (List.replicate (paramsOf E g).getN g.2.1)[0]? = some ((1 : F) • g.2.1 + 0)
    rw [List.getElem?_replicate, if_pos (getN_pos hp), one_smul, add_zero]
  · obtain ⟨c, -, rfl⟩ := mem_image.1 ht
    exact challengeTranscript_getLast _ _ _ _ _ _ _ _ _ _
  · rw [List.mem_singleton] at hi
    subst hi
    have h1 := smul_inj (F := F) g.1.2.2.2 h
    exact hx (Units.ext (inv_injective h1))
  · rcases List.mem_cons.1 hX with h | h
    · exact ⟨false, h⟩
    · exact ⟨true, List.eq_of_mem_replicate h⟩

end

/-- An environment and an attack on two honest users that corrupts one of them meet the hypotheses of `C110_forge` (the statements are
untouched if the users' keys are different) and of `C110_amount` (the second statement has other amounts; with generators `H` other than
the base point: the example beside `C107_ringct`); and, with `V = Seed` and `Y` the weights of one proof, those of `C110_links` (with
`own = ∅` and `j = 1`), and those of `C110_batch`. -/
example (A : Finset Transcript) (a : A) (V Y α : Type) (v : V) (out : ZMod ℓ → Option (Proof (ZMod ℓ) (ZMod ℓ)) → α) :
    Toy.perfectEnv.Lawful ∧ (∀ b, Toy.perfectEnv.scalarOfWide b = ((leNat b : ℕ) : ZMod ℓ)) ∧ Toy.perfectEnv.basepoint ≠ 0 ∧
    (∀ X : ZMod ℓ, ∃ x : ZMod ℓ, x • Toy.perfectEnv.basepoint = X) ∧
    (∀ X, Toy.perfectEnv.pointOfUniform (leBytes 32 X.val) = X) ∧ (∃ params, Params.new Toy.perfectEnv 2 2 = .ok params) ∧
    ∃ (S : Finset Transcript) (_ : Nonempty S) (b : Attack 2 2 (ZMod ℓ) (ZMod ℓ) Bool Bool Unit
        (InsiderProgram S Block A Seed V Y Unit (Option (Proof (ZMod ℓ) (ZMod ℓ))) Bool (ZMod ℓ) α)),
      b.Legal Toy.perfectEnv (fun X => leBytes 32 X.val) S ∧ (∀ pub, (b.prog pub).AtMost 1 1 1 1) ∧
      (∀ t ∈ S, t.getLast? = some (.challenge "xi" 64)) ∧
      (∀ g (x : Bool → (ZMod ℓ)ˣ) k, x false ≠ x true → Untouched (publish Toy.perfectEnv.basepoint g x) [true]
        (b.sts (publish Toy.perfectEnv.basepoint g x) k).inputSet.M (b.sts (publish Toy.perfectEnv.basepoint g x) k).J) ∧
      (∀ g (x : Bool → (ZMod ℓ)ˣ) k, ∀ X ∈ (b.sts (publish Toy.perfectEnv.basepoint g x) k).inputSet.M,
        ∃ u, X = (publish Toy.perfectEnv.basepoint g x).key u) ∧
      (∀ g (x : Bool → (ZMod ℓ)ˣ), OtherAmounts Toy.perfectEnv.basepoint (publish Toy.perfectEnv.basepoint g x)
        (pairOpenings Toy.perfectEnv (publish Toy.perfectEnv.basepoint g x) true) (b.sts (publish Toy.perfectEnv.basepoint g x) true)) ∧
      ∀ pub k k', (b.sts pub k).inputSet = (b.sts pub k').inputSet := by
  obtain ⟨S, hS, b, h1, h2, h3, h4, h5, h6, h7, -⟩ := insider_legal (V := V) (Y := Y) Toy.perfectEnv Toy.perfectEnv_lawful
    Triptych.Toy.hashEnv_basepoint Toy.two_ne Toy.perfectHash_injective _ Triptych.Toy.hashEnv_enc Toy.perfectEnv_params A a v
    Triptych.Toy.transcript out
  exact ⟨Toy.perfectEnv_lawful, fun _ => rfl, Triptych.Toy.hashEnv_basepoint, fun X => ⟨X, mul_one X⟩, Triptych.Toy.hashEnv_enc,
    Toy.perfectEnv_params, S, hS, b, h1, h2, h3, h4, h5, h6, h7⟩

end Triptych.Parallel
