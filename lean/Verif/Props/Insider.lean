import Verif.Props.DLog
import Verif.Lemmas.Insider

/-! # Forging with corrupted users: C109

As C105, for programs that may ask for the signing keys of honest users of their choice at any time. -/
set_option autoImplicit false
set_option linter.unusedSectionVars false
set_option linter.unusedVariables false

namespace Triptych
open Spec Finset Function

section
variable {F P : Type} [Field F] [AddCommGroup P] [Module F P] [DecidableEq F] [DecidableEq P]

open Classical in
/-- The forgery `out` of the output, if no corrupted user has its key in the ring and the linking tag, and otherwise one that does not count. -/
noncomputable def Spec.guarded {n m : ℕ} {υ κ α : Type} (S : Finset Transcript) (pub : Public n m P υ) (sts : κ → Statement P)
    (out : α → Forgery κ F P) (y : α × List υ) : Forgery κ F P :=
  if Clean pub y.2 (sts (out y.1).k).inputSet.M (sts (out y.1).k).J then out y.1 else { out y.1 with t := outside S }

/-- The program that gets the keys `x`, with guarded output. -/
noncomputable def Spec.insider {n m : ℕ} {υ κ α B A X V Y γ δ : Type} (S : Finset Transcript) (pub : Public n m P υ) (sts : κ → Statement P)
    (out : α → Forgery κ F P) (x : υ → F) (c : InsiderProgram S B A X V Y γ δ υ F α) :
    ChosenProgram S B A X V Y γ δ (Forgery κ F P) :=
  (c.withKeys x []).map (guarded S pub sts out)

/-- The solver for discrete logarithms that knows the keys `x0` of the users that are not in `D`: set up the public data from `X`, run
the attack and the extractor, and pick. -/
noncomputable def Spec.insiderSolver {n m : ℕ} {υ κ γ α V Y : Type} [DecidableEq υ] (E : Env F P) (enc : P → Bytes) (S A : Finset Transcript)
    [Nonempty S] (a : Attack n m P υ κ γ (InsiderProgram S Block A Seed V Y γ (Option (Proof F P)) υ F α)) (out : α → Forgery κ F P)
    (D : Finset υ) {q τ : ℕ} (d : Block × (HybridCoins F n m × (Fin (m - 1) → F)))
    (X : {X : P // X ≠ 0}) (x0 : υ → Fˣ) (ρ : SetupCoins n m F D) (ω : SolverCoins F n m S A V Y q τ) : F :=
  let pub := mixPublic D x0 E.basepoint (setup E.basepoint X ρ)
  pick E.basepoint X.1 (candidates E ρ (keptRuns E enc S A a (insider S pub (a.sts pub) out (knownKeys D x0)) d pub ω))

/-- What the kept runs yield is a candidate. -/
theorem candidates_mem [Fintype F] [Fintype P] {n m : ℕ} {υ κ : Type} [Fintype υ] (E : Env F P) (enc : P → Bytes) (hG : E.basepoint ≠ 0)
    (sts : κ → Statement P) (g : Generators n m P) (x : υ → Fˣ) (hpar : ∀ k, (sts k).params = paramsOf E g)
    (L : List (Block × Forgery κ F P))
    (hy : Yields (fun r => ∃ i, r • E.basepoint = (publish E.basepoint g x).key i) (withGenerators E enc g) sts L) :
    (∀ (y : Fˣ) ρ, (setup E.basepoint ⟨(y : F) • E.basepoint, unit_smul_ne hG y⟩ ρ).gens = g → (fun i => ρ.t i * y) = x →
        (y : F) ∈ candidates E ρ L) ∨
      ∃ (z : ℕ → ℕ → F) (s : F), Relation n m (List.ofFn g.1) g.2.1.1 z s ∧
        ∀ (y : Fˣ) ρ, (setup E.basepoint ⟨(y : F) • E.basepoint, unit_smul_ne hG y⟩ ρ).gens = g → (fun i => ρ.t i * y) = x →
          timesY ρ z s ≠ 0 → (y : F) ∈ candidates E ρ L := by
  have hrelation : ∀ (z : ℕ → ℕ → F) (s : F), Relation n m (List.ofFn g.1) g.2.1.1 z s →
      (∀ ρ : SetupCoins n m F υ, relationAnswer ρ z s ∈ candidates E ρ L) →
      ∃ (z : ℕ → ℕ → F) (s : F), Relation n m (List.ofFn g.1) g.2.1.1 z s ∧
        ∀ (y : Fˣ) ρ, (setup E.basepoint ⟨(y : F) • E.basepoint, unit_smul_ne hG y⟩ ρ).gens = g → (fun i => ρ.t i * y) = x →
          timesY ρ z s ≠ 0 → (y : F) ∈ candidates E ρ L := by
    intro z s hr hmem
    refine ⟨z, s, hr, fun y ρ h1 h2 h3 => ?_⟩
    have h4 := relationAnswer_eq E.basepoint hG y ρ z s (by rw [h1]; exact hr.1) h3
    rw [← h4]
    exact hmem ρ
  cases L with
  | nil => exact hy.elim
  | cons b L =>
    rw [Yields, hpar] at hy
    rcases hy with ⟨-, i, hi⟩ | ⟨e, he, hr⟩ | hr
    · refine Or.inl fun y ρ h1 h2 => ?_
      have h3 := smul_inj hG hi
      rw [← h2, Units.val_mul] at h3
      rw [candidates]
      refine List.mem_append_left _ (List.mem_append_left _ (List.mem_map.2 ⟨i, mem_toList.2 (mem_univ i), ?_⟩))
      refine (div_eq_iff (ρ.t i).ne_zero).2 ?_
      rw [mul_comm]
      exact h3
    · refine Or.inr (hrelation _ _ hr fun ρ => ?_)
      rw [candidates]
      exact List.mem_append_left _ (List.mem_append_right _ (List.mem_map.2 ⟨e, List.mem_range.2 (Nat.lt_succ_of_le he), rfl⟩))
    · refine Or.inr (hrelation _ _ hr fun ρ => ?_)
      rw [candidates]
      exact List.mem_append_right _ List.mem_cons_self

theorem yields_mono {κ : Type} {want want' : F → Prop} (E : Env F P) (sts : κ → Statement P) (h : ∀ r, want r → want' r)
    (L : List (Block × Forgery κ F P)) (hy : Yields want E sts L) : Yields want' E sts L := by
  cases L with
  | nil => exact hy
  | cons x L => exact hy.imp_left fun h1 => ⟨h1.1, h _ h1.2⟩

/-- If the runs of the program that does not get the keys of the users in `D` yield a relation or the key of a user in `D`, the solver
solves. -/
theorem insider_bound [Fintype F] [Fintype P] {n m : ℕ} {υ κ γ α V Y : Type} [Fintype υ] [DecidableEq υ] [Fintype Y] [Fintype V] [DecidableEq V]
    (E : Env F P) (enc : P → Bytes) (S A : Finset Transcript) [Nonempty S]
    (a : Attack n m P υ κ γ (InsiderProgram S Block A Seed V Y γ (Option (Proof F P)) υ F α)) (out : α → Forgery κ F P)
    (ha : a.Legal F E enc S) (hG : E.basepoint ≠ 0) (hgen : ∀ X : P, ∃ x : F, x • E.basepoint = X) (D : Finset υ) {q τ : ℕ}
    (d : Block × (HybridCoins F n m × (Fin (m - 1) → F))) :
    (avg fun g : Generators n m P => avg fun x : υ → Fˣ => avg fun ω : SolverCoins F n m S A V Y q τ =>
      ind (Yields (fun r => ∃ i ∈ D, r • E.basepoint = (publish E.basepoint g x).key i) (withGenerators E enc g)
        (a.sts (publish E.basepoint g x)) (keptRuns E enc S A a (insider S (publish E.basepoint g x) (a.sts (publish E.basepoint g x)) out
          (knownKeys D x)) d (publish E.basepoint g x) ω))) ≤
      1 / Fintype.card F + avg fun y : Fˣ => avg fun x0 : υ → Fˣ => avg fun ρ : SetupCoins n m F D =>
        avg fun ω : SolverCoins F n m S A V Y q τ =>
          ind (insiderSolver E enc S A a out D d ⟨(y : F) • E.basepoint, unit_smul_ne hG y⟩ x0 ρ ω = y) := by
  rw [avg_comm (fun (y : Fˣ) (x0 : υ → Fˣ) => avg fun ρ : SetupCoins n m F D =>
        avg fun ω : SolverCoins F n m S A V Y q τ =>
          ind (insiderSolver E enc S A a out D d ⟨(y : F) • E.basepoint, unit_smul_ne hG y⟩ x0 ρ ω = y))]
  rw [← avg_const (α := υ → Fˣ) (1 / (Fintype.card F : ℚ)), ← avg_add]
  refine le_of_eq_of_le (congrArg avg (funext fun g => avg_mixKeys D _)) ?_
  rw [avg_comm]
  refine avg_mono _ _ fun x0 => ?_
  have h1 := dlog_setup (n := n) (m := m) E.basepoint hG hgen (fun g (x : D → Fˣ) (ω : SolverCoins F n m S A V Y q τ) =>
      Yields (fun r => ∃ i ∈ D, r • E.basepoint = (publish E.basepoint g (mixKeys D x0 x)).key i) (withGenerators E enc g)
        (a.sts (publish E.basepoint g (mixKeys D x0 x))) (keptRuns E enc S A a (insider S (publish E.basepoint g (mixKeys D x0 x))
          (a.sts (publish E.basepoint g (mixKeys D x0 x))) out (knownKeys D (mixKeys D x0 x))) d (publish E.basepoint g (mixKeys D x0 x)) ω))
    (fun X ρ ω => insiderSolver E enc S A a out D d X x0 ρ ω • E.basepoint = X.1) (fun g x ω hy => ?_)
  · refine h1.trans (add_le_add_right (avg_mono _ _ fun y => avg_mono _ _ fun ρ => avg_mono _ _ fun ω => ?_) _)
    by_cases h : insiderSolver E enc S A a out D d ⟨(y : F) • E.basepoint, unit_smul_ne hG y⟩ x0 ρ ω • E.basepoint = (y : F) • E.basepoint
    · rw [ind_pos h, ind_pos (smul_inj hG h)]
    · rw [ind_neg h]; exact ind_nonneg _
  · have hset : ∀ (y : Fˣ) (ρ : SetupCoins n m F D), (setup E.basepoint ⟨(y : F) • E.basepoint, unit_smul_ne hG y⟩ ρ).gens = g →
        (fun i => ρ.t i * y) = x → mixPublic D x0 E.basepoint (setup E.basepoint ⟨(y : F) • E.basepoint, unit_smul_ne hG y⟩ ρ) =
          publish E.basepoint g (mixKeys D x0 x) := by
      intro y ρ h1 h2
      rw [setup_publish E.basepoint hG y ρ, h1, h2, mixPublic_publish]
    have hsolve : ∀ (y : Fˣ) (ρ : SetupCoins n m F D), (setup E.basepoint ⟨(y : F) • E.basepoint, unit_smul_ne hG y⟩ ρ).gens = g →
        (fun i => ρ.t i * y) = x → (y : F) ∈ candidates E ρ (keptRuns E enc S A a (insider S (publish E.basepoint g (mixKeys D x0 x))
          (a.sts (publish E.basepoint g (mixKeys D x0 x))) out (knownKeys D x0)) d (publish E.basepoint g (mixKeys D x0 x)) ω) →
        insiderSolver E enc S A a out D d ⟨(y : F) • E.basepoint, unit_smul_ne hG y⟩ x0 ρ ω • E.basepoint = (y : F) • E.basepoint := by
      intro y ρ h1 h2 h3
      rw [insiderSolver, hset y ρ h1 h2]
      dsimp only
      rw [pick_eq hG h3]
    rw [knownKeys_mixKeys] at hy
    have hy' : Yields (fun r => ∃ i, r • E.basepoint = (publish E.basepoint g x).key i) (withGenerators E enc g)
        (a.sts (publish E.basepoint g (mixKeys D x0 x))) (keptRuns E enc S A a (insider S (publish E.basepoint g (mixKeys D x0 x))
          (a.sts (publish E.basepoint g (mixKeys D x0 x))) out (knownKeys D x0)) d (publish E.basepoint g (mixKeys D x0 x)) ω) := by
      refine yields_mono _ _ (fun r hr => ?_) _ hy
      obtain ⟨i, hi, h⟩ := hr
      refine ⟨⟨i, hi⟩, h.trans ?_⟩
      show (mixKeys D x0 x i : F) • E.basepoint = (x ⟨i, hi⟩ : F) • E.basepoint
      rw [mixKeys, dif_pos hi]
    rcases candidates_mem E enc hG _ g x (ha.params g _) _ hy' with h | ⟨z, s, hr, h⟩
    · exact Or.inl fun y ρ h1 h2 => hsolve y ρ h1 h2 (h y ρ h1 h2)
    · exact Or.inr ⟨z, s, hr, fun y ρ h1 h2 h3 => hsolve y ρ h1 h2 (h y ρ h1 h2 h3)⟩

open Classical in
/-- The extractor gives the same if runs differ only where they do not count. -/
theorem extractor_congr {κ : Type} (E : Env F P) (S : Finset Transcript) (sts : κ → Statement P)
    (c c' : OracleProgram S Block (Forgery κ F P)) (O : S → Block) (bs : List Block) (h : c'.run O = c.run O)
    (hb : ∀ s : S, (c.run O).crit E S sts = some s → ∀ b, c'.run (update O s b) = c.run (update O s b) ∨
      ((c'.run (update O s b)).crit E S sts ≠ some s ∧ (c.run (update O s b)).crit E S sts ≠ some s)) :
    extractor E S sts c' O bs = extractor E S sts c O bs :=
  OracleProgram.rewind_congr c c' _ _ _ O bs h hb

open Classical in
/-- The runs that are kept are at the point of the first run. -/
theorem extractor_crit {κ : Type} (E : Env F P) (S : Finset Transcript) (sts : κ → Statement P)
    (c : OracleProgram S Block (Forgery κ F P)) (O : S → Block) (bs : List Block) (y : Block × Forgery κ F P)
    (hy : y ∈ extractor E S sts c O bs) : ∃ s, (c.run O).crit E S sts = some s ∧ y.2.crit E S sts = some s := by
  rw [extractor, OracleProgram.rewind] at hy
  cases hs : (c.run O).crit E S sts with
  | none => rw [hs] at hy; cases hy
  | some s =>
    rw [hs] at hy
    exact ⟨s, rfl, ((collect_sound c _ _ _ O s _ [] y hy).resolve_left (by simp)).2.1⟩

/-- A guarded output that counts is clean. -/
theorem guarded_crit {n m : ℕ} {υ κ α : Type} (E : Env F P) (S : Finset Transcript) (pub : Public n m P υ) (sts : κ → Statement P)
    (out : α → Forgery κ F P) (y : α × List υ) (s : S) (h : (guarded S pub sts out y).crit E S sts = some s) :
    guarded S pub sts out y = out y.1 ∧ Clean pub y.2 (sts (out y.1).k).inputSet.M (sts (out y.1).k).J := by
  classical
  by_cases hu : Clean pub y.2 (sts (out y.1).k).inputSet.M (sts (out y.1).k).J
  · refine ⟨?_, hu⟩
    rw [guarded]
    exact if_pos hu
  · exfalso
    rw [guarded, if_neg hu, Forgery.crit_eq, Forgery.point, challengeTranscript] at h
    have h1 := outside_length S s.1 s.2
    have h2 := congrArg List.length h
    rw [List.append_assoc, List.append_assoc, List.append_assoc, List.length_append] at h2
    dsimp only at h2
    omega

/-- If the runs yield the key of `u`, they are the same without the key of `u`. -/
theorem insider_same {n m : ℕ} {υ κ γ α V Y : Type} [Fintype υ] [DecidableEq υ]
    (E : Env F P) (hE : E.Lawful) (enc : P → Bytes) (S A : Finset Transcript) [Nonempty S]
    (a : Attack n m P υ κ γ (InsiderProgram S Block A Seed V Y γ (Option (Proof F P)) υ F α)) (out : α → Forgery κ F P)
    (ha : a.Legal F E enc S) (hG : E.basepoint ≠ 0) {q τ : ℕ}
    (d : Block × (HybridCoins F n m × (Fin (m - 1) → F))) (g : Generators n m P) (x : υ → Fˣ) (ω : SolverCoins F n m S A V Y q τ) (u : υ)
    (hy : Yields (fun r => r • E.basepoint = (publish E.basepoint g x).key u) (withGenerators E enc g)
      (a.sts (publish E.basepoint g x)) (keptRuns E enc S A a (insider S (publish E.basepoint g x) (a.sts (publish E.basepoint g x)) out
        fun i => (x i : F)) d (publish E.basepoint g x) ω))
    (hn : ¬ Yields (fun _ => False) (withGenerators E enc g)
      (a.sts (publish E.basepoint g x)) (keptRuns E enc S A a (insider S (publish E.basepoint g x) (a.sts (publish E.basepoint g x)) out
        fun i => (x i : F)) d (publish E.basepoint g x) ω)) :
    keptRuns E enc S A a (insider S (publish E.basepoint g x) (a.sts (publish E.basepoint g x)) out
        (knownKeys {u} x)) d (publish E.basepoint g x) ω =
      keptRuns E enc S A a (insider S (publish E.basepoint g x) (a.sts (publish E.basepoint g x)) out
        fun i => (x i : F)) d (publish E.basepoint g x) ω := by
  classical
  have hinj := ha.inj g x
  have hpar := ha.params g x
  obtain ⟨pub, hpub⟩ : ∃ pub, pub = publish E.basepoint g x := ⟨_, rfl⟩
  have hkey : pub.key u = (x u : F) • E.basepoint := by rw [hpub]; rfl
  have htag : pub.tag u = (x u : F)⁻¹ • g.2.2.1 := by rw [hpub]; rfl
  have hgens : pub.gens = g := by rw [hpub]; rfl
  rw [← hpub] at hy hn hinj hpar ⊢
  obtain ⟨sts, hsts⟩ : ∃ sts, sts = a.sts pub := ⟨_, rfl⟩
  rw [← hsts] at hy hn hinj hpar ⊢
  rw [keptRuns] at hy hn ⊢
  rw [keptRuns]
  rw [hgens, ← hsts] at hy hn ⊢
  generalize hsim : (fun c => simKeyless E S (paramsOf E g) sts (a.request pub (fun _ => 0) c)) = sim at hy hn ⊢
  generalize hE' : withGenerators E enc g = E' at hy hn ⊢
  have hE'l : E'.Lawful := by rw [← hE']; exact lawful_withGenerators hE enc g
  rw [insider] at hy hn ⊢
  rw [insider]
  generalize hc : a.prog pub = c at hy hn ⊢
  obtain ⟨H, W, coins, O, tape⟩ := ω
  dsimp only at hy hn ⊢
  -- the runs
  have hrun := InsiderProgram.withKeys_congr sim H W (fun i => (x i : F)) (knownKeys {u} x) u (fun i hi => by
    rw [knownKeys, if_neg (by simpa using hi)]) c [] (extend d coins) []
  have hmap := fun (x : υ → F) => run_simulated_map sim H W (guarded S pub sts out) (c.withKeys x []) (extend d coins) []
  have hsame : ∀ (y y' : Forgery κ F P) (s : S), y.crit E' S sts = some s → y'.crit E' S sts = some s → y'.k = y.k := by
    intro y y' s h1 h2
    have h := (Forgery.crit_eq.1 h2).trans (Forgery.crit_eq.1 h1).symm
    rw [Forgery.point, Forgery.point] at h
    obtain ⟨-, h2, -⟩ := challengeTranscript_inj hE'l _ _ _ _ _ _ _ _ _ _ _ _ _ _ _ _ h
    exact hinj _ _ h2
  -- a statement with the key and the linking tag of `u` is touched when `u` is corrupted
  have htouch : ∀ (y : α × List υ) (s : S), u ∈ y.2 → pub.key u ∈ (sts (out y.1).k).inputSet.M → (sts (out y.1).k).J = pub.tag u →
      (guarded S pub sts out y).crit E' S sts ≠ some s := by
    intro y s hu h1 h2 h3
    exact (guarded_crit E' S pub sts out y s h3).2 u hu h1 h2
  obtain ⟨run, hrunc⟩ : ∃ run, run = (((c.withKeys (fun i => (x i : F)) []).map (guarded S pub sts out)).signingOnly H W).simulated sim
    (extend d coins) [] := ⟨_, rfl⟩
  have hmap1 := hmap fun i => (x i : F)
  rw [← hrunc] at hy hn hmap1 ⊢
  have hk : ∃ s k, (run.run O).crit E' S sts = some s ∧ (∀ y : Forgery κ F P, y.crit E' S sts = some s → y.k = k) ∧
      pub.key u ∈ (sts k).inputSet.M ∧ (sts k).J = pub.tag u := by
    have hsound := extractor_crit E' S sts run O (tries tape)
    generalize extractor E' S sts run O (tries tape) = L at hy hn hsound
    cases L with
    | nil => exact hy.elim
    | cons b L =>
      obtain ⟨s, hs, hb⟩ := hsound b List.mem_cons_self
      refine ⟨s, b.2.k, hs, fun y hy => hsame _ _ s hb hy, ?_⟩
      rcases hy with ⟨hr, hw⟩ | h
      · obtain ⟨r, hr0⟩ : ∃ r : F, r = extractKey (sts b.2.k).params.m (fun e => E'.scalarOfWide (nth b L e).1.bytes)
          fun e => (nth b L e).2.p.z := ⟨_, rfl⟩
        rw [← hr0] at hr hw
        rw [hpar] at hr
        have hr1 := List.mem_of_getElem? hr.1
        have hr2 : r • (sts b.2.k).J = g.2.2.1 := hr.2
        have hr3 : r • E.basepoint ∈ (sts b.2.k).inputSet.M := hr1
        rw [hw] at hr3
        refine ⟨hr3, ?_⟩
        rw [hkey] at hw
        have hr4 := smul_inj hG hw
        rw [htag, ← hr2, hr4, smul_smul, inv_mul_cancel₀ (Units.ne_zero _), one_smul]
      · exact absurd (Or.inr h) hn
  obtain ⟨s, k, hcr, hk1, hk2, hk3⟩ := hk
  have hout : ∀ (y : α × List υ) (s' : S), s' = s → u ∈ y.2 → (guarded S pub sts out y).crit E' S sts ≠ some s' := by
    rintro y s' rfl hu h3
    have h4 := guarded_crit E' S pub sts out y s' h3
    have h5 := hk1 _ h3
    rw [h4.1] at h5
    exact htouch y s' hu (by rw [h5]; exact hk2) (by rw [h5]; exact hk3) h3
  refine extractor_congr E' S sts _ _ O _ ?_ ?_
  · rw [hmap, hmap1]
    rcases hrun O with h | ⟨-, h⟩
    · rw [h]
    · rw [hmap1] at hcr
      exact absurd hcr (hout _ s rfl h)
  · intro s' hs' b
    have hss : s' = s := Option.some.inj (hs'.symm.trans hcr)
    rw [hmap, hmap1]
    rcases hrun (update O s' b) with h | ⟨h1, h2⟩
    · rw [h]; exact Or.inl rfl
    · exact Or.inr ⟨hout _ s' hss h1, hout _ s' hss h2⟩

/-- The probability that the solver computes the discrete logarithm `y` of a random point, with random keys of the users it knows. -/
noncomputable def Spec.insiderSuccess [Fintype F] {n m : ℕ} {υ κ γ α V Y : Type} [Fintype υ] [DecidableEq υ] [Fintype Y] [Fintype V]
    [DecidableEq V] (E : Env F P) (hG : E.basepoint ≠ 0) (enc : P → Bytes) (S A : Finset Transcript) [Nonempty S]
    (a : Attack n m P υ κ γ (InsiderProgram S Block A Seed V Y γ (Option (Proof F P)) υ F α)) (out : α → Forgery κ F P) (q τ : ℕ)
    (d : Block × (HybridCoins F n m × (Fin (m - 1) → F))) (D : Finset υ) : ℚ :=
  avg fun y : Fˣ => avg fun x0 : υ → Fˣ => avg fun ρ : SetupCoins n m F D => avg fun ω : SolverCoins F n m S A V Y q τ =>
    ind (insiderSolver E enc S A a out D d ⟨(y : F) • E.basepoint, unit_smul_ne hG y⟩ x0 ρ ω = y)

/-- If an attack succeeds no more often than the extractor yields an honest user's key or a relation, up to `ε`, it succeeds no more
often than the solvers solve, up to `ε` and the number of solvers over the size of the field. -/
theorem insider_sum [Fintype F] [Fintype P] {n m : ℕ} {υ κ γ α V Y : Type} [Fintype υ] [DecidableEq υ] [Fintype Y] [Fintype V] [DecidableEq V]
    (E : Env F P) (hE : E.Lawful) (enc : P → Bytes) (S A : Finset Transcript) [Nonempty S]
    (a : Attack n m P υ κ γ (InsiderProgram S Block A Seed V Y γ (Option (Proof F P)) υ F α)) (out : α → Forgery κ F P)
    (ha : a.Legal F E enc S) (hG : E.basepoint ≠ 0) (hgen : ∀ X : P, ∃ x : F, x • E.basepoint = X) {q τ : ℕ}
    (d : Block × (HybridCoins F n m × (Fin (m - 1) → F))) (ε : ℚ) (win : Generators n m P → (υ → Fˣ) → ℚ)
    (hwin : ∀ g x, win g x ≤ ε + avg fun H : A → Seed => avg fun W : V → Y =>
      avg fun coins : Fin q → Block × (HybridCoins F n m × (Fin (m - 1) → F)) => avg fun O : S → Block =>
      avg fun tape : Fin m → Fin τ → Block => ind (Yields (fun r => ∃ i, r • E.basepoint = (publish E.basepoint g x).key i)
        (withGenerators E enc g) (a.sts (publish E.basepoint g x)) (keptRuns E enc S A a (insider S (publish E.basepoint g x)
          (a.sts (publish E.basepoint g x)) out fun i => (x i : F)) d (publish E.basepoint g x) (H, W, coins, O, tape)))) :
    (avg fun g => avg fun x => win g x) ≤ ε + ((Fintype.card υ + 1) * (1 / Fintype.card F) + (insiderSuccess E hG enc S A a out q τ d ∅ +
      ∑ u, insiderSuccess E hG enc S A a out q τ d {u})) := by
  have hne : Nonempty {X : P // X ≠ 0} := ⟨⟨E.basepoint, hG⟩⟩
  have h2 : (avg fun g => avg fun x => win g x) ≤ ε + avg fun g : Generators n m P => avg fun x : υ → Fˣ =>
      avg fun ω : SolverCoins F n m S A V Y q τ => ind (Yields (fun r => ∃ i, r • E.basepoint = (publish E.basepoint g x).key i)
        (withGenerators E enc g) (a.sts (publish E.basepoint g x)) (keptRuns E enc S A a (insider S (publish E.basepoint g x)
          (a.sts (publish E.basepoint g x)) out fun i => (x i : F)) d (publish E.basepoint g x) ω)) := by
    refine (avg_mono _ _ fun g => avg_mono _ _ fun x => hwin g x).trans (le_of_eq ?_)
    simp only [avg_add, avg_const, avg_prod]
  have h3 := insider_bound E enc S A a out ha hG hgen ∅ (q := q) (τ := τ) d
  have h4 := sum_le_sum fun (u : υ) (_ : u ∈ univ) => insider_bound E enc S A a out ha hG hgen {u} (q := q) (τ := τ) d
  rw [sum_add_distrib, sum_const, card_univ, nsmul_eq_mul] at h4
  refine h2.trans (add_le_add_right ?_ _)
  have h5 : (Fintype.card υ + 1) * (1 / (Fintype.card F : ℚ)) + (insiderSuccess E hG enc S A a out q τ d ∅ +
      ∑ u, insiderSuccess E hG enc S A a out q τ d {u}) =
      (1 / (Fintype.card F : ℚ) + insiderSuccess E hG enc S A a out q τ d ∅) + (Fintype.card υ * (1 / (Fintype.card F : ℚ)) +
        ∑ u, insiderSuccess E hG enc S A a out q τ d {u}) := by ring
  rw [h5]
  refine le_trans ?_ (add_le_add h3 h4)
  rw [← avg_sum, ← avg_add]
  refine avg_mono _ _ fun g => ?_
  rw [← avg_sum, ← avg_add]
  refine avg_mono _ _ fun x => ?_
  rw [← avg_sum, ← avg_add]
  refine avg_mono _ _ fun ω => ?_
  have hknown : knownKeys ∅ x = fun i => (x i : F) := by
    funext i
    rw [knownKeys, if_neg (notMem_empty i)]
  rw [hknown]
  by_cases hn : Yields (fun _ => False) (withGenerators E enc g)
      (a.sts (publish E.basepoint g x)) (keptRuns E enc S A a (insider S (publish E.basepoint g x) (a.sts (publish E.basepoint g x)) out
        fun i => (x i : F)) d (publish E.basepoint g x) ω)
  · have h6 := ind_pos (yields_mono (want' := fun r => ∃ i ∈ (∅ : Finset υ), r • E.basepoint = (publish E.basepoint g x).key i) _ _
      (fun r (hr : False) => hr.elim) _ hn)
    refine le_trans ?_ (add_le_add_left (le_of_eq h6.symm) _)
    exact (ind_le_one _).trans (le_add_of_nonneg_right (sum_nonneg fun u _ => ind_nonneg _))
  · refine le_add_of_nonneg_of_le (ind_nonneg _) (ind_le_sum _ _ _ fun hy => ?_)
    have hu : ∃ u, Yields (fun r => r • E.basepoint = (publish E.basepoint g x).key u) (withGenerators E enc g)
      (a.sts (publish E.basepoint g x)) (keptRuns E enc S A a (insider S (publish E.basepoint g x) (a.sts (publish E.basepoint g x)) out
        fun i => (x i : F)) d (publish E.basepoint g x) ω) := by
      generalize keptRuns E enc S A a _ d (publish E.basepoint g x) ω = L at hy hn
      cases L with
      | nil => exact hy.elim
      | cons b L =>
        rcases hy with ⟨h1, i, h6⟩ | h1
        · exact ⟨i, Or.inl ⟨h1, h6⟩⟩
        · exact absurd (Or.inr h1) hn
    obtain ⟨u, hu⟩ := hu
    refine ⟨u, mem_univ u, ?_⟩
    rw [insider_same E hE enc S A a out ha hG d g x ω u hu hn]
    exact yields_mono _ _ (fun r hr => ⟨u, mem_singleton_self u, hr⟩) _ hu

end

theorem Spec.ChosenProgram.map_map {S B A X V Y γ δ α β η : Type} (f : α → β) (g : β → η) (c : ChosenProgram S B A X V Y γ δ α) :
    (c.map f).map g = c.map fun x => g (f x) := by
  induction c with
  | done a => rfl
  | challenge s next ih => simp only [ChosenProgram.map, ih]
  | seed a next ih => simp only [ChosenProgram.map, ih]
  | weights v next ih => simp only [ChosenProgram.map, ih]
  | sign g next ih => simp only [ChosenProgram.map, ih]

/-- Changing the output so that it wins when it won before. -/
theorem withSigner_map_le {S B A X V Y γ δ α β T : Type} [Fintype T] [Nonempty T] (point : γ → T → S)
    (answer : γ → T → B → δ) (f : α → β) (win : α → List S → (S → B) → Prop) (win' : β → List S → (S → B) → Prop) (O : S → B)
    (h : ∀ a used, win a used O → win' (f a) used O) (c : ChosenProgram S B A X V Y γ δ α) (Q R N q : ℕ)
    (hc : c.AtMost Q R N q) (H : A → X) (W : V → Y) :
    (c.signingOnly H W).withSigner point answer win O [] ≤ ((c.map f).signingOnly H W).withSigner point answer win' O [] := by
  have d := Classical.arbitrary T
  rw [SigningProgram.withSigner_tape point answer d _ _ Q q (ChosenProgram.atMost_signingOnly H W c hc),
    SigningProgram.withSigner_tape point answer d _ _ Q q (ChosenProgram.atMost_signingOnly H W _ (ChosenProgram.atMost_map _ c hc))]
  simp only [ChosenProgram.signRun_map]
  exact avg_mono _ _ fun tape => ind_mono fun hw => h _ _ hw

/-- At least one of several outputs wins: split, with guards. -/
theorem withSigner_guarded {S B A X V Y γ δ α L T ι : Type} [Fintype T] [Nonempty T] [Fintype ι] (point : γ → T → S)
    (answer : γ → T → B → δ) (gd : ι → (ι → α) × L → α) (all : (ι → α) × L → List S → (S → B) → Prop) (U : L → α → Prop) (good : α → Prop)
    (win : α → List S → (S → B) → Prop)
    (O : S → B) (hall : ∀ y used, all y used O → ∃ i, U y.2 (y.1 i) ∧ good (y.1 i) ∧ win (y.1 i) used O)
    (hgd : ∀ y i, U y.2 (y.1 i) → gd i y = y.1 i)
    (c : ChosenProgram S B A X V Y γ δ ((ι → α) × L)) (Q R N q : ℕ) (hc : c.AtMost Q R N q) (H : A → X) (W : V → Y) :
    (c.signingOnly H W).withSigner point answer all O [] ≤
      ∑ i, ((c.map (gd i)).signingOnly H W).withSigner point answer (fun y used O => good y ∧ win y used O) O [] := by
  have h1 := (withSigner_map_le point answer (fun y i => gd i y) all
    (fun y used O => ∃ i, good (y i) ∧ win (y i) used O) O (fun y used h => by
      obtain ⟨i, h1, h2⟩ := hall y used h
      refine ⟨i, ?_⟩
      show good (gd i y) ∧ win (gd i y) used O
      rw [hgd y i h1]
      exact h2) c Q R N q hc H W).trans (withSigner_parts point answer _ (fun y used O => good y ∧ win y used O) O
    (fun y used h => h) (c.map fun y i => gd i y) Q R N q (ChosenProgram.atMost_map _ _ hc) H W)
  simp only [ChosenProgram.part, ChosenProgram.map_map] at h1
  exact h1

theorem Spec.Untouched.targets {n m : ℕ} {P υ : Type} [AddCommGroup P] {pub : Public n m P υ} {C : List υ} {st : Statement P}
    (h : Untouched pub C st.inputSet.M st.J) : Targets pub st :=
  h.imp (fun h X hX => (h X hX).1) fun h => h.1

theorem Spec.Untouched.clean {n m : ℕ} {P υ : Type} [AddCommGroup P] {pub : Public n m P υ} {C : List υ} {st : Statement P}
    (h : Untouched pub C st.inputSet.M st.J) : Clean pub C st.inputSet.M st.J := by
  intro i hi hk hJ
  rcases h with h | h
  · exact (h _ hk).2 i hi rfl
  · exact h.2 i hi hJ

local notation "ℓ" => (2 ^ 252 + 27742317777372353535851937790883648493 : ℕ)

theorem card_ristretto_mul (k : ℕ) (b : ℚ) : (k + 1) * (1 / (Fintype.card (ZMod ℓ) : ℚ)) + b ≤ (k + 1) / 2 ^ 252 + b := by
  rw [ZMod.card, mul_one_div]
  refine add_le_add_left (div_le_div_of_nonneg_left (by positivity) (by positivity) ?_) _
  push_cast
  norm_num

/-- The bound for a property of statements for which the extracted key can only be an honest user's. -/
theorem insider_good {υ κ γ α : Type} [Fintype υ] [DecidableEq υ] {P : Type} [AddCommGroup P] [Module (ZMod ℓ) P] [DecidableEq P] [Fintype P]
    (E : Env (ZMod ℓ) P) (hE : E.Lawful) (hwide : ∀ b, E.scalarOfWide b = ((leNat b : ℕ) : ZMod ℓ))
    (hG : E.basepoint ≠ 0) (hgen : ∀ X : P, ∃ x : ZMod ℓ, x • E.basepoint = X)
    (enc : P → Bytes) (henc : ∀ X, E.pointOfUniform (enc X) = X) (cfg : Config)
    (S A : Finset Transcript) [Nonempty S] (hS : ∀ t ∈ S, t.getLast? = some (.challenge "xi" 64))
    {n m : ℕ} (hnm : ∃ params, Params.new E n m = .ok params)
    (a : Attack n m P υ κ γ (InsiderProgram S Block A Seed Seed (Fin (1 * 2 * 4) → Block) γ (Option (Proof (ZMod ℓ) P)) υ (ZMod ℓ) α))
    (out : α → Forgery κ (ZMod ℓ) P) (ha : a.Legal (ZMod ℓ) E enc S) (good : Generators n m P → (υ → (ZMod ℓ)ˣ) → κ → Prop)
    (hgood : ∀ g x k, good g x k → ∀ r : ZMod ℓ, r • E.basepoint ∈ (a.sts (publish E.basepoint g x) k).inputSet.M →
      r • (a.sts (publish E.basepoint g x) k).J = g.2.2.1 → ∃ i, r • E.basepoint = (publish E.basepoint g x).key i)
    (Q R T q : ℕ) (hc : ∀ pub, (a.prog pub).AtMost Q R T q)
    (d : Block × (HybridCoins (ZMod ℓ) n m × (Fin (m - 1) → ZMod ℓ))) (τ : ℕ) :
    (avg fun g : Generators n m P => avg fun x : υ → (ZMod ℓ)ˣ => avg fun O : S → Block => avg fun H : A → Seed =>
      avg fun W : Seed → Fin (1 * 2 * 4) → Block =>
      ((insider S (publish E.basepoint g x) (a.sts (publish E.basepoint g x)) out (fun i => (x i : ZMod ℓ))
        (a.prog (publish E.basepoint g x))).signingOnly H W).withSigner
        (fun c => signPoint E S (paramsOf E g) (a.sts (publish E.basepoint g x)) (a.request (publish E.basepoint g x) (fun i => (x i : ZMod ℓ)) c))
        (fun c => signAnswer E (paramsOf E g) (a.sts (publish E.basepoint g x)) (a.request (publish E.basepoint g x) (fun i => (x i : ZMod ℓ)) c))
        (fun y used O => good g x y.k ∧
          AcceptedNew (withGenerators E enc g) cfg S A (a.sts (publish E.basepoint g x)) y used O H W) O []) ≤
      q * (Q + q) / 2 ^ 252 + (Q + 1) * (m / (τ + 1) + m * m / 2 ^ 252) + ((R + 1) * (4 / 2 ^ 64) + 1 / 2 ^ 174) +
      ((Fintype.card υ + 1) / 2 ^ 252 + (insiderSuccess E hG enc S A a out q τ d ∅ + ∑ u, insiderSuccess E hG enc S A a out q τ d {u})) := by
  have hne : Nonempty {X : P // X ≠ 0} := ⟨⟨E.basepoint, hG⟩⟩
  refine (insider_sum E hE enc S A a out ha hG hgen (q := q) (τ := τ) d (q * (Q + q) / 2 ^ 252 + (Q + 1) * (m / (τ + 1) + m * m / 2 ^ 252) +
    ((R + 1) * (4 / 2 ^ 64) + 1 / 2 ^ 174)) _ fun g x => ?_).trans (add_le_add_right (card_ristretto_mul _ _) _)
  exact chosen_extract_good (withGenerators E enc g) (lawful_withGenerators hE enc g) hwide cfg S A hS (paramsOf E g)
      ⟨n, m, E.basepoint, _, C105_params E enc henc hnm g⟩ g.2.1.2 (a.sts (publish E.basepoint g x)) (ha.built g x)
      (good g x) (fun r => ∃ i, r • E.basepoint = (publish E.basepoint g x).key i)
      (fun k hk r h1 h2 => hgood g x k hk r (by rw [ha.params] at h1; exact h1) (by rw [ha.params] at h2; exact h2))
      (ha.params g x) (ha.inj g x) (a.request (publish E.basepoint g x) fun i => (x i : ZMod ℓ)) (legal_rel E enc S a ha g x)
      (ha.point g x) (insider S (publish E.basepoint g x) (a.sts (publish E.basepoint g x)) out (fun i => (x i : ZMod ℓ))
        (a.prog (publish E.basepoint g x))) Q R T q
      (ChosenProgram.atMost_map _ _ (InsiderProgram.atMost_withKeys _ _ _ (hc _))) d τ

/-- C109: random generators, honest users `υ` with random signing keys, and an attack with at most `Q` challenges, `R` seeds, the weights
of `T` seeds and `q` signatures of honest users of its choice, which may also ask for the keys of honest users of its choice, at any time.
The probability that the verifier accepts its output, which no user made, for a ring of keys of honest users it did not corrupt, or with
the linking tag of such a user, is at most the sum of the probabilities that one of the solvers computes the discrete logarithm of a
random point, with error terms. The solvers know the keys of all honest users, or of all but one. -/
theorem C109_forge {υ κ γ : Type} [Fintype υ] [DecidableEq υ] {P : Type} [AddCommGroup P] [Module (ZMod ℓ) P] [DecidableEq P] [Fintype P]
    (E : Env (ZMod ℓ) P) (hE : E.Lawful) (hwide : ∀ b, E.scalarOfWide b = ((leNat b : ℕ) : ZMod ℓ))
    (hG : E.basepoint ≠ 0) (hgen : ∀ X : P, ∃ x : ZMod ℓ, x • E.basepoint = X)
    (enc : P → Bytes) (henc : ∀ X, E.pointOfUniform (enc X) = X) (cfg : Config)
    (S A : Finset Transcript) [Nonempty S] (hS : ∀ t ∈ S, t.getLast? = some (.challenge "xi" 64))
    {n m : ℕ} (hnm : ∃ params, Params.new E n m = .ok params)
    (a : Attack n m P υ κ γ (InsiderProgram S Block A Seed Seed (Fin (1 * 2 * 4) → Block) γ (Option (Proof (ZMod ℓ) P)) υ (ZMod ℓ)
      (Forgery κ (ZMod ℓ) P)))
    (ha : a.Legal (ZMod ℓ) E enc S) (Q R T q : ℕ) (hc : ∀ pub, (a.prog pub).AtMost Q R T q)
    (d : Block × (HybridCoins (ZMod ℓ) n m × (Fin (m - 1) → ZMod ℓ))) (τ : ℕ) :
    (avg fun g : Generators n m P => avg fun x : υ → (ZMod ℓ)ˣ => avg fun O : S → Block => avg fun H : A → Seed =>
      avg fun W : Seed → Fin (1 * 2 * 4) → Block =>
      (((a.prog (publish E.basepoint g x)).withKeys (fun i => (x i : ZMod ℓ)) []).signingOnly H W).withSigner
        (fun c => signPoint E S (paramsOf E g) (a.sts (publish E.basepoint g x)) (a.request (publish E.basepoint g x) (fun i => (x i : ZMod ℓ)) c))
        (fun c => signAnswer E (paramsOf E g) (a.sts (publish E.basepoint g x)) (a.request (publish E.basepoint g x) (fun i => (x i : ZMod ℓ)) c))
        (fun y used O => Untouched (publish E.basepoint g x) y.2 (a.sts (publish E.basepoint g x) y.1.k).inputSet.M
            (a.sts (publish E.basepoint g x) y.1.k).J ∧
          AcceptedNew (withGenerators E enc g) cfg S A (a.sts (publish E.basepoint g x)) y.1 used O H W) O []) ≤
      q * (Q + q) / 2 ^ 252 + (Q + 1) * (m / (τ + 1) + m * m / 2 ^ 252) + ((R + 1) * (4 / 2 ^ 64) + 1 / 2 ^ 174) +
      ((Fintype.card υ + 1) / 2 ^ 252 + (insiderSuccess E hG enc S A a id q τ d ∅ + ∑ u, insiderSuccess E hG enc S A a id q τ d {u})) := by
  have hne : Nonempty (Coins (ZMod ℓ) n m) := ⟨⟨fun _ _ => 0, 0, 0, 0, 0, fun _ => 0⟩⟩
  have h1 := fun (g : Generators n m P) (x : υ → (ZMod ℓ)ˣ) (O : S → Block) (H : A → Seed) (W : Seed → Fin (1 * 2 * 4) → Block) =>
    withSigner_map_le
      (fun c => signPoint E S (paramsOf E g) (a.sts (publish E.basepoint g x)) (a.request (publish E.basepoint g x) (fun i => (x i : ZMod ℓ)) c))
      (fun c => signAnswer E (paramsOf E g) (a.sts (publish E.basepoint g x)) (a.request (publish E.basepoint g x) (fun i => (x i : ZMod ℓ)) c))
      (guarded S (publish E.basepoint g x) (a.sts (publish E.basepoint g x)) id)
      (fun y used O => Untouched (publish E.basepoint g x) y.2 (a.sts (publish E.basepoint g x) y.1.k).inputSet.M
            (a.sts (publish E.basepoint g x) y.1.k).J ∧
          AcceptedNew (withGenerators E enc g) cfg S A (a.sts (publish E.basepoint g x)) y.1 used O H W)
      (fun y used O => Targets (publish E.basepoint g x) (a.sts (publish E.basepoint g x) y.k) ∧
          AcceptedNew (withGenerators E enc g) cfg S A (a.sts (publish E.basepoint g x)) y used O H W) O
      (fun y used h => by
        have e : guarded S (publish E.basepoint g x) (a.sts (publish E.basepoint g x)) id y = y.1 := if_pos (Spec.Untouched.clean h.1)
        rw [e]
        exact ⟨Spec.Untouched.targets h.1, h.2⟩) ((a.prog (publish E.basepoint g x)).withKeys (fun i => (x i : ZMod ℓ)) []) Q R T q
      (InsiderProgram.atMost_withKeys _ _ _ (hc _)) H W
  refine (avg_mono _ _ fun g => avg_mono _ _ fun x => avg_mono _ _ fun O => avg_mono _ _ fun H => avg_mono _ _ fun W => h1 g x O H W).trans ?_
  exact insider_good E hE hwide hG hgen enc henc cfg S A hS hnm a id ha
    (fun g x k => Targets (publish E.basepoint g x) (a.sts (publish E.basepoint g x) k))
    (fun g x k hk r h1 h2 => targets_key E.basepoint g x _ (by rw [ha.params]; rfl) (by rw [ha.params]; rfl) hk r
      (by rw [ha.params]; exact h1) (by rw [ha.params]; exact h2)) Q R T q hc d τ

section
variable {F P : Type} [Field F] [AddCommGroup P] [Module F P] [DecidableEq F] [DecidableEq P]

/-- Of `j + 1` statements with different linking tags, one has a linking tag that is not a corrupted user's and can only be made with a
key of an honest user. -/
theorem links_good {n m j : ℕ} {υ κ : Type} [DecidableEq υ] (G : P) (hG : G ≠ 0) (hgen : ∀ X : P, ∃ x : F, x • G = X)
    (g : Generators n m P) (x : υ → Fˣ) (sts : κ → Statement P) (C : List υ) (k : Fin (j + 1) → κ)
    (h : ∃ own : Finset P, #own + #C.toFinset ≤ j ∧ ∀ i, ∀ X ∈ (sts (k i)).inputSet.M, X ∈ own ∨ ∃ u, X = (publish G g x).key u)
    (hJ : ∀ i i', (sts (k i)).J = (sts (k i')).J → i = i') :
    ∃ i, Clean (publish G g x) C (sts (k i)).inputSet.M (sts (k i)).J ∧ ∀ r : F, r • G ∈ (sts (k i)).inputSet.M →
        r • (sts (k i)).J = g.2.2.1 → ∃ i, r • G = (publish G g x).key i := by
  obtain ⟨own, h1, h2⟩ := h
  obtain ⟨i, hi⟩ := tag_outside g.2.2.1 g.2.2.2 (own.image (fun X => (hgen X).choose) ∪ C.toFinset.image fun u => (x u : F))
    (((card_union_le _ _).trans (add_le_add card_image_le card_image_le)).trans h1) (fun i => (sts (k i)).J) hJ
  refine ⟨i, fun u hu _ hJ => ?_, fun r h3 h4 => (h2 i _ h3).resolve_left fun h5 => ?_⟩
  · refine hi (x u) (mem_union_right _ (mem_image.2 ⟨u, List.mem_toFinset.2 hu, rfl⟩)) ?_
    rw [hJ]
    show (x u : F) • (x u : F)⁻¹ • g.2.2.1 = _
    rw [smul_smul, mul_inv_cancel₀ (Units.ne_zero _), one_smul]
  · exact hi r (mem_union_left _ (mem_image.2 ⟨_, h5, smul_inj hG (hgen (r • G)).choose_spec⟩)) h4

end

/-- C109 for linking tags: in an outcome in which the keys in the rings that are not honest users' and the corrupted users are at most
`j` in number, the verifier does not accept `j + 1` outputs with different linking tags which no user made, except with probability at
most the sum of the probabilities that one of the solvers computes the discrete logarithm of a random point, with error terms. -/
theorem C109_links {υ κ γ : Type} [Fintype υ] [DecidableEq υ] {P : Type} [AddCommGroup P] [Module (ZMod ℓ) P] [DecidableEq P] [Fintype P]
    (E : Env (ZMod ℓ) P) (hE : E.Lawful) (hwide : ∀ b, E.scalarOfWide b = ((leNat b : ℕ) : ZMod ℓ))
    (hG : E.basepoint ≠ 0) (hgen : ∀ X : P, ∃ x : ZMod ℓ, x • E.basepoint = X)
    (enc : P → Bytes) (henc : ∀ X, E.pointOfUniform (enc X) = X) (cfg : Config)
    (S A : Finset Transcript) [Nonempty S] (hS : ∀ t ∈ S, t.getLast? = some (.challenge "xi" 64))
    {n m : ℕ} (hnm : ∃ params, Params.new E n m = .ok params) (j : ℕ)
    (a : Attack n m P υ κ γ (InsiderProgram S Block A Seed Seed (Fin (1 * 2 * 4) → Block) γ (Option (Proof (ZMod ℓ) P)) υ (ZMod ℓ)
      (Fin (j + 1) → Forgery κ (ZMod ℓ) P)))
    (ha : a.Legal (ZMod ℓ) E enc S) (Q R T q : ℕ) (hc : ∀ pub, (a.prog pub).AtMost Q R T q)
    (d : Block × (HybridCoins (ZMod ℓ) n m × (Fin (m - 1) → ZMod ℓ))) (τ : ℕ) :
    (avg fun g : Generators n m P => avg fun x : υ → (ZMod ℓ)ˣ => avg fun O : S → Block => avg fun H : A → Seed =>
      avg fun W : Seed → Fin (1 * 2 * 4) → Block =>
      (((a.prog (publish E.basepoint g x)).withKeys (fun i => (x i : ZMod ℓ)) []).signingOnly H W).withSigner
        (fun c => signPoint E S (paramsOf E g) (a.sts (publish E.basepoint g x)) (a.request (publish E.basepoint g x) (fun i => (x i : ZMod ℓ)) c))
        (fun c => signAnswer E (paramsOf E g) (a.sts (publish E.basepoint g x)) (a.request (publish E.basepoint g x) (fun i => (x i : ZMod ℓ)) c))
        (fun y used O => (∃ own : Finset P, #own + #y.2.toFinset ≤ j ∧ ∀ i, ∀ X ∈ (a.sts (publish E.basepoint g x) (y.1 i).k).inputSet.M,
            X ∈ own ∨ ∃ u, X = (publish E.basepoint g x).key u) ∧
          AcceptedNewUnlinkable (withGenerators E enc g) cfg S A (a.sts (publish E.basepoint g x)) y.1 used O H W) O []) ≤
      (j + 1) * (q * (Q + q) / 2 ^ 252 + (Q + 1) * (m / (τ + 1) + m * m / 2 ^ 252) + ((R + 1) * (4 / 2 ^ 64) + 1 / 2 ^ 174) +
        (Fintype.card υ + 1) / 2 ^ 252) +
      ∑ i, (insiderSuccess E hG enc S A a (fun y => y i) q τ d ∅ + ∑ u, insiderSuccess E hG enc S A a (fun y => y i) q τ d {u}) := by
  have hne : Nonempty (Coins (ZMod ℓ) n m) := ⟨⟨fun _ _ => 0, 0, 0, 0, 0, fun _ => 0⟩⟩
  have key := fun i : Fin (j + 1) => insider_good E hE hwide hG hgen enc henc cfg S A hS hnm a (fun y => y i) ha
    (fun g x k => ∀ r : ZMod ℓ, r • E.basepoint ∈ (a.sts (publish E.basepoint g x) k).inputSet.M →
      r • (a.sts (publish E.basepoint g x) k).J = g.2.2.1 → ∃ i, r • E.basepoint = (publish E.basepoint g x).key i)
    (fun g x k hk => hk) Q R T q hc d τ
  generalize (q * (Q + q) / 2 ^ 252 + (Q + 1) * (m / (τ + 1) + m * m / 2 ^ 252) + ((R + 1) * (4 / 2 ^ 64) + 1 / 2 ^ 174) : ℚ) = ε at key ⊢
  have h1 := fun (g : Generators n m P) (x : υ → (ZMod ℓ)ˣ) (O : S → Block) (H : A → Seed) (W : Seed → Fin (1 * 2 * 4) → Block) =>
    withSigner_guarded
      (fun c => signPoint E S (paramsOf E g) (a.sts (publish E.basepoint g x)) (a.request (publish E.basepoint g x) (fun i => (x i : ZMod ℓ)) c))
      (fun c => signAnswer E (paramsOf E g) (a.sts (publish E.basepoint g x)) (a.request (publish E.basepoint g x) (fun i => (x i : ZMod ℓ)) c))
      (fun i => guarded S (publish E.basepoint g x) (a.sts (publish E.basepoint g x)) (fun y : Fin (j + 1) → Forgery κ (ZMod ℓ) P => y i))
      (fun y used O => (∃ own : Finset P, #own + #y.2.toFinset ≤ j ∧ ∀ i, ∀ X ∈ (a.sts (publish E.basepoint g x) (y.1 i).k).inputSet.M,
            X ∈ own ∨ ∃ u, X = (publish E.basepoint g x).key u) ∧
          AcceptedNewUnlinkable (withGenerators E enc g) cfg S A (a.sts (publish E.basepoint g x)) y.1 used O H W)
      (fun C y => Clean (publish E.basepoint g x) C (a.sts (publish E.basepoint g x) y.k).inputSet.M (a.sts (publish E.basepoint g x) y.k).J)
      (fun y => ∀ r : ZMod ℓ, r • E.basepoint ∈ (a.sts (publish E.basepoint g x) y.k).inputSet.M →
        r • (a.sts (publish E.basepoint g x) y.k).J = g.2.2.1 → ∃ i, r • E.basepoint = (publish E.basepoint g x).key i)
      (fun y used O => AcceptedNew (withGenerators E enc g) cfg S A (a.sts (publish E.basepoint g x)) y used O H W) O
      (fun y used h => links_good E.basepoint hG hgen g x (a.sts (publish E.basepoint g x)) y.2 (fun i => (y.1 i).k) h.1 h.2.2 |>.imp
        fun i hi => ⟨hi.1, hi.2, h.2.1 i⟩)
      (fun y i h => if_pos h)
      ((a.prog (publish E.basepoint g x)).withKeys (fun i => (x i : ZMod ℓ)) []) Q R T q
      (InsiderProgram.atMost_withKeys _ _ _ (hc _)) H W
  refine (avg_mono _ _ fun g => avg_mono _ _ fun x => avg_mono _ _ fun O => avg_mono _ _ fun H => avg_mono _ _ fun W => h1 g x O H W).trans ?_
  simp only [avg_sum]
  refine (sum_le_sum fun i _ => key i).trans (le_of_eq ?_)
  rw [sum_add_distrib, sum_add_distrib, sum_const, sum_const, card_univ, Fintype.card_fin, nsmul_eq_mul, nsmul_eq_mul, Nat.cast_add,
    Nat.cast_one]
  ring

set_option maxHeartbeats 1000000 in
/-- C109 for batches: the probability that the verifier accepts a batch of `k + 1` outputs of which one is new and for a ring of keys of
honest users that were not corrupted, or with the linking tag of such a user, is at most the sum of the probabilities that one of the
solvers computes the discrete logarithm of a random point, with error terms. -/
theorem C109_batch {υ κ γ : Type} [Fintype υ] [DecidableEq υ] {P : Type} [AddCommGroup P] [Module (ZMod ℓ) P] [DecidableEq P] [Fintype P]
    (E : Env (ZMod ℓ) P) (hE : E.Lawful) (hwide : ∀ b, E.scalarOfWide b = ((leNat b : ℕ) : ZMod ℓ))
    (hG : E.basepoint ≠ 0) (hgen : ∀ X : P, ∃ x : ZMod ℓ, x • E.basepoint = X)
    (enc : P → Bytes) (henc : ∀ X, E.pointOfUniform (enc X) = X) (cfg : Config)
    (S A : Finset Transcript) [Nonempty S] (hS : ∀ t ∈ S, t.getLast? = some (.challenge "xi" 64))
    {n m : ℕ} (hnm : ∃ params, Params.new E n m = .ok params) (k : ℕ)
    (a : Attack n m P υ κ γ (InsiderProgram S Block A Seed (Fin (k + 1) → Seed) (Fin ((k + 1) * 2 * 4) → Block) γ (Option (Proof (ZMod ℓ) P))
      υ (ZMod ℓ) (Fin (k + 1) → Forgery κ (ZMod ℓ) P)))
    (ha : a.Legal (ZMod ℓ) E enc S)
    (hM : ∀ (g : Generators n m P) (x : υ → (ZMod ℓ)ˣ) k k',
      (a.sts (publish E.basepoint g x) k).inputSet.hash = (a.sts (publish E.basepoint g x) k').inputSet.hash →
      (a.sts (publish E.basepoint g x) k).inputSet.M = (a.sts (publish E.basepoint g x) k').inputSet.M)
    (Q R T q : ℕ) (hc : ∀ pub, (a.prog pub).AtMost Q R T q)
    (d : Block × (HybridCoins (ZMod ℓ) n m × (Fin (m - 1) → ZMod ℓ))) (τ : ℕ) :
    (avg fun g : Generators n m P => avg fun x : υ → (ZMod ℓ)ˣ => avg fun O : S → Block => avg fun H : A → Seed =>
      avg fun W : (Fin (k + 1) → Seed) → Fin ((k + 1) * 2 * 4) → Block =>
      (((a.prog (publish E.basepoint g x)).withKeys (fun i => (x i : ZMod ℓ)) []).signingOnly H W).withSigner
        (fun c => signPoint E S (paramsOf E g) (a.sts (publish E.basepoint g x)) (a.request (publish E.basepoint g x) (fun i => (x i : ZMod ℓ)) c))
        (fun c => signAnswer E (paramsOf E g) (a.sts (publish E.basepoint g x)) (a.request (publish E.basepoint g x) (fun i => (x i : ZMod ℓ)) c))
        (fun y used O => (∃ i, Untouched (publish E.basepoint g x) y.2 (a.sts (publish E.basepoint g x) (y.1 i).k).inputSet.M
              (a.sts (publish E.basepoint g x) (y.1 i).k).J ∧
            NewPoint (withGenerators E enc g) S (a.sts (publish E.basepoint g x)) (y.1 i) used) ∧
          AcceptedBatch (withGenerators E enc g) cfg S A (a.sts (publish E.basepoint g x)) y.1 O H W) O []) ≤
      (k + 1) * (q * (Q + q) / 2 ^ 252 + (Q + 1) * (m / (τ + 1) + m * m / 2 ^ 252) + (Fintype.card υ + 1) / 2 ^ 252) +
      ((R + (k + 1 : ℕ)) * ((R + (k + 1 : ℕ) + (k + 1 : ℕ) * (T + 1)) / 2 ^ 64) + (T + 1) * (1 / 2 ^ 251)) +
      ∑ i, (insiderSuccess E hG enc S A a (fun y => y i) q τ d ∅ + ∑ u, insiderSuccess E hG enc S A a (fun y => y i) q τ d {u}) := by
  have hne : Nonempty (Coins (ZMod ℓ) n m) := ⟨⟨fun _ _ => 0, 0, 0, 0, 0, fun _ => 0⟩⟩
  have hne' : Nonempty {X : P // X ≠ 0} := ⟨⟨E.basepoint, hG⟩⟩
  have key := fun i : Fin (k + 1) => (insider_sum E hE enc S A a (fun y => y i) ha hG hgen (q := q) (τ := τ) d
    (q * (Q + q) / 2 ^ 252 + (Q + 1) * (m / (τ + 1) + m * m / 2 ^ 252))
    (fun g x => avg fun H : A → Seed => avg fun W : (Fin (k + 1) → Seed) → Fin ((k + 1) * 2 * 4) → Block => avg fun O : S → Block =>
      ((insider S (publish E.basepoint g x) (a.sts (publish E.basepoint g x)) (fun y => y i) (fun i => (x i : ZMod ℓ))
        (a.prog (publish E.basepoint g x))).signingOnly H W).withSigner
        (fun c => signPoint E S (paramsOf E g) (a.sts (publish E.basepoint g x)) (a.request (publish E.basepoint g x) (fun i => (x i : ZMod ℓ)) c))
        (fun c => signAnswer E (paramsOf E g) (a.sts (publish E.basepoint g x)) (a.request (publish E.basepoint g x) (fun i => (x i : ZMod ℓ)) c))
        (fun y used O => Targets (publish E.basepoint g x) (a.sts (publish E.basepoint g x) y.k) ∧
          NewForgery (withGenerators E enc g) S (a.sts (publish E.basepoint g x)) y used O) O [])
    (fun g x => by
      have h3 := fun (H : A → Seed) (W : (Fin (k + 1) → Seed) → Fin ((k + 1) * 2 * 4) → Block) =>
        signing_extract_ristretto (withGenerators E enc g) (lawful_withGenerators hE enc g) hwide S (paramsOf E g)
        ⟨n, m, E.basepoint, _, C105_params E enc henc hnm g⟩ g.2.1.2 (a.sts (publish E.basepoint g x)) (ha.built g x)
        (fun k => Targets (publish E.basepoint g x) (a.sts (publish E.basepoint g x) k))
        (fun r => ∃ i, r • E.basepoint = (publish E.basepoint g x).key i)
        (fun k hk r h1 h2 => targets_key E.basepoint g x _ (by rw [ha.params]; rfl) (by rw [ha.params]; rfl) hk r h1 h2)
        (ha.params g x) (ha.inj g x) (a.request (publish E.basepoint g x) fun i => (x i : ZMod ℓ)) (legal_rel E enc S a ha g x)
        (ha.point g x) ((insider S (publish E.basepoint g x) (a.sts (publish E.basepoint g x)) (fun y => y i) (fun i => (x i : ZMod ℓ))
        (a.prog (publish E.basepoint g x))).signingOnly H W) Q q
        (ChosenProgram.atMost_signingOnly H W _ (ChosenProgram.atMost_map _ _ (InsiderProgram.atMost_withKeys _ _ _ (hc _)))) d τ
      have h4 := avg_mono _ _ fun H => avg_mono _ _ fun W => h3 H W
      have h5 : ∀ (ε : ℚ) (f : (A → Seed) → ((Fin (k + 1) → Seed) → Fin ((k + 1) * 2 * 4) → Block) → ℚ),
        (avg fun H => avg fun W => ε + f H W) = ε + avg fun H => avg fun W => f H W := fun ε f => by simp only [avg_add, avg_const]
      rw [h5] at h4
      exact h4)).trans
    (add_le_add_right (card_ristretto_mul _ _) _)
  have h1 := fun (g : Generators n m P) (x : υ → (ZMod ℓ)ˣ) (O : S → Block) (H : A → Seed)
      (W : (Fin (k + 1) → Seed) → Fin ((k + 1) * 2 * 4) → Block) =>
    withSigner_le_add
      (fun c => signPoint E S (paramsOf E g) (a.sts (publish E.basepoint g x)) (a.request (publish E.basepoint g x) (fun i => (x i : ZMod ℓ)) c))
      (fun c => signAnswer E (paramsOf E g) (a.sts (publish E.basepoint g x)) (a.request (publish E.basepoint g x) (fun i => (x i : ZMod ℓ)) c))
      (fun (y : (Fin (k + 1) → Forgery κ (ZMod ℓ) P) × List υ) used O => (∃ i, Untouched (publish E.basepoint g x) y.2 (a.sts (publish E.basepoint g x) (y.1 i).k).inputSet.M
              (a.sts (publish E.basepoint g x) (y.1 i).k).J ∧
            NewPoint (withGenerators E enc g) S (a.sts (publish E.basepoint g x)) (y.1 i) used) ∧
          AcceptedBatch (withGenerators E enc g) cfg S A (a.sts (publish E.basepoint g x)) y.1 O H W)
      (fun (y : (Fin (k + 1) → Forgery κ (ZMod ℓ) P) × List υ) used O => ∃ i, Untouched (publish E.basepoint g x) y.2 (a.sts (publish E.basepoint g x) (y.1 i).k).inputSet.M
              (a.sts (publish E.basepoint g x) (y.1 i).k).J ∧
          NewForgery (withGenerators E enc g) S (a.sts (publish E.basepoint g x)) (y.1 i) used O)
      (fun (y : (Fin (k + 1) → Forgery κ (ZMod ℓ) P) × List υ) _ O => AcceptedInvalidBatch (withOracle (withGenerators E enc g) S O) cfg A (a.sts (publish E.basepoint g x)) y.1 H W) O
      (fun y used h => (accepted_batch_cases (withGenerators E enc g) cfg S A hS (paramsOf E g) (a.sts (publish E.basepoint g x))
        (ha.built g x) (ha.params g x) (hM g x) y.1 O H W h.2).imp_left fun h' => by
        obtain ⟨i, ht, hn⟩ := h.1
        exact ⟨i, ht, ⟨hn, h' i⟩⟩)
      (((a.prog (publish E.basepoint g x)).withKeys (fun i => (x i : ZMod ℓ)) []).signingOnly H W) Q q
      (ChosenProgram.atMost_signingOnly H W _ (InsiderProgram.atMost_withKeys _ _ _ (hc _)))
  have h1a := fun (g : Generators n m P) (x : υ → (ZMod ℓ)ˣ) (O : S → Block) (H : A → Seed)
      (W : (Fin (k + 1) → Seed) → Fin ((k + 1) * 2 * 4) → Block) =>
    withSigner_guarded
      (fun c => signPoint E S (paramsOf E g) (a.sts (publish E.basepoint g x)) (a.request (publish E.basepoint g x) (fun i => (x i : ZMod ℓ)) c))
      (fun c => signAnswer E (paramsOf E g) (a.sts (publish E.basepoint g x)) (a.request (publish E.basepoint g x) (fun i => (x i : ZMod ℓ)) c))
      (fun i => guarded S (publish E.basepoint g x) (a.sts (publish E.basepoint g x)) (fun y : Fin (k + 1) → Forgery κ (ZMod ℓ) P => y i))
      (fun y used O => ∃ i, Untouched (publish E.basepoint g x) y.2 (a.sts (publish E.basepoint g x) (y.1 i).k).inputSet.M
              (a.sts (publish E.basepoint g x) (y.1 i).k).J ∧
          NewForgery (withGenerators E enc g) S (a.sts (publish E.basepoint g x)) (y.1 i) used O)
      (fun C y => Untouched (publish E.basepoint g x) C (a.sts (publish E.basepoint g x) y.k).inputSet.M
              (a.sts (publish E.basepoint g x) y.k).J)
      (fun y => Targets (publish E.basepoint g x) (a.sts (publish E.basepoint g x) y.k))
      (fun y used O => NewForgery (withGenerators E enc g) S (a.sts (publish E.basepoint g x)) y used O) O
      (fun y used h => h.imp fun i hi => ⟨hi.1, Spec.Untouched.targets hi.1, hi.2⟩) (fun y i h => if_pos (Spec.Untouched.clean h))
      ((a.prog (publish E.basepoint g x)).withKeys (fun i => (x i : ZMod ℓ)) []) Q R T q
      (InsiderProgram.atMost_withKeys _ _ _ (hc _)) H W
  have h1b := fun (g : Generators n m P) (x : υ → (ZMod ℓ)ˣ) (O : S → Block) (H : A → Seed)
      (W : (Fin (k + 1) → Seed) → Fin ((k + 1) * 2 * 4) → Block) =>
    withSigner_map_le
      (fun c => signPoint E S (paramsOf E g) (a.sts (publish E.basepoint g x)) (a.request (publish E.basepoint g x) (fun i => (x i : ZMod ℓ)) c))
      (fun c => signAnswer E (paramsOf E g) (a.sts (publish E.basepoint g x)) (a.request (publish E.basepoint g x) (fun i => (x i : ZMod ℓ)) c))
      (fun y => y.1)
      (fun y _ O => AcceptedInvalidBatch (withOracle (withGenerators E enc g) S O) cfg A (a.sts (publish E.basepoint g x)) y.1 H W)
      (fun y _ O => AcceptedInvalidBatch (withOracle (withGenerators E enc g) S O) cfg A (a.sts (publish E.basepoint g x)) y H W) O
      (fun y used h => h) ((a.prog (publish E.basepoint g x)).withKeys (fun i => (x i : ZMod ℓ)) []) Q R T q
      (InsiderProgram.atMost_withKeys _ _ _ (hc _)) H W
  have h1' := fun (g : Generators n m P) (x : υ → (ZMod ℓ)ˣ) (O : S → Block) (H : A → Seed)
      (W : (Fin (k + 1) → Seed) → Fin ((k + 1) * 2 * 4) → Block) =>
    (h1 g x O H W).trans (add_le_add (h1a g x O H W) (h1b g x O H W))
  have h2 := fun (g : Generators n m P) (x : υ → (ZMod ℓ)ˣ) => signer_grind
    (fun c => signPoint E S (paramsOf E g) (a.sts (publish E.basepoint g x)) (a.request (publish E.basepoint g x) (fun i => (x i : ZMod ℓ)) c))
    (fun c => signAnswer E (paramsOf E g) (a.sts (publish E.basepoint g x)) (a.request (publish E.basepoint g x) (fun i => (x i : ZMod ℓ)) c))
    (fun y H W O => AcceptedInvalidBatch (withOracle (withGenerators E enc g) S O) cfg A (a.sts (publish E.basepoint g x)) y H W)
    (((a.prog (publish E.basepoint g x)).withKeys (fun i => (x i : ZMod ℓ)) []).map fun y => y.1) Q R T q
    (ChosenProgram.atMost_map _ _ (InsiderProgram.atMost_withKeys _ _ _ (hc _)))
    ((R + (k + 1 : ℕ)) * ((R + (k + 1 : ℕ) + (k + 1 : ℕ) * (T + 1)) / 2 ^ 64) + (T + 1) * (1 / 2 ^ 251))
    (by positivity) fun O f hf => C79_ristretto (withOracle (withGenerators E enc g) S O)
      (lawful_withOracle _ (lawful_withGenerators hE enc g) S O) hwide cfg A (a.sts (publish E.basepoint g x))
      (fun k => statementBuilt_withOracle _ S O hS _ (ha.built g x k)) (ha.inj g x) k f R T hf
  generalize (q * (Q + q) / 2 ^ 252 + (Q + 1) * (m / (τ + 1) + m * m / 2 ^ 252) : ℚ) = ε at key ⊢
  generalize ((R + (k + 1 : ℕ)) * ((R + (k + 1 : ℕ) + (k + 1 : ℕ) * (T + 1)) / 2 ^ 64) + (T + 1) * (1 / 2 ^ 251) : ℚ) = ε' at h2 ⊢
  have h3 := fun (g : Generators n m P) (x : υ → (ZMod ℓ)ˣ) =>
    (avg_mono _ _ fun O => avg_mono _ _ fun H => avg_mono _ _ fun W => h1' g x O H W)
  simp only [avg_add₃, avg_sum₃] at h3
  have h4 := fun (g : Generators n m P) (x : υ → (ZMod ℓ)ˣ) =>
    (h3 g x).trans (add_le_add (sum_le_sum fun i _ => le_of_eq (avg_swap _)) (h2 g x))
  refine (avg_mono _ _ fun g => avg_mono _ _ fun x => h4 g x).trans ?_
  simp only [avg_add, avg_const, avg_sum]
  refine (add_le_add_left (sum_le_sum fun i _ => key i) _).trans (le_of_eq ?_)
  rw [sum_add_distrib, sum_add_distrib, sum_const, sum_const, card_univ, Fintype.card_fin, nsmul_eq_mul, nsmul_eq_mul, Nat.cast_add,
    Nat.cast_one]
  ring

section
variable {F P : Type} [Field F] [AddCommGroup P] [Module F P] [DecidableEq F] [DecidableEq P]

/-- An attack on two honest users: it asks for the key of the second one, requests a signature by the first one and looks at a seed, at
weights and at a challenge. -/
def Spec.insiderPair {n m : ℕ} (E : Env F P) {S A : Finset Transcript} (s : S) (a : A) {V Y α : Type} (v : V) (t : Transcript)
    (out : F → Option (Proof F P) → α) :
    Attack n m P Bool Unit Unit (InsiderProgram S Block A Seed V Y Unit (Option (Proof F P)) Bool F α) where
  sts pub _ := pairStatement E pub
  user _ _ := false
  stmt _ _ := ()
  transcript _ _ := t
  position _ _ := 0
  prog _ := .corrupt true fun r => .sign () fun p => .seed a fun _ => .weights v fun _ => .challenge s fun _ => .done (out r p)

theorem insider_legal [Fintype F] [Fintype P] {n m : ℕ} (E : Env F P) (hG : E.basepoint ≠ 0) (enc : P → Bytes)
    (henc : ∀ X, E.pointOfUniform (enc X) = X) (hnm : ∃ params, Params.new E n m = .ok params) (A : Finset Transcript) (a : A)
    {V Y α : Type} (v : V) (t : Transcript) (out : F → Option (Proof F P) → α) :
    ∃ (S : Finset Transcript) (_ : Nonempty S) (b : Attack n m P Bool Unit Unit
        (InsiderProgram S Block A Seed V Y Unit (Option (Proof F P)) Bool F α)),
      b.Legal F E enc S ∧ (∀ pub, (b.prog pub).AtMost 1 1 1 1) ∧ (∀ t ∈ S, t.getLast? = some (.challenge "xi" 64)) ∧
      (∀ g (x : Bool → Fˣ) k, x false ≠ x true → Untouched (publish E.basepoint g x) [true] (b.sts (publish E.basepoint g x) k).inputSet.M
        (b.sts (publish E.basepoint g x) k).J) ∧
      (∀ g (x : Bool → Fˣ) k, ∀ X ∈ (b.sts (publish E.basepoint g x) k).inputSet.M, ∃ u, X = (publish E.basepoint g x).key u) ∧
      (∀ pub k k', b.sts pub k = b.sts pub k') ∧
      ∀ pub (x : Bool → F), ∃ next, (b.prog pub).withKeys x [] = .sign () next ∧ ∀ p y w c, (match next p with
        | .seed _ f => match f y with
          | .weights _ f => match f w with
            | .challenge _ f => match f c with
              | .done z => z = (out (x true) p, [true])
              | _ => False
            | _ => False
          | _ => False
        | _ => False) := by
  have hne : Nonempty ((Generators n m P × (Bool → Fˣ)) × Coins F n m) :=
    ⟨((fun _ => 0, ⟨E.basepoint, hG⟩, ⟨E.basepoint, hG⟩), fun _ => 1), ⟨0, 0, 0, 0, 0, 0⟩⟩
  have hS : (pairDomain (n := n) (m := m) E t).Nonempty := (univ_nonempty (α := (Generators n m P × (Bool → Fˣ)) × Coins F n m)).image _
  obtain ⟨s, hs⟩ := hS
  refine ⟨pairDomain (n := n) (m := m) E t, ⟨⟨s, hs⟩⟩, insiderPair E ⟨s, hs⟩ a v t out,
    ⟨fun g x _ => pairStatement_built E hG enc henc hnm g x, fun _ _ _ => rfl, fun _ _ _ _ _ => rfl, fun _ _ _ => rfl, fun _ _ _ => rfl,
    fun g x _ coins => mem_image.2 ⟨((g, x), coins), mem_univ _, rfl⟩⟩,
    fun _ _ => ⟨by norm_num, fun _ => ⟨by norm_num, fun _ => ⟨by norm_num, fun _ => ⟨by norm_num, fun _ => trivial⟩⟩⟩⟩, fun t' ht => ?_,
    fun g x _ hx => Or.inr ⟨⟨false, rfl⟩, fun i hi h => ?_⟩, fun g x _ X hX => ?_, fun _ _ _ => rfl, fun pub x => ⟨_, rfl, fun _ _ _ _ => rfl⟩⟩
  · obtain ⟨c, -, rfl⟩ := mem_image.1 ht
    exact challengeTranscript_getLast _ _ _ _ _ _ _ _ _
  · rw [List.mem_singleton] at hi
    subst hi
    have h1 := smul_inj (F := F) g.2.2.2 h
    exact hx (Units.ext (inv_injective h1))
  · rcases List.mem_cons.1 hX with h | h
    · exact ⟨false, h⟩
    · exact ⟨true, List.eq_of_mem_replicate h⟩

end

/-- The toy environment and an attack on two honest users that corrupts one of them meet the hypotheses of `C109_forge`, and the statement
is untouched if the users' keys are different; so are, with `V = Seed` and `Y` the weights of one proof, those of `C109_links` (with
`own = ∅` and `j = 1`), and those of `C109_batch`. -/
example (A : Finset Transcript) (a : A) (V Y α : Type) (v : V) (out : ZMod ℓ → Option (Proof (ZMod ℓ) (ZMod ℓ)) → α) :
    (Toy.hashEnv ℓ).Lawful ∧ (∀ b, (Toy.hashEnv ℓ).scalarOfWide b = ((leNat b : ℕ) : ZMod ℓ)) ∧ (Toy.hashEnv ℓ).basepoint ≠ 0 ∧
    (∀ X : ZMod ℓ, ∃ x : ZMod ℓ, x • (Toy.hashEnv ℓ).basepoint = X) ∧
    (∀ X, (Toy.hashEnv ℓ).pointOfUniform (leBytes 32 X.val) = X) ∧ (∃ params, Params.new (Toy.hashEnv ℓ) 2 2 = .ok params) ∧
    ∃ (S : Finset Transcript) (_ : Nonempty S) (b : Attack 2 2 (ZMod ℓ) Bool Unit Unit
        (InsiderProgram S Block A Seed V Y Unit (Option (Proof (ZMod ℓ) (ZMod ℓ))) Bool (ZMod ℓ) α)),
      b.Legal (ZMod ℓ) (Toy.hashEnv ℓ) (fun X => leBytes 32 X.val) S ∧ (∀ pub, (b.prog pub).AtMost 1 1 1 1) ∧
      (∀ t ∈ S, t.getLast? = some (.challenge "xi" 64)) ∧
      (∀ g (x : Bool → (ZMod ℓ)ˣ) k, x false ≠ x true → Untouched (publish (Toy.hashEnv ℓ).basepoint g x) [true]
        (b.sts (publish (Toy.hashEnv ℓ).basepoint g x) k).inputSet.M (b.sts (publish (Toy.hashEnv ℓ).basepoint g x) k).J) ∧
      (∀ g (x : Bool → (ZMod ℓ)ˣ) k, ∀ X ∈ (b.sts (publish (Toy.hashEnv ℓ).basepoint g x) k).inputSet.M,
        ∃ u, X = (publish (Toy.hashEnv ℓ).basepoint g x).key u) ∧
      ∀ pub k k', b.sts pub k = b.sts pub k' := by
  obtain ⟨S, hS, b, h1, h2, h3, h4, h5, h6, -⟩ := insider_legal (V := V) (Y := Y) (Toy.hashEnv ℓ) Toy.hashEnv_basepoint _ Toy.hashEnv_enc
    Toy.hashEnv_params A a v Toy.transcript out
  exact ⟨Toy.hashEnv_lawful, fun _ => rfl, Toy.hashEnv_basepoint, fun X => ⟨X, mul_one X⟩, Toy.hashEnv_enc, Toy.hashEnv_params,
    S, hS, b, h1, h2, h3, h4, h5, h6⟩

end Triptych
