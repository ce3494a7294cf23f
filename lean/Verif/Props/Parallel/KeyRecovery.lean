import Verif.Props.Parallel.Insider
import Verif.Props.KeyRecovery

/-! # Parallel signatures do not help to compute signing keys: C120 -/
set_option autoImplicit false
set_option linter.unusedSectionVars false
set_option linter.unusedVariables false

namespace Triptych.Parallel
open Finset Function
open Triptych.Parallel.Spec
open Triptych.Spec (avg extend Block Block.bytes Seed ChosenProgram SigningProgram OracleProgram InsiderProgram unit_smul_ne SetupCoins pick
  mixKeys knownKeys)

section
variable {F P : Type} [Field F] [AddCommGroup P] [Module F P] [DecidableEq F] [DecidableEq P]

/-- What the program `c` outputs if signatures are simulated without keys: one run with the public data `pub`. -/
noncomputable def Spec.simulatedOutput {n m : ℕ} {υ κ γ prog α : Type} (E : Env F P) (S : Finset Transcript) [Nonempty S]
    (a : Attack n m F P υ κ γ prog) (c : SigningProgram S Block γ (Option (Proof F P)) α) {q : ℕ}
    (d : Block × (HybridCoins F n m × (Fin (m - 1) → F))) (pub : Public n m P υ)
    (ω : (Fin q → Block × (HybridCoins F n m × (Fin (m - 1) → F))) × (S → Block)) : α :=
  (c.simulated (fun g => simKeyless E S (paramsOf E pub.gens) (a.sts pub) (a.request pub (fun _ => 0) g)) (extend d ω.1) []).run ω.2

/-- The algorithm that computes the discrete logarithm of `X`: set up the public data from `X`, run the program once with simulated
signatures, and divide its output by the factors of the users' keys. -/
noncomputable def Spec.recoverer {n m : ℕ} {υ κ γ : Type} [Fintype υ] (E : Env F P) (S : Finset Transcript) [Nonempty S]
    (a : Attack n m F P υ κ γ (SigningProgram S Block γ (Option (Proof F P)) F)) {q : ℕ}
    (d : Block × (HybridCoins F n m × (Fin (m - 1) → F))) (X : {X : P // X ≠ 0}) (ρ : SetupCoins n m F (Option υ))
    (ω : (Fin q → Block × (HybridCoins F n m × (Fin (m - 1) → F))) × (S → Block)) : F :=
  pick E.basepoint X.1 ((univ : Finset υ).toList.map fun i => simulatedOutput E S a (a.prog (setup E.basepoint X ρ)) d (setup E.basepoint X ρ) ω / ρ.t (some i))

/-- Signatures by honest users can be simulated: whatever the program aims at, it succeeds against the users with at most the probability
with which its output in the simulation satisfies the aim, up to `q (Q + q)` over the number of scalars. -/
theorem output_simulated [Fintype F] [Fintype P] {n m : ℕ} {υ κ γ prog α : Type} (E : Env F P) (hE : E.Lawful) (enc : P → Bytes)
    (S : Finset Transcript) [Nonempty S] (a : Attack n m F P υ κ γ prog) (ha : a.Legal E enc S)
    (c : SigningProgram S Block γ (Option (Proof F P)) α) (Q q : ℕ) (hc : c.AtMost Q q) (d : Block × (HybridCoins F n m × (Fin (m - 1) → F)))
    (g : Generators n m P) (x : υ → Fˣ) (goal : α → Prop) :
    (avg fun O : S → Block => c.withSigner
        (fun c => signPoint E S (paramsOf E g) (a.sts (publish E.basepoint g x)) (a.request (publish E.basepoint g x) (fun i => (x i : F)) c))
        (fun c => signAnswer E (paramsOf E g) (a.sts (publish E.basepoint g x)) (a.request (publish E.basepoint g x) (fun i => (x i : F)) c))
        (fun r _ _ => goal r) O []) ≤
      q * (Q + q) / Fintype.card F +
      avg fun ω : (Fin q → Block × (HybridCoins F n m × (Fin (m - 1) → F))) × (S → Block) =>
        ind (goal (simulatedOutput E S a c d (publish E.basepoint g x) ω)) := by
  have h1 := (abs_le.1 (C72_keyless (withGenerators E enc g) (lawful_withGenerators hE enc g) S (paramsOf E g) g.1.2.1.2
    (a.sts (publish E.basepoint g x)) (ha.built g x) (ha.params g x) (a.request (publish E.basepoint g x) fun i => (x i : F))
    (legal_rel E enc S a ha g x) (ha.point g x) (fun r _ _ => goal r) c Q q hc)).2
  rw [withSimulator_output (fun c => simKeyless (withGenerators E enc g) S (paramsOf E g)
    (a.sts (publish E.basepoint g x)) (a.request (publish E.basepoint g x) (fun i => (x i : F)) c))
    goal d c Q q hc] at h1
  rw [avg_prod]
  exact sub_le_iff_le_add.1 h1

/-- What is set up from `Y = y • G`, with random choices, is as random as the public data. -/
theorem avg_setup [Fintype F] [Fintype P] {n m : ℕ} {υ : Type} [Fintype υ] [DecidableEq υ] (G : P) (hG : G ≠ 0)
    (hgen : ∀ X : P, ∃ x : F, x • G = X) (y : Fˣ) (f : Generators n m P → (υ → Fˣ) → ℚ) :
    (avg fun ρ : SetupCoins n m F (Option υ) => f (setup G ⟨(y : F) • G, unit_smul_ne hG y⟩ ρ).gens (fun i => ρ.t (some i) * y)) =
      avg fun g : Generators n m P => avg fun x : υ → Fˣ => f g x := by
  have h1 := Triptych.avg_setup (n := n) (m := m) (υ := Option υ) G hG hgen y
    (fun g x _ _ => f (g, ⟨(x none : F) • G, unit_smul_ne hG _⟩) fun i => x (some i))
  simp only [avg_const] at h1
  have e0 : ∀ ρ : SetupCoins n m F (Option υ), (setup G ⟨(y : F) • G, unit_smul_ne hG y⟩ ρ).gens =
      ((Triptych.Spec.setup G ⟨(y : F) • G, unit_smul_ne hG y⟩ ρ).gens, ⟨((ρ.t none * y : Fˣ) : F) • G, unit_smul_ne hG _⟩) := by
    intro ρ
    refine Prod.ext rfl (Subtype.ext ?_)
    show (ρ.t none : F) • (y : F) • G = ((ρ.t none * y : Fˣ) : F) • G
    rw [smul_smul, Units.val_mul]
  simp only [e0]
  refine h1.trans ?_
  refine Eq.trans ?_ (avg_prod (fun g : Generators n m P => avg fun x : υ → Fˣ => f g x)).symm
  refine congrArg avg (funext fun g => ?_)
  refine (avg_equiv (Equiv.piOptionEquivProd (β := fun _ : Option υ => Fˣ)) _
    (fun z : Fˣ × (υ → Fˣ) => f (g, ⟨(z.1 : F) • G, unit_smul_ne hG _⟩) z.2) fun x => rfl).trans ?_
  rw [avg_prod]
  refine avg_equiv (unitEquiv G hG hgen 1) _ _ fun u => ?_
  have e : unitEquiv G hG hgen 1 u = ⟨(u : F) • G, unit_smul_ne hG _⟩ := by
    refine Subtype.ext ?_
    show (u : F) • ((1 : Fˣ) : F) • G = (u : F) • G
    rw [Units.val_one, one_smul]
  rw [e]

/-- C120: random generators, users with random keys, and a program that knows all public data, asks for at most `Q` challenges and gets
at most `q` signatures from users of its choice, for rings, linking tags and messages of its choice. That it outputs the signing key of
one of the users has at most the probability with which `recoverer`, which knows no key and runs the program once, computes the discrete
logarithm of a random point, plus `q (Q + q)` over the number of scalars. -/
theorem C120_recover_parallel [Fintype F] [Fintype P] {n m : ℕ} {υ κ γ : Type} [Fintype υ] [DecidableEq υ] (E : Env F P) (hE : E.Lawful)
    (hG : E.basepoint ≠ 0) (hgen : ∀ X : P, ∃ x : F, x • E.basepoint = X) (enc : P → Bytes)
    (henc : ∀ X, E.pointOfUniform (enc X) = X) (S : Finset Transcript) [Nonempty S]
    (a : Attack n m F P υ κ γ (SigningProgram S Block γ (Option (Proof F P)) F)) (ha : a.Legal E enc S)
    (Q q : ℕ) (hc : ∀ pub, (a.prog pub).AtMost Q q) (d : Block × (HybridCoins F n m × (Fin (m - 1) → F))) :
    (avg fun g : Generators n m P => avg fun x : υ → Fˣ => avg fun O : S → Block => (a.prog (publish E.basepoint g x)).withSigner
        (fun c => signPoint E S (paramsOf E g) (a.sts (publish E.basepoint g x)) (a.request (publish E.basepoint g x) (fun i => (x i : F)) c))
        (fun c => signAnswer E (paramsOf E g) (a.sts (publish E.basepoint g x)) (a.request (publish E.basepoint g x) (fun i => (x i : F)) c))
        (fun r _ _ => ∃ i, r = (x i : F)) O []) ≤
      q * (Q + q) / Fintype.card F +
      avg fun y : Fˣ => avg fun ρ : SetupCoins n m F (Option υ) =>
        avg fun ω : (Fin q → Block × (HybridCoins F n m × (Fin (m - 1) → F))) × (S → Block) =>
        ind (recoverer E S a d ⟨(y : F) • E.basepoint, unit_smul_ne hG y⟩ ρ ω = y) := by
  have hne : Nonempty {X : P // X ≠ 0} := ⟨⟨E.basepoint, hG⟩⟩
  refine (avg_mono _ _ fun g => avg_mono _ _ fun x => output_simulated E hE enc S a ha _ Q q (hc _) d g x _).trans ?_
  simp only [avg_add, avg_const]
  refine add_le_add_right ?_ _
  rw [← avg_const (α := Fˣ) (avg fun g : Generators n m P => avg fun x : υ → Fˣ =>
    avg fun ω : (Fin q → Block × (HybridCoins F n m × (Fin (m - 1) → F))) × (S → Block) =>
      ind (∃ i, simulatedOutput E S a (a.prog (publish E.basepoint g x)) d (publish E.basepoint g x) ω = (x i : F)))]
  refine avg_mono _ _ fun y => ?_
  have h1 := avg_setup (n := n) (m := m) (υ := υ) E.basepoint hG hgen y fun g x =>
    avg fun ω : (Fin q → Block × (HybridCoins F n m × (Fin (m - 1) → F))) × (S → Block) =>
      ind (∃ i, simulatedOutput E S a (a.prog (publish E.basepoint g x)) d (publish E.basepoint g x) ω = (x i : F))
  rw [← h1]
  refine avg_mono _ _ fun ρ => avg_mono _ _ fun ω => ?_
  rw [← setup_publish E.basepoint hG y ρ]
  by_cases h : ∃ i, simulatedOutput E S a (a.prog (setup E.basepoint ⟨(y : F) • E.basepoint, unit_smul_ne hG y⟩ ρ)) d
      (setup E.basepoint ⟨(y : F) • E.basepoint, unit_smul_ne hG y⟩ ρ) ω = ((ρ.t (some i) * y : Fˣ) : F)
  · rw [ind_pos h, ind_pos]
    obtain ⟨i, hi⟩ := h
    rw [recoverer]
    refine pick_eq hG (List.mem_map.2 ⟨i, mem_toList.2 (mem_univ i), ?_⟩)
    rw [hi, Units.val_mul]
    exact mul_div_cancel_left₀ _ (ρ.t (some i)).ne_zero
  · rw [ind_neg h]
    exact ind_nonneg _

/-- The random choices of `insiderRecoverer`: seeds, weights, the simulated signers' choices and challenges. -/
abbrev Spec.RecovererCoins (F : Type) (n m : ℕ) (S A : Finset Transcript) (V Y : Type) (q : ℕ) :=
  ((A → Seed) × (V → Y)) × ((Fin q → Block × (HybridCoins F n m × (Fin (m - 1) → F))) × (S → Block))

/-- The algorithm that computes the discrete logarithm of `X` from a program that may corrupt users: it chooses the keys of all users but
`u` itself and sets up the rest of the public data from `X`, runs the program once, with simulated signatures and with the keys of the
other users, and divides the output by the factor of the key of `u`. -/
noncomputable def Spec.insiderRecoverer {n m : ℕ} {υ κ γ V Y : Type} [DecidableEq υ] (E : Env F P) (S A : Finset Transcript) [Nonempty S]
    (a : Attack n m F P υ κ γ (InsiderProgram S Block A Seed V Y γ (Option (Proof F P)) υ F F)) (u : υ) {q : ℕ}
    (d : Block × (HybridCoins F n m × (Fin (m - 1) → F))) (X : {X : P // X ≠ 0}) (x0 : υ → Fˣ)
    (ρ : SetupCoins n m F (Option ({u} : Finset υ))) (ω : RecovererCoins F n m S A V Y q) : F :=
  let pub := mixPublic {u} x0 E.basepoint (setup E.basepoint X ρ)
  (simulatedOutput E S a (((a.prog pub).withKeys (knownKeys {u} x0) []).signingOnly ω.1.1 ω.1.2) d pub ω.2).1 /
    ρ.t (some ⟨u, mem_singleton_self u⟩)

/-- C120: as `C120_recover_parallel`, but the program may also ask for the signing keys of users of its choice (and for seeds and weights of the
verifier). That it outputs the signing key of a user it did not corrupt has at most the sum, over the users `u`, of the probabilities with
which `insiderRecoverer` computes the discrete logarithm of a random point, plus `q (Q + q)` over the number of scalars. -/
theorem C120_insider_parallel [Fintype F] [Fintype P] {n m : ℕ} {υ κ γ V Y : Type} [Fintype υ] [DecidableEq υ] [Fintype Y] [Fintype V]
    [DecidableEq V] [Nonempty Y] (E : Env F P) (hE : E.Lawful)
    (hG : E.basepoint ≠ 0) (hgen : ∀ X : P, ∃ x : F, x • E.basepoint = X) (enc : P → Bytes)
    (henc : ∀ X, E.pointOfUniform (enc X) = X) (S A : Finset Transcript) [Nonempty S]
    (a : Attack n m F P υ κ γ (InsiderProgram S Block A Seed V Y γ (Option (Proof F P)) υ F F)) (ha : a.Legal E enc S)
    (Q R T q : ℕ) (hc : ∀ pub, (a.prog pub).AtMost Q R T q) (d : Block × (HybridCoins F n m × (Fin (m - 1) → F))) :
    (avg fun g : Generators n m P => avg fun x : υ → Fˣ => avg fun HW : (A → Seed) × (V → Y) => avg fun O : S → Block =>
      (((a.prog (publish E.basepoint g x)).withKeys (fun i => (x i : F)) []).signingOnly HW.1 HW.2).withSigner
        (fun c => signPoint E S (paramsOf E g) (a.sts (publish E.basepoint g x)) (a.request (publish E.basepoint g x) (fun i => (x i : F)) c))
        (fun c => signAnswer E (paramsOf E g) (a.sts (publish E.basepoint g x)) (a.request (publish E.basepoint g x) (fun i => (x i : F)) c))
        (fun y _ _ => ∃ i, i ∉ y.2 ∧ y.1 = (x i : F)) O []) ≤
      q * (Q + q) / Fintype.card F +
      ∑ u, avg fun y : Fˣ => avg fun x0 : υ → Fˣ => avg fun ρ : SetupCoins n m F (Option ({u} : Finset υ)) =>
        avg fun ω : RecovererCoins F n m S A V Y q =>
        ind (insiderRecoverer E S A a u d ⟨(y : F) • E.basepoint, unit_smul_ne hG y⟩ x0 ρ ω = y) := by
  have hne : Nonempty {X : P // X ≠ 0} := ⟨⟨E.basepoint, hG⟩⟩
  have h0 := fun (g : Generators n m P) (x : υ → Fˣ) (HW : (A → Seed) × (V → Y)) => output_simulated E hE enc S a ha
    (((a.prog (publish E.basepoint g x)).withKeys (fun i => (x i : F)) []).signingOnly HW.1 HW.2) Q q
    (ChosenProgram.atMost_signingOnly HW.1 HW.2 _ (InsiderProgram.atMost_withKeys _ _ [] (hc _))) d g x
    (fun y : F × List υ => ∃ i, i ∉ y.2 ∧ y.1 = (x i : F))
  refine (avg_mono _ _ fun g => avg_mono _ _ fun x => avg_mono _ _ fun HW => h0 g x HW).trans ?_
  clear h0
  simp only [avg_add, avg_const]
  refine add_le_add_right ?_ _
  -- one user at a time, without the user's key
  have h1 : ∀ (g : Generators n m P) (x : υ → Fˣ) (ω : RecovererCoins F n m S A V Y q),
      ind (∃ i, i ∉ (simulatedOutput E S a (((a.prog (publish E.basepoint g x)).withKeys (fun i => (x i : F)) []).signingOnly ω.1.1 ω.1.2) d
          (publish E.basepoint g x) ω.2).2 ∧
        (simulatedOutput E S a (((a.prog (publish E.basepoint g x)).withKeys (fun i => (x i : F)) []).signingOnly ω.1.1 ω.1.2) d
          (publish E.basepoint g x) ω.2).1 = (x i : F)) ≤
      ∑ u, ind ((simulatedOutput E S a (((a.prog (publish E.basepoint g x)).withKeys (knownKeys {u} x) []).signingOnly ω.1.1 ω.1.2) d
          (publish E.basepoint g x) ω.2).1 = (x u : F)) := by
    intro g x ω
    by_cases h : ∃ i, i ∉ (simulatedOutput E S a (((a.prog (publish E.basepoint g x)).withKeys (fun i => (x i : F)) []).signingOnly ω.1.1 ω.1.2) d
          (publish E.basepoint g x) ω.2).2 ∧
        (simulatedOutput E S a (((a.prog (publish E.basepoint g x)).withKeys (fun i => (x i : F)) []).signingOnly ω.1.1 ω.1.2) d
          (publish E.basepoint g x) ω.2).1 = (x i : F)
    · rw [ind_pos h]
      obtain ⟨u, hu, hx⟩ := h
      refine le_trans (le_of_eq ?_) (single_le_sum (fun i _ => ind_nonneg _) (mem_univ u))
      rw [ind_pos]
      have hrun := InsiderProgram.withKeys_congr (fun c => simKeyless E S (paramsOf E (publish E.basepoint g x).gens) (a.sts (publish E.basepoint g x))
        (a.request (publish E.basepoint g x) (fun _ => 0) c)) ω.1.1 ω.1.2 (fun i => (x i : F)) (knownKeys {u} x) u
        (fun i hi => by rw [knownKeys, if_neg (by simpa using hi)]) (a.prog (publish E.basepoint g x)) [] (extend d ω.2.1) [] ω.2.2
      rcases hrun with hrun | hrun
      · rw [← hx]
        exact congrArg Prod.fst hrun
      · exact absurd hrun.2 hu
    · rw [ind_neg h]
      exact sum_nonneg fun i _ => ind_nonneg _
  have h2 : ∀ (f : Generators n m P → (υ → Fˣ) → RecovererCoins F n m S A V Y q → ℚ)
      (f' : Generators n m P → (υ → Fˣ) → υ → RecovererCoins F n m S A V Y q → ℚ), (∀ g x ω, f g x ω ≤ ∑ u, f' g x u ω) →
      (avg fun g => avg fun x => avg fun HW : (A → Seed) × (V → Y) =>
        avg fun ω : (Fin q → Block × (HybridCoins F n m × (Fin (m - 1) → F))) × (S → Block) => f g x (HW, ω)) ≤
      ∑ u, avg fun g => avg fun x => avg fun ω => f' g x u ω := by
    intro f f' h
    rw [← avg_sum]
    refine avg_mono _ _ fun g => ?_
    rw [← avg_sum]
    refine avg_mono _ _ fun x => ?_
    rw [← avg_sum]
    exact (avg_prod (f g x)).symm.le.trans (avg_mono _ _ fun ω => h g x ω)
  refine (h2 _ _ h1).trans (sum_le_sum fun u _ => ?_)
  -- the public data from the point
  rw [avg_comm (fun (y : Fˣ) (x0 : υ → Fˣ) => avg fun ρ : SetupCoins n m F (Option ({u} : Finset υ)) =>
        avg fun ω : RecovererCoins F n m S A V Y q =>
          ind (insiderRecoverer E S A a u d ⟨(y : F) • E.basepoint, unit_smul_ne hG y⟩ x0 ρ ω = y))]
  refine le_of_eq_of_le (congrArg avg (funext fun g => avg_mixKeys {u} _)) ?_
  rw [avg_comm]
  refine avg_mono _ _ fun x0 => ?_
  rw [← avg_const (α := Fˣ) (avg fun g : Generators n m P => avg fun x : ({u} : Finset υ) → Fˣ => _)]
  refine avg_mono _ _ fun y => ?_
  have h4 := avg_setup (n := n) (m := m) (υ := ({u} : Finset υ)) E.basepoint hG hgen y fun g x =>
    avg fun ω : RecovererCoins F n m S A V Y q =>
      ind ((simulatedOutput E S a (((a.prog (publish E.basepoint g (mixKeys {u} x0 x))).withKeys (knownKeys {u} (mixKeys {u} x0 x)) []).signingOnly
        ω.1.1 ω.1.2) d (publish E.basepoint g (mixKeys {u} x0 x)) ω.2).1 = (mixKeys {u} x0 x u : F))
  rw [← h4]
  refine avg_mono _ _ fun ρ => avg_mono _ _ fun ω => ?_
  rw [knownKeys_mixKeys, ← mixPublic_publish, ← setup_publish E.basepoint hG y ρ, mixKeys, dif_pos (mem_singleton_self u)]
  by_cases h : (simulatedOutput E S a (((a.prog (mixPublic {u} x0 E.basepoint (setup E.basepoint ⟨(y : F) • E.basepoint,
      unit_smul_ne hG y⟩ ρ))).withKeys (knownKeys {u} x0) []).signingOnly ω.1.1 ω.1.2) d
      (mixPublic {u} x0 E.basepoint (setup E.basepoint ⟨(y : F) • E.basepoint, unit_smul_ne hG y⟩ ρ)) ω.2).1 =
      ((ρ.t (some ⟨u, mem_singleton_self u⟩) * y : Fˣ) : F)
  · rw [ind_pos h, ind_pos]
    rw [insiderRecoverer]
    rw [h, Units.val_mul]
    exact mul_div_cancel_left₀ _ (Units.ne_zero _)
  · rw [ind_neg h]
    exact ind_nonneg _

end

local notation "ℓ" => (2 ^ 252 + 27742317777372353535851937790883648493 : ℕ)

/-- C120 over the scalars of Ristretto: the loss is `q (Q + q) / 2 ^ 252`. -/
theorem C120_ristretto_parallel {P : Type} [AddCommGroup P] [Module (ZMod ℓ) P] [DecidableEq P] [Fintype P] {n m : ℕ} {υ κ γ : Type} [Fintype υ]
    [DecidableEq υ] (E : Env (ZMod ℓ) P) (hE : E.Lawful) (hG : E.basepoint ≠ 0) (hgen : ∀ X : P, ∃ x : ZMod ℓ, x • E.basepoint = X)
    (enc : P → Bytes) (henc : ∀ X, E.pointOfUniform (enc X) = X) (S : Finset Transcript) [Nonempty S]
    (a : Attack n m (ZMod ℓ) P υ κ γ (SigningProgram S Block γ (Option (Proof (ZMod ℓ) P)) (ZMod ℓ))) (ha : a.Legal E enc S)
    (Q q : ℕ) (hc : ∀ pub, (a.prog pub).AtMost Q q) (d : Block × (HybridCoins (ZMod ℓ) n m × (Fin (m - 1) → ZMod ℓ))) :
    (avg fun g : Generators n m P => avg fun x : υ → (ZMod ℓ)ˣ => avg fun O : S → Block => (a.prog (publish E.basepoint g x)).withSigner
        (fun c => signPoint E S (paramsOf E g) (a.sts (publish E.basepoint g x)) (a.request (publish E.basepoint g x) (fun i => (x i : ZMod ℓ)) c))
        (fun c => signAnswer E (paramsOf E g) (a.sts (publish E.basepoint g x)) (a.request (publish E.basepoint g x) (fun i => (x i : ZMod ℓ)) c))
        (fun r _ _ => ∃ i, r = (x i : ZMod ℓ)) O []) ≤
      q * (Q + q) / 2 ^ 252 +
      avg fun y : (ZMod ℓ)ˣ => avg fun ρ : SetupCoins n m (ZMod ℓ) (Option υ) =>
        avg fun ω : (Fin q → Block × (HybridCoins (ZMod ℓ) n m × (Fin (m - 1) → ZMod ℓ))) × (S → Block) =>
        ind (recoverer E S a d ⟨(y : ZMod ℓ) • E.basepoint, unit_smul_ne hG y⟩ ρ ω = y) := by
  refine (C120_recover_parallel E hE hG hgen enc henc S a ha Q q hc d).trans (add_le_add_left ?_ _)
  rw [ZMod.card]
  refine div_le_div_of_nonneg_left (by positivity) (by positivity) ?_
  push_cast
  norm_num

/-- The toy environment and an attack on two honest users meet the hypotheses of `C120_recover_parallel`, `C120_ristretto_parallel` and
`C120_insider_parallel`. -/
example (A : Finset Transcript) (a : A) (V Y : Type) (v : V) (y : Y) (H : A → Seed)
    (out : ZMod ℓ → Option (Proof (ZMod ℓ) (ZMod ℓ)) → ZMod ℓ) :
    Toy.perfectEnv.Lawful ∧ Toy.perfectEnv.basepoint ≠ 0 ∧ (∀ X : ZMod ℓ, ∃ x : ZMod ℓ, x • Toy.perfectEnv.basepoint = X) ∧
    (∀ X, Toy.perfectEnv.pointOfUniform (leBytes 32 X.val) = X) ∧
    (∃ (S : Finset Transcript) (_ : Nonempty S) (b : Attack 2 2 (ZMod ℓ) (ZMod ℓ) Bool Bool Unit
        (SigningProgram S Block Unit (Option (Proof (ZMod ℓ) (ZMod ℓ))) (ZMod ℓ))),
      b.Legal Toy.perfectEnv (fun X => leBytes 32 X.val) S ∧ ∀ pub, (b.prog pub).AtMost 1 1) ∧
    ∃ (S : Finset Transcript) (_ : Nonempty S) (b : Attack 2 2 (ZMod ℓ) (ZMod ℓ) Bool Bool Unit
        (InsiderProgram S Block A Seed V Y Unit (Option (Proof (ZMod ℓ) (ZMod ℓ))) Bool (ZMod ℓ) (ZMod ℓ))),
      b.Legal Toy.perfectEnv (fun X => leBytes 32 X.val) S ∧ ∀ pub, (b.prog pub).AtMost 1 1 1 1 := by
  obtain ⟨S, hS, b, h1, h2, -⟩ := insider_legal (V := V) (Y := Y) Toy.perfectEnv Toy.perfectEnv_lawful
    Triptych.Toy.hashEnv_basepoint Toy.two_ne Toy.perfectHash_injective _ Triptych.Toy.hashEnv_enc Toy.perfectEnv_params A a v
    Triptych.Toy.transcript out
  refine ⟨Toy.perfectEnv_lawful, Triptych.Toy.hashEnv_basepoint, fun X => ⟨X, mul_one X⟩, Triptych.Toy.hashEnv_enc,
    ⟨S, hS, ⟨b.sts, b.user, b.stmt, b.transcript, b.position, b.r1, fun pub => (((b.prog pub).withKeys 1 []).map Prod.fst).signingOnly H fun _ => y⟩,
      ⟨h1.built, h1.params, h1.inj, h1.key, h1.key1, h1.tag, h1.point⟩, fun pub => ChosenProgram.atMost_signingOnly _ _ _
        (ChosenProgram.atMost_map _ _ (InsiderProgram.atMost_withKeys _ _ [] (h2 pub)))⟩, S, hS, b, h1, h2⟩

end Triptych.Parallel
