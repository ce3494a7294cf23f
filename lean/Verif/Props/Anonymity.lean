import Verif.Props.Signing
import Verif.Props.Ristretto

/-! # Anonymity: C94

Several honest signers have random keys. A program sees their verification keys and gets signatures made by one of them, for rings
and messages of its choice that contain all their keys. It cannot tell who signs, unless it distinguishes (explicitly given programs
distinguish) linking tags from random elements, or Diffie-Hellman tuples from random ones. -/
set_option autoImplicit false
set_option linter.unusedSectionVars false
set_option linter.unusedVariables false

namespace Triptych
open Spec Finset Function

variable {F P : Type} [Field F] [AddCommGroup P] [Module F P] [DecidableEq F] [DecidableEq P] [Fintype F]

/-! ## The assumptions -/

/-- The probability that `D` says yes to the Diffie-Hellman tuple `(a G, ρ G, ρ a G)`, for random non-zero `a` and `ρ`. -/
def Spec.ddhReal (F : Type) {P : Type} [Field F] [AddCommGroup P] [Module F P] [DecidableEq F] [Fintype F] (G : P)
    (D : P → P → P → ℚ) : ℚ := avg fun a : Fˣ => avg fun ρ : Fˣ => D (a.val • G) (ρ.val • G) (ρ.val • a.val • G)

/-- The probability that `D` says yes to `(a G, ρ G, c G)`, for random non-zero `a`, `ρ` and `c`. -/
def Spec.ddhRandom (F : Type) {P : Type} [Field F] [AddCommGroup P] [Module F P] [DecidableEq F] [Fintype F] (G : P)
    (D : P → P → P → ℚ) : ℚ := 
  avg fun a : Fˣ => avg fun ρ : Fˣ => avg fun c : Fˣ => D (a.val • G) (ρ.val • G) (c.val • G)

/-- The probability that `D` says yes to the verification key and the linking tag of a random key. -/
def Spec.tagReal (F : Type) {P : Type} [Field F] [AddCommGroup P] [Module F P] [DecidableEq F] [Fintype F] (G U : P)
    (D : P → P → ℚ) : ℚ := avg fun r : Fˣ => D (r.val • G) (r⁻¹.val • U)

/-- The probability that `D` says yes to a verification key and an independent random element. -/
def Spec.tagRandom (F : Type) {P : Type} [Field F] [AddCommGroup P] [Module F P] [DecidableEq F] [Fintype F] (G : P)
    (D : P → P → ℚ) : ℚ := avg fun r : Fˣ => avg fun a : Fˣ => D (r.val • G) (a.val • G)

/-! ## The experiment -/

/-- A family of statements containing the verification keys of honest signers `ι`: `sts M J k` is the `k`-th statement with the keys
`M` and the linking tag `J`, `l i k` is the position of the signer `i` in its ring. Anything else (the other keys, the transcripts
`t`, which of the statements are signed) is arbitrary. -/
structure Spec.Family (ι κ γ P : Type) where
  sts : (ι → P) → P → κ → Statement P
  l : ι → κ → ℕ
  k : γ → κ
  t : γ → Transcript

/-- For all non-zero keys and tags the statements are made by the library, with these parameters. -/
structure Spec.Family.Built {ι κ γ : Type} (E : Env F P) (params : Params P) (A : Family ι κ γ P) : Prop where
  built : ∀ M J, (∀ i, M i ≠ 0) → J ≠ 0 → ∀ k, StatementBuilt E (A.sts M J k)
  params : ∀ M J, (∀ i, M i ≠ 0) → J ≠ 0 → ∀ k, (A.sts M J k).params = params
  tag : ∀ M J, (∀ i, M i ≠ 0) → J ≠ 0 → ∀ k, (A.sts M J k).J = J
  key : ∀ M J, (∀ i, M i ≠ 0) → J ≠ 0 → ∀ i k, (A.sts M J k).inputSet.M[A.l i k]? = some (M i)

/-- What the signer `i` with the key `r` is asked. -/
def Spec.Family.req {ι κ γ : Type} (A : Family ι κ γ P) (i : ι) (r : F) (g : γ) : Request κ F := ⟨A.k g, A.t g, A.l i (A.k g), r⟩

section experiment
variable {ι κ γ : Type} [Fintype ι] [DecidableEq ι] (E : Env F P) (S : Finset Transcript) [Nonempty S] (params : Params P)
  (A : Family ι κ γ P) (c : (ι → P) → P → SigningProgram S Block γ (Option (Proof F P)) Bool)

/-- The probability that the program `c`, which sees all verification keys and the linking tag and gets signatures by the signer
`i`, says yes, for random keys of all signers and random challenges. -/
noncomputable def Spec.anonymityGame (i : ι) : ℚ :=
  avg fun r : ι → Fˣ => avg fun O : S → Block =>
    (c (fun j => (r j).val • params.G) ((r i)⁻¹.val • params.U)).withSigner
      (fun g => signPoint E S params (A.sts (fun j => (r j).val • params.G) ((r i)⁻¹.val • params.U)) (A.req i (r i).val g))
      (fun g => signAnswer E params (A.sts (fun j => (r j).val • params.G) ((r i)⁻¹.val • params.U)) (A.req i (r i).val g))
      (fun a _ _ => a = true) O []

/-- The probability that the program, run with the simulator that knows the signer's position but not the key, says yes. -/
noncomputable def Spec.keylessGame (i : ι) (M : ι → P) (J : P) : ℚ :=
  avg fun O : S → Block => (c M J).withSimulator (fun g => simKeyless E S params (A.sts M J) (A.req i (0 : F) g))
    (fun a _ _ => a = true) [] O

/-- The program that distinguishes tags from random elements: it chooses the keys of all signers but `i`, whose verification key
is `K`, and runs `c` with the simulator. -/
noncomputable def Spec.tagDistinguisher (i : ι) (K J : P) : ℚ :=
  avg fun r : ι → Fˣ => keylessGame E S params A c i (update (fun j => (r j).val • params.G) i K) J

/-- The simulator that knows the signer's position, working on a tuple `(J, Z, Y)`: it makes as many tuples as it needs from it. -/
noncomputable def Spec.simTuple {κ : Type} (sts : κ → Statement P) (Z Y : P) (x : Request κ F)
    (s : HybridCoins F params.n params.m × ((Fin (params.m - 1) → F) × (Fin (params.m - 1) → F))) (b : Block) :
    S × Option (Proof F P) :=
  program E S sts x b (hybrid params (sts x.k).inputSet.M (sts x.k).J x.l (E.scalarOfWide b.bytes) s.1
    (fun j => s.2.1 j • Y + s.2.2 j • (sts x.k).J) (fun j => s.2.1 j • Z + s.2.2 j • params.G))

/-- The program that distinguishes Diffie-Hellman tuples: it chooses all keys, takes the first element of the tuple as linking tag
and runs `c` with the simulator on the tuple. -/
noncomputable def Spec.ddhDistinguisher (i : ι) (J Z Y : P) : ℚ :=
  avg fun r : ι → Fˣ => avg fun O : S → Block =>
    (c (fun j => (r j).val • params.G) J).withSimulator
      (fun g => simTuple E S params (A.sts (fun j => (r j).val • params.G) J) Z Y (A.req i (0 : F) g)) (fun a _ _ => a = true) [] O

/-- The simulator that knows nothing. -/
noncomputable def nothingGame [Fintype P] (i : ι) (M : ι → P) (J : P) : ℚ :=
  avg fun O : S → Block => (c M J).withSimulator (fun g => simNothing E S params (A.sts M J) (A.req i (0 : F) g))
    (fun a _ _ => a = true) [] O

end experiment

/-! ## Randomizing tuples -/

section tuple
variable {κ γ α : Type} (E : Env F P) (S : Finset Transcript) [Nonempty S] (params : Params P) (sts : κ → Statement P)
  (J : P) (hJ : ∀ k, (sts k).J = J) (req : γ → Request κ F) (win : α → List S → (S → Block) → Prop)
  (c : SigningProgram S Block γ (Option (Proof F P)) α) (used : List S) (O : S → Block)
include hJ

theorem simTuple_real (ρ : F) :
    c.withSimulator (fun g => simTuple E S params sts (ρ • params.G) (ρ • J) (req g)) win used O =
      c.withSimulator (fun g => simKeyless E S params sts (req g)) win used O := by
  refine withSimulator_congr (X := Fin (params.m - 1) → F) _ _ win (fun x b => ?_) c used O
  refine ⟨⟨fun s => ((s.1, fun j => s.2.1 j * ρ + s.2.2 j), s.2.1), fun y => (y.1.1, y.2, fun j => y.1.2 j - y.2 j * ρ),
    fun s => ?_, fun y => ?_⟩, fun s => ?_⟩
  · obtain ⟨h, a, b⟩ := s
    simp
  · obtain ⟨⟨h, v⟩, a⟩ := y
    simp
  · show simTuple E S params sts (ρ • params.G) (ρ • J) (req x) s b =
      simKeyless E S params sts (req x) (s.1, fun j => s.2.1 j * ρ + s.2.2 j) b
    simp only [simTuple, simKeyless, hJ, smul_smul, add_smul]

theorem simTuple_random [Fintype P] (hG : Bijective fun x : F => x • params.G) (ρ σ : F) (h : σ ≠ ρ) :
    c.withSimulator (fun g => simTuple E S params sts (ρ • params.G) (σ • J) (req g)) win used O =
      c.withSimulator (fun g => simRandom E S params sts (req g)) win used O := by
  obtain ⟨φ, hφ⟩ : ∃ φ : F ≃ P, ∀ x, φ x = x • params.G := ⟨Equiv.ofBijective _ hG, fun _ => rfl⟩
  have hd : ρ - σ ≠ 0 := sub_ne_zero.2 h.symm
  refine withSimulator_congr (X := Unit) _ _ win (fun x b => ?_) c used O
  refine ⟨⟨fun s => (((s.1, fun j => s.2.1 j * σ + s.2.2 j), fun j => φ (s.2.1 j * ρ + s.2.2 j)), ()),
    fun y => (y.1.1.1, fun j => (φ.symm (y.1.2 j) - y.1.1.2 j) / (ρ - σ),
      fun j => y.1.1.2 j - (φ.symm (y.1.2 j) - y.1.1.2 j) / (ρ - σ) * σ), fun s => ?_, fun y => ?_⟩, fun s => ?_⟩
  · obtain ⟨h, a, b⟩ := s
    have e : ∀ j, (a j * ρ - a j * σ) / (ρ - σ) = a j := fun j => by
      rw [← mul_sub, mul_div_assoc, div_self hd, mul_one]
    simp [e]
  · obtain ⟨⟨⟨h, v⟩, w⟩, u⟩ := y
    have e : ∀ j, (φ.symm (w j) - v j) / (ρ - σ) * ρ + (v j - (φ.symm (w j) - v j) / (ρ - σ) * σ) = φ.symm (w j) :=
      fun j => by field_simp; ring
    simp [e]
  · show simTuple E S params sts (ρ • params.G) (σ • J) (req x) s b =
      simRandom E S params sts (req x) ((s.1, fun j => s.2.1 j * σ + s.2.2 j), fun j => φ (s.2.1 j * ρ + s.2.2 j)) b
    simp only [simTuple, simRandom, hJ, smul_smul, add_smul, hφ]

end tuple

/-! ## The steps -/

theorem Spec.Family.Built.nonzero {ι : Type} (G : P) (hG : G ≠ 0) (r : ι → Fˣ) (i : ι) : (r i).val • G ≠ 0 :=
  smul_ne_zero (r i).ne_zero hG

theorem step_bound (A T K R ε N : ℚ) (hN : 0 < N) (h1 : |A - T| ≤ ε) (hR : 0 ≤ R ∧ R ≤ 1) (hK : 0 ≤ K ∧ K ≤ 1) :
    |A - R| ≤ (ε + 1 / N) + |T - K| + |K - (R + (K - R) / N)| := by
  have h2 : |(K - R) / N| ≤ 1 / N := by
    rw [abs_div, abs_of_pos hN]
    exact div_le_div_of_nonneg_right (abs_le.2 ⟨by linarith [hR.2, hK.1], by linarith [hR.1, hK.2]⟩) hN.le
  have h3 : A - R = (A - T) + (T - K) + (K - (R + (K - R) / N)) + (K - R) / N := by ring
  rw [h3]
  refine (abs_add_le _ _).trans ?_
  have h4 := (abs_add_le (A - T + (T - K)) (K - (R + (K - R) / N)))
  have h5 := abs_add_le (A - T) (T - K)
  linarith

theorem avg_div₂ {α β : Type} [Fintype α] [Fintype β] (f g : α → β → ℚ) (N : ℚ) :
    (avg fun a => avg fun b => (f a b + (g a b - f a b) / N)) =
      (avg fun a => avg fun b => f a b) + ((avg fun a => avg fun b => g a b) - avg fun a => avg fun b => f a b) / N := by
  have h : ∀ {α : Type} [Fintype α] (f : α → ℚ), (avg fun a => f a / N) = avg f / N := by
    intro α _ f
    rw [avg, avg, ← sum_div, div_right_comm]
  simp only [avg_add, h, avg_sub]

section steps
variable {ι κ γ : Type} [Fintype ι] [DecidableEq ι] (E : Env F P) (S : Finset Transcript) [Nonempty S] (params : Params P)
  (A : Family ι κ γ P) (c : (ι → P) → P → SigningProgram S Block γ (Option (Proof F P)) Bool)

/-- Real signatures against the simulator that knows the signer's position. -/
theorem keyless_step (hE : E.Lawful) (hG : params.G ≠ 0) (hU : params.U ≠ 0) (hH : params.CommitmentH ≠ 0) (hA : A.Built E params)
    (i : ι) (hS : ∀ M J, (∀ j, M j ≠ 0) → J ≠ 0 → ∀ (r : F) g x, signTranscript E params (A.sts M J) (A.req i r g) x ∈ S)
    (Q q : ℕ) (hc : ∀ M J, (c M J).AtMost Q q) :
    |anonymityGame (F := F) E S params A c i - avg fun r : ι → Fˣ => keylessGame (F := F) E S params A c i (fun j => (r j).val • params.G)
      ((r i)⁻¹.val • params.U)| ≤ q * (Q + q) / Fintype.card F := by
  rw [anonymityGame, ← avg_sub]
  refine (avg_abs _).trans ((avg_mono _ (fun _ => q * (Q + q) / Fintype.card F) fun r => ?_).trans (le_of_eq (avg_const _)))
  have hM : ∀ j, (r j).val • params.G ≠ 0 := fun j => smul_ne_zero (r j).ne_zero hG
  have hJ : (r i)⁻¹.val • params.U ≠ 0 := smul_ne_zero (r i)⁻¹.ne_zero hU
  have h := C70_keyless E hE S params hH (A.sts (fun j => (r j).val • params.G) ((r i)⁻¹.val • params.U)) (hA.built _ _ hM hJ)
    (hA.params _ _ hM hJ) (A.req i (r i).val) (fun g => ⟨hA.key _ _ hM hJ i (A.k g), by
      rw [hA.tag _ _ hM hJ]
      show (r i).val • (r i)⁻¹.val • params.U = params.U
      rw [smul_smul, Units.mul_inv, one_smul]⟩) (fun g x => hS _ _ hM hJ _ g x) (fun a _ _ => a = true)
    (c (fun j => (r j).val • params.G) ((r i)⁻¹.val • params.U)) Q q (hc _ _)
  exact h

theorem tagReal_eq (i : ι) :
    tagReal F params.G params.U (tagDistinguisher (F := F) E S params A c i) =
      avg fun r : ι → Fˣ => keylessGame (F := F) E S params A c i (fun j => (r j).val • params.G) ((r i)⁻¹.val • params.U) := by
  rw [tagReal, avg_update i]
  congr 1
  funext x
  rw [tagDistinguisher]
  congr 1
  funext r
  congr 1
  · funext j
    by_cases h : j = i
    · subst h; simp
    · simp [h]
  · simp

theorem tagRandom_eq (i : ι) :
    tagRandom F params.G (tagDistinguisher (F := F) E S params A c i) = avg fun a : Fˣ => avg fun r : ι → Fˣ =>
      keylessGame (F := F) E S params A c i (fun j => (r j).val • params.G) (a.val • params.G) := by
  rw [tagRandom, avg_comm]
  congr 1
  funext a
  rw [avg_update i]
  congr 1
  funext x
  rw [tagDistinguisher]
  congr 1
  funext r
  congr 1
  funext j
  by_cases h : j = i
  · subst h; simp
  · simp [h]

theorem ddhReal_eq (hG : params.G ≠ 0) (hA : A.Built E params) (i : ι) :
    ddhReal F params.G (ddhDistinguisher (F := F) E S params A c i) = avg fun a : Fˣ => avg fun r : ι → Fˣ =>
      keylessGame (F := F) E S params A c i (fun j => (r j).val • params.G) (a.val • params.G) := by
  rw [ddhReal]
  congr 1
  funext a
  have hJ : a.val • params.G ≠ 0 := smul_ne_zero a.ne_zero hG
  have h : ∀ ρ : Fˣ, ddhDistinguisher (F := F) E S params A c i (a.val • params.G) (ρ.val • params.G) (ρ.val • a.val • params.G) =
      avg fun r : ι → Fˣ => keylessGame (F := F) E S params A c i (fun j => (r j).val • params.G) (a.val • params.G) := by
    intro ρ
    rw [ddhDistinguisher]
    congr 1
    funext r
    rw [keylessGame]
    congr 1
    funext O
    exact simTuple_real E S params _ _ (hA.tag _ _ (fun j => smul_ne_zero (r j).ne_zero hG) hJ) _ _ _ _ _ ρ.val
  simp only [h, avg_const]

/-- The average of a function with one exceptional value. -/
theorem avg_except {X : Type} [Fintype X] [DecidableEq X] (x y : ℚ) (ρ : X) (f : X → ℚ) (h1 : f ρ = x)
    (h2 : ∀ σ, σ ≠ ρ → f σ = y) : avg f = y + (x - y) / Fintype.card X := by
  have : Nonempty X := ⟨ρ⟩
  have hF : (Fintype.card X : ℚ) ≠ 0 := by exact_mod_cast Fintype.card_ne_zero
  have : ∑ σ, f σ = Fintype.card X * y + (x - y) := by
    rw [← Finset.add_sum_erase univ f (mem_univ ρ), h1, sum_congr rfl fun σ hσ => h2 σ (ne_of_mem_erase hσ), sum_const,
      card_erase_of_mem (mem_univ _), card_univ, nsmul_eq_mul, Nat.cast_sub Fintype.card_pos]
    push_cast
    ring
  rw [avg, this]
  field_simp

theorem ddhRandom_eq [Fintype P] (hG : Bijective fun x : F => x • params.G) (hG0 : params.G ≠ 0) (hA : A.Built E params) (i : ι) :
    ddhRandom F params.G (ddhDistinguisher (F := F) E S params A c i) = avg fun a : Fˣ => avg fun r : ι → Fˣ =>
      (avg (fun O => (c (fun j => (r j).val • params.G) (a.val • params.G)).withSimulator
        (fun g => simRandom E S params (A.sts (fun j => (r j).val • params.G) (a.val • params.G)) (A.req i (0 : F) g))
        (fun a _ _ => a = true) [] O) +
      (keylessGame (F := F) E S params A c i (fun j => (r j).val • params.G) (a.val • params.G) -
        avg (fun O => (c (fun j => (r j).val • params.G) (a.val • params.G)).withSimulator
        (fun g => simRandom E S params (A.sts (fun j => (r j).val • params.G) (a.val • params.G)) (A.req i (0 : F) g))
        (fun a _ _ => a = true) [] O)) / Fintype.card Fˣ) := by
  rw [ddhRandom]
  congr 1
  funext a
  have hJ : a.val • params.G ≠ 0 := smul_ne_zero a.ne_zero hG0
  have h : ∀ ρ : Fˣ, (avg fun y : Fˣ => ddhDistinguisher (F := F) E S params A c i (a.val • params.G) (ρ.val • params.G)
        (y.val • params.G)) =
      avg fun σ : Fˣ => ddhDistinguisher (F := F) E S params A c i (a.val • params.G) (ρ.val • params.G) (σ.val • a.val • params.G) := by
    intro ρ
    refine avg_equiv (Equiv.mulRight a⁻¹) _ _ fun y => ?_
    rw [Equiv.coe_mulRight, smul_smul, ← Units.val_mul, mul_assoc, inv_mul_cancel, mul_one]
  simp only [h]
  simp only [ddhDistinguisher]
  have h' : ∀ ρ : Fˣ, (avg fun σ : Fˣ => avg fun r : ι → Fˣ => avg fun O : S → Block =>
      (c (fun j => (r j).val • params.G) (a.val • params.G)).withSimulator
      (fun g => simTuple E S params (A.sts (fun j => (r j).val • params.G) (a.val • params.G)) (ρ.val • params.G)
        (σ.val • a.val • params.G)
        (A.req i (0 : F) g)) (fun a _ _ => a = true) [] O) = avg fun r : ι → Fˣ =>
      (avg (fun O => (c (fun j => (r j).val • params.G) (a.val • params.G)).withSimulator
        (fun g => simRandom E S params (A.sts (fun j => (r j).val • params.G) (a.val • params.G)) (A.req i (0 : F) g))
        (fun a _ _ => a = true) [] O) +
      (keylessGame (F := F) E S params A c i (fun j => (r j).val • params.G) (a.val • params.G) -
        avg (fun O => (c (fun j => (r j).val • params.G) (a.val • params.G)).withSimulator
        (fun g => simRandom E S params (A.sts (fun j => (r j).val • params.G) (a.val • params.G)) (A.req i (0 : F) g))
        (fun a _ _ => a = true) [] O)) / Fintype.card Fˣ) := by
    intro ρ
    rw [avg_comm]
    congr 1
    funext r
    have hT := hA.tag (fun j => (r j).val • params.G) _ (fun j => smul_ne_zero (r j).ne_zero hG0) hJ
    refine avg_except _ _ ρ _ ?_ fun σ hσ => ?_
    · rw [keylessGame]
      congr 1
      funext O
      exact simTuple_real E S params _ _ hT _ _ _ _ _ ρ.val
    · congr 1
      funext O
      exact simTuple_random E S params _ _ hT _ _ _ _ _ hG ρ.val σ.val fun h => hσ (Units.ext h)
  simp only [h', avg_const]

/-- Signatures by the signer `i` against what depends on no signer. -/
theorem nothing_step [Fintype P] (hE : E.Lawful) (hG : Bijective fun x : F => x • params.G) (hU : params.U ≠ 0)
    (hH : params.CommitmentH ≠ 0) (hA : A.Built E params)
    (i : ι) (hS : ∀ M J, (∀ j, M j ≠ 0) → J ≠ 0 → ∀ (r : F) g x, signTranscript E params (A.sts M J) (A.req i r g) x ∈ S)
    (Q q : ℕ) (hc : ∀ M J, (c M J).AtMost Q q) :
    |anonymityGame (F := F) E S params A c i - avg fun a : Fˣ => avg fun r : ι → Fˣ =>
      nothingGame (F := F) E S params A c i (fun j => (r j).val • params.G) (a.val • params.G)| ≤
      (q * (Q + q) / Fintype.card F + 1 / (Fintype.card F - 1)) +
      |tagReal F params.G params.U (tagDistinguisher (F := F) E S params A c i) -
        tagRandom F params.G (tagDistinguisher (F := F) E S params A c i)| +
      |ddhReal F params.G (ddhDistinguisher (F := F) E S params A c i) -
        ddhRandom F params.G (ddhDistinguisher (F := F) E S params A c i)| := by
  have hG0 : params.G ≠ 0 := by
    intro h0
    have := hG.1 (a₁ := 0) (a₂ := 1) (by simp [h0])
    exact zero_ne_one this
  have hF : (0 : ℚ) < Fintype.card Fˣ := by exact_mod_cast Fintype.card_pos
  have h1 := keyless_step E S params A c hE hG0 hU hH hA i hS Q q hc
  rw [← tagReal_eq] at h1
  have h2 : ∀ (a : Fˣ) (r : ι → Fˣ), avg (fun O => (c (fun j => (r j).val • params.G) (a.val • params.G)).withSimulator
        (fun g => simRandom E S params (A.sts (fun j => (r j).val • params.G) (a.val • params.G)) (A.req i (0 : F) g))
        (fun a _ _ => a = true) [] O) =
      nothingGame (F := F) E S params A c i (fun j => (r j).val • params.G) (a.val • params.G) := by
    intro a r
    have hM : ∀ j, (r j).val • params.G ≠ 0 := fun j => smul_ne_zero (r j).ne_zero hG0
    have hJ : a.val • params.G ≠ 0 := smul_ne_zero a.ne_zero hG0
    have hgen : MaskGenerates F params := by
      intro g _
      obtain ⟨x, hx⟩ := hG.2 params.CommitmentH
      obtain ⟨y, hy⟩ := hG.2 g
      simp only at hx hy
      have hx0 : x ≠ 0 := by
        rintro rfl
        exact hH (by rw [← hx, zero_smul])
      exact ⟨y / x, by rw [← hx, ← hy, smul_smul, div_mul_cancel₀ y hx0]⟩
    rw [nothingGame]
    congr 1
    funext O
    refine C70_random E S params hgen _ (hA.built _ _ hM hJ) (hA.params _ _ hM hJ) _ (fun g => ?_) _ _ _ _
    have h3 := (hA.built _ _ hM hJ (A.k g)).ok.length
    rw [hA.params _ _ hM hJ] at h3
    rw [← h3]
    exact (List.getElem?_eq_some_iff.1 (hA.key _ _ hM hJ i (A.k g))).1
  have h3 := ddhRandom_eq E S params A c hG hG0 hA i
  simp only [h2] at h3
  have h4 := ddhReal_eq E S params A c hG0 hA i
  have h5 := tagRandom_eq E S params A c i
  rw [← h4] at h5
  rw [avg_div₂, ← h4] at h3
  obtain ⟨R, hR⟩ : ∃ R, R = avg fun a : Fˣ => avg fun r : ι → Fˣ =>
      nothingGame (F := F) E S params A c i (fun j => (r j).val • params.G) (a.val • params.G) := ⟨_, rfl⟩
  have hR1 : 0 ≤ R ∧ R ≤ 1 := by
    rw [hR]
    constructor
    · exact avg_nonneg _ fun a => avg_nonneg _ fun r => avg_nonneg _ fun O => (SigningProgram.withSimulator_mem _ _ _ _ _).1
    · exact avg_le_one _ fun a => avg_le_one _ fun r => avg_le_one _ fun O => (SigningProgram.withSimulator_mem _ _ _ _ _).2
  have hK1 : 0 ≤ ddhReal F params.G (ddhDistinguisher (F := F) E S params A c i) ∧
      ddhReal F params.G (ddhDistinguisher (F := F) E S params A c i) ≤ 1 := by
    rw [h4]
    constructor
    · exact avg_nonneg _ fun a => avg_nonneg _ fun r => avg_nonneg _ fun O => (SigningProgram.withSimulator_mem _ _ _ _ _).1
    · exact avg_le_one _ fun a => avg_le_one _ fun r => avg_le_one _ fun O => (SigningProgram.withSimulator_mem _ _ _ _ _).2
  rw [← hR] at h3 ⊢
  rw [h5, h3]
  have h6 : (Fintype.card Fˣ : ℚ) = Fintype.card F - 1 := by rw [Fintype.card_units, Nat.cast_sub Fintype.card_pos, Nat.cast_one]
  rw [h6] at hF ⊢
  exact step_bound _ _ _ _ _ _ hF h1 hR1 hK1

end steps

/-- C94: let all of the honest signers `ι` have random keys, in a group of prime order. A program that asks for at most `Q` challenges and
gets at most `q` signatures, made by the signer `i` or by the signer `i'`, for statements containing all their keys, says yes with
nearly the same probability in both cases: the difference is at most twice `q (Q + q) / order + 1 / (order - 1)`, plus the advantages
of `tagDistinguisher` in telling linking tags from random elements, and of `ddhDistinguisher` in telling Diffie-Hellman tuples from
random ones. Both run the program once, and know only what they choose themselves. -/
theorem C94_anonymity {ι κ γ : Type} [Fintype ι] [DecidableEq ι] [Fintype P] (E : Env F P) (hE : E.Lawful) (S : Finset Transcript)
    [Nonempty S] (params : Params P) (hG : Bijective fun x : F => x • params.G) (hU : params.U ≠ 0) (hH : params.CommitmentH ≠ 0)
    (A : Family ι κ γ P) (hA : A.Built E params)
    (hS : ∀ i M J, (∀ j, M j ≠ 0) → J ≠ 0 → ∀ (r : F) g x, signTranscript E params (A.sts M J) (A.req i r g) x ∈ S)
    (c : (ι → P) → P → SigningProgram S Block γ (Option (Proof F P)) Bool) (Q q : ℕ) (hc : ∀ M J, (c M J).AtMost Q q) (i i' : ι) :
    |anonymityGame (F := F) E S params A c i - anonymityGame (F := F) E S params A c i'| ≤
      2 * (q * (Q + q) / Fintype.card F + 1 / (Fintype.card F - 1)) +
      |tagReal F params.G params.U (tagDistinguisher (F := F) E S params A c i) -
        tagRandom F params.G (tagDistinguisher (F := F) E S params A c i)| +
      |ddhReal F params.G (ddhDistinguisher (F := F) E S params A c i) -
        ddhRandom F params.G (ddhDistinguisher (F := F) E S params A c i)| +
      |tagReal F params.G params.U (tagDistinguisher (F := F) E S params A c i') -
        tagRandom F params.G (tagDistinguisher (F := F) E S params A c i')| +
      |ddhReal F params.G (ddhDistinguisher (F := F) E S params A c i') -
        ddhRandom F params.G (ddhDistinguisher (F := F) E S params A c i')| := by
  have h1 := nothing_step E S params A c hE hG hU hH hA i (hS i) Q q hc
  have h2 := nothing_step E S params A c hE hG hU hH hA i' (hS i') Q q hc
  have h3 : ∀ M J, nothingGame (F := F) E S params A c i M J = nothingGame (F := F) E S params A c i' M J := fun M J => rfl
  simp only [h3] at h1
  rw [abs_sub_comm] at h2
  refine (abs_sub_le _ _ _).trans ((add_le_add h1 h2).trans ?_)
  linarith

/-- C94: if the generator `U` is random, telling linking tags from random elements is telling Diffie-Hellman tuples from random
ones. -/
theorem C94_tag (G : P) (D : P → P → P → ℚ) :
    (avg fun u : Fˣ => tagReal F G (u.val • G) (D (u.val • G))) = ddhReal F G (fun J K U => D U K J) ∧
    (avg fun u : Fˣ => tagRandom F G (D (u.val • G))) = ddhRandom F G fun J K U => D U K J := by
  constructor
  · simp only [tagReal, ddhReal]
    rw [avg_comm, avg_comm (fun (a ρ : Fˣ) => D (ρ.val • a.val • G) (ρ.val • G) (a.val • G))]
    congr 1
    funext r
    refine avg_equiv (Equiv.mulLeft r⁻¹) _ _ fun u => ?_
    rw [Equiv.coe_mulLeft, smul_smul, smul_smul, ← Units.val_mul, ← Units.val_mul, mul_inv_cancel_left]
  · simp only [tagRandom, ddhRandom]
    rw [avg_comm]
    rw [avg_comm (fun (a : Fˣ) => fun ρ : Fˣ => avg fun c : Fˣ => D (c.val • G) (ρ.val • G) (a.val • G))]
    congr 1
    funext r
    exact avg_comm _

/-- C94: statements for rings chosen in any way are a family. -/
theorem C94_family {ι κ γ : Type} (E : Env F P) (params : Params P) (hp : ParamsBuilt E params) (ring : (ι → P) → κ → List P)
    (l : ι → κ → ℕ) (k : γ → κ) (t : γ → Transcript) (hlen : ∀ M k, (ring M k).length = params.n ^ params.m)
    (hnz : ∀ M, (∀ i, M i ≠ 0) → ∀ k, 0 ∉ ring M k) (hl : ∀ M i k, (ring M k)[l i k]? = some (M i)) :
    ∃ A : Family ι κ γ P, A.Built E params ∧ A.l = l ∧ A.k = k ∧ A.t = t ∧
      ∀ M J, (∀ i, M i ≠ 0) → J ≠ 0 → ∀ k, ∃ s, InputSet.new E (ring M k) = .ok s ∧ Statement.new E params s J = .ok (A.sts M J k) := by
  have hN : params.n ^ params.m < 2 ^ 32 := by have := hp.ok.N; rw [u32Max] at this; omega
  have h1 : ∀ M J k, (∀ i, M i ≠ 0) → J ≠ 0 → ∃ st s, InputSet.new E (ring M k) = .ok s ∧ s.M = ring M k ∧
      Statement.new E params s J = .ok st ∧ st.params = params ∧ st.inputSet = s ∧ st.J = J := by
    intro M J k hM hJ
    obtain ⟨s, hs, hsM⟩ := (C04_new E (ring M k)).1 (by rw [hlen]; exact hN)
    obtain ⟨st, h1, h2, h3, h4⟩ := (C06_new E params s J hp).2.2 (by rw [hsM, hlen]) (by rw [hsM]; exact hnz M hM k)
    exact ⟨st, s, hs, hsM, h1, h2, h3, h4⟩
  have n1 : Nonempty (InputSet P) := ⟨⟨[], []⟩⟩
  have n2 : Nonempty (Statement P) := ⟨⟨params, ⟨[], []⟩, 0, []⟩⟩
  choose! f s hs using h1
  refine ⟨⟨f, l, k, t⟩, ⟨fun M J hM hJ k => ?_, fun M J hM hJ k => ?_, fun M J hM hJ k => ?_, fun M J hM hJ i k => ?_⟩, rfl, rfl, rfl,
    fun M J hM hJ k => ?_⟩
  · obtain ⟨a, b, c, d, e, g⟩ := hs M J k hM hJ
    exact ⟨_, _, _, hp, Or.inl ⟨_, a⟩, c⟩
  · exact (hs M J k hM hJ).2.2.2.1
  · exact (hs M J k hM hJ).2.2.2.2.2
  · obtain ⟨a, b, c, d, e, g⟩ := hs M J k hM hJ
    show (f M J k).inputSet.M[l i k]? = _
    rw [e, b]
    exact hl M i k
  · exact ⟨s M J k, (hs M J k hM hJ).1, (hs M J k hM hJ).2.2.1⟩

/-- A finite set of transcripts containing those of all signers. -/
theorem family_domain {ι κ γ : Type} [Fintype P] [Finite ι] [Finite γ] (E : Env F P) (params : Params P) (A : Family ι κ γ P) :
    ∃ S : Finset Transcript, ∀ i M J (r : F) g x, signTranscript E params (A.sts M J) (A.req i r g) x ∈ S := by
  have h : (Set.range fun y : ι × (ι → P) × P × F × γ × Coins F params.n params.m =>
    signTranscript E params (A.sts y.2.1 y.2.2.1) (A.req y.1 y.2.2.2.1 y.2.2.2.2.1) y.2.2.2.2.2).Finite := Set.finite_range _
  exact ⟨h.toFinset, fun i M J r g x => h.mem_toFinset.2 ⟨(i, M, J, r, g, x), rfl⟩⟩

/-- Two signers whose keys fill a ring of four, and a program that gets a signature by one of them. -/
theorem pair_exists [Fintype P] (E : Env F P) (params : Params P) (hp : ParamsBuilt E params) (hN : params.n ^ params.m = 4) :
    ∃ (A : Family Bool Unit Unit P) (S : Finset Transcript) (_ : Nonempty S)
    (c : (Bool → P) → P → SigningProgram S Block Unit (Option (Proof F P)) Bool), A.Built E params ∧ A.l false () ≠ A.l true () ∧
    (∀ i M J, (∀ j, M j ≠ 0) → J ≠ 0 → ∀ (r : F) g x, signTranscript E params (A.sts M J) (A.req i r g) x ∈ S) ∧
    ∀ M J, (c M J).AtMost 1 1 := by
  obtain ⟨A, hA, hl, -⟩ := C94_family (F := F) (γ := Unit) E params hp
    (fun (M : Bool → P) (_ : Unit) => [M false, M true, M true, M false])
    (fun i _ => if i then 1 else 0) id (fun _ => []) (fun M k => hN.symm) (fun M hM k h => by
      simp only [List.mem_cons, List.not_mem_nil, or_false] at h
      rcases h with h | h | h | h <;> exact hM _ h.symm) (fun M i k => by cases i <;> rfl)
  obtain ⟨S, hS⟩ := family_domain (F := F) E params A
  have hne : Nonempty S := ⟨⟨_, hS true (fun _ => 0) 0 0 () ⟨fun _ _ => 0, 0, 0, 0, 0, fun _ => 0⟩⟩⟩
  exact ⟨A, S, hne, fun M J => .ask (Classical.arbitrary S) fun b => .sign () fun p => .done (p.isSome && b = 0), hA,
    by rw [hl]; decide, fun i M J _ _ r g x => hS i M J r g x, fun M J => ⟨by norm_num, fun _ => ⟨by norm_num, fun _ => trivial⟩⟩⟩

/-- The hypotheses of `C94_anonymity` are met. -/
example : ∃ (A : Family Bool Unit Unit (ZMod 101)) (S : Finset Transcript) (_ : Nonempty S)
    (c : (Bool → ZMod 101) → ZMod 101 → SigningProgram S Block Unit (Option (Proof (ZMod 101) (ZMod 101))) Bool),
    (Toy.env 101).Lawful ∧ (Bijective fun x : ZMod 101 => x • Toy.params.G) ∧ Toy.params.U ≠ 0 ∧ Toy.params.CommitmentH ≠ 0 ∧
    A.Built (Toy.env 101) Toy.params ∧ A.l false () ≠ A.l true () ∧
    (∀ i M J, (∀ j, M j ≠ 0) → J ≠ 0 → ∀ (r : ZMod 101) g x,
      signTranscript (Toy.env 101) Toy.params (A.sts M J) (A.req i r g) x ∈ S) ∧ ∀ M J, (c M J).AtMost 1 1 := by
  have hp : ParamsBuilt (Toy.env 101) Toy.params := ⟨_, _, _, _, Toy.params_new⟩
  have hG : Toy.params.G ≠ 0 := by decide +kernel
  obtain ⟨A, S, hne, c, hA⟩ := pair_exists (F := ZMod 101) (Toy.env 101) Toy.params hp (by decide +kernel)
  exact ⟨A, S, hne, c, Toy.env_lawful 101 (by norm_num), ⟨fun x y h => mul_right_cancel₀ hG h,
    fun y => ⟨y / Toy.params.G, div_mul_cancel₀ y hG⟩⟩, by decide +kernel, by decide +kernel, hA⟩

local notation "ℓ" => (2 ^ 252 + 27742317777372353535851937790883648493 : ℕ)

theorem anonymity_ratio (q Q : ℕ) (N z : ℚ) (hz : 0 < z) (hN : z + 1 ≤ N) :
    2 * (q * (Q + q) / N + 1 / (N - 1)) ≤ (q * (Q + q) + 1) * (2 / z) := by
  have h1 : (q * (Q + q) : ℚ) / N ≤ q * (Q + q) / z := div_le_div_of_nonneg_left (by positivity) hz (by linarith)
  have h2 : 1 / (N - 1) ≤ 1 / z := div_le_div_of_nonneg_left zero_le_one hz (by linarith)
  have h3 : (q * (Q + q) + 1) * (2 / z) = 2 * (q * (Q + q) / z + 1 / z) := by ring
  rw [h3]
  linarith

/-- C94 for Ristretto: the difference is at most `(q (Q + q) + 1) / 2 ^ 251` plus the advantages of the two distinguishers for both
signers. -/
theorem C94_ristretto {P : Type} [AddCommGroup P] [Module (ZMod ℓ) P] [DecidableEq P] {ι κ γ : Type} [Fintype ι] [DecidableEq ι]
    [Fintype P] (E : Env (ZMod ℓ) P) (hE : E.Lawful) (S : Finset Transcript)
    [Nonempty S] (params : Params P) (hG : Bijective fun x : ZMod ℓ => x • params.G) (hU : params.U ≠ 0)
    (hH : params.CommitmentH ≠ 0) (A : Family ι κ γ P) (hA : A.Built E params)
    (hS : ∀ i M J, (∀ j, M j ≠ 0) → J ≠ 0 → ∀ (r : ZMod ℓ) g x, signTranscript E params (A.sts M J) (A.req i r g) x ∈ S)
    (c : (ι → P) → P → SigningProgram S Block γ (Option (Proof (ZMod ℓ) P)) Bool) (Q q : ℕ) (hc : ∀ M J, (c M J).AtMost Q q)
    (i i' : ι) :
    |anonymityGame (F := ZMod ℓ) E S params A c i - anonymityGame (F := ZMod ℓ) E S params A c i'| ≤
      (q * (Q + q) + 1) / 2 ^ 251 +
      |tagReal (ZMod ℓ) params.G params.U (tagDistinguisher (F := ZMod ℓ) E S params A c i) -
        tagRandom (ZMod ℓ) params.G (tagDistinguisher (F := ZMod ℓ) E S params A c i)| +
      |ddhReal (ZMod ℓ) params.G (ddhDistinguisher (F := ZMod ℓ) E S params A c i) -
        ddhRandom (ZMod ℓ) params.G (ddhDistinguisher (F := ZMod ℓ) E S params A c i)| +
      |tagReal (ZMod ℓ) params.G params.U (tagDistinguisher (F := ZMod ℓ) E S params A c i') -
        tagRandom (ZMod ℓ) params.G (tagDistinguisher (F := ZMod ℓ) E S params A c i')| +
      |ddhReal (ZMod ℓ) params.G (ddhDistinguisher (F := ZMod ℓ) E S params A c i') -
        ddhRandom (ZMod ℓ) params.G (ddhDistinguisher (F := ZMod ℓ) E S params A c i')| := by
  have h := C94_anonymity E hE S params hG hU hH A hA hS c Q q hc i i'
  rw [ZMod.card] at h
  have h1 : 2 * (q * (Q + q) / ((ℓ : ℕ) : ℚ) + 1 / (((ℓ : ℕ) : ℚ) - 1)) ≤ (q * (Q + q) + 1) / 2 ^ 251 := by
    have := anonymity_ratio q Q ((ℓ : ℕ) : ℚ) (2 ^ 252) (by norm_num) (by norm_num)
    refine this.trans (le_of_eq ?_)
    rw [div_eq_mul_inv _ ((2 : ℚ) ^ 251)]
    congr 1
    norm_num
  exact h.trans (by linarith)

/-- The hypotheses of `C94_ristretto` are met. -/
example : ∃ (A : Family Bool Unit Unit (ZMod ℓ)) (S : Finset Transcript) (_ : Nonempty S)
    (c : (Bool → ZMod ℓ) → ZMod ℓ → SigningProgram S Block Unit (Option (Proof (ZMod ℓ) (ZMod ℓ))) Bool),
    (Toy.env ℓ).Lawful ∧ (Bijective fun x : ZMod ℓ => x • Toy.Ristretto.params.G) ∧ Toy.Ristretto.params.U ≠ 0 ∧
    Toy.Ristretto.params.CommitmentH ≠ 0 ∧ A.Built (Toy.env ℓ) Toy.Ristretto.params ∧ A.l false () ≠ A.l true () ∧
    (∀ i M J, (∀ j, M j ≠ 0) → J ≠ 0 → ∀ (r : ZMod ℓ) g x,
      signTranscript (Toy.env ℓ) Toy.Ristretto.params (A.sts M J) (A.req i r g) x ∈ S) ∧ ∀ M J, (c M J).AtMost 1 1 := by
  have hp : ParamsBuilt (Toy.env ℓ) Toy.Ristretto.params := Toy.Ristretto.params_built
  have hG : Toy.Ristretto.params.G ≠ 0 := by decide +kernel
  have hU : Toy.Ristretto.params.U ≠ 0 := by decide +kernel
  have hH : Toy.Ristretto.params.CommitmentH ≠ 0 := by decide +kernel
  have hN : Toy.Ristretto.params.n ^ Toy.Ristretto.params.m = 4 := by decide +kernel
  have hE := Toy.env_lawful ℓ (by norm_num)
  generalize Toy.Ristretto.params = params at *
  obtain ⟨A, S, hne, c, hA⟩ := pair_exists (F := ZMod ℓ) (Toy.env ℓ) params hp hN
  exact ⟨A, S, hne, c, hE, ⟨fun x y h => mul_right_cancel₀ hG h,
    fun y => ⟨y / params.G, div_mul_cancel₀ y hG⟩⟩, hU, hH, hA⟩

end Triptych
