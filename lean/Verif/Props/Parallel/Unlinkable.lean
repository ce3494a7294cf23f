import Verif.Props.Unlinkable
import Verif.Props.Parallel.Anonymity

/-! # Unlinkability of tags and keys in parallel signatures: C112

Several honest signers have random keys, and some of them sign, each with its own linking tag. A program sees all verification keys, all
tags in an order of its choice, the keys of the signers that do not sign, and gets any number of signatures with each of the tags, for
rings and messages of its choice. It cannot tell which tag belongs to which verification key, beyond what the rings tell: two assignments
of signers to tags, both possible for the rings, are indistinguishable. -/
set_option autoImplicit false
set_option linter.unusedSectionVars false
set_option linter.unusedVariables false

namespace Triptych.Parallel
open Finset Function
open Triptych.Parallel.Spec
open Triptych.Spec (OracleProgram SigningProgram avg extend locate Block Block.bytes withOracle ddhReal ddhRandom tagReal tagRandom leaked)

variable {F P : Type} [Field F] [AddCommGroup P] [Module F P] [DecidableEq F] [DecidableEq P] [Fintype F]

/-! ## The experiment -/

/-- A family of statements with the verification keys of honest signers `ι` and `u` linking tags: `sts M T k` is the `k`-th statement
for the keys `M` and the tags `T`. Its tag is that with the number `slot k`. If the signer `i` has this tag, it signs at the position
`l i k` of the ring, and `r1 M T i k` opens the auxiliary key at this position. Anything else (the other keys, all auxiliary keys, the offset, the transcripts `t`, which of the statements are signed) is arbitrary. -/
structure Spec.Pool (u : ℕ) (ι κ γ F P : Type) where
  sts : (ι → P) → (Fin u → P) → κ → Statement P
  slot : κ → Fin u
  l : ι → κ → ℕ
  k : γ → κ
  t : γ → Transcript
  r1 : (ι → P) → (Fin u → P) → ι → κ → F

/-- If the `j`-th tag is that of the signer `own j`: for all non-zero keys and tags the statements are made by the library, with these
parameters and the right tags, and the signer's key is in the ring. -/
structure Spec.Pool.Built {u : ℕ} {ι κ γ : Type} (E : Env F P) (params : Params P) (A : Pool u ι κ γ F P) (own : Fin u → ι) : Prop where
  built : ∀ M T, (∀ i, M i ≠ 0) → (∀ j, T j ≠ 0) → ∀ k, StatementBuilt E (A.sts M T k)
  aux : ∀ M T, (∀ i, M i ≠ 0) → (∀ j, T j ≠ 0) → ∀ k, (A.sts M T k).inputSet.M1[A.l (own (A.slot k)) k]? =
    some (A.r1 M T (own (A.slot k)) k • params.G1 + (A.sts M T k).offset)
  params : ∀ M T, (∀ i, M i ≠ 0) → (∀ j, T j ≠ 0) → ∀ k, (A.sts M T k).params = params
  tag : ∀ M T, (∀ i, M i ≠ 0) → (∀ j, T j ≠ 0) → ∀ k, (A.sts M T k).J = T (A.slot k)
  key : ∀ M T, (∀ i, M i ≠ 0) → (∀ j, T j ≠ 0) → ∀ k, (A.sts M T k).inputSet.M[A.l (own (A.slot k)) k]? = some (M (own (A.slot k)))

/-- What the signers with the keys `r` are asked: the owner of the statement's tag signs. -/
def Spec.Pool.req {u : ℕ} {ι κ γ : Type} (A : Pool u ι κ γ F P) (own : Fin u → ι) (r : ι → F) (M : ι → P) (T : Fin u → P)
    (g : γ) : Request κ F :=
  ⟨A.k g, A.t g, A.l (own (A.slot (A.k g))) (A.k g), r (own (A.slot (A.k g))), A.r1 M T (own (A.slot (A.k g))) (A.k g)⟩

/-- The verification keys. -/
def Spec.vks {ι : Type} (params : Params P) (r : ι → Fˣ) (i : ι) : P := (r i).val • params.G

/-- The tags: the `j`-th is that of the signer `own j`. -/
def Spec.tagsOf {u : ℕ} {ι : Type} (params : Params P) (own : Fin u → ι) (r : ι → Fˣ) (j : Fin u) : P := (r (own j))⁻¹.val • params.U

section experiment
variable {u : ℕ} {ι κ γ α : Type} [Fintype ι] [DecidableEq ι] (E : Env F P) (S : Finset Transcript) [Nonempty S] (params : Params P)
  (A : Pool u ι κ γ F P) (L : Finset ι) (c : (ι → P) → (Fin u → P) → (ι → F) → SigningProgram S Block γ (Option (Proof F P)) α) (yes : α → Prop)

/-- The probability that the program `c`, which sees all verification keys, all tags and the keys of the signers in `L` and gets
signatures by the owners of the tags, gives an output in `yes`, for random keys of all signers and random challenges. -/
noncomputable def Spec.unlinkGame (own : Fin u → ι) : ℚ :=
  avg fun r : ι → Fˣ => avg fun O : S → Block =>
    (c (vks params r) (tagsOf params own r) (leaked L r)).withSigner
      (fun g => signPoint E S params (A.sts (vks params r) (tagsOf params own r)) (A.req own (fun i => (r i).val) (vks params r) (tagsOf params own r) g))
      (fun g => signAnswer E params (A.sts (vks params r) (tagsOf params own r)) (A.req own (fun i => (r i).val) (vks params r) (tagsOf params own r) g))
      (fun a _ _ => yes a) O []

/-- The probability that the program, run with the simulator that knows the signers' positions but not their keys, gives an output in `yes`. -/
noncomputable def Spec.keylessPool (own : Fin u → ι) (M : ι → P) (T : Fin u → P) (x : ι → F) : ℚ :=
  avg fun O : S → Block => (c M T x).withSimulator (fun g => simKeyless E S params (A.sts M T) (A.req own (fun _ => (0 : F)) M T g))
    (fun a _ _ => yes a) [] O

/-- Random tags up to the `k`-th, and the signers' own tags from there on. -/
def Spec.mixedTags (own : Fin u → ι) (r : ι → Fˣ) (a : Fin u → Fˣ) (k : ℕ) (j : Fin u) : P :=
  if j.val < k then (a j).val • params.G else (r (own j))⁻¹.val • params.U

/-- The program that distinguishes pairs `(K, J)` of a verification key and its tag from pairs of random elements: it takes `K` as the
verification key of the `k`-th tag's owner and `J` as the tag, for a random `k`, chooses all other keys, takes random elements as tags up
to the `k`-th, and runs `c` with the simulator. -/
noncomputable def Spec.tagMatcher (own : Fin u → ι) (K J : P) : ℚ :=
  avg fun k : Fin u => avg fun r : ι → Fˣ => avg fun a : Fin u → Fˣ =>
    keylessPool E S params A c yes own (update (vks params r) (own k) K) (update (mixedTags params own r a k) k J) (leaked L r)

/-- The simulator that knows the signer's position, working on a tuple `(J, Z, Y)` for each statement: it makes as many tuples as it needs
from it. -/
noncomputable def Spec.simTupleAt {κ : Type} (sts : κ → Statement P) (Z : P) (Y : κ → P) (x : Request κ F)
    (s : HybridCoins F params.n params.m × ((Fin (params.m - 1) → F) × (Fin (params.m - 1) → F))) (b : Block) :
    S × Option (Proof F P) :=
  program E S sts x b (hybrid params (sts x.k).inputSet.M (sts x.k).inputSet.M1 (sts x.k).offset (sts x.k).J x.l (E.scalarOfWide b.bytes) s.1
    (fun j => s.2.1 j • Y x.k + s.2.2 j • (sts x.k).J) (fun j => s.2.1 j • Z + s.2.2 j • params.G))

/-- The program that distinguishes Diffie-Hellman tuples: it chooses all keys, takes random multiples of the first element of the tuple
as tags, and runs `c` with the simulator on the tuple. -/
noncomputable def Spec.ddhMatcher (own : Fin u → ι) (J Z Y : P) : ℚ :=
  avg fun r : ι → Fˣ => avg fun b : Fin u → Fˣ => avg fun O : S → Block =>
    (c (vks params r) (fun j => (b j).val • J) (leaked L r)).withSimulator
      (fun g => simTupleAt E S params (A.sts (vks params r) fun j => (b j).val • J) Z (fun k => (b (A.slot k)).val • Y)
        (A.req own (fun _ => (0 : F)) (vks params r) (fun j => (b j).val • J) g)) (fun a _ _ => yes a) [] O

/-- The simulator that knows nothing. -/
noncomputable def nothingPool [Fintype P] (own : Fin u → ι) (M : ι → P) (T : Fin u → P) (x : ι → F) : ℚ :=
  avg fun O : S → Block => (c M T x).withSimulator (fun g => simNothing E S params (A.sts M T) (A.req own (fun _ => (0 : F)) M T g))
    (fun a _ _ => yes a) [] O

end experiment

/-! ## Randomizing tuples -/

section tuple
variable {κ γ α : Type} (E : Env F P) (S : Finset Transcript) [Nonempty S] (params : Params P) (sts : κ → Statement P)
  (req : γ → Request κ F) (win : α → List S → (S → Block) → Prop)
  (c : SigningProgram S Block γ (Option (Proof F P)) α) (used : List S) (O : S → Block)

theorem simTupleAt_real (ρ : F) (Y : κ → P) (hY : ∀ k, Y k = ρ • (sts k).J) :
    c.withSimulator (fun g => simTupleAt E S params sts (ρ • params.G) Y (req g)) win used O =
      c.withSimulator (fun g => simKeyless E S params sts (req g)) win used O := by
  refine withSimulator_congr (X := Fin (params.m - 1) → F) _ _ win (fun x b => ?_) c used O
  refine ⟨⟨fun s => ((s.1, fun j => s.2.1 j * ρ + s.2.2 j), s.2.1), fun y => (y.1.1, y.2, fun j => y.1.2 j - y.2 j * ρ),
    fun s => ?_, fun y => ?_⟩, fun s => ?_⟩
  · obtain ⟨h, a, b⟩ := s
    simp
  · obtain ⟨⟨h, v⟩, a⟩ := y
    simp
  · show simTupleAt E S params sts (ρ • params.G) Y (req x) s b =
      simKeyless E S params sts (req x) (s.1, fun j => s.2.1 j * ρ + s.2.2 j) b
    simp only [simTupleAt, simKeyless, hY, smul_smul, add_smul]

theorem simTupleAt_random [Fintype P] (hG : Bijective fun x : F => x • params.G) (ρ σ : F) (h : σ ≠ ρ) (Y : κ → P)
    (hY : ∀ k, Y k = σ • (sts k).J) :
    c.withSimulator (fun g => simTupleAt E S params sts (ρ • params.G) Y (req g)) win used O =
      c.withSimulator (fun g => simRandom E S params sts (req g)) win used O := by
  obtain ⟨φ, hφ⟩ : ∃ φ : F ≃ P, ∀ x, φ x = x • params.G := ⟨Equiv.ofBijective _ hG, fun _ => rfl⟩
  have hd : ρ - σ ≠ 0 := sub_ne_zero.2 h.symm
  refine withSimulator_congr (X := Unit) _ _ win (fun x b => ?_) c used O
  refine ⟨⟨fun s => (((s.1, fun j => s.2.1 j * σ + s.2.2 j), fun j => φ (s.2.1 j * ρ + s.2.2 j)), ()),
    fun y => (y.1.1.1, fun j => (φ.symm (y.1.2 j) - y.1.1.2 j) / (ρ - σ),
      fun j => y.1.1.2 j - (φ.symm (y.1.2 j) - y.1.1.2 j) / (ρ - σ) * σ), fun s => ?_, fun y => ?_⟩, fun s => ?_⟩
  · obtain ⟨h, a, b⟩ := s
    have e : ∀ j, (a j * ρ - a j * σ) / (ρ - σ) = a j := fun j => by
      rw [← mul_sub, mul_div_assoc, div_self hd, mul_one]
    simp [e]
  · obtain ⟨⟨⟨h, v⟩, w⟩, u⟩ := y
    have e : ∀ j, (φ.symm (w j) - v j) / (ρ - σ) * ρ + (v j - (φ.symm (w j) - v j) / (ρ - σ) * σ) = φ.symm (w j) :=
      fun j => by field_simp; ring
    simp [e]
  · show simTupleAt E S params sts (ρ • params.G) Y (req x) s b =
      simRandom E S params sts (req x) ((s.1, fun j => s.2.1 j * σ + s.2.2 j), fun j => φ (s.2.1 j * ρ + s.2.2 j)) b
    simp only [simTupleAt, simRandom, hY, smul_smul, add_smul, hφ]

end tuple

/-! ## The steps -/

theorem vks_ne {ι : Type} {params : Params P} (hG : params.G ≠ 0) (r : ι → Fˣ) (i : ι) : vks params r i ≠ 0 :=
  smul_ne_zero (r i).ne_zero hG

section steps
variable {u : ℕ} {ι κ γ α : Type} [Fintype ι] [DecidableEq ι] (E : Env F P) (S : Finset Transcript) [Nonempty S] (params : Params P)
  (A : Pool u ι κ γ F P) (L : Finset ι) (c : (ι → P) → (Fin u → P) → (ι → F) → SigningProgram S Block γ (Option (Proof F P)) α) (yes : α → Prop)

/-- Real signatures against the simulator that knows the signers' positions. -/
theorem keyless_pool (hE : E.Lawful) (hG : params.G ≠ 0) (hU : params.U ≠ 0) (hH : params.CommitmentH ≠ 0) (own : Fin u → ι)
    (hA : A.Built E params own)
    (hS : ∀ M T, (∀ i, M i ≠ 0) → (∀ j, T j ≠ 0) → ∀ (r : ι → F) g x, signTranscript E params (A.sts M T) (A.req own r M T g) x ∈ S)
    (Q q : ℕ) (hc : ∀ M T x, (c M T x).AtMost Q q) :
    |unlinkGame (F := F) E S params A L c yes own - avg fun r : ι → Fˣ => keylessPool (F := F) E S params A c yes own (vks params r)
      (tagsOf params own r) (leaked L r)| ≤ q * (Q + q) / Fintype.card F := by
  rw [unlinkGame, ← avg_sub]
  refine (avg_abs _).trans ((avg_mono _ (fun _ => q * (Q + q) / Fintype.card F) fun r => ?_).trans (le_of_eq (avg_const _)))
  have hM : ∀ j, vks params r j ≠ 0 := vks_ne hG r
  have hJ : ∀ j, tagsOf params own r j ≠ 0 := fun j => smul_ne_zero (r (own j))⁻¹.ne_zero hU
  have h := C72_keyless E hE S params hH (A.sts (vks params r) (tagsOf params own r)) (hA.built _ _ hM hJ)
    (hA.params _ _ hM hJ) (A.req own (fun i => (r i).val) (vks params r) (tagsOf params own r)) (fun g => ⟨hA.key _ _ hM hJ (A.k g), hA.aux _ _ hM hJ (A.k g), by
      rw [hA.tag _ _ hM hJ]
      show (r (own (A.slot (A.k g)))).val • (r (own (A.slot (A.k g))))⁻¹.val • params.U = params.U
      rw [smul_smul, Units.mul_inv, one_smul]⟩) (fun g x => hS _ _ hM hJ _ g x) (fun a _ _ => yes a)
    (c (vks params r) (tagsOf params own r) (leaked L r)) Q q (hc _ _ _)
  exact h

/-- The program with the simulator and random tags up to the `k`-th. -/
noncomputable def mixedGame (own : Fin u → ι) (k : ℕ) : ℚ :=
  avg fun r : ι → Fˣ => avg fun a : Fin u → Fˣ =>
    keylessPool (F := F) E S params A c yes own (vks params r) (mixedTags params own r a k) (leaked L r)

theorem vks_update (r : ι → Fˣ) (i : ι) (x : Fˣ) : vks params (update r i x) = update (vks params r) i (x.val • params.G) := by
  funext j
  by_cases h : j = i
  · subst h
    rw [vks, update_self, update_self]
  · rw [vks, update_of_ne h, update_of_ne h, vks]

/-- Which tags are random when the `k`-th pair is that of a random key. -/
theorem mixedTags_real (own : Fin u → ι) (hown : Injective own) (r : ι → Fˣ) (a : Fin u → Fˣ) (k : Fin u) (x : Fˣ) :
    mixedTags params own (update r (own k) x) a k = update (mixedTags params own r a k) k (x⁻¹.val • params.U) := by
  funext j
  by_cases h : j = k
  · subst h
    rw [mixedTags, if_neg (lt_irrefl _), update_self, update_self]
  · rw [mixedTags, update_of_ne h, mixedTags, update_of_ne (fun e => h (hown e))]

theorem mixedTags_random (own : Fin u → ι) (hown : Injective own) (r : ι → Fˣ) (a : Fin u → Fˣ) (k : Fin u) (x y : Fˣ) :
    mixedTags params own (update r (own k) x) (update a k y) (k.val + 1) = update (mixedTags params own r a k) k (y.val • params.G) := by
  funext j
  by_cases h : j = k
  · subst h
    rw [mixedTags, if_pos (Nat.lt_succ_self _), update_self, update_self]
  · have h1 : j.val < k.val + 1 ↔ j.val < k.val := ⟨fun h2 => by
      rcases Nat.lt_succ_iff_lt_or_eq.1 h2 with h3 | h3
      · exact h3
      · exact absurd (Fin.ext h3) h, fun h2 => h2.trans (Nat.lt_succ_self _)⟩
    rw [mixedTags, update_of_ne h, update_of_ne h, update_of_ne (fun e => h (hown e)), mixedTags]
    simp only [h1]

theorem mixedGame_real (own : Fin u → ι) (hown : Injective own) (hL : ∀ j, own j ∉ L) (k : Fin u) :
    (avg fun x : Fˣ => avg fun r : ι → Fˣ => avg fun a : Fin u → Fˣ => keylessPool (F := F) E S params A c yes own
      (update (vks params r) (own k) (x.val • params.G)) (update (mixedTags params own r a k) k (x⁻¹.val • params.U)) (leaked L r)) =
      mixedGame (F := F) E S params A L c yes own k := by
  rw [mixedGame, avg_update (own k)]
  simp only [leaked_update L _ _ (hL k), vks_update, mixedTags_real params own hown]

theorem mixedGame_random (own : Fin u → ι) (hown : Injective own) (hL : ∀ j, own j ∉ L) (k : Fin u) :
    (avg fun x : Fˣ => avg fun y : Fˣ => avg fun r : ι → Fˣ => avg fun a : Fin u → Fˣ => keylessPool (F := F) E S params A c yes own
      (update (vks params r) (own k) (x.val • params.G)) (update (mixedTags params own r a k) k (y.val • params.G)) (leaked L r)) =
      mixedGame (F := F) E S params A L c yes own (k.val + 1) := by
  rw [mixedGame, avg_update (own k)]
  congr 1
  funext x
  rw [avg_comm]
  congr 1
  funext r
  rw [avg_update k (fun a : Fin u → Fˣ => keylessPool (F := F) E S params A c yes own (vks params (update r (own k) x))
    (mixedTags params own (update r (own k) x) a (k.val + 1)) (leaked L (update r (own k) x)))]
  simp only [leaked_update L _ _ (hL k), vks_update, mixedTags_random params own hown]

theorem mixedGame_zero (own : Fin u → ι) :
    mixedGame (F := F) E S params A L c yes own 0 = avg fun r : ι → Fˣ => keylessPool (F := F) E S params A c yes own (vks params r)
      (tagsOf params own r) (leaked L r) := by
  rw [mixedGame]
  congr 1
  funext r
  have h : ∀ a : Fin u → Fˣ, mixedTags params own r a 0 = tagsOf params own r := fun a => funext fun j => if_neg (Nat.not_lt_zero _)
  simp only [h, avg_const]

theorem mixedGame_all (own : Fin u → ι) :
    mixedGame (F := F) E S params A L c yes own u = avg fun r : ι → Fˣ => avg fun a : Fin u → Fˣ =>
      keylessPool (F := F) E S params A c yes own (vks params r) (fun j => (a j).val • params.G) (leaked L r) := by
  rw [mixedGame]
  congr 1
  funext r
  congr 1
  funext a
  congr 1
  funext j
  exact if_pos j.2

/-- All tags against random ones: `u` times the advantage of `tagMatcher`. -/
theorem tags_step (own : Fin u → ι) (hown : Injective own) (hL : ∀ j, own j ∉ L) :
    mixedGame (F := F) E S params A L c yes own 0 - mixedGame (F := F) E S params A L c yes own u =
      u * (tagReal F params.G params.U (tagMatcher (F := F) E S params A L c yes own) -
        tagRandom F params.G (tagMatcher (F := F) E S params A L c yes own)) := by
  have h1 : tagReal F params.G params.U (tagMatcher (F := F) E S params A L c yes own) =
      avg fun k : Fin u => mixedGame (F := F) E S params A L c yes own k := by
    rw [tagReal]
    simp only [tagMatcher]
    rw [avg_comm]
    congr 1
    funext k
    exact mixedGame_real E S params A L c yes own hown hL k
  have h2 : tagRandom F params.G (tagMatcher (F := F) E S params A L c yes own) =
      avg fun k : Fin u => mixedGame (F := F) E S params A L c yes own (k.val + 1) := by
    rw [tagRandom]
    simp only [tagMatcher]
    have h3 : ∀ (f : Fˣ → Fˣ → Fin u → ℚ), (avg fun x => avg fun y => avg fun k => f x y k) = avg fun k => avg fun x => avg fun y => f x y k := by
      intro f
      rw [avg_comm (fun k x => avg fun y => f x y k)]
      congr 1
      funext x
      exact avg_comm _
    rw [h3]
    congr 1
    funext k
    exact mixedGame_random E S params A L c yes own hown hL k
  rw [h1, h2, ← avg_sub, avg, Fintype.card_fin]
  have h4 := Finset.sum_range_sub' (fun k => mixedGame (F := F) E S params A L c yes own k) u
  rw [← h4, ← Fin.sum_univ_eq_sum_range (fun k => mixedGame (F := F) E S params A L c yes own k - mixedGame (F := F) E S params A L c yes own (k + 1))]
  rcases Nat.eq_zero_or_pos u with h | h
  · subst h
    simp
  · rw [mul_div_cancel₀]
    exact_mod_cast h.ne'

theorem pool_ddhReal (hG : params.G ≠ 0) (own : Fin u → ι) (hA : A.Built E params own) :
    ddhReal F params.G (ddhMatcher (F := F) E S params A L c yes own) = mixedGame (F := F) E S params A L c yes own u := by
  rw [mixedGame_all, ddhReal]
  have h : ∀ a ρ : Fˣ, ddhMatcher (F := F) E S params A L c yes own (a.val • params.G) (ρ.val • params.G) (ρ.val • a.val • params.G) =
      avg fun r : ι → Fˣ => avg fun a : Fin u → Fˣ =>
        keylessPool (F := F) E S params A c yes own (vks params r) (fun j => (a j).val • params.G) (leaked L r) := by
    intro a ρ
    rw [ddhMatcher]
    congr 1
    funext r
    rw [← avg_scaled a (fun a : Fin u → Fˣ =>
        keylessPool (F := F) E S params A c yes own (vks params r) (fun j => (a j).val • params.G) (leaked L r))]
    congr 1
    funext b
    rw [keylessPool]
    congr 1
    funext O
    have hT : ∀ j, (b j).val • a.val • params.G ≠ 0 := fun j => smul_ne_zero (b j).ne_zero (smul_ne_zero a.ne_zero hG)
    rw [← scaled_tags]
    refine simTupleAt_real E S params _ _ _ _ _ _ ρ.val _ fun k => ?_
    rw [hA.tag _ _ (vks_ne hG r) hT, smul_smul, smul_smul, smul_smul, smul_smul]
    congr 1
    ring
  simp only [h, avg_const]

theorem pool_ddhRandom [Fintype P] (hG : Bijective fun x : F => x • params.G) (hG0 : params.G ≠ 0) (own : Fin u → ι)
    (hA : A.Built E params own) (R : ℚ)
    (hR : R = avg fun r : ι → Fˣ => avg fun a : Fin u → Fˣ => avg fun O : S → Block =>
      (c (vks params r) (fun j => (a j).val • params.G) (leaked L r)).withSimulator
        (fun g => simRandom E S params (A.sts (vks params r) fun j => (a j).val • params.G) (A.req own (fun _ => (0 : F)) (vks params r) (fun j => (a j).val • params.G) g))
        (fun a _ _ => yes a) [] O) :
    ddhRandom F params.G (ddhMatcher (F := F) E S params A L c yes own) =
      R + (mixedGame (F := F) E S params A L c yes own u - R) / Fintype.card Fˣ := by
  rw [ddhRandom]
  have h : ∀ a ρ : Fˣ, (avg fun y : Fˣ => ddhMatcher (F := F) E S params A L c yes own (a.val • params.G) (ρ.val • params.G)
        (y.val • params.G)) =
      avg fun σ : Fˣ => ddhMatcher (F := F) E S params A L c yes own (a.val • params.G) (ρ.val • params.G) (σ.val • a.val • params.G) := by
    intro a ρ
    refine avg_equiv (Equiv.mulRight a⁻¹) _ _ fun y => ?_
    rw [Equiv.coe_mulRight, smul_smul, ← Units.val_mul, mul_assoc, inv_mul_cancel, mul_one]
  simp only [h]
  have h' : ∀ a ρ : Fˣ, (avg fun σ : Fˣ => ddhMatcher (F := F) E S params A L c yes own (a.val • params.G) (ρ.val • params.G)
      (σ.val • a.val • params.G)) = R + (mixedGame (F := F) E S params A L c yes own u - R) / Fintype.card Fˣ := by
    intro a ρ
    have hT : ∀ b : Fin u → Fˣ, ∀ j, (b j).val • a.val • params.G ≠ 0 :=
      fun b j => smul_ne_zero (b j).ne_zero (smul_ne_zero a.ne_zero hG0)
    refine avg_except _ _ ρ _ ?_ fun σ hσ => ?_
    · rw [ddhMatcher, mixedGame_all]
      congr 1
      funext r
      rw [← avg_scaled a (fun a : Fin u → Fˣ =>
        keylessPool (F := F) E S params A c yes own (vks params r) (fun j => (a j).val • params.G) (leaked L r))]
      congr 1
      funext b
      rw [keylessPool]
      congr 1
      funext O
      rw [← scaled_tags]
      refine simTupleAt_real E S params _ _ _ _ _ _ ρ.val _ fun k => ?_
      rw [hA.tag _ _ (vks_ne hG0 r) (hT b), smul_smul, smul_smul, smul_smul, smul_smul]
      congr 1
      ring
    · rw [hR, ddhMatcher]
      congr 1
      funext r
      rw [← avg_scaled a (fun a : Fin u → Fˣ => avg fun O : S → Block =>
        (c (vks params r) (fun j => (a j).val • params.G) (leaked L r)).withSimulator
        (fun g => simRandom E S params (A.sts (vks params r) fun j => (a j).val • params.G) (A.req own (fun _ => (0 : F)) (vks params r) (fun j => (a j).val • params.G) g))
        (fun a _ _ => yes a) [] O)]
      congr 1
      funext b
      congr 1
      funext O
      rw [← scaled_tags]
      refine simTupleAt_random E S params _ _ _ _ _ _ hG ρ.val σ.val (fun h => hσ (Units.ext h)) _ fun k => ?_
      rw [hA.tag _ _ (vks_ne hG0 r) (hT b), smul_smul, smul_smul, smul_smul, smul_smul]
      congr 1
      ring
  simp only [h', avg_const]

/-- Signatures by the owners of the tags against what depends on no owner. -/
theorem pool_step [Fintype P] (hE : E.Lawful) (hG : Bijective fun x : F => x • params.G) (hG1 : params.G1 ≠ 0) (hU : params.U ≠ 0)
    (hH : params.CommitmentH ≠ 0) (own : Fin u → ι) (hown : Injective own) (hL : ∀ j, own j ∉ L) (hA : A.Built E params own)
    (hS : ∀ M T, (∀ i, M i ≠ 0) → (∀ j, T j ≠ 0) → ∀ (r : ι → F) g x, signTranscript E params (A.sts M T) (A.req own r M T g) x ∈ S)
    (Q q : ℕ) (hc : ∀ M T x, (c M T x).AtMost Q q) :
    |unlinkGame (F := F) E S params A L c yes own - avg fun r : ι → Fˣ => avg fun a : Fin u → Fˣ =>
      nothingPool (F := F) E S params A c yes own (vks params r) (fun j => (a j).val • params.G) (leaked L r)| ≤
      (q * (Q + q) / Fintype.card F + 1 / (Fintype.card F - 1)) +
      u * |tagReal F params.G params.U (tagMatcher (F := F) E S params A L c yes own) -
        tagRandom F params.G (tagMatcher (F := F) E S params A L c yes own)| +
      |ddhReal F params.G (ddhMatcher (F := F) E S params A L c yes own) -
        ddhRandom F params.G (ddhMatcher (F := F) E S params A L c yes own)| := by
  have hG0 : params.G ≠ 0 := by
    intro h0
    have := hG.1 (a₁ := 0) (a₂ := 1) (by simp [h0])
    exact zero_ne_one this
  have hF : (0 : ℚ) < Fintype.card Fˣ := by exact_mod_cast Fintype.card_pos
  have h1 := keyless_pool E S params A L c yes hE hG0 hU hH own hA hS Q q hc
  rw [← mixedGame_zero] at h1
  have h2 : ∀ (r : ι → Fˣ) (a : Fin u → Fˣ), (avg fun O : S → Block =>
      (c (vks params r) (fun j => (a j).val • params.G) (leaked L r)).withSimulator
        (fun g => simRandom E S params (A.sts (vks params r) fun j => (a j).val • params.G) (A.req own (fun _ => (0 : F)) (vks params r) (fun j => (a j).val • params.G) g))
        (fun a _ _ => yes a) [] O) =
      nothingPool (F := F) E S params A c yes own (vks params r) (fun j => (a j).val • params.G) (leaked L r) := by
    intro r a
    have hM : ∀ j, vks params r j ≠ 0 := vks_ne hG0 r
    have hJ : ∀ j, (a j).val • params.G ≠ 0 := fun j => smul_ne_zero (a j).ne_zero hG0
    have hgen : MaskGenerates F params := by
      intro g _
      obtain ⟨x, hx⟩ := hG.2 params.CommitmentH
      obtain ⟨y, hy⟩ := hG.2 g
      simp only at hx hy
      have hx0 : x ≠ 0 := by
        rintro rfl
        exact hH (by rw [← hx, zero_smul])
      exact ⟨y / x, by rw [← hx, ← hy, smul_smul, div_mul_cancel₀ y hx0]⟩
    have hgen1 : Generates F params.G1 := by
      intro y
      obtain ⟨x, hx⟩ := hG.2 params.G1
      obtain ⟨y, rfl⟩ := hG.2 y
      simp only at hx ⊢
      have hx0 : x ≠ 0 := by
        rintro rfl
        exact hG1 (by rw [← hx, zero_smul])
      exact ⟨y / x, by rw [← hx, smul_smul, div_mul_cancel₀ y hx0]⟩
    rw [nothingPool]
    congr 1
    funext O
    refine C72_random E S params hgen hgen1 _ (hA.built _ _ hM hJ) (hA.params _ _ hM hJ) _ (fun g => ?_) _ _ _ _
    have h3 := (hA.built _ _ hM hJ (A.k g)).ok.length
    rw [hA.params _ _ hM hJ] at h3
    rw [← h3]
    exact (List.getElem?_eq_some_iff.1 (hA.key _ _ hM hJ (A.k g))).1
  obtain ⟨R, hR⟩ : ∃ R, R = avg fun r : ι → Fˣ => avg fun a : Fin u → Fˣ =>
      nothingPool (F := F) E S params A c yes own (vks params r) (fun j => (a j).val • params.G) (leaked L r) := ⟨_, rfl⟩
  have h3 := pool_ddhRandom E S params A L c yes hG hG0 own hA R (by simp only [h2]; exact hR)
  have h4 := pool_ddhReal E S params A L c yes hG0 own hA
  have h5 := tags_step E S params A L c yes own hown hL
  have hR1 : 0 ≤ R ∧ R ≤ 1 := by
    rw [hR]
    constructor
    · exact avg_nonneg _ fun a => avg_nonneg _ fun r => avg_nonneg _ fun O => (SigningProgram.withSimulator_mem _ _ _ _ _).1
    · exact avg_le_one _ fun a => avg_le_one _ fun r => avg_le_one _ fun O => (SigningProgram.withSimulator_mem _ _ _ _ _).2
  have hK1 : 0 ≤ mixedGame (F := F) E S params A L c yes own u ∧ mixedGame (F := F) E S params A L c yes own u ≤ 1 := by
    constructor
    · exact avg_nonneg _ fun a => avg_nonneg _ fun r => avg_nonneg _ fun O => (SigningProgram.withSimulator_mem _ _ _ _ _).1
    · exact avg_le_one _ fun a => avg_le_one _ fun r => avg_le_one _ fun O => (SigningProgram.withSimulator_mem _ _ _ _ _).2
  have h6 : (Fintype.card Fˣ : ℚ) = Fintype.card F - 1 := by rw [Fintype.card_units, Nat.cast_sub Fintype.card_pos, Nat.cast_one]
  rw [← hR, h3, h4]
  rw [h6] at hF ⊢
  have h7 := step_bound _ _ _ _ _ _ hF h1 hR1 hK1
  rw [h5, abs_mul, Nat.abs_cast] at h7
  exact h7

end steps

/-- C112: let the honest signers `ι` have random keys, in a group of prime order, and let `own` and `own'` be two assignments of different
signers to `u` linking tags. A program that sees all verification keys, all tags and the signing keys of any signers `L` that own no tag,
asks for at most `Q` challenges and gets at most `q` signatures by the owners of the tags, for statements whose rings contain the keys of
the owners in both cases, gives an output with some property with nearly the same probability in both cases. The difference is at most twice
`q (Q + q) / order + 1 / (order - 1)`, plus, for both assignments, `u` times the advantage of `tagMatcher` in telling linking tags from
random elements and the advantage of `ddhMatcher` in telling Diffie-Hellman tuples from random ones. Both run the program once, and know
only what they choose themselves. -/
theorem C112_unlinkable {u : ℕ} {ι κ γ α : Type} [Fintype ι] [DecidableEq ι] [Fintype P] (E : Env F P) (hE : E.Lawful) (S : Finset Transcript)
    [Nonempty S] (params : Params P) (hG : Bijective fun x : F => x • params.G) (hG1 : params.G1 ≠ 0) (hU : params.U ≠ 0) (hH : params.CommitmentH ≠ 0)
    (A : Pool u ι κ γ F P) (L : Finset ι) (own own' : Fin u → ι) (hown : Injective own) (hown' : Injective own') (hL : ∀ j, own j ∉ L)
    (hL' : ∀ j, own' j ∉ L) (hA : A.Built E params own) (hA' : A.Built E params own')
    (hS : ∀ own M T, (∀ i, M i ≠ 0) → (∀ j, T j ≠ 0) → ∀ (r : ι → F) g x, signTranscript E params (A.sts M T) (A.req own r M T g) x ∈ S)
    (c : (ι → P) → (Fin u → P) → (ι → F) → SigningProgram S Block γ (Option (Proof F P)) α) (yes : α → Prop) (Q q : ℕ)
    (hc : ∀ M T x, (c M T x).AtMost Q q) :
    |unlinkGame (F := F) E S params A L c yes own - unlinkGame (F := F) E S params A L c yes own'| ≤
      2 * (q * (Q + q) / Fintype.card F + 1 / (Fintype.card F - 1)) +
      (u * |tagReal F params.G params.U (tagMatcher (F := F) E S params A L c yes own) -
        tagRandom F params.G (tagMatcher (F := F) E S params A L c yes own)| +
      |ddhReal F params.G (ddhMatcher (F := F) E S params A L c yes own) -
        ddhRandom F params.G (ddhMatcher (F := F) E S params A L c yes own)|) +
      (u * |tagReal F params.G params.U (tagMatcher (F := F) E S params A L c yes own') -
        tagRandom F params.G (tagMatcher (F := F) E S params A L c yes own')| +
      |ddhReal F params.G (ddhMatcher (F := F) E S params A L c yes own') -
        ddhRandom F params.G (ddhMatcher (F := F) E S params A L c yes own')|) := by
  have h1 := pool_step E S params A L c yes hE hG hG1 hU hH own hown hL hA (hS own) Q q hc
  have h2 := pool_step E S params A L c yes hE hG hG1 hU hH own' hown' hL' hA' (hS own') Q q hc
  have h3 : ∀ M T x, nothingPool (F := F) E S params A c yes own M T x = nothingPool (F := F) E S params A c yes own' M T x := fun M T x => rfl
  simp only [h3] at h1
  rw [abs_sub_comm] at h2
  refine (abs_sub_le _ _ _).trans ((add_le_add h1 h2).trans ?_)
  linarith

open Classical in
/-- C112 for guesses: the assignment of signers to tags is one of `own ω`, drawn at random. The program gives an output that is right, for
a notion of being right for which no output is right for more than `h` of the assignments, with at most the probability `h` divided by
their number, that of guessing blindly, plus error terms and the advantages of `tagMatcher` and `ddhMatcher`, on average over the
assignments. -/
theorem C112_guess {u : ℕ} {ι κ γ α Ω : Type} [Fintype ι] [DecidableEq ι] [Fintype P] [Fintype Ω] [Nonempty Ω] (E : Env F P) (hE : E.Lawful)
    (S : Finset Transcript) [Nonempty S] (params : Params P) (hG : Bijective fun x : F => x • params.G) (hG1 : params.G1 ≠ 0) (hU : params.U ≠ 0)
    (hH : params.CommitmentH ≠ 0) (A : Pool u ι κ γ F P) (L : Finset ι) (own : Ω → Fin u → ι) (hown : ∀ ω, Injective (own ω))
    (hL : ∀ ω j, own ω j ∉ L) (hA : ∀ ω, A.Built E params (own ω))
    (hS : ∀ own M T, (∀ i, M i ≠ 0) → (∀ j, T j ≠ 0) → ∀ (r : ι → F) g x, signTranscript E params (A.sts M T) (A.req own r M T g) x ∈ S)
    (c : (ι → P) → (Fin u → P) → (ι → F) → SigningProgram S Block γ (Option (Proof F P)) α) (right : Ω → α → Prop) (h : ℕ)
    (hright : ∀ a, #{ω | right ω a} ≤ h) (Q q : ℕ) (hc : ∀ M T x, (c M T x).AtMost Q q) :
    (avg fun ω => unlinkGame (F := F) E S params A L c (right ω) (own ω)) ≤
      h / Fintype.card Ω + (q * (Q + q) / Fintype.card F + 1 / (Fintype.card F - 1)) + avg fun ω =>
      (u * |tagReal F params.G params.U (tagMatcher (F := F) E S params A L c (right ω) (own ω)) -
        tagRandom F params.G (tagMatcher (F := F) E S params A L c (right ω) (own ω))| +
      |ddhReal F params.G (ddhMatcher (F := F) E S params A L c (right ω) (own ω)) -
        ddhRandom F params.G (ddhMatcher (F := F) E S params A L c (right ω) (own ω))|) := by
  have hG0 : params.G ≠ 0 := by
    intro h0
    have := hG.1 (a₁ := 0) (a₂ := 1) (by simp [h0])
    exact zero_ne_one this
  obtain ⟨ω₀⟩ := ‹Nonempty Ω›
  have h1 : ∀ ω, unlinkGame (F := F) E S params A L c (right ω) (own ω) ≤
      (avg fun r : ι → Fˣ => avg fun a : Fin u → Fˣ =>
        nothingPool (F := F) E S params A c (right ω) (own ω₀) (vks params r) (fun j => (a j).val • params.G) (leaked L r)) +
      ((q * (Q + q) / Fintype.card F + 1 / (Fintype.card F - 1)) +
      (u * |tagReal F params.G params.U (tagMatcher (F := F) E S params A L c (right ω) (own ω)) -
        tagRandom F params.G (tagMatcher (F := F) E S params A L c (right ω) (own ω))| +
      |ddhReal F params.G (ddhMatcher (F := F) E S params A L c (right ω) (own ω)) -
        ddhRandom F params.G (ddhMatcher (F := F) E S params A L c (right ω) (own ω))|)) := by
    intro ω
    have h2 := pool_step E S params A L c (right ω) hE hG hG1 hU hH (own ω) (hown ω) (hL ω) (hA ω) (hS _) Q q hc
    have h3 : ∀ M T x, nothingPool (F := F) E S params A c (right ω) (own ω) M T x =
      nothingPool (F := F) E S params A c (right ω) (own ω₀) M T x := fun M T x => rfl
    simp only [h3] at h2
    have h4 := (abs_le.1 h2).2
    linarith
  have h5 : (avg fun ω => avg fun r : ι → Fˣ => avg fun a : Fin u → Fˣ =>
      nothingPool (F := F) E S params A c (right ω) (own ω₀) (vks params r) (fun j => (a j).val • params.G) (leaked L r)) ≤
      h / Fintype.card Ω := by
    have hP : Nonempty P := ⟨0⟩
    rw [avg_comm]
    refine (avg_mono _ (fun _ => (h : ℚ) / Fintype.card Ω) fun r => ?_).trans (le_of_eq (avg_const _))
    rw [avg_comm]
    refine (avg_mono _ (fun _ => (h : ℚ) / Fintype.card Ω) fun a => ?_).trans (le_of_eq (avg_const _))
    simp only [nothingPool]
    rw [avg_comm]
    refine (avg_mono _ (fun _ => (h : ℚ) / Fintype.card Ω) fun O => ?_).trans (le_of_eq (avg_const _))
    have hs : Nonempty (SimCoins F params.n params.m) := inferInstance
    refine withSimulator_guess _ right _ (fun a => ?_) _ _ _
    rw [avg_ind']
    exact div_le_div_of_nonneg_right (by exact_mod_cast hright a) (by positivity)
  refine (avg_mono _ _ h1).trans ?_
  rw [avg_add, avg_add, avg_const]
  linarith

/-- C112: statements for rings, auxiliary keys and offsets chosen in any way, depending on the keys and tags, such that each owner knows an
opening, are such a family. -/
theorem C112_pool {u : ℕ} {ι κ γ Ω : Type} (E : Env F P) (params : Params P) (hp : ParamsBuilt E params)
    (ring ring1 : (ι → P) → (Fin u → P) → κ → List P) (offset : (ι → P) → (Fin u → P) → κ → P) (slot : κ → Fin u) (l : ι → κ → ℕ)
    (k : γ → κ) (t : γ → Transcript) (r1 : (ι → P) → (Fin u → P) → ι → κ → F)
    (hlen : ∀ M T k, (ring M T k).length = params.n ^ params.m) (hlen1 : ∀ M T k, (ring1 M T k).length = params.n ^ params.m)
    (hnz : ∀ M T, (∀ i, M i ≠ 0) → (∀ j, T j ≠ 0) → ∀ k, 0 ∉ ring M T k)
    (hnz1 : ∀ M T, (∀ i, M i ≠ 0) → (∀ j, T j ≠ 0) → ∀ k, offset M T k ∉ ring1 M T k)
    (own : Ω → Fin u → ι) (hl : ∀ ω M T k, (ring M T k)[l (own ω (slot k)) k]? = some (M (own ω (slot k))))
    (hl1 : ∀ ω M T k, (ring1 M T k)[l (own ω (slot k)) k]? = some (r1 M T (own ω (slot k)) k • params.G1 + offset M T k)) :
    ∃ A : Pool u ι κ γ F P, (∀ ω, A.Built E params (own ω)) ∧ A.slot = slot ∧ A.l = l ∧ A.k = k ∧ A.t = t ∧ A.r1 = r1 ∧
      ∀ M T, (∀ i, M i ≠ 0) → (∀ j, T j ≠ 0) → ∀ k, ∃ s, InputSet.new E (ring M T k) (ring1 M T k) = .ok s ∧
        Statement.new E params s (offset M T k) (T (slot k)) = .ok (A.sts M T k) := by
  have hN : params.n ^ params.m < 2 ^ 32 := by have := hp.ok.N; rw [u32Max] at this; omega
  have h1 : ∀ M T k, (∀ i, M i ≠ 0) → (∀ j, T j ≠ 0) → ∃ st s, InputSet.new E (ring M T k) (ring1 M T k) = .ok s ∧ s.M = ring M T k ∧
      s.M1 = ring1 M T k ∧ Statement.new E params s (offset M T k) (T (slot k)) = .ok st ∧ st.params = params ∧ st.inputSet = s ∧
      st.offset = offset M T k ∧ st.J = T (slot k) := by
    intro M T k hM hT
    obtain ⟨s, hs, hsM, hsM1⟩ := (C46_input_set_new E (ring M T k) (ring1 M T k)).2.2 (by rw [hlen, hlen1]) (by rw [hlen]; exact hN)
    obtain ⟨st, h1, h2, h3, h4, h5⟩ := (C46_statement_new E params s (offset M T k) (T (slot k)) hp).2.2 (by rw [hsM, hlen])
      (by rw [hsM]; exact hnz M T hM hT k) (by rw [hsM1]; exact hnz1 M T hM hT k)
    exact ⟨st, s, hs, hsM, hsM1, h1, h2, h3, h4, h5⟩
  have n1 : Nonempty (InputSet P) := ⟨⟨[], [], []⟩⟩
  have n2 : Nonempty (Statement P) := ⟨⟨params, ⟨[], [], []⟩, 0, 0, []⟩⟩
  choose! f s hs using h1
  refine ⟨⟨f, slot, l, k, t, r1⟩, fun ω => ⟨fun M T hM hT k => ?_, fun M T hM hT k => ?_, fun M T hM hT k => ?_, fun M T hM hT k => ?_,
    fun M T hM hT k => ?_⟩, rfl, rfl, rfl, rfl, rfl, fun M T hM hT k => ?_⟩
  · obtain ⟨a, b, b1, c, d, e, g, g1⟩ := hs M T k hM hT
    exact ⟨_, _, _, _, hp, Or.inl ⟨_, _, a⟩, c⟩
  · obtain ⟨a, b, b1, c, d, e, g, g1⟩ := hs M T k hM hT
    show (f M T k).inputSet.M1[l (own ω (slot k)) k]? = some (r1 M T (own ω (slot k)) k • params.G1 + (f M T k).offset)
    rw [e, b1, g]
    exact hl1 ω M T k
  · exact (hs M T k hM hT).2.2.2.2.1
  · exact (hs M T k hM hT).2.2.2.2.2.2.2
  · obtain ⟨a, b, b1, c, d, e, g, g1⟩ := hs M T k hM hT
    show (f M T k).inputSet.M[l (own ω (slot k)) k]? = _
    rw [e, b]
    exact hl ω M T k
  · exact ⟨s M T k, (hs M T k hM hT).1, (hs M T k hM hT).2.2.2.1⟩

/-- A finite set of transcripts containing those of all signers. -/
theorem pool_domain {u : ℕ} {ι κ γ : Type} [Fintype P] [Finite ι] [Finite γ] (E : Env F P) (params : Params P) (A : Pool u ι κ γ F P) :
    ∃ S : Finset Transcript, ∀ own M T (r : ι → F) g x, signTranscript E params (A.sts M T) (A.req own r M T g) x ∈ S := by
  have h : (Set.range fun y : (Fin u → ι) × (ι → P) × (Fin u → P) × (ι → F) × γ × Coins F params.n params.m =>
    signTranscript E params (A.sts y.2.1 y.2.2.1) (A.req y.1 y.2.2.2.1 y.2.1 y.2.2.1 y.2.2.2.2.1) y.2.2.2.2.2).Finite := Set.finite_range _
  exact ⟨h.toFinset, fun own M T r g x => h.mem_toFinset.2 ⟨(own, M, T, r, g, x), rfl⟩⟩

/-- Three signers whose keys are in a ring of four, two of which sign; a program that gets a signature with each tag and guesses the owner
of the first one. -/
theorem matching_exists [Fintype P] (E : Env F P) (params : Params P) (hp : ParamsBuilt E params) (hG1 : params.G1 ≠ 0)
    (hN : params.n ^ params.m = 4) :
    ∃ (A : Pool 2 (Fin 3) (Fin 2) (Fin 2) F P) (S : Finset Transcript) (_ : Nonempty S)
    (c : (Fin 3 → P) → (Fin 2 → P) → (Fin 3 → F) → SigningProgram S Block (Fin 2) (Option (Proof F P)) (Fin 3)),
    (∀ ω : Bool, A.Built E params (if ω then ![0, 1] else ![1, 0])) ∧ A.slot = id ∧ (∀ k, A.l 0 k ≠ A.l 1 k) ∧
    (∀ own M T, (∀ i, M i ≠ 0) → (∀ j, T j ≠ 0) → ∀ (r : Fin 3 → F) g x, signTranscript E params (A.sts M T) (A.req own r M T g) x ∈ S) ∧
    ∀ M T x, (c M T x).AtMost 1 2 := by
  obtain ⟨A, hA, hs, hl, -⟩ := C112_pool (F := F) (γ := Fin 2) E params hp
    (fun (M : Fin 3 → P) (_ : Fin 2 → P) (_ : Fin 2) => [M 0, M 1, M 2, M 2])
    (fun M _ _ => [params.G1 + M 2, params.G1 + M 2, params.G1 + M 2, params.G1 + M 2]) (fun M _ _ => M 2)
    id (fun i _ => i.val) id (fun _ => []) (fun _ _ _ _ => 1) (fun M T k => hN.symm) (fun M T k => hN.symm) (fun M T hM hT k h => by
      simp only [List.mem_cons, List.not_mem_nil, or_false] at h
      rcases h with h | h | h | h <;> exact hM _ h.symm) (fun M T hM hT k h => by
      simp only [List.mem_cons, List.not_mem_nil, or_false, right_eq_add, or_self] at h
      exact hG1 h) (fun ω : Bool => if ω then ![0, 1] else ![1, 0])
    (fun ω M T k => by cases ω <;> fin_cases k <;> rfl)
    (fun ω M T k => by rw [one_smul]; cases ω <;> fin_cases k <;> rfl)
  obtain ⟨S, hS⟩ := pool_domain (F := F) E params A
  have hne : Nonempty S := ⟨⟨_, hS (fun _ => 0) (fun _ => 0) (fun _ => 0) (fun _ => 0) 0 ⟨fun _ _ => 0, 0, 0, 0, 0, fun _ => 0, fun _ => 0⟩⟩⟩
  exact ⟨A, S, hne, fun M J x => .ask (Classical.arbitrary S) fun b => .sign 0 fun p => .sign 1 fun p' =>
      .done (if p.isSome && p'.isSome && b = 0 then 0 else 1), hA, hs, fun k => by rw [hl]; exact zero_ne_one,
    fun own M T _ _ r g x => hS own M T r g x,
    fun M T x => ⟨by norm_num, fun _ => ⟨by norm_num, fun _ => ⟨by norm_num, fun _ => trivial⟩⟩⟩⟩

/-- The hypotheses of `C112_unlinkable` (for the assignments with `ω = true` and `ω = false`) and of `C112_guess` are met, with the key of
the third signer leaked: each guess of the first tag's owner is right for at most one of two assignments. -/
example : ∃ (A : Pool 2 (Fin 3) (Fin 2) (Fin 2) (ZMod 101) (ZMod 101)) (S : Finset Transcript) (_ : Nonempty S)
    (c : (Fin 3 → ZMod 101) → (Fin 2 → ZMod 101) → (Fin 3 → ZMod 101) →
      SigningProgram S Block (Fin 2) (Option (Proof (ZMod 101) (ZMod 101))) (Fin 3)) (own : Bool → Fin 2 → Fin 3),
    (Triptych.Toy.env 101).Lawful ∧ (Bijective fun x : ZMod 101 => x • Toy.params.G) ∧ Toy.params.G1 ≠ 0 ∧ Toy.params.U ≠ 0 ∧ Toy.params.CommitmentH ≠ 0 ∧
    (∀ ω, A.Built (Triptych.Toy.env 101) Toy.params (own ω)) ∧ (∀ ω, Injective (own ω)) ∧ (∀ ω j, own ω j ∉ ({2} : Finset (Fin 3))) ∧
    own true ≠ own false ∧
    (∀ own M T, (∀ i, M i ≠ 0) → (∀ j, T j ≠ 0) → ∀ (r : Fin 3 → ZMod 101) g x,
      signTranscript (Triptych.Toy.env 101) Toy.params (A.sts M T) (A.req own r M T g) x ∈ S) ∧ (∀ M T x, (c M T x).AtMost 1 2) ∧
    ∀ a, #{ω | a = own ω 0} ≤ 1 := by
  have hp : ParamsBuilt (Triptych.Toy.env 101) Toy.params := ⟨_, _, _, _, _, Toy.params_new⟩
  have hG : Toy.params.G ≠ 0 := by decide +kernel
  obtain ⟨A, S, hne, c, hA, hs, hl, h1, h2⟩ := matching_exists (F := ZMod 101) (Triptych.Toy.env 101) Toy.params hp (by decide +kernel) (by decide +kernel)
  refine ⟨A, S, hne, c, fun ω => if ω then ![0, 1] else ![1, 0], Triptych.Toy.env_lawful 101 (by norm_num), ⟨fun x y h => mul_right_cancel₀ hG h,
    fun y => ⟨y / Toy.params.G, div_mul_cancel₀ y hG⟩⟩, by decide +kernel, by decide +kernel, by decide +kernel, hA, by decide, by decide, by decide, h1, h2,
    by decide⟩

local notation "ℓ" => (2 ^ 252 + 27742317777372353535851937790883648493 : ℕ)

/-- C112 for Ristretto: the difference is at most `(q (Q + q) + 1) / 2 ^ 251` plus, for both assignments, `u` times the advantage of
`tagMatcher` and the advantage of `ddhMatcher`. -/
theorem C112_ristretto {P : Type} [AddCommGroup P] [Module (ZMod ℓ) P] [DecidableEq P] {u : ℕ} {ι κ γ α : Type} [Fintype ι] [DecidableEq ι]
    [Fintype P] (E : Env (ZMod ℓ) P) (hE : E.Lawful) (S : Finset Transcript)
    [Nonempty S] (params : Params P) (hG : Bijective fun x : ZMod ℓ => x • params.G) (hG1 : params.G1 ≠ 0) (hU : params.U ≠ 0) (hH : params.CommitmentH ≠ 0)
    (A : Pool u ι κ γ (ZMod ℓ) P) (L : Finset ι) (own own' : Fin u → ι) (hown : Injective own) (hown' : Injective own') (hL : ∀ j, own j ∉ L)
    (hL' : ∀ j, own' j ∉ L) (hA : A.Built E params own) (hA' : A.Built E params own')
    (hS : ∀ own M T, (∀ i, M i ≠ 0) → (∀ j, T j ≠ 0) → ∀ (r : ι → ZMod ℓ) g x, signTranscript E params (A.sts M T) (A.req own r M T g) x ∈ S)
    (c : (ι → P) → (Fin u → P) → (ι → ZMod ℓ) → SigningProgram S Block γ (Option (Proof (ZMod ℓ) P)) α) (yes : α → Prop) (Q q : ℕ)
    (hc : ∀ M T x, (c M T x).AtMost Q q) :
    |unlinkGame (F := ZMod ℓ) E S params A L c yes own - unlinkGame (F := ZMod ℓ) E S params A L c yes own'| ≤
      (q * (Q + q) + 1) / 2 ^ 251 +
      (u * |tagReal (ZMod ℓ) params.G params.U (tagMatcher (F := ZMod ℓ) E S params A L c yes own) -
        tagRandom (ZMod ℓ) params.G (tagMatcher (F := ZMod ℓ) E S params A L c yes own)| +
      |ddhReal (ZMod ℓ) params.G (ddhMatcher (F := ZMod ℓ) E S params A L c yes own) -
        ddhRandom (ZMod ℓ) params.G (ddhMatcher (F := ZMod ℓ) E S params A L c yes own)|) +
      (u * |tagReal (ZMod ℓ) params.G params.U (tagMatcher (F := ZMod ℓ) E S params A L c yes own') -
        tagRandom (ZMod ℓ) params.G (tagMatcher (F := ZMod ℓ) E S params A L c yes own')| +
      |ddhReal (ZMod ℓ) params.G (ddhMatcher (F := ZMod ℓ) E S params A L c yes own') -
        ddhRandom (ZMod ℓ) params.G (ddhMatcher (F := ZMod ℓ) E S params A L c yes own')|) := by
  have h := C112_unlinkable E hE S params hG hG1 hU hH A L own own' hown hown' hL hL' hA hA' hS c yes Q q hc
  rw [ZMod.card] at h
  have h1 : 2 * (q * (Q + q) / ((ℓ : ℕ) : ℚ) + 1 / (((ℓ : ℕ) : ℚ) - 1)) ≤ (q * (Q + q) + 1) / 2 ^ 251 := by
    have := anonymity_ratio q Q ((ℓ : ℕ) : ℚ) (2 ^ 252) (by norm_num) (by norm_num)
    refine this.trans (le_of_eq ?_)
    rw [div_eq_mul_inv _ ((2 : ℚ) ^ 251)]
    congr 1
    norm_num
  exact h.trans (by linarith)

/-- The hypotheses of `C112_ristretto` are met. -/
example : ∃ (A : Pool 2 (Fin 3) (Fin 2) (Fin 2) (ZMod ℓ) (ZMod ℓ)) (S : Finset Transcript) (_ : Nonempty S)
    (c : (Fin 3 → ZMod ℓ) → (Fin 2 → ZMod ℓ) → (Fin 3 → ZMod ℓ) →
      SigningProgram S Block (Fin 2) (Option (Proof (ZMod ℓ) (ZMod ℓ))) (Fin 3)) (own : Bool → Fin 2 → Fin 3),
    (Triptych.Toy.env ℓ).Lawful ∧ (Bijective fun x : ZMod ℓ => x • Toy.Ristretto.params.G) ∧ Toy.Ristretto.params.G1 ≠ 0 ∧ Toy.Ristretto.params.U ≠ 0 ∧
    Toy.Ristretto.params.CommitmentH ≠ 0 ∧
    (∀ ω, A.Built (Triptych.Toy.env ℓ) Toy.Ristretto.params (own ω)) ∧ (∀ ω, Injective (own ω)) ∧ (∀ ω j, own ω j ∉ ({2} : Finset (Fin 3))) ∧
    own true ≠ own false ∧
    (∀ own M T, (∀ i, M i ≠ 0) → (∀ j, T j ≠ 0) → ∀ (r : Fin 3 → ZMod ℓ) g x,
      signTranscript (Triptych.Toy.env ℓ) Toy.Ristretto.params (A.sts M T) (A.req own r M T g) x ∈ S) ∧ (∀ M T x, (c M T x).AtMost 1 2) := by
  have hp : ParamsBuilt (Triptych.Toy.env ℓ) Toy.Ristretto.params := ⟨_, _, _, _, _, Toy.Ristretto.params_new⟩
  have hG : Toy.Ristretto.params.G ≠ 0 := by decide +kernel
  have hG1 : Toy.Ristretto.params.G1 ≠ 0 := by decide +kernel
  have hU : Toy.Ristretto.params.U ≠ 0 := by decide +kernel
  have hH : Toy.Ristretto.params.CommitmentH ≠ 0 := by decide +kernel
  have hN : Toy.Ristretto.params.n ^ Toy.Ristretto.params.m = 4 := by decide +kernel
  have hE := Triptych.Toy.env_lawful ℓ (by norm_num)
  generalize Toy.Ristretto.params = params at *
  obtain ⟨A, S, hne, c, hA, hs, hl, h1, h2⟩ := matching_exists (F := ZMod ℓ) (Triptych.Toy.env ℓ) params hp hG1 hN
  exact ⟨A, S, hne, c, fun ω => if ω then ![0, 1] else ![1, 0], hE, ⟨fun x y h => mul_right_cancel₀ hG h,
    fun y => ⟨y / params.G, div_mul_cancel₀ y hG⟩⟩, hG1, hU, hH, hA, by decide, by decide, by decide, h1, h2⟩

end Triptych.Parallel
