import Verif.Props.Signing
import Verif.Lemmas.Generator

/-! # The prover's randomness from an ideal generator: C74

In C40, C70 and C71 the prover's randomness is uniform. Here it is what the code derives from the transcript generator, whose
outputs form a random table. -/
set_option autoImplicit false
set_option linter.unusedSectionVars false
set_option linter.unusedVariables false

namespace Triptych
open Spec Finset Function

variable {F P : Type} [Field F] [AddCommGroup P] [Module F P] [DecidableEq F] [DecidableEq P]

theorem statementBuilt_withTable (E : Env F P) (key : TRng) {N : ℕ} (τ : Fin N → Block) (st : Statement P)
    (h : StatementBuilt E st) : StatementBuilt (withTable E key τ) st := h

theorem witnessBuilt_withTable (E : Env F P) (key : TRng) {N : ℕ} (τ : Fin N → Block) (w : Witness F P)
    (h : WitnessBuilt E w) : WitnessBuilt (withTable E key τ) w := by
  induction h with
  | new params l r w h1 h2 => exact .new params l r w h1 h2
  | random σ R s s' params w h1 h2 => exact .random σ R s s' params w h1 h2
  | zeroize w _ ih => exact .zeroize w ih

/-- C74: with a table for the prover's generator, the prover's result is that of the signer of C70 for the randomness in the
table. -/
theorem C74_code {σ κ : Type} (E : Env F P) (S : Finset Transcript) [Nonempty S] (O : S → Block) (R : Rng σ) (w : Witness F P)
    (sts : κ → Statement P) (x : Request κ F) (s : σ) (timing : OperationTiming)
    (hw : WitnessBuilt (withOracle E S O) w) (hst : StatementBuilt (withOracle E S O) (sts x.k)) (hp : w.params = (sts x.k).params)
    (hl : w.l = x.l) (hr : w.r = x.r)
    (hrel : Rel (sts x.k).params.G (sts x.k).params.U (sts x.k).inputSet.M (sts x.k).J x.l x.r)
    (τ : Fin (drawCount (sts x.k).params.n (sts x.k).params.m) → Block)
    (hS : signTranscript E (sts x.k).params sts x (tableCoins E τ) ∈ S) :
    (Proof.proveInternal (withTable (withOracle E S O) (proverKey E x.t (sts x.k).hash w.l w.r (R.fill s 32).1) τ)
        R w (sts x.k) s x.t timing).1 =
      match signAnswer E (sts x.k).params sts x (tableCoins E τ) (O (signPoint E S (sts x.k).params sts x (tableCoins E τ))) with
      | some p => .ok p
      | none => .err .InvalidChallenge := by
  obtain ⟨c, hc, h⟩ := C70_code (withTable E (proverKey E x.t (sts x.k).hash w.l w.r (R.fill s 32).1) τ) S O R w sts x s timing
    (witnessBuilt_withTable _ _ _ _ hw) hst hp hl hr hrel
  have hn := withTable_nonces E (proverKey E x.t (sts x.k).hash w.l w.r (R.fill s 32).1) (sts x.k).params.n (sts x.k).params.m τ
  have hcc : c = tableCoins E τ := by
    have hs : NonceShape (sts x.k).params.n (sts x.k).params.m (tableCoins E τ).nonces := by
      constructor
      · simp [Coins.nonces]
      · intro row hrow
        simp only [Coins.nonces, List.mem_ofFn] at hrow
        obtain ⟨j, rfl⟩ := hrow
        simp
      · simp [Coins.nonces]
    exact (C40_nonces _ _ _ hs).unique (hc.trans hn) rfl
  subst hcc
  exact h hS

variable [Fintype F]

open Classical in
/-- C74: the randomness in a random table is nearly uniform: no event has a probability that differs by more than
`(|F| K / 2 ^ 512) ^ N - 1`, if every scalar is the value of at most `K` strings of 64 bytes (`N` scalars are drawn). -/
theorem C74_uniform (E : Env F P) (n m K : ℕ) (hK : ∀ x : F, #{b : Block | E.scalarOfWide b.bytes = x} ≤ K)
    (W : Coins F n m → Prop) :
    |(#{τ : Fin (m * n + m + 4) → Block | W (tableCoins E τ)} : ℚ) / Fintype.card (Fin (m * n + m + 4) → Block) -
      #{c | W c} / Fintype.card (Coins F n m)| ≤ (Fintype.card F * K / 2 ^ 512 : ℚ) ^ (m * n + m + 4) - 1 := by
  have h := avg_fibre (tableCoins E : (Fin (drawCount n m) → Block) → Coins F n m) (K ^ drawCount n m)
    (fun c => tableCoins_fibre E K n m hK c) (fun c => if W c then 1 else 0) (fun c => by split <;> norm_num)
    (fun c => by split <;> norm_num)
  simp only [avg, ← sum_filter, sum_const, nsmul_eq_mul, mul_one] at h
  rw [coins_card, Fintype.card_fun (α := Fin (drawCount n m)), block_card, Fintype.card_fin] at h
  push_cast at h
  rw [← mul_pow, ← div_pow] at h
  rw [coins_card, Fintype.card_fun (α := Fin (m * n + m + 4)), block_card, Fintype.card_fin]
  exact_mod_cast h

open Classical in
/-- C74: no program with at most `q` requests can tell signers who draw from a random table from those with uniform
randomness, except with `q` times that probability. -/
theorem C74_signing {κ γ α : Type} (E : Env F P) (S : Finset Transcript) [Nonempty S] (params : Params P)
    (sts : κ → Statement P) (req : γ → Request κ F) (K : ℕ) (hK : ∀ x : F, #{b : Block | E.scalarOfWide b.bytes = x} ≤ K)
    (win : α → List S → (S → Block) → Prop) (c : SigningProgram S Block γ (Option (Proof F P)) α) (Q q : ℕ) (hc : c.AtMost Q q) :
    |avg (fun O => c.withSigner (T := Fin (drawCount params.n params.m) → Block)
        (fun g τ => signPoint E S params sts (req g) (tableCoins E τ))
        (fun g τ => signAnswer E params sts (req g) (tableCoins E τ)) win O []) -
      avg (fun O => c.withSigner (fun g => signPoint E S params sts (req g)) (fun g => signAnswer E params sts (req g)) win O [])| ≤
      q * ((Fintype.card F * K / 2 ^ 512 : ℚ) ^ (params.m * params.n + params.m + 4) - 1) := by
  rw [← avg_sub]
  refine (avg_abs _).trans ((avg_mono _ _ fun O => SigningProgram.withSigner_map
    (tableCoins E : (Fin (drawCount params.n params.m) → Block) → Coins F params.n params.m) (K ^ drawCount params.n params.m)
    (fun c => tableCoins_fibre E K _ _ hK c) _ _ win O c Q q hc []).trans ?_)
  rw [avg_const, coins_card, Fintype.card_fun, block_card, Fintype.card_fin]
  push_cast
  rw [← mul_pow, ← div_pow, drawCount]

theorem one_add_pow_le (x : ℚ) (hx : 0 ≤ x) (N : ℕ) (hN : 2 * N * x ≤ 1) : (1 + x) ^ N ≤ 1 + 2 * N * x := by
  induction N with
  | zero => simp
  | succ N ih =>
    push_cast at hN ⊢
    have h1 : 2 * N * x ≤ 1 := by linarith
    have h2 := ih h1
    rw [pow_succ]
    nlinarith [mul_le_mul_of_nonneg_right h2 (show 0 ≤ 1 + x by linarith), mul_nonneg hx hx]

local notation "ℓ" => (2 ^ 252 + 27742317777372353535851937790883648493 : ℕ)

theorem wide_ratio (q D : ℕ) (hq : 0 < q) (hD : 0 < D) (e : ℚ) (he : (q : ℚ) ≤ e * D) : (q * (D / q + 1 : ℕ) / D : ℚ) ≤ 1 + e := by
  have hD' : (0 : ℚ) < D := by exact_mod_cast hD
  rw [div_le_iff₀ hD']
  have h1 : (q * (D / q) : ℕ) ≤ D := Nat.mul_div_le D q
  have h2 : ((q : ℚ) * (D / q : ℕ)) ≤ D := by exact_mod_cast h1
  push_cast
  push_cast at h2
  nlinarith

theorem wide_nonneg (q D : ℕ) : (0 : ℚ) ≤ q * (D / q + 1 : ℕ) / D := by positivity

theorem wide_pow (D N : ℕ) (hD : D = 2 ^ 512) (hN : N ≤ 2 ^ 40) :
    ((ℓ : ℕ) * (D / ℓ + 1 : ℕ) / D : ℚ) ^ N - 1 ≤ N / 2 ^ 258 := by
  have hD0 : 0 < D := by rw [hD]; positivity
  have he : ((ℓ : ℕ) : ℚ) ≤ 1 / 2 ^ 259 * (D : ℕ) := by
    have e : (D : ℚ) = 2 ^ 253 * 2 ^ 259 := by rw [hD, Nat.cast_pow, Nat.cast_ofNat, ← pow_add]
    rw [e]
    have h0 : (2 : ℚ) ^ 259 ≠ 0 := by positivity
    generalize (2 : ℚ) ^ 259 = z at *
    have h : ((ℓ : ℕ) : ℚ) ≤ 2 ^ 253 := by
      norm_num
    calc ((ℓ : ℕ) : ℚ) ≤ 2 ^ 253 := h
      _ = _ := by field_simp
  have h1 := wide_ratio ℓ D (by positivity) hD0 (1 / 2 ^ 259) he
  have h2 : ((ℓ : ℕ) * (D / ℓ + 1 : ℕ) / D : ℚ) ^ N ≤ (1 + 1 / 2 ^ 259) ^ N := by
    exact pow_le_pow_left₀ (wide_nonneg _ _) h1 N
  have h3 : (N : ℚ) ≤ 2 ^ 40 := by exact_mod_cast hN
  have hz : (2 : ℚ) ^ 259 = 2 ^ 258 * 2 := by rw [← pow_succ]
  have h4 : 2 * (N : ℚ) * (1 / 2 ^ 259) = N / 2 ^ 258 := by
    rw [hz]
    have h0 : (2 : ℚ) ^ 258 ≠ 0 := by positivity
    generalize (2 : ℚ) ^ 258 = z at *
    field_simp
  have h5 : (N : ℚ) / 2 ^ 258 ≤ 1 := by
    have hb : (2 : ℚ) ^ 40 ≤ 2 ^ 258 := pow_le_pow_right₀ (by norm_num) (by norm_num)
    exact div_le_one_of_le₀ (h3.trans hb) (by positivity)
  have h6 := one_add_pow_le (1 / 2 ^ 259) (by positivity) N (by rw [h4]; exact h5)
  rw [h4] at h6
  linarith

theorem drawCount_le (params : Params P) (h : ParamsOK params) : drawCount params.n params.m ≤ 2 ^ 40 := by
  have h1 := mul_le_pow_self params.n params.m h.n
  have h2 := h.N
  rw [u32Max] at h2
  have h3 : params.m ≤ params.m * params.n := Nat.le_mul_of_pos_right _ (by have := h.n; omega)
  rw [drawCount]
  omega

open Classical in
/-- C74 for Ristretto: the distance is at most `(m n + m + 4) / 2 ^ 258`. -/
theorem C74_ristretto {P : Type} [AddCommGroup P] [Module (ZMod ℓ) P] [DecidableEq P] (E : Env (ZMod ℓ) P)
    (hwide : ∀ b, E.scalarOfWide b = ((leNat b : ℕ) : ZMod ℓ)) (params : Params P) (hparams : ParamsBuilt E params)
    (W : Coins (ZMod ℓ) params.n params.m → Prop) :
    |(#{τ : Fin (params.m * params.n + params.m + 4) → Block | W (tableCoins E τ)} : ℚ) /
        Fintype.card (Fin (params.m * params.n + params.m + 4) → Block) -
      #{c | W c} / Fintype.card (Coins (ZMod ℓ) params.n params.m)| ≤
      (params.m * params.n + params.m + 4 : ℕ) / 2 ^ 258 := by
  obtain ⟨D, hD⟩ : ∃ D, D = 2 ^ 512 := ⟨_, rfl⟩
  have hD' : 256 ^ 64 ≤ D := by rw [hD, show (256 : ℕ) = 2 ^ 8 by norm_num, ← pow_mul]
  have h := C74_uniform E params.n params.m (D / ℓ + 1) (fun x => by simp only [hwide]; exact blocks_value ℓ D hD' x) W
  refine h.trans ?_
  have := wide_pow D (params.m * params.n + params.m + 4) hD (drawCount_le params hparams.ok)
  rw [hD, Nat.cast_pow, Nat.cast_ofNat] at this
  rw [ZMod.card, hD]
  exact this

open Classical in
/-- C74, C71 for Ristretto with the prover's randomness as the code derives it: a program with at most `Q` questions and `q`
requests outputs a new forgery with probability at most `(q (Q + q) + m (Q + 1)) / 2 ^ 252 + q (m n + m + 4) / 2 ^ 258` plus the
expected number of points at which rewinding it, without any key, yields a signing key or a relation. -/
theorem C74_forge {κ γ : Type} {P : Type} [AddCommGroup P] [Module (ZMod ℓ) P] [DecidableEq P]
    (E : Env (ZMod ℓ) P) (hE : E.Lawful) (hwide : ∀ b, E.scalarOfWide b = ((leNat b : ℕ) : ZMod ℓ))
    (S : Finset Transcript) [Nonempty S] (params : Params P) (hparams : ParamsBuilt E params)
    (hH : params.CommitmentH ≠ 0) (sts : κ → Statement P) (hst : ∀ k, StatementBuilt E (sts k))
    (hpar : ∀ k, (sts k).params = params) (hinj : ∀ k k', (sts k).hash = (sts k').hash → k = k') (req : γ → Request κ (ZMod ℓ))
    (hrel : ∀ g, Rel params.G params.U (sts (req g).k).inputSet.M (sts (req g).k).J (req g).l (req g).r)
    (hS : ∀ g c, signTranscript E params sts (req g) c ∈ S)
    (c : SigningProgram S Block γ (Option (Proof (ZMod ℓ) P)) (Forgery κ (ZMod ℓ) P)) (Q q : ℕ) (hc : c.AtMost Q q)
    (d : Block × (HybridCoins (ZMod ℓ) params.n params.m × (Fin (params.m - 1) → ZMod ℓ))) :
    avg (fun O => c.withSigner (T := Fin (drawCount params.n params.m) → Block)
        (fun g τ => signPoint E S params sts (req g) (tableCoins E τ))
        (fun g τ => signAnswer E params sts (req g) (tableCoins E τ)) (NewForgery E S sts) O []) ≤
      (q * (Q + q) + params.m * (Q + 1)) / 2 ^ 252 + q * ((params.m * params.n + params.m + 4 : ℕ) / 2 ^ 258) +
      avg fun tape : Fin q → Block × (HybridCoins (ZMod ℓ) params.n params.m × (Fin (params.m - 1) → ZMod ℓ)) =>
        avg fun O : S → Block =>
        (#{s ∈ (c.simulated (fun g => simKeyless E S params sts (req g)) (extend d tape) []).touched (Forgery.crit E S sts) O |
          Rewinds E S sts (c.simulated (fun g => simKeyless E S params sts (req g)) (extend d tape) []) O s} : ℚ) := by
  have h := C71_ristretto E hE hwide S params hparams hH sts hst hpar hinj req hrel hS c Q q hc d
  obtain ⟨D, hD⟩ : ∃ D, D = 2 ^ 512 := ⟨_, rfl⟩
  have hD' : 256 ^ 64 ≤ D := by rw [hD, show (256 : ℕ) = 2 ^ 8 by norm_num, ← pow_mul]
  have h' := (abs_le.1 (C74_signing E S params sts req (D / ℓ + 1)
    (fun x => by simp only [hwide]; exact blocks_value ℓ D hD' x) (NewForgery E S sts) c Q q hc)).2
  have hb := wide_pow D (params.m * params.n + params.m + 4) hD (drawCount_le params hparams.ok)
  rw [ZMod.card] at h'
  have hDq : (D : ℚ) = 2 ^ 512 := by rw [hD, Nat.cast_pow, Nat.cast_ofNat]
  rw [← hDq] at h'
  have h'' := h'.trans (mul_le_mul_of_nonneg_left hb (Nat.cast_nonneg q))
  linarith

/-- The toy statement and witness meet the hypotheses of `C74_code` with every oracle and table. -/
example (O : signDomain (Toy.env 101) Toy.statement.params (fun _ : Unit => Toy.statement) ⟨(), Toy.transcript, 2, 7⟩ → Block)
    (τ : Fin (drawCount Toy.statement.params.n Toy.statement.params.m) → Block) :
    StatementBuilt (withOracle (Toy.env 101) _ O) Toy.statement ∧ WitnessBuilt (withOracle (Toy.env 101) _ O) Toy.witness ∧
    Toy.witness.params = Toy.statement.params ∧ Toy.witness.l = 2 ∧ Toy.witness.r = 7 ∧
    Rel Toy.statement.params.G Toy.statement.params.U Toy.statement.inputSet.M Toy.statement.J 2 (7 : ZMod 101) ∧
    signTranscript (Toy.env 101) Toy.statement.params (fun _ : Unit => Toy.statement) ⟨(), Toy.transcript, 2, 7⟩
      (tableCoins (Toy.env 101) τ) ∈
      signDomain (Toy.env 101) Toy.statement.params (fun _ : Unit => Toy.statement) ⟨(), Toy.transcript, 2, 7⟩ := by
  have h := statementBuilt_withOracle (Toy.env 101) _ O (signDomain_last _ _ _ _) _ Toy.statement_built
  have hp : Toy.statement.params = Toy.params := by decide +kernel
  have cast : ∀ (E : Env (ZMod 101) (ZMod 101)) (p q : Params (ZMod 101)), p = q → ParamsBuilt E p → ParamsBuilt E q :=
    fun _ _ _ h h' => h ▸ h'
  refine ⟨h, .new _ _ _ _ (cast _ _ _ hp h.params_built) Toy.witness_new, by decide +kernel, by decide +kernel, by decide +kernel,
    ⟨by decide +kernel, by decide +kernel⟩, ?_⟩
  clear h hp
  generalize Toy.statement = st at *
  exact signDomain_mem _ _ _ _ _

/-- `C74_uniform` and `C74_signing` over the toy field: at most `256 ^ 64 / 101 + 1` strings have the same value. -/
example : ∀ x : ZMod 101, #{b : Block | (Toy.env 101).scalarOfWide b.bytes = x} ≤ 256 ^ 64 / 101 + 1 :=
  fun x => blocks_value 101 _ le_rfl x

/-- `C74_ristretto`: parameters over the real scalar field. (For `C74_forge` see the example for `C71_ristretto`.) -/
example : (∀ b, (Toy.env ℓ).scalarOfWide b = ((leNat b : ℕ) : ZMod ℓ)) ∧ ParamsBuilt (Toy.env ℓ) Toy.Ristretto.params :=
  ⟨fun _ => rfl, Toy.Ristretto.params_built⟩

end Triptych
