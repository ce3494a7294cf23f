import Verif.Lemmas.ZeroKnowledge
import Verif.Lemmas.Built
import Verif.Props.Prove

/-! # Zero knowledge: C40

The proof for a fixed challenge, as a random variable of the prover's randomness. `Spec.simulate` knows neither the signer's
position nor the key. Everything but `X` is distributed exactly as simulated. The whole proof is the output of one algorithm
(`Spec.hybrid`, which does not know the key) on elements `(ρ_j J, ρ_j G)`, and the simulator's output is that of the same
algorithm on `(ρ_j J, T_j)` with independent `T_j`: telling real from simulated proofs is telling Diffie-Hellman tuples from
random ones. -/
set_option autoImplicit false
set_option linter.unusedSectionVars false

namespace Triptych
open Spec Finset

variable {F P : Type} [Field F] [AddCommGroup P] [Module F P] [DecidableEq F] [DecidableEq P]

/-- The parameters' generators are multiples of the mask generator, as in any group of prime order with a non-zero mask
generator. -/
def Spec.MaskGenerates (F : Type) {P : Type} [Field F] [AddCommGroup P] [Module F P] (params : Params P) : Prop :=
  ∀ g ∈ params.CommitmentG, ∃ c : F, g = c • params.CommitmentH

theorem Spec.MaskGenerates.logs {params : Params P} (h : MaskGenerates F params) :
    ∃ g : ℕ → F, ∀ k < params.n * params.m, params.CommitmentG.getD k 0 = g k • params.CommitmentH := by
  have : ∀ k, ∃ c : F, params.CommitmentG.getD k 0 = c • params.CommitmentH := by
    intro k
    by_cases hk : k < params.CommitmentG.length
    · obtain ⟨c, hc⟩ := h _ (List.getElem_mem hk)
      exact ⟨c, by rw [List.getD_eq_getElem?_getD, List.getElem?_eq_getElem hk, Option.getD_some, hc]⟩
    · exact ⟨0, by rw [List.getD_eq_getElem?_getD, List.getElem?_eq_none (by omega)]; simp⟩
  choose g hg using this
  exact ⟨g, fun k _ => hg k⟩

/-- C40: each choice of randomness with the right dimensions is one choice of coins. -/
theorem C40_nonces (n m : ℕ) (nn : Nonces F) (h : NonceShape n m nn) : ∃! c : Coins F n m, c.nonces = nn := by
  obtain ⟨rA, a, rB, rC, rD, rho⟩ := nn
  obtain ⟨h1, h2, h3⟩ := h
  simp only at h1 h2 h3
  subst h1
  refine ⟨⟨fun j i => a[j.val][i.val]'(by rw [h2 _ (List.getElem_mem _)]; exact i.2), rA, rB, rC, rD,
    fun j => rho[j.val]'(by rw [h3]; exact j.2)⟩, ?_, ?_⟩
  · simp only [Coins.nonces, Nonces.mk.injEq, true_and]
    refine ⟨?_, ?_⟩
    · apply List.ext_getElem
      · simp
      · intro j hj hj'
        apply List.ext_getElem
        · simp [h2 _ (List.getElem_mem hj')]
        · intro i _ _
          simp
    · apply List.ext_getElem <;> simp [h3]
  · rintro ⟨a', rA', rB', rC', rD', rho'⟩ h
    simp only [Coins.nonces, Nonces.mk.injEq] at h
    obtain ⟨rfl, ha, rfl, rfl, rfl, hr⟩ := h
    simp only [Coins.mk.injEq, true_and]
    refine ⟨?_, ?_⟩
    · funext j i
      have h := congrArg (fun L => (L.getD j.val []).getD i.val 0) ha
      have hi : i.val < a[j.val].length := by rw [h2 _ (List.getElem_mem _)]; exact i.2
      simpa [hi] using h
    · funext j
      have h := congrArg (fun L => L[j.val]?) hr
      have hj : j.val < rho.length := by rw [h3]; exact j.2
      simpa [hj] using h

/-- C40: the proof returned by the prover is the honest proof for its challenge and some choice of the prover's randomness. -/
theorem C40_coins {σ : Type} (E : Env F P) (R : Rng σ) (w : Witness F P) (st : Statement P) (s : σ) (t : Transcript)
    (timing : OperationTiming) (hw : WitnessBuilt E w) (hst : StatementBuilt E st) (p : Proof F P)
    (h : (Proof.proveInternal E R w st s t timing).1 = .ok p) :
    ∃ c : Coins F st.params.n st.params.m,
      c.nonces = proverNonces E st.params.n st.params.m (proverKey E t st.hash w.l w.r (R.fill s 32).1) ∧
      p = honestProof st.params st.inputSet.M st.J w.l w.r c.nonces (challenge E t st p) := by
  have hp := C25_nonces E R w st s t timing hw hst p h
  have hs : NonceShape st.params.n st.params.m
      (proverNonces E st.params.n st.params.m (proverKey E t st.hash w.l w.r (R.fill s 32).1)) := by
    constructor
    · simp [proverNonces]
    · intro row hrow
      simp only [proverNonces, List.mem_map] at hrow
      obtain ⟨j, -, rfl⟩ := hrow
      simp
    · simp [proverNonces]
  obtain ⟨c, hc, -⟩ := C40_nonces _ _ _ hs
  exact ⟨c, hc, by rw [hc]; exact hp⟩

/-- C40: simulated proofs have the prescribed dimensions and satisfy all verification equations. -/
theorem C40_simulated_valid (E : Env F P) (st : Statement P) (hst : StatementBuilt E st) (ξ : F)
    (s : SimCoins F st.params.n st.params.m) (R : Fin (st.params.m - 1) → P) :
    Shape st.params (simulate st.params st.inputSet.M st.J ξ s R) ∧
    Valid st.params st.inputSet.M st.J (simulate st.params st.inputSet.M st.J ξ s R) ξ := by
  obtain ⟨hpar, -, -⟩ := hst.ok
  have hn := hpar.n
  have hm := hpar.m
  exact ⟨simulate_shape _ (by omega) _ _ _ _ _, simulate_valid _ hn (by omega) _ _ _ _ _⟩

variable [Fintype F]

/-- C40: for any fixed challenge, a proof is distributed as the hybrid on Diffie-Hellman elements. -/
theorem C40_real (E : Env F P) (st : Statement P) (hst : StatementBuilt E st) (l : ℕ) (r : F)
    (hrel : Rel st.params.G st.params.U st.inputSet.M st.J l r) (ξ : F) :
    (PMF.uniformOfFintype (Coins F st.params.n st.params.m)).map
        (fun c => honestProof st.params st.inputSet.M st.J l r c.nonces ξ) =
      (PMF.uniformOfFintype (HybridCoins F st.params.n st.params.m × (Fin (st.params.m - 1) → F))).map
        (fun x => hybrid st.params st.inputSet.M st.J l ξ x.1 (fun j => x.2 j • st.J) (fun j => x.2 j • st.params.G)) := by
  obtain ⟨hpar, hlen, -⟩ := hst.ok
  have hl : l < st.params.n ^ st.params.m := by
    rw [← hlen]; exact (List.getElem?_eq_some_iff.1 hrel.1).1
  have hm : 0 < st.params.m := by have := hpar.m; omega
  exact uniform_map' (hybEquiv _ _ hm r ξ) _ _ fun c => honest_hybrid st.params hpar _ _ l r hl hrel ξ c hm

/-- C40: for any fixed challenge and any position, the hybrid on independent random elements is distributed as the
simulator. -/
theorem C40_random [Fintype P] (E : Env F P) (st : Statement P) (hst : StatementBuilt E st)
    (hH : MaskGenerates F st.params) (l : ℕ) (hl : l < st.params.n ^ st.params.m) (ξ : F) :
    (PMF.uniformOfFintype ((HybridCoins F st.params.n st.params.m × (Fin (st.params.m - 1) → F)) ×
        (Fin (st.params.m - 1) → P))).map
        (fun x => hybrid st.params st.inputSet.M st.J l ξ x.1.1 (fun j => x.1.2 j • st.J) x.2) =
      (PMF.uniformOfFintype (SimCoins F st.params.n st.params.m × (Fin (st.params.m - 1) → P))).map
        (fun x => simulate st.params st.inputSet.M st.J ξ x.1 x.2) := by
  obtain ⟨hpar, hlen, -⟩ := hst.ok
  obtain ⟨g, hg⟩ := hH.logs
  have hn : 0 < st.params.n := by have := hpar.n; omega
  exact uniform_map (simEquiv st.params hn l ξ g (xPart st.params st.inputSet.M l)) _ _
    fun x => hybrid_simulate st.params hpar _ _ l hl ξ g hg x hn

/-- C40: for any fixed challenge, everything in a proof but `X` is distributed exactly as simulated. -/
theorem C40_view [Finite P] (E : Env F P) (st : Statement P) (hst : StatementBuilt E st)
    (hH : MaskGenerates F st.params) (l : ℕ) (r : F) (hrel : Rel st.params.G st.params.U st.inputSet.M st.J l r) (ξ : F) :
    (PMF.uniformOfFintype (Coins F st.params.n st.params.m)).map
        (fun c => withoutX (honestProof st.params st.inputSet.M st.J l r c.nonces ξ)) =
      (PMF.uniformOfFintype (SimCoins F st.params.n st.params.m)).map
        (fun s => withoutX (simulate st.params st.inputSet.M st.J ξ s fun _ => 0)) := by
  cases nonempty_fintype P
  obtain ⟨hpar, hlen, -⟩ := hst.ok
  have hl : l < st.params.n ^ st.params.m := by
    rw [← hlen]; exact (List.getElem?_eq_some_iff.1 hrel.1).1
  have h1 := congrArg (PMF.map withoutX) (C40_real E st hst l r hrel ξ)
  have h2 := congrArg (PMF.map withoutX) (C40_random E st hst hH l hl ξ)
  rw [PMF.map_comp, PMF.map_comp] at h1 h2
  refine h1.trans ?_
  have h3 : (PMF.uniformOfFintype ((HybridCoins F st.params.n st.params.m × (Fin (st.params.m - 1) → F)) ×
        (Fin (st.params.m - 1) → P))).map
        (withoutX ∘ fun x => hybrid st.params st.inputSet.M st.J l ξ x.1.1 (fun j => x.1.2 j • st.J) x.2) =
      (PMF.uniformOfFintype (HybridCoins F st.params.n st.params.m × (Fin (st.params.m - 1) → F))).map
        (withoutX ∘ fun x => hybrid st.params st.inputSet.M st.J l ξ x.1 (fun j => x.2 j • st.J)
          (fun j => x.2 j • st.params.G)) :=
    uniform_map (Equiv.refl _) _ _ fun x => rfl
  rw [← h3, h2]
  exact uniform_map (Equiv.refl _) _ _ fun x => rfl

/-- C40: so everything in a proof but `X` is independent of the ring, the position and the key, given the parameters and the
linking tag. -/
theorem C40_signer [Finite P] (E : Env F P) (st st' : Statement P) (hst : StatementBuilt E st) (hst' : StatementBuilt E st')
    (hH : MaskGenerates F st.params) (hp : st.params = st'.params) (hJ : st.J = st'.J) (l l' : ℕ) (r r' : F)
    (hrel : Rel st.params.G st.params.U st.inputSet.M st.J l r)
    (hrel' : Rel st'.params.G st'.params.U st'.inputSet.M st'.J l' r') (ξ : F) :
    (PMF.uniformOfFintype (Coins F st.params.n st.params.m)).map
        (fun c => withoutX (honestProof st.params st.inputSet.M st.J l r c.nonces ξ)) =
      (PMF.uniformOfFintype (Coins F st'.params.n st'.params.m)).map
        (fun c => withoutX (honestProof st'.params st'.inputSet.M st'.J l' r' c.nonces ξ)) := by
  rw [C40_view E st hst hH l r hrel ξ, C40_view E st' hst' (hp ▸ hH) l' r' hrel' ξ]
  obtain ⟨params, is, J, h⟩ := st
  obtain ⟨params', is', J', h'⟩ := st'
  simp only at hp hJ
  subst hp hJ
  rfl

/-- C40: a distinguisher's advantage between real and simulated proofs is its advantage, run on the output of the hybrid,
between Diffie-Hellman and random elements. -/
theorem C40_advantage [Fintype P] (E : Env F P) (st : Statement P) (hst : StatementBuilt E st)
    (hH : MaskGenerates F st.params) (l : ℕ) (r : F) (hrel : Rel st.params.G st.params.U st.inputSet.M st.J l r) (ξ : F)
    (D : Set (Proof F P)) :
    ((PMF.uniformOfFintype (Coins F st.params.n st.params.m)).map
        (fun c => honestProof st.params st.inputSet.M st.J l r c.nonces ξ)).toOuterMeasure D =
      ((PMF.uniformOfFintype (HybridCoins F st.params.n st.params.m × (Fin (st.params.m - 1) → F))).map
        (fun x => hybrid st.params st.inputSet.M st.J l ξ x.1 (fun j => x.2 j • st.J)
          (fun j => x.2 j • st.params.G))).toOuterMeasure D ∧
    ((PMF.uniformOfFintype (SimCoins F st.params.n st.params.m × (Fin (st.params.m - 1) → P))).map
        (fun x => simulate st.params st.inputSet.M st.J ξ x.1 x.2)).toOuterMeasure D =
      ((PMF.uniformOfFintype ((HybridCoins F st.params.n st.params.m × (Fin (st.params.m - 1) → F)) ×
        (Fin (st.params.m - 1) → P))).map
        (fun x => hybrid st.params st.inputSet.M st.J l ξ x.1.1 (fun j => x.1.2 j • st.J) x.2)).toOuterMeasure D := by
  obtain ⟨-, hlen, -⟩ := hst.ok
  have hl : l < st.params.n ^ st.params.m := by
    rw [← hlen]; exact (List.getElem?_eq_some_iff.1 hrel.1).1
  exact ⟨by rw [C40_real E st hst l r hrel ξ], by rw [C40_random E st hst hH l hl ξ]⟩

/-- A concrete case: the hypotheses are met by two signers of rings with the same tag, the prover's proof among them. -/
example : StatementBuilt (Toy.env 101) Toy.statement ∧ MaskGenerates (ZMod 101) Toy.statement.params ∧
    Rel Toy.statement.params.G Toy.statement.params.U Toy.statement.inputSet.M Toy.statement.J 2 (7 : ZMod 101) ∧
    (Proof.proveInternal (Toy.env 101) nullRng Toy.witness Toy.statement () Toy.transcript .Constant).1 = .ok Toy.proof ∧
    WitnessBuilt (Toy.env 101) Toy.witness := by
  refine ⟨Toy.statement_built, ?_, ⟨by decide +kernel, by decide +kernel⟩, Toy.proof_new, Toy.witness_built⟩
  intro g _
  refine ⟨g * Toy.statement.params.CommitmentH⁻¹, ?_⟩
  have h : Toy.statement.params.CommitmentH ≠ 0 := by decide +kernel
  rw [smul_eq_mul, mul_assoc, inv_mul_cancel₀ h, mul_one]

/-- The ring of the example with its signer moved to another position: the same tag, so `C40_signer` compares the two. -/
example : ∃ (is : InputSet (ZMod 101)) (st : Statement (ZMod 101)),
    InputSet.new (Toy.env 101) ([(7 : ZMod 101), 5, 13, 11].map fun r => r • Toy.params.G) = .ok is ∧
    Statement.new (Toy.env 101) Toy.params is Toy.statement.J = .ok st ∧ StatementBuilt (Toy.env 101) st ∧
    Toy.statement.params = st.params ∧ Toy.statement.J = st.J ∧
    Rel st.params.G st.params.U st.inputSet.M st.J 0 (7 : ZMod 101) := by
  obtain ⟨is, his⟩ : ∃ is, is = Toy.get ⟨[], []⟩ (InputSet.new (Toy.env 101)
    ([(7 : ZMod 101), 5, 13, 11].map fun r => r • Toy.params.G)) := ⟨_, rfl⟩
  obtain ⟨st, hstd⟩ : ∃ st, st = Toy.get ⟨Toy.params, is, 0, []⟩ (Statement.new (Toy.env 101) Toy.params is Toy.statement.J) :=
    ⟨_, rfl⟩
  have h1 : InputSet.new (Toy.env 101) ([(7 : ZMod 101), 5, 13, 11].map fun r => r • Toy.params.G) = .ok is := by
    subst his; decide +kernel
  have h2 : Statement.new (Toy.env 101) Toy.params is Toy.statement.J = .ok st := by
    subst hstd his; decide +kernel
  have h3 : Toy.statement.params = st.params ∧ Toy.statement.J = st.J := by
    subst hstd his; decide +kernel
  have h4 : st.inputSet.M[0]? = some ((7 : ZMod 101) • st.params.G) ∧ (7 : ZMod 101) • st.J = st.params.U := by
    subst hstd his; decide +kernel
  exact ⟨is, st, h1, h2, ⟨_, _, _, ⟨_, _, _, _, Toy.params_new⟩, Or.inl ⟨_, h1⟩, h2⟩, h3.1, h3.2, h4⟩

end Triptych
