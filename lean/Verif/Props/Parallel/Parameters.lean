import Verif.Lemmas.Parallel.Binding
import Verif.Lemmas.Parallel.Complete
import Verif.ToyParallel

/-! # Properties of parallel parameters: C45 -/
set_option autoImplicit false
set_option linter.unusedSectionVars false

namespace Triptych.Parallel
open Triptych.Parallel.Spec
open Triptych.Spec (grayDigit digit commit fullF ringCoeff NonzeroF maskA selector ringPoly versionBytes points scalars
  weightTranscript weightScalar queryPoint drawn)

variable {F P : Type}

/-- C45: the exact result of `new_with_generators` for every input. The first violated condition is reported; no panic, and the
`n*m` error does not occur. -/
theorem C45_new_with_generators (E : Env F P) (n m : ℕ) (G G1 U : P) :
    (n < 2 → Params.newWithGenerators E n m G G1 U = .err (.InvalidParameter "`n < 2`")) ∧
    (2 ≤ n → m < 2 → Params.newWithGenerators E n m G G1 U = .err (.InvalidParameter "`m < 2`")) ∧
    (2 ≤ n → 2 ≤ m → 2 ^ 32 ≤ n ^ m →
      Params.newWithGenerators E n m G G1 U = .err (.InvalidParameter "`n**m` overflowed `u32`")) ∧
    (2 ≤ n → 2 ≤ m → n ^ m < 2 ^ 32 → ∃ p, Params.newWithGenerators E n m G G1 U = .ok p) := by
  refine ⟨?_, ?_, ?_, ?_⟩
  · intro h; rw [Params.newWithGenerators, if_pos h]
  · intro h1 h2; rw [Params.newWithGenerators, if_neg (by omega), if_pos h2]
  · intro h1 h2 h3
    have h4 : ¬ n ^ m ≤ u32Max := by rw [u32Max]; omega
    rw [Params.newWithGenerators, if_neg (by omega), if_neg (by omega), if_pos (by simp [checkedPow, h4])]
  · intro h1 h2 h3
    exact newWithGenerators_eq E n m G G1 U h1 h2 (by rw [u32Max]; omega)

/-- C45: the same for `new`, which uses the basepoint and a hash-derived `U`. -/
theorem C45_new (E : Env F P) (n m : ℕ) :
    (n < 2 → Params.new E n m = .err (.InvalidParameter "`n < 2`")) ∧
    (2 ≤ n → m < 2 → Params.new E n m = .err (.InvalidParameter "`m < 2`")) ∧
    (2 ≤ n → 2 ≤ m → 2 ^ 32 ≤ n ^ m → Params.new E n m = .err (.InvalidParameter "`n**m` overflowed `u32`")) ∧
    (2 ≤ n → 2 ≤ m → n ^ m < 2 ^ 32 → ∃ p, Params.new E n m = .ok p) :=
  C45_new_with_generators E n m _ _ _

/-- `C45_new_with_generators` and `C45_new` have no hypotheses; at the bound: -/
example : ∃ p, Params.newWithGenerators (Toy.env 101) 65535 2 (1 : ZMod 101) 3 5 = .ok p :=
  (C45_new_with_generators _ _ _ _ _ _).2.2.2 (by norm_num) (by norm_num) (by norm_num)
example : Params.newWithGenerators (Toy.env 101) 65536 2 (1 : ZMod 101) 3 5
    = .err (.InvalidParameter "`n**m` overflowed `u32`") :=
  (C45_new_with_generators _ _ _ _ _ _).2.2.1 (by norm_num) (by norm_num) (by norm_num)

/-- C45: what every accepted parameter set reports. -/
theorem C45_sizes (E : Env F P) (n m : ℕ) (G G1 U : P) (p : Params P)
    (h : Params.newWithGenerators E n m G G1 U = .ok p) :
    p.n = n ∧ p.m = m ∧ p.G = G ∧ p.G1 = G1 ∧ p.U = U ∧ p.getN = n ^ m ∧ 4 ≤ p.getN ∧ p.getN < 2 ^ 32 ∧
      p.CommitmentG.length = n * m := by
  obtain ⟨h1, h2, h3, h4, h5, h6, h61, h7, h8, h9, -⟩ := newWithGenerators_ok E n m G G1 U p h
  have hN : p.getN = n ^ m := by
    have := (show ParamsBuilt E p from ⟨n, m, G, G1, U, h⟩).ok.getN
    rw [this, h4, h5]
  have h10 : 4 ≤ n ^ m := by
    calc 4 = 2 ^ 2 := by norm_num
      _ ≤ n ^ 2 := Nat.pow_le_pow_left h1 2
      _ ≤ n ^ m := Nat.pow_le_pow_right (by omega) h2
  rw [u32Max] at h3
  refine ⟨h4, h5, h6, h61, h7, hN, by omega, by omega, by rw [h9]; simp⟩

/-- C45: `new` uses the basepoint and `U` hashed from its domain separator, and the commitment generators are the stated BLAKE3
outputs. -/
theorem C45_generators (E : Env F P) (n m : ℕ) (p : Params P) (h : Params.new E n m = .ok p) :
    p.G = E.basepoint ∧ p.G1 = E.pointOfUniform (E.xof (asciiBytes "Triptych G1" ++ leBytes 8 0) 0 64) ∧
      p.U = E.pointOfUniform (E.xof (asciiBytes "Triptych U" ++ leBytes 8 0) 0 64) ∧
      p.CommitmentH = E.pointOfUniform (E.xof (asciiBytes "Triptych CommitmentH" ++ leBytes 8 0) 0 64) ∧
      ∀ i < n * m, p.CommitmentG[i]? = some (E.pointOfUniform
        (E.xof (asciiBytes "Triptych CommitmentG" ++ leBytes 8 0 ++ leBytes 4 n ++ leBytes 4 m) (64 * i) 64)) := by
  obtain ⟨h1, h2, h3, h4, h5, h6, h61, h7, h8, h9, -⟩ := newWithGenerators_ok E n m _ _ _ p h
  refine ⟨h6, h61, h7, h8, ?_⟩
  intro i hi
  rw [h9]
  simp [hi]
  rfl

/-- The hypotheses of `C45_generators` and `C45_sizes` are met. -/
example : Params.new (Toy.env 101) 2 2 = .ok Toy.params := Toy.params_new
example : Toy.params.getN = 4 ∧ Toy.params.CommitmentG.length = 4 := by
  have := C45_sizes _ _ _ _ _ _ _ Toy.params_new
  exact ⟨this.2.2.2.2.2.1, this.2.2.2.2.2.2.2.2⟩

/-- C45: the parameter hash is the Merlin challenge of a transcript listing all the parameters. -/
theorem C45_hash (E : Env F P) (p : Params P) (h : ParamsBuilt E p) :
    p.hash = E.challenge (paramsTranscript E p.n p.m p.G p.G1 p.U p.CommitmentG p.CommitmentH) := by
  obtain ⟨n, m, G, G1, U, h⟩ := h
  obtain ⟨-, -, -, h4, h5, h6, h61, h7, -, -, h10⟩ := newWithGenerators_ok E n m G G1 U p h
  rw [h10, params_hashTranscript_eq, h4, h5, h6, h61, h7]

/-- C45: equal hashes mean equal parameters, or a collision between the two given distinct transcripts. -/
theorem C45_binding (E : Env F P) (hE : E.Lawful) (p p' : Params P) (h : ParamsBuilt E p) (h' : ParamsBuilt E p')
    (heq : p.hash = p'.hash) :
    p = p' ∨
      (paramsTranscript E p.n p.m p.G p.G1 p.U p.CommitmentG p.CommitmentH
          ≠ paramsTranscript E p'.n p'.m p'.G p'.G1 p'.U p'.CommitmentG p'.CommitmentH ∧
        E.challenge (paramsTranscript E p.n p.m p.G p.G1 p.U p.CommitmentG p.CommitmentH)
          = E.challenge (paramsTranscript E p'.n p'.m p'.G p'.G1 p'.U p'.CommitmentG p'.CommitmentH)) := by
  have e := C45_hash E p h
  have e' := C45_hash E p' h'
  by_cases ht : paramsTranscript E p.n p.m p.G p.G1 p.U p.CommitmentG p.CommitmentH
      = paramsTranscript E p'.n p'.m p'.G p'.G1 p'.U p'.CommitmentG p'.CommitmentH
  · left
    have ok := h.ok
    have ok' := h'.ok
    obtain ⟨b1, b2⟩ := le_u32_of_pow _ _ ok.n ok.m ok.N
    obtain ⟨b1', b2'⟩ := le_u32_of_pow _ _ ok'.n ok'.m ok'.N
    obtain ⟨i1, i2, i3, i4, i5, i6, i7⟩ := paramsTranscript_inj hE _ _ _ _ _ _ _ _ _ _ _ _ _ _ b1 b2 b1' b2' ht
    cases p; cases p'
    simp_all
  · right
    exact ⟨ht, by rw [← e, ← e', heq]⟩

/-- The hypotheses of `C45_hash` and `C45_binding` are met. -/
example : (Toy.env 101).Lawful ∧ ParamsBuilt (Toy.env 101) Toy.params :=
  ⟨Toy.env_lawful 101 (by norm_num), _, _, _, _, _, Toy.params_new⟩

section
variable [Field F] [AddCommGroup P] [Module F P] [DecidableEq F] [DecidableEq P]

/-- C45: `commit_matrix` accepts exactly `m` by `n` matrices, in both timing modes, and computes the Pedersen commitment. -/
theorem C45_commit_matrix (E : Env F P) (p : Params P) (h : ParamsBuilt E p) (x : List (List F)) (mask : F)
    (timing : OperationTiming) :
    (x.length ≠ p.m →
      p.commitMatrix x mask timing = .err (.InvalidParameter "matrix did not have `m` rows")) ∧
    (x.length = p.m → (∃ row ∈ x, row.length ≠ p.n) →
      p.commitMatrix x mask timing = .err (.InvalidParameter "matrix did not have `n` columns")) ∧
    (x.length = p.m → (∀ row ∈ x, row.length = p.n) →
      p.commitMatrix x mask timing
        = .ok (commit p.n p.m p.CommitmentG p.CommitmentH (fun j i => (x.getD j []).getD i 0) mask)) := by
  refine ⟨?_, ?_, ?_⟩
  · intro h1; rw [Params.commitMatrix, if_pos h1]
  · rintro h1 ⟨row, hrow, hne⟩
    rw [Params.commitMatrix, if_neg (not_not.2 h1), if_pos]
    rw [List.any_eq_true]
    exact ⟨row, hrow, by simpa using hne⟩
  · intro h1 h2
    have := commitMatrix_mat p h.ok (fun j i => (x.getD j []).getD i 0) mask timing
    rwa [← matrix_eq_mat x 0 p.m p.n h1 h2] at this

/-- C45: commitments are additively homomorphic. -/
theorem C45_linear (E : Env F P) (p : Params P) (h : ParamsBuilt E p) (X Y : List (List F)) (r s c d : F) (A B : P)
    (timing : OperationTiming) (hX : p.commitMatrix X r timing = .ok A) (hY : p.commitMatrix Y s timing = .ok B) :
    p.commitMatrix (List.zipWith (List.zipWith fun x y => c * x + d * y) X Y) (c * r + d * s) timing
      = .ok (c • A + d • B) := by
  have shape : ∀ (Z : List (List F)) (t : F) (Q : P), p.commitMatrix Z t timing = .ok Q →
      Z.length = p.m ∧ ∀ row ∈ Z, row.length = p.n := by
    intro Z t Q hZ
    obtain ⟨e1, e2, -⟩ := C45_commit_matrix E p h Z t timing
    by_cases h1 : Z.length = p.m
    · refine ⟨h1, ?_⟩
      by_contra hc
      push Not at hc
      rw [e2 h1 hc] at hZ
      simp at hZ
    · rw [e1 h1] at hZ; simp at hZ
  obtain ⟨x1, x2⟩ := shape X r A hX
  obtain ⟨y1, y2⟩ := shape Y s B hY
  rw [(C45_commit_matrix E p h X r timing).2.2 x1 x2] at hX
  rw [(C45_commit_matrix E p h Y s timing).2.2 y1 y2] at hY
  simp only [Outcome.ok.injEq] at hX hY
  have zrow : ∀ row ∈ List.zipWith (List.zipWith fun x y => c * x + d * y) X Y, row.length = p.n := by
    intro row hrow
    rw [List.mem_iff_getElem] at hrow
    obtain ⟨i, hi, rfl⟩ := hrow
    rw [List.getElem_zipWith, List.length_zipWith, x2 _ (List.getElem_mem _), y2 _ (List.getElem_mem _), Nat.min_self]
  rw [(C45_commit_matrix E p h _ _ timing).2.2 (by simp [x1, y1]) zrow, ← hX, ← hY, ← commit_smul, ← commit_smul,
    ← commit_add]
  congr 1
  apply commit_congr
  intro j hj i hi
  have hx : i < X[j].length := by rw [x2 _ (List.getElem_mem _)]; exact hi
  have hy : i < Y[j].length := by rw [y2 _ (List.getElem_mem _)]; exact hi
  simp [x1, y1, hj, hx, hy]

end

/-- The hypotheses of `C45_commit_matrix` and `C45_linear` are met. -/
example : ParamsBuilt (Toy.env 101) Toy.params ∧
    Toy.params.commitMatrix [[(1 : ZMod 101), 2], [3, 4]] 5 .Constant = .ok (74 : ZMod 101) := by
  refine ⟨⟨_, _, _, _, _, Toy.params_new⟩, by decide +kernel⟩

example : Toy.params.commitMatrix [[(9 : ZMod 101), 0], [100, 3]] 8 .Constant ≠ .ok (74 : ZMod 101) ∧
    (Toy.params.commitMatrix [[(9 : ZMod 101), 0], [100, 3]] 8 .Constant).isOk = true := by decide +kernel

end Triptych.Parallel
