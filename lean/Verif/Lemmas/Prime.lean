import Mathlib.NumberTheory.LucasPrimality
import Mathlib.Tactic.NormNum.Prime

/-! # The order of the Ristretto group is prime

A Pratt certificate, checked by the kernel: each prime is certified by Lucas' criterion from the primes of its predecessor. -/
set_option autoImplicit false

namespace Triptych.Prime

/-- `a ^ b % m` by squaring; `fuel` bounds the number of bits of `b`. -/
def powMod (m : ℕ) : ℕ → ℕ → ℕ → ℕ
  | 0, _, _ => 1 % m
  | fuel + 1, a, b =>
    if b = 0 then 1 % m
    else if b % 2 = 0 then powMod m fuel (a * a % m) (b / 2)
    else a * powMod m fuel (a * a % m) (b / 2) % m

theorem powMod_eq (m fuel a b : ℕ) (h : b < 2 ^ fuel) : powMod m fuel a b = a ^ b % m := by
  induction fuel generalizing a b with
  | zero =>
    have : b = 0 := by simpa using h
    subst this
    simp [powMod]
  | succ fuel ih =>
    have hb : b / 2 < 2 ^ fuel := by rw [pow_succ] at h; omega
    have hsq : ((a * a % m) ^ (b / 2)) % m = a ^ (2 * (b / 2)) % m := by
      rw [← Nat.pow_mod, pow_mul, pow_two]
    rw [powMod]
    split
    · rename_i h0; subst h0; simp
    · split
      · rename_i h2
        rw [ih _ _ hb, hsq]
        congr 2; omega
      · rename_i h2
        rw [ih _ _ hb, hsq, Nat.mul_mod_mod, ← pow_succ']
        congr 2; omega

theorem powMod_cast (m fuel a b c : ℕ) (h : b < 2 ^ fuel) (hc : powMod m fuel a b = c) : (a : ZMod m) ^ b = (c : ZMod m) := by
  rw [powMod_eq m fuel a b h] at hc
  rw [← Nat.cast_pow, ZMod.natCast_eq_natCast_iff, Nat.ModEq, ← hc, Nat.mod_mod]

/-- Lucas' criterion with the prime factors of `p - 1` given as a list. -/
theorem lucas (p a fuel : ℕ) (qs : List ℕ) (hp : 1 < p) (hfuel : p < 2 ^ fuel) (hq : ∀ q ∈ qs, q.Prime)
    (hprod : qs.prod = p - 1) (h1 : powMod p fuel a (p - 1) = 1)
    (h2 : ∀ q ∈ qs, powMod p fuel a ((p - 1) / q) ≠ 1) : p.Prime := by
  refine lucas_primality p (a : ZMod p) ?_ ?_
  · rw [powMod_cast p fuel a (p - 1) 1 (by omega) h1, Nat.cast_one]
  · intro q hqp hdvd hc
    have hmem : q ∈ qs := by
      rw [← hprod] at hdvd
      obtain ⟨q', h, hd⟩ := (Prime.dvd_prod_iff (Nat.prime_iff.1 hqp)).1 hdvd
      rwa [(Nat.prime_dvd_prime_iff_eq hqp (hq q' h)).1 hd]
    have hlt : (p - 1) / q < 2 ^ fuel := by
      have := Nat.div_le_self (p - 1) q; omega
    apply h2 q hmem
    have hc' : ((a ^ ((p - 1) / q) : ℕ) : ZMod p) = ((1 : ℕ) : ZMod p) := by rw [Nat.cast_pow, hc, Nat.cast_one]
    rw [ZMod.natCast_eq_natCast_iff, Nat.ModEq, Nat.mod_eq_of_lt hp] at hc'
    rw [powMod_eq p fuel a _ hlt, hc']

theorem prime0 : Nat.Prime 14741173 := by
  refine lucas 14741173 2 25 [2, 2, 3, 3, 409477] (by decide +kernel) (by decide +kernel) ?_ (by decide +kernel) (by decide +kernel) (by decide +kernel)
  simp only [List.forall_mem_cons, List.not_mem_nil, false_imp_iff, implies_true, and_true]
  exact ⟨(by norm_num : Nat.Prime 2), (by norm_num : Nat.Prime 2), (by norm_num : Nat.Prime 3), (by norm_num : Nat.Prime 3), (by norm_num : Nat.Prime 409477)⟩

theorem prime1 : Nat.Prime 58964693 := by
  refine lucas 58964693 2 27 [2, 2, 14741173] (by decide +kernel) (by decide +kernel) ?_ (by decide +kernel) (by decide +kernel) (by decide +kernel)
  simp only [List.forall_mem_cons, List.not_mem_nil, false_imp_iff, implies_true, and_true]
  exact ⟨(by norm_num : Nat.Prime 2), (by norm_num : Nat.Prime 2), prime0⟩

theorem prime2 : Nat.Prime 3044861653679985063343 := by
  refine lucas 3044861653679985063343 5 73 [2, 3, 11, 30703, 82163, 132667, 137849] (by decide +kernel) (by decide +kernel) ?_ (by decide +kernel) (by decide +kernel) (by decide +kernel)
  simp only [List.forall_mem_cons, List.not_mem_nil, false_imp_iff, implies_true, and_true]
  exact ⟨(by norm_num : Nat.Prime 2), (by norm_num : Nat.Prime 3), (by norm_num : Nat.Prime 11), (by norm_num : Nat.Prime 30703), (by norm_num : Nat.Prime 82163), (by norm_num : Nat.Prime 132667), (by norm_num : Nat.Prime 137849)⟩

theorem prime3 : Nat.Prime 198211423230930754013084525763697 := by
  refine lucas 198211423230930754013084525763697 5 109 [2, 2, 2, 2, 3, 23, 58964693, 3044861653679985063343] (by decide +kernel) (by decide +kernel) ?_ (by decide +kernel) (by decide +kernel) (by decide +kernel)
  simp only [List.forall_mem_cons, List.not_mem_nil, false_imp_iff, implies_true, and_true]
  exact ⟨(by norm_num : Nat.Prime 2), (by norm_num : Nat.Prime 2), (by norm_num : Nat.Prime 2), (by norm_num : Nat.Prime 2), (by norm_num : Nat.Prime 3), (by norm_num : Nat.Prime 23), prime1, prime2⟩

theorem prime4 : Nat.Prime 292386187 := by
  refine lucas 292386187 2 30 [2, 3, 3, 3, 3, 307, 5879] (by decide +kernel) (by decide +kernel) ?_ (by decide +kernel) (by decide +kernel) (by decide +kernel)
  simp only [List.forall_mem_cons, List.not_mem_nil, false_imp_iff, implies_true, and_true]
  exact ⟨(by norm_num : Nat.Prime 2), (by norm_num : Nat.Prime 3), (by norm_num : Nat.Prime 3), (by norm_num : Nat.Prime 3), (by norm_num : Nat.Prime 3), (by norm_num : Nat.Prime 307), (by norm_num : Nat.Prime 5879)⟩

theorem prime5 : Nat.Prime 213441916511 := by
  refine lucas 213441916511 13 39 [2, 5, 73, 292386187] (by decide +kernel) (by decide +kernel) ?_ (by decide +kernel) (by decide +kernel) (by decide +kernel)
  simp only [List.forall_mem_cons, List.not_mem_nil, false_imp_iff, implies_true, and_true]
  exact ⟨(by norm_num : Nat.Prime 2), (by norm_num : Nat.Prime 5), (by norm_num : Nat.Prime 73), prime4⟩

theorem prime6 : Nat.Prime 1257559732178653 := by
  refine lucas 1257559732178653 2 52 [2, 2, 3, 7, 23, 531581, 1224481] (by decide +kernel) (by decide +kernel) ?_ (by decide +kernel) (by decide +kernel) (by decide +kernel)
  simp only [List.forall_mem_cons, List.not_mem_nil, false_imp_iff, implies_true, and_true]
  exact ⟨(by norm_num : Nat.Prime 2), (by norm_num : Nat.Prime 2), (by norm_num : Nat.Prime 3), (by norm_num : Nat.Prime 7), (by norm_num : Nat.Prime 23), (by norm_num : Nat.Prime 531581), (by norm_num : Nat.Prime 1224481)⟩

theorem prime7 : Nat.Prime 4434155615661930479 := by
  refine lucas 4434155615661930479 17 63 [2, 41, 43, 1257559732178653] (by decide +kernel) (by decide +kernel) ?_ (by decide +kernel) (by decide +kernel) (by decide +kernel)
  simp only [List.forall_mem_cons, List.not_mem_nil, false_imp_iff, implies_true, and_true]
  exact ⟨(by norm_num : Nat.Prime 2), (by norm_num : Nat.Prime 41), (by norm_num : Nat.Prime 43), prime6⟩

theorem prime8 : Nat.Prime 172054593956031949258510691 := by
  refine lucas 172054593956031949258510691 2 89 [2, 5, 1361, 2851, 4434155615661930479] (by decide +kernel) (by decide +kernel) ?_ (by decide +kernel) (by decide +kernel) (by decide +kernel)
  simp only [List.forall_mem_cons, List.not_mem_nil, false_imp_iff, implies_true, and_true]
  exact ⟨(by norm_num : Nat.Prime 2), (by norm_num : Nat.Prime 5), (by norm_num : Nat.Prime 1361), (by norm_num : Nat.Prime 2851), prime7⟩

theorem prime9 : Nat.Prime 19757330305831588566944191468367130476339 := by
  refine lucas 19757330305831588566944191468367130476339 2 135 [2, 269, 213441916511, 172054593956031949258510691] (by decide +kernel) (by decide +kernel) ?_ (by decide +kernel) (by decide +kernel) (by decide +kernel)
  simp only [List.forall_mem_cons, List.not_mem_nil, false_imp_iff, implies_true, and_true]
  exact ⟨(by norm_num : Nat.Prime 2), (by norm_num : Nat.Prime 269), prime5, prime8⟩

theorem prime10 : Nat.Prime 276602624281642239937218680557139826668747 := by
  refine lucas 276602624281642239937218680557139826668747 2 139 [2, 7, 19757330305831588566944191468367130476339] (by decide +kernel) (by decide +kernel) ?_ (by decide +kernel) (by decide +kernel) (by decide +kernel)
  simp only [List.forall_mem_cons, List.not_mem_nil, false_imp_iff, implies_true, and_true]
  exact ⟨(by norm_num : Nat.Prime 2), (by norm_num : Nat.Prime 7), prime9⟩

/-- The order of the Ristretto group (curve25519-dalek, `constants::BASEPOINT_ORDER`). -/
def order : ℕ := 2 ^ 252 + 27742317777372353535851937790883648493

/-- It is prime, so scalars form a field. -/
theorem order_prime : Nat.Prime order := by
  refine lucas order 2 254 [2, 2, 3, 11, 198211423230930754013084525763697, 276602624281642239937218680557139826668747] (by decide +kernel) (by decide +kernel) ?_ (by decide +kernel) (by decide +kernel) (by decide +kernel)
  simp only [List.forall_mem_cons, List.not_mem_nil, false_imp_iff, implies_true, and_true]
  exact ⟨(by norm_num : Nat.Prime 2), (by norm_num : Nat.Prime 2), (by norm_num : Nat.Prime 3), (by norm_num : Nat.Prime 11), prime3, prime10⟩

instance : Fact order.Prime := ⟨order_prime⟩

end Triptych.Prime
