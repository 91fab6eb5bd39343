import Verif.Ot.FieldMul
import Mathlib.FieldTheory.Finite.Extension
import Mathlib.Tactic.ComputeDegree

/-!
# `X^256 + X^10 + X^5 + X^2 + 1` is irreducible over `F_2`

Rabin's criterion, with the powers of the root computed by the kernel on natural numbers read as
polynomials over `F_2`.
-/

set_option linter.unusedSectionVars false

namespace Verif.Ot

open Finset Polynomial

/-- the polynomial of pkg/ot/extension/kos/kos.go:82, table A.1 of the cited book -/
noncomputable def modulus : (ZMod 2)[X] := X ^ 256 + X ^ 10 + X ^ 5 + X ^ 2 + 1

theorem modulus_monic : modulus.Monic := by
  unfold modulus
  have : (X ^ 256 + X ^ 10 + X ^ 5 + X ^ 2 + 1 : (ZMod 2)[X]) = X ^ 256 + (X ^ 10 + X ^ 5 + X ^ 2 + 1) := by
    ring
  rw [this]
  refine monic_X_pow_add ?_
  compute_degree!

theorem modulus_natDegree : modulus.natDegree = 256 := by
  unfold modulus
  compute_degree!

section Nat

variable {R : Type} [CommRing R] [CharP R 2] (x : R)

/-- value at `x` of the polynomial coded by the bits of a natural number -/
def nv (n : ℕ) : R := ∑ i ∈ range n, bv R (n.testBit i) * x ^ i

theorem nv_eq (n N : ℕ) (h : n < 2 ^ N) : nv x n = ∑ i ∈ range N, bv R (n.testBit i) * x ^ i := by
  unfold nv
  have h0 : ∀ M N : ℕ, n < 2 ^ M → M ≤ N → ∑ i ∈ range M, bv R (n.testBit i) * x ^ i =
      ∑ i ∈ range N, bv R (n.testBit i) * x ^ i := by
    intro M N hM hMN
    refine sum_subset (range_mono hMN) fun i _ hi => ?_
    rw [mem_range, not_lt] at hi
    rw [Nat.testBit_lt_two_pow (lt_of_lt_of_le hM (Nat.pow_le_pow_right (by norm_num) hi)), bv_false,
      zero_mul]
  rw [h0 n (max n N) Nat.lt_two_pow_self (le_max_left _ _), h0 N (max n N) h (le_max_right _ _)]

theorem nv_xor (a b : ℕ) : nv x (a ^^^ b) = nv x a + nv x b := by
  have hN : ∀ c, c ≤ max a b → c < 2 ^ (max a b) := fun c hc => lt_of_le_of_lt hc Nat.lt_two_pow_self
  rw [nv_eq x a _ (hN a (le_max_left _ _)), nv_eq x b _ (hN b (le_max_right _ _)),
    nv_eq x _ _ (Nat.xor_lt_two_pow (hN a (le_max_left _ _)) (hN b (le_max_right _ _))),
    ← sum_add_distrib]
  exact sum_congr rfl fun i _ => by rw [Nat.testBit_xor, bv_xor, add_mul]

theorem nv_shift (a s : ℕ) : nv x (a <<< s) = x ^ s * nv x a := by
  have h : a <<< s < 2 ^ (s + a) := by
    rw [Nat.shiftLeft_eq, pow_add, mul_comm]
    exact Nat.mul_lt_mul_of_pos_left Nat.lt_two_pow_self (by positivity)
  rw [nv_eq x _ _ h, sum_range_add, sum_eq_zero, zero_add]
  · unfold nv
    rw [mul_sum]
    refine sum_congr rfl fun i _ => ?_
    rw [Nat.testBit_shiftLeft]
    simp only [Nat.add_sub_cancel_left, ge_iff_le, Nat.le_add_right, decide_true, Bool.true_and]
    ring
  · intro i hi
    rw [mem_range] at hi
    rw [Nat.testBit_shiftLeft]
    simp [hi, bv]

theorem nv_zero : nv x 0 = 0 := rfl

theorem nv_one : nv x 1 = 1 := by simp [nv, bv]

theorem nv_two : nv x 2 = x := by
  rw [show 2 = 1 <<< 1 from rfl, nv_shift, nv_one]; ring

theorem nv_double (a : ℕ) : nv x (2 * a) = x * nv x a := by
  rw [show 2 * a = a <<< 1 by rw [Nat.shiftLeft_eq]; omega, nv_shift, pow_one]

theorem nv_bit (a : ℕ) : nv x a = bv R (a.testBit 0) + x * nv x (a / 2) := by
  have : a = (a % 2) ^^^ (2 * (a / 2)) := by
    refine Nat.eq_of_testBit_eq fun i => ?_
    rw [Nat.testBit_xor]
    cases i with
    | zero => simp [Nat.testBit_zero]
    | succ i =>
      rw [Nat.testBit_succ, Nat.testBit_succ, Nat.testBit_succ]
      simp [Nat.mod_div_self]
  conv_lhs => rw [this]
  rw [nv_xor, nv_double]
  congr 1
  rcases Nat.mod_two_eq_zero_or_one a with h | h
  · rw [h]; simp [Nat.testBit_zero, h, nv_zero, bv]
  · rw [h, nv_one]; simp [Nat.testBit_zero, h, bv]

/-- squaring: spread the low `k` bits -/
def nsq : ℕ → ℕ → ℕ
  | 0, _ => 0
  | k + 1, n => n % 2 + 4 * nsq k (n / 2)

theorem nv_nsq (k n : ℕ) (h : n < 2 ^ k) : nv x (nsq k n) = nv x n ^ 2 := by
  induction k generalizing n with
  | zero =>
    have : n = 0 := by simpa using h
    subst this; simp [nsq, nv_zero]
  | succ k ih =>
    have h2 := ih (n / 2) (by rw [pow_succ] at h; omega)
    rw [nsq, nv_bit x (n % 2 + _), nv_bit x ((n % 2 + _) / 2)]
    have e1 : (n % 2 + 4 * nsq k (n / 2)) / 2 = 2 * nsq k (n / 2) := by omega
    have e2 : 2 * nsq k (n / 2) / 2 = nsq k (n / 2) := by omega
    rw [e1, e2, h2, nv_bit x n]
    have t0 : (n % 2 + 4 * nsq k (n / 2)).testBit 0 = n.testBit 0 := by
      simp only [Nat.testBit_zero]; congr 1; rw [eq_iff_iff]; omega
    have t1 : (2 * nsq k (n / 2)).testBit 0 = false := by
      simp [Nat.testBit_zero]
    rw [t0, t1, bv_false, zero_add]
    have hb : bv R (n.testBit 0) ^ 2 = bv R (n.testBit 0) := by
      cases n.testBit 0 <;> simp [bv]
    have h20 : (2 : R) = 0 := CharTwo.two_eq_zero
    linear_combination (-1) * hb - bv R (n.testBit 0) * x * nv x (n / 2) * h20

/-- reduction of the part above `X^256` -/
def nred (n : ℕ) : ℕ :=
  let q := n / 2 ^ 256
  (n % 2 ^ 256) ^^^ (q <<< 10) ^^^ (q <<< 5) ^^^ (q <<< 2) ^^^ q

theorem nv_nred (hx : x ^ 256 = x ^ 10 + x ^ 5 + x ^ 2 + 1) (n : ℕ) : nv x (nred n) = nv x n := by
  have : n = (n % 2 ^ 256) ^^^ ((n / 2 ^ 256) <<< 256) := by
    refine Nat.eq_of_testBit_eq fun i => ?_
    rw [Nat.testBit_xor, Nat.testBit_mod_two_pow, Nat.testBit_shiftLeft, Nat.testBit_div_two_pow]
    by_cases h : i < 256
    · simp [h, Nat.not_le.2 h]
    · have h' : 256 ≤ i := by omega
      simp [h, h']
  conv_rhs => rw [this]
  unfold nred
  simp only [nv_xor, nv_shift]
  rw [hx]; ring

/-- `k` squarings modulo the polynomial -/
def nchain : ℕ → ℕ → Option ℕ
  | 0, r => some r
  | k + 1, r => if r < 2 ^ 256 then nchain k (nred (nred (nsq 256 r))) else none

theorem nv_nchain (hx : x ^ 256 = x ^ 10 + x ^ 5 + x ^ 2 + 1) (k r r' : ℕ)
    (h : nchain k r = some r') : nv x r' = nv x r ^ 2 ^ k := by
  induction k generalizing r with
  | zero =>
    rw [nchain] at h
    obtain rfl := Option.some.inj h
    simp
  | succ k ih =>
    rw [nchain] at h
    split at h
    · rename_i hr
      rw [ih _ h, nv_nred x hx, nv_nred x hx, nv_nsq x 256 r hr, ← pow_mul, ← pow_succ']
    · cases h

/-- carry-less product -/
def ncm : ℕ → ℕ → ℕ → ℕ
  | 0, _, _ => 0
  | k + 1, a, b => (if a % 2 = 1 then b else 0) ^^^ (2 * ncm k (a / 2) b)

theorem nv_ncm (k a b : ℕ) (h : a < 2 ^ k) : nv x (ncm k a b) = nv x a * nv x b := by
  induction k generalizing a with
  | zero =>
    have : a = 0 := by simpa using h
    subst this; simp [ncm, nv_zero]
  | succ k ih =>
    have h2 := ih (a / 2) (by rw [pow_succ] at h; omega)
    rw [ncm, nv_xor, nv_double, h2, nv_bit x a]
    rcases Nat.mod_two_eq_zero_or_one a with h | h
    · simp [h, nv_zero, bv, Nat.testBit_zero]; ring
    · simp [h, bv, Nat.testBit_zero]; ring

end Nat

/-- `X^(2^128)` modulo the polynomial -/
def r128 : ℕ := 0x2220d78c13d87c2ffc1c5bd25e53444bc74da1980d2519c9d41f22f67f2f9863

theorem chain128 : nchain 128 2 = some r128 := by decide +kernel

theorem chain256 : nchain 128 r128 = some 2 := by decide +kernel

theorem bezout : ncm 256 0x8b1a0274495b90d616ae2bae812272df459c3cc8ef82bd5b03e5bedd3afde48
      (2 ^ 256 + 1061) ^^^
    ncm 256 0x41d07da235f08b92d026035887191e2fd91148129c622b9bd3caaa61ed5af509 (r128 ^^^ 2) = 1 := by
  decide +kernel

theorem nv_modulus {R : Type} [CommRing R] [CharP R 2] (x : R) :
    nv x (2 ^ 256 + 1061) = x ^ 256 + x ^ 10 + x ^ 5 + x ^ 2 + 1 := by
  have : 2 ^ 256 + 1061 = (1 <<< 256) ^^^ (1 <<< 10) ^^^ (1 <<< 5) ^^^ (1 <<< 2) ^^^ 1 := by decide +kernel
  rw [this]
  simp only [nv_xor, nv_shift, nv_one, mul_one]

theorem root_rel {g : (ZMod 2)[X]} (hg : g ∣ modulus) :
    (AdjoinRoot.root g) ^ 256 = (AdjoinRoot.root g) ^ 10 + (AdjoinRoot.root g) ^ 5 +
      (AdjoinRoot.root g) ^ 2 + 1 := by
  have h : AdjoinRoot.mk g modulus = 0 := AdjoinRoot.mk_eq_zero.2 hg
  have h1 : AdjoinRoot.mk g modulus = (AdjoinRoot.root g) ^ 256 + (AdjoinRoot.root g) ^ 10 +
      (AdjoinRoot.root g) ^ 5 + (AdjoinRoot.root g) ^ 2 + 1 := by
    unfold modulus
    simp only [map_add, map_pow, AdjoinRoot.mk_X, map_one]
  rw [h1] at h
  have hc : (2 : AdjoinRoot g) = 0 := by
    have : (2 : AdjoinRoot g) = AdjoinRoot.of g (2 : ZMod 2) := (map_ofNat (AdjoinRoot.of g) 2).symm
    rw [this, show (2 : ZMod 2) = 0 from rfl, map_zero]
  linear_combination h - ((AdjoinRoot.root g) ^ 10 + (AdjoinRoot.root g) ^ 5 +
      (AdjoinRoot.root g) ^ 2 + 1) * hc

theorem charP_adjoin {g : (ZMod 2)[X]} (hg : Irreducible g) : CharP (AdjoinRoot g) 2 := by
  have : Fact (Irreducible g) := ⟨hg⟩
  exact charP_of_injective_algebraMap (algebraMap (ZMod 2) (AdjoinRoot g)).injective 2

/-- an irreducible factor divides `X^(2^256) - X`, and does not divide `X^(2^128) - X` -/
theorem factor_powers {g : (ZMod 2)[X]} (hg : Irreducible g) (hdvd : g ∣ modulus) (A B : ℕ)
    (hA : A = 2 ^ 128) (hB : B = A * A) : g ∣ X ^ B - X ∧ ¬ g ∣ X ^ A - X := by
  have : Fact (Irreducible g) := ⟨hg⟩
  have := charP_adjoin hg
  rw [← AdjoinRoot.mk_eq_mk, ← AdjoinRoot.mk_eq_mk, map_pow, map_pow, AdjoinRoot.mk_X]
  have hx := root_rel hdvd
  have c1 := nv_nchain (AdjoinRoot.root g) hx 128 2 r128 chain128
  have c2 := nv_nchain (AdjoinRoot.root g) hx 128 r128 2 chain256
  rw [nv_two, ← hA] at c1 c2
  generalize hR : nv (AdjoinRoot.root g) r128 = R at c1 c2
  constructor
  · rw [c1, ← pow_mul, ← hB] at c2
    exact c2.symm
  · intro h
    have b := congrArg (nv (AdjoinRoot.root g)) bezout
    rw [nv_xor, nv_ncm _ 256 _ _ (by norm_num), nv_ncm _ 256 _ _ (by norm_num), nv_modulus, nv_xor,
      nv_one, nv_two, hR, c1, h, hx, CharTwo.add_self_eq_zero, mul_zero, add_zero] at b
    have z : (AdjoinRoot.root g) ^ 10 + (AdjoinRoot.root g) ^ 5 + (AdjoinRoot.root g) ^ 2 + 1 +
        (AdjoinRoot.root g) ^ 10 + (AdjoinRoot.root g) ^ 5 + (AdjoinRoot.root g) ^ 2 + 1 = 0 := by
      have hc : (2 : AdjoinRoot g) = 0 := CharTwo.two_eq_zero
      linear_combination ((AdjoinRoot.root g) ^ 10 + (AdjoinRoot.root g) ^ 5 +
        (AdjoinRoot.root g) ^ 2 + 1) * hc
    rw [z, mul_zero] at b
    exact zero_ne_one b

theorem modulus_irreducible : Irreducible modulus := by
  have h1 : modulus ≠ 1 := by
    intro h
    have hd := modulus_natDegree
    have h0 : modulus.natDegree = 0 := (congrArg natDegree h).trans natDegree_one
    exact absurd (hd.symm.trans h0) (by norm_num)
  rw [modulus_monic.irreducible_iff_lt_natDegree_lt h1]
  intro q hq hd hdvd
  rw [Finset.mem_Ioc] at hd
  have e256 := modulus_natDegree
  -- an irreducible factor of small degree
  obtain ⟨g, hg, hgq⟩ := exists_irreducible_of_natDegree_pos hd.1
  have hcard : Nat.card (ZMod 2) = 2 := by simp
  have hle : g.natDegree ≤ 128 := (natDegree_le_of_dvd hgq hq.ne_zero).trans (by omega)
  have d1 := hg.natDegree_dvd_iff_dvd_X_pow_card_pow_sub_X (n := 2 ^ 8)
  have d2 := hg.natDegree_dvd_iff_dvd_X_pow_card_pow_sub_X (n := 2 ^ 7)
  rw [hcard] at d1 d2
  obtain ⟨p1, p2⟩ := factor_powers hg (hgq.trans hdvd) (2 ^ 2 ^ 7) (2 ^ 2 ^ 8) rfl
    (by rw [← pow_add, show 2 ^ 7 + 2 ^ 7 = 2 ^ 8 from rfl])
  rw [← d1, Nat.dvd_prime_pow Nat.prime_two] at p1
  rw [← d2] at p2
  apply p2
  obtain ⟨k, hk, e⟩ := p1
  rw [e]
  refine pow_dvd_pow 2 ?_
  by_contra hk7
  have : k = 8 := by omega
  rw [this] at e
  omega

attribute [irreducible] modulus

end Verif.Ot
