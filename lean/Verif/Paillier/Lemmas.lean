import Verif.Paillier.Model
import Verif.Core.Lemmas
import Mathlib.FieldTheory.Finite.Basic
import Mathlib.Data.Nat.Prime.Int
import Mathlib.RingTheory.Coprime.Lemmas

/-! # Lemmas about the Paillier model -/

set_option linter.unusedSectionVars false

namespace Verif.Paillier

/-! ## Arithmetic modulo `N²` -/

theorem one_add_mul_pow (N k : ℤ) (j : ℕ) : (1 + k * N) ^ j ≡ 1 + j * k * N [ZMOD N * N] := by
  induction j with
  | zero => simp [Int.ModEq.refl]
  | succ j ih =>
    rw [pow_succ]
    refine (ih.mul_right _).trans ?_
    rw [Int.modEq_iff_dvd]
    exact ⟨-(j * k * k), by push_cast; ring⟩

/-- `1 + aN ≡ 1 + bN (mod N²)` iff `a ≡ b (mod N)`. -/
theorem one_add_modEq {N a b : ℤ} (hN : N ≠ 0) :
    1 + a * N ≡ 1 + b * N [ZMOD N * N] ↔ a ≡ b [ZMOD N] := by
  rw [Int.modEq_iff_dvd, Int.modEq_iff_dvd]
  rw [show 1 + b * N - (1 + a * N) = (b - a) * N by ring]
  exact Int.mul_dvd_mul_iff_right hN

/-- If `r ≡ 1 (mod N)` then `r^N ≡ 1 (mod N²)`. -/
theorem pow_N_of_one {N r : ℤ} (hN : 0 < N) (h : r ≡ 1 [ZMOD N]) :
    r ^ N.toNat ≡ 1 [ZMOD N * N] := by
  obtain ⟨k, hk⟩ := (Int.modEq_iff_dvd.1 h.symm)
  have e : r = 1 + k * N := by linarith
  rw [e]
  refine (one_add_mul_pow N k N.toNat).trans ?_
  rw [Int.modEq_iff_dvd, Int.toNat_of_nonneg hN.le]
  exact ⟨-k, by ring⟩

/-- Fermat with any exponent divisible by `p - 1`. -/
theorem fermat_pow {p : ℕ} (hp : p.Prime) {r : ℤ} (hr : ¬ (p : ℤ) ∣ r) {e : ℕ} (he : (p - 1) ∣ e) :
    r ^ e ≡ 1 [ZMOD p] := by
  obtain ⟨k, rfl⟩ := he
  have h1 : r ^ (p - 1) ≡ 1 [ZMOD p] := by
    refine Int.ModEq.pow_card_sub_one_eq_one hp ?_
    exact ((Nat.prime_iff_prime_int.1 hp).coprime_iff_not_dvd.2 hr).symm
  rw [pow_mul]
  simpa using h1.pow k

/-- The key data of an honest Paillier key. -/
structure HonestPrimes (p q : ℕ) : Prop where
  pp : p.Prime
  qp : q.Prime
  ne : p ≠ q
  cop : Nat.Coprime (p * q) ((p - 1) * (q - 1))

theorem lcm_eq {x y : ℤ} (hx : 0 ≤ x) (hy : 0 ≤ y) : lcm x y = (Int.lcm x y : ℤ) := by
  lift x to ℕ using hx
  lift y to ℕ using hy
  unfold lcm
  rw [Int.lcm_natCast_natCast, Int.gcd_natCast_natCast]
  split
  · rename_i h
    have : Nat.gcd x y = 0 := by exact_mod_cast h
    rw [Nat.gcd_eq_zero_iff] at this
    simp [this.1]
  · rename_i h
    rw [abs_of_nonneg (by positivity), Nat.lcm]
    norm_cast
    rw [Nat.mul_comm x y, Nat.mul_div_assoc _ (Nat.gcd_dvd_left x y), Nat.mul_comm]

section
variable {p q : ℕ} (h : HonestPrimes p q)
include h

theorem HonestPrimes.N_pos : 1 < (p : ℤ) * q := by
  have := h.pp.one_lt
  have := h.qp.one_lt
  exact_mod_cast Nat.one_lt_mul_iff.2 ⟨by omega, by omega, by omega⟩

/-- `λ(N)` as a natural number. -/
theorem lambda_eq : lcm ((p : ℤ) - 1) ((q : ℤ) - 1) = (Nat.lcm (p - 1) (q - 1) : ℕ) := by
  have := h.pp.one_lt
  have := h.qp.one_lt
  rw [lcm_eq (by omega) (by omega)]
  rw [show (p : ℤ) - 1 = ((p - 1 : ℕ) : ℤ) by omega, show (q : ℤ) - 1 = ((q - 1 : ℕ) : ℤ) by omega]
  rfl

theorem coprime_lambda : Nat.Coprime (p * q) (Nat.lcm (p - 1) (q - 1)) := by
  refine Nat.Coprime.of_dvd_right ?_ h.cop
  exact Nat.lcm_dvd (Nat.dvd_mul_right _ _) (Nat.dvd_mul_left _ _)

theorem coprime_pq : IsCoprime (p : ℤ) (q : ℤ) := by
  rw [Nat.isCoprime_iff_coprime]
  exact (Nat.coprime_primes h.pp h.qp).2 h.ne

/-- `r^λ ≡ 1 (mod N)` for `r` coprime to `N`. -/
theorem pow_lambda {r : ℤ} (hr : IsCoprime r ((p : ℤ) * q)) :
    r ^ Nat.lcm (p - 1) (q - 1) ≡ 1 [ZMOD p * q] := by
  have hp : ¬ (p : ℤ) ∣ r := fun hd => by
    have : IsCoprime (p : ℤ) r := (IsCoprime.of_mul_right_left hr).symm
    exact (Nat.prime_iff_prime_int.1 h.pp).not_isUnit (this.isUnit_of_dvd' dvd_rfl hd)
  have hq : ¬ (q : ℤ) ∣ r := fun hd => by
    have : IsCoprime (q : ℤ) r := (IsCoprime.of_mul_right_right hr).symm
    exact (Nat.prime_iff_prime_int.1 h.qp).not_isUnit (this.isUnit_of_dvd' dvd_rfl hd)
  have h1 := fermat_pow h.pp hp (Nat.dvd_lcm_left (p - 1) (q - 1))
  have h2 := fermat_pow h.qp hq (Nat.dvd_lcm_right (p - 1) (q - 1))
  rw [Int.modEq_iff_dvd] at h1 h2 ⊢
  exact (coprime_pq h).mul_dvd h1 h2

end

/-! ## inversion of `l` -/

theorem l_eq {N x : ℤ} (hN : 1 < N) (h0 : 0 ≤ x) (h1 : x < N * N) :
    (x ≡ 1 [ZMOD N] → (PublicKey.l ⟨N, N * N⟩ x = .ok ((x - 1) / N) ∧
      x = 1 + (x - 1) / N * N)) ∧
    (¬ x ≡ 1 [ZMOD N] → PublicKey.l ⟨N, N * N⟩ x = Go.err) := by
  have e1 : (1 : ℤ) % N = 1 := Int.emod_eq_of_lt (by omega) hN
  constructor
  · intro h
    constructor
    · unfold PublicKey.l
      simp only
      rw [Go.guard_true (by omega), Go.guard_true (by unfold Int.ModEq at h; rw [h, e1])]
      unfold Core.inZm
      simp only
      rw [Go.guard_true (by constructor <;> omega)]
      rfl
    · have hd : N ∣ x - 1 := (Int.modEq_iff_dvd.1 h.symm)
      rw [Int.ediv_mul_cancel hd]; ring
  · intro h
    unfold PublicKey.l
    simp only
    rw [Go.guard_true (by omega), Go.guard_false (fun he => h (by unfold Int.ModEq; rw [he, e1]))]
    rfl

end Verif.Paillier
