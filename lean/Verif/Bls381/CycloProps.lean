import Verif.Bls381.FrobProps

/-!
# The cyclotomic subgroup and the final exponentiation
-/

namespace Verif.Bls381

open Verif.Primes

set_option exponentiation.threshold 5000

namespace Tower
variable {K : Type} [Field K] (T : Tower Fq K)

/-! ## Six coefficients over `fp2` -/

/-- powers of `w` -/
theorem v_eq : T.v = T.w ^ 2 := T.hw.symm

theorem w6 : T.w ^ 6 = T.u + 1 := by
  rw [show 6 = 2 * 3 from rfl, pow_mul, T.hw, T.hv]

theorem e12_w (x : Fp12 Fq) : T.e12 x = T.e2 x.A.A + T.e2 x.B.A * T.w + T.e2 x.A.B * T.w ^ 2
    + T.e2 x.B.B * T.w ^ 3 + T.e2 x.A.C * T.w ^ 4 + T.e2 x.B.C * T.w ^ 5 := by
  rw [e12_def, e6_def, e6_def, v_eq]; ring

/-- coefficients are unique -/
theorem w_unique {a0 a1 a2 a3 a4 a5 : Fp2 Fq}
    (h : T.e2 a0 + T.e2 a1 * T.w + T.e2 a2 * T.w ^ 2 + T.e2 a3 * T.w ^ 3 + T.e2 a4 * T.w ^ 4
      + T.e2 a5 * T.w ^ 5 = 0) :
    T.e2 a0 = 0 ∧ T.e2 a1 = 0 ∧ T.e2 a2 = 0 ∧ T.e2 a3 = 0 ∧ T.e2 a4 = 0 ∧ T.e2 a5 = 0 := by
  have h1 : T.e12 ⟨⟨a0, a2, a4⟩, ⟨a1, a3, a5⟩⟩ = 0 := by rw [e12_w]; exact h
  have h2 := T.e12_eq_zero.1 h1
  simp only [Fp12.zero, Fp6.zero, Fp12.mk.injEq, Fp6.mk.injEq] at h2
  obtain ⟨⟨rfl, rfl, rfl⟩, rfl, rfl, rfl⟩ := h2
  simp

/-- a cube root of unity modulo `p` -/
def cubeRoot : Fq := 2 ^ ((blsp * blsp - 1) / 12)

theorem cubeRoot_eq : 1 + cubeRoot + cubeRoot ^ 2 = 0 := by
  have h := Pock.powMod_eq blsp 768 2 ((blsp * blsp - 1) / 12) 1 (by decide +kernel)
  rw [Nat.cast_one, one_mul, Nat.cast_ofNat] at h
  rw [cubeRoot, ← h]
  have h2 : ((1 + Pock.powMod blsp 768 2 ((blsp * blsp - 1) / 12) 1
      + Pock.powMod blsp 768 2 ((blsp * blsp - 1) / 12) 1 ^ 2 : ℕ) : Fq) = 0 := by
    rw [ZMod.natCast_eq_zero_iff]
    exact Nat.dvd_of_mod_eq_zero (by decide +kernel)
  rw [Nat.cast_add, Nat.cast_add, Nat.cast_one, Nat.cast_pow] at h2
  exact h2

/-- its image in the tower -/
def c : K := T.φ cubeRoot

theorem hc : 1 + T.c + T.c ^ 2 = 0 := by
  have h := congrArg T.φ cubeRoot_eq
  rw [map_add, map_add, map_one, map_pow, map_zero] at h
  exact h

theorem c3 : T.c ^ 3 = 1 := by linear_combination (T.c - 1) * T.hc

theorem c_ne : T.c ≠ 0 := by
  intro h
  have := T.c3
  rw [h] at this
  simp at this

theorem w_pow_pp : (T.w ^ blsp) ^ blsp = -T.c * T.w := by
  rw [← pow_mul]
  have h : T.w ^ (blsp * blsp) = T.w ^ (2 * (3 * (2 * ((blsp * blsp - 1) / 12))) + 1) :=
    congrArg (T.w ^ ·) (by decide +kernel)
  rw [h, pow_succ, pow_mul, T.hw, pow_mul, T.hv, xi_pow,
    show ((blsp * blsp - 1) / 12) % 4 = 2 by decide +kernel, T.hu, c, cubeRoot]
  ring

/-- the square of the Frobenius map on `K` -/
def fr2 (z : K) : K := (z ^ blsp) ^ blsp

include T in
theorem fr2_add (x y : K) : fr2 (x + y) = fr2 x + fr2 y := by
  have := T.charP
  rw [fr2, add_pow_char, add_pow_char]; rfl

theorem fr2_mul (x y : K) : fr2 (x * y) = fr2 x * fr2 y := by
  rw [fr2, mul_pow, mul_pow]; rfl

theorem fr2_pow (x : K) (n : ℕ) : fr2 (x ^ n) = fr2 x ^ n := by
  rw [fr2, fr2, ← pow_mul, ← pow_mul, ← pow_mul, ← pow_mul]
  congr 1; ring

theorem fr2_inv (x : K) : fr2 x⁻¹ = (fr2 x)⁻¹ := by
  rw [fr2, fr2, inv_pow, inv_pow]

theorem fr2_one : fr2 (1 : K) = 1 := by rw [fr2, one_pow, one_pow]

theorem fr2_e2 (x : Fp2 Fq) : fr2 (T.e2 x) = T.e2 x := by
  rw [fr2, ← pow_mul, e2_pow_sq]

theorem fr2_w : fr2 T.w = -T.c * T.w := T.w_pow_pp

theorem fr2_c : fr2 T.c = T.c := by
  rw [c, fr2, phi_pow, phi_pow]

theorem fr2_e12 (x : Fp12 Fq) : fr2 (T.e12 x) = T.e2 x.A.A - T.c * T.e2 x.B.A * T.w
    + T.c ^ 2 * T.e2 x.A.B * T.w ^ 2 - T.e2 x.B.B * T.w ^ 3 + T.c * T.e2 x.A.C * T.w ^ 4
    - T.c ^ 2 * T.e2 x.B.C * T.w ^ 5 := by
  rw [e12_w]
  simp only [T.fr2_add, fr2_mul, fr2_pow, fr2_e2, fr2_w]
  linear_combination (-T.e2 x.B.B * T.w ^ 3 + T.e2 x.A.C * T.w ^ 4 * T.c
    - T.e2 x.B.C * T.w ^ 5 * T.c ^ 2) * T.c3

theorem fr2_neg (x : K) : fr2 (-x) = -fr2 x := by
  have hodd : Odd blsp := by
    rw [Nat.odd_iff]; decide +kernel
  rw [fr2, hodd.neg_pow, hodd.neg_pow]; rfl

theorem fr4_e12 (x : Fp12 Fq) : fr2 (fr2 (T.e12 x)) = T.e2 x.A.A + T.c ^ 2 * T.e2 x.B.A * T.w
    + T.c * T.e2 x.A.B * T.w ^ 2 + T.e2 x.B.B * T.w ^ 3 + T.c ^ 2 * T.e2 x.A.C * T.w ^ 4
    + T.c * T.e2 x.B.C * T.w ^ 5 := by
  rw [fr2_e12]
  simp only [sub_eq_add_neg, T.fr2_add, fr2_mul, fr2_pow, fr2_e2, fr2_w, fr2_c, fr2_neg]
  linear_combination (T.e2 x.B.B * T.w ^ 3 + T.e2 x.A.B * T.w ^ 2 * T.c
    + T.e2 x.A.C * T.w ^ 4 * T.c ^ 2 + T.e2 x.B.C * T.w ^ 5 * T.c * (T.c ^ 3 + 1)) * T.c3

theorem fr6_e12 (x : Fp12 Fq) : fr2 (fr2 (fr2 (T.e12 x))) = T.e12 x.conj := by
  rw [fr4_e12, e12_w]
  simp only [T.fr2_add, fr2_mul, fr2_pow, fr2_e2, fr2_w, fr2_c, Fp12.conj, Fp6.neg, e2_neg]
  linear_combination (-T.e2 x.B.A * T.w + T.e2 x.A.B * T.w ^ 2 - T.e2 x.B.B * T.w ^ 3
    + T.e2 x.A.C * T.w ^ 4 * (T.c ^ 3 + 1) - T.e2 x.B.C * T.w ^ 5 * (T.c ^ 3 + 1)) * T.c3

/-- the cyclotomic subgroup: `z^(p⁴ - p² + 1) = 1` -/
def Cyc (z : K) : Prop := z ≠ 0 ∧ fr2 (fr2 z) * z = fr2 z

theorem Cyc.one : Cyc (1 : K) := ⟨one_ne_zero, by rw [fr2_one, fr2_one, one_mul]⟩

theorem Cyc.mul {x y : K} (hx : Cyc x) (hy : Cyc y) : Cyc (x * y) :=
  ⟨mul_ne_zero hx.1 hy.1, by
    rw [fr2_mul, fr2_mul, mul_mul_mul_comm, hx.2, hy.2]⟩

theorem Cyc.inv {x : K} (hx : Cyc x) : Cyc x⁻¹ :=
  ⟨inv_ne_zero hx.1, by rw [fr2_inv, fr2_inv, ← mul_inv, hx.2]⟩

theorem Cyc.pow {x : K} (hx : Cyc x) (n : ℕ) : Cyc (x ^ n) := by
  induction n with
  | zero => rw [pow_zero]; exact Cyc.one
  | succ n ih => rw [pow_succ]; exact ih.mul hx

theorem Cyc.zpow {x : K} (hx : Cyc x) (n : ℤ) : Cyc (x ^ n) := by
  cases n with
  | ofNat n => rw [Int.ofNat_eq_natCast, zpow_natCast]; exact hx.pow n
  | negSucc n => rw [zpow_negSucc]; exact (hx.pow _).inv

theorem fr2_ne {x : K} (hx : x ≠ 0) : fr2 x ≠ 0 := pow_ne_zero _ (pow_ne_zero _ hx)

/-- in the cyclotomic subgroup, the sixth power of Frobenius inverts -/
theorem Cyc.fr6 {x : K} (hx : Cyc x) : fr2 (fr2 (fr2 x)) = x⁻¹ := by
  have h1 := congrArg fr2 hx.2
  rw [fr2_mul] at h1
  have h2 : fr2 (fr2 (fr2 x)) * x * fr2 x = 1 * fr2 x := by
    rw [mul_right_comm, h1, hx.2, one_mul]
  exact eq_inv_of_mul_eq_one_left (mul_right_cancel₀ (fr2_ne hx.1) h2)

theorem Cyc.conj {x : Fp12 Fq} (hx : Cyc (T.e12 x)) : T.e12 x.conj = (T.e12 x)⁻¹ := by
  rw [← fr6_e12, hx.fr6]

/-! ## Squaring -/

/-- the relations between the coefficients of an element of the cyclotomic subgroup -/
theorem Cyc.relations {x : Fp12 Fq} (h : Cyc (T.e12 x)) :
    T.e2 x.A.A ^ 2 + (T.u + 1) * T.e2 x.B.B ^ 2
        - (T.u + 1) * (T.e2 x.B.A * T.e2 x.B.C + T.e2 x.A.C * T.e2 x.A.B) - T.e2 x.A.A = 0 ∧
      T.e2 x.A.A * T.e2 x.B.A + (T.u + 1) * (T.e2 x.B.B * T.e2 x.A.C)
        - 2 * ((T.u + 1) * (T.e2 x.A.B * T.e2 x.B.C)) - T.e2 x.B.A = 0 ∧
      T.e2 x.B.A ^ 2 + (T.u + 1) * T.e2 x.A.C ^ 2 - T.e2 x.A.A * T.e2 x.A.B
        - (T.u + 1) * (T.e2 x.B.B * T.e2 x.B.C) - T.e2 x.A.B = 0 ∧
      2 * (T.e2 x.A.A * T.e2 x.B.B)
        - (T.e2 x.B.A * T.e2 x.A.B + (T.u + 1) * (T.e2 x.A.C * T.e2 x.B.C)) + T.e2 x.B.B = 0 ∧
      T.e2 x.A.A * T.e2 x.A.C + T.e2 x.B.B * T.e2 x.B.A - T.e2 x.A.B ^ 2
        - (T.u + 1) * T.e2 x.B.C ^ 2 + T.e2 x.A.C = 0 ∧
      2 * (T.e2 x.B.A * T.e2 x.A.C) - T.e2 x.A.A * T.e2 x.B.C - T.e2 x.B.B * T.e2 x.A.B
        + T.e2 x.B.C = 0 := by
  obtain ⟨⟨a0, a2, a4⟩, ⟨a1, a3, a5⟩⟩ := x
  have h1 := h.2
  rw [fr4_e12, fr2_e12, e12_w] at h1
  dsimp only at h1 ⊢
  have hcne := T.c_ne
  obtain ⟨g0, g1, g2, g3, g4, g5⟩ := T.w_unique
    (a0 := ((a0.square.add a3.square.mulByNonResidue).sub
      ((a1.mul a5).add (a4.mul a2)).mulByNonResidue).sub a0)
    (a1 := ((((a0.mul a1).add (a3.mul a4).mulByNonResidue).sub
      (a2.mul a5).mulByNonResidue.double).sub a1).mul0 (-cubeRoot))
    (a2 := ((((a1.square.add a4.square.mulByNonResidue).sub (a0.mul a2)).sub
      (a3.mul a5).mulByNonResidue).sub a2).mul0 (cubeRoot ^ 2))
    (a3 := ((a0.mul a3).double.sub ((a1.mul a2).add (a4.mul a5).mulByNonResidue)).add a3)
    (a4 := (((((a0.mul a4).add (a3.mul a1)).sub a2.square).sub a5.square.mulByNonResidue).add a4).mul0
      (-cubeRoot))
    (a5 := ((((a1.mul a4).double.sub (a0.mul a5)).sub (a3.mul a2)).add a5).mul0 (cubeRoot ^ 2))
    (by
      simp only [e2_add, e2_sub, e2_mul, e2_square, e2_nonRes, e2_double, e2_mul0, map_neg, map_pow,
        show T.φ cubeRoot = T.c from rfl]
      linear_combination h1
        - (T.e2 a0 * T.e2 a1 * T.w + T.e2 a0 * T.e2 a2 * T.w ^ 2 + T.e2 a0 * T.e2 a4 * T.w ^ 4
          + T.e2 a0 * T.e2 a5 * T.w ^ 5 + T.e2 a1 * T.e2 a2 * T.w ^ 3 + T.e2 a1 * T.e2 a3 * T.w ^ 4
          + T.e2 a1 * T.e2 a5 * T.w ^ 6 + T.e2 a2 * T.e2 a3 * T.w ^ 5 + T.e2 a2 * T.e2 a4 * T.w ^ 6
          + T.e2 a3 * T.e2 a4 * T.w ^ 7 + T.e2 a3 * T.e2 a5 * T.w ^ 8 + T.e2 a4 * T.e2 a5 * T.w ^ 9)
          * T.hc
        - ((T.e2 a3 ^ 2 - T.e2 a1 * T.e2 a5 - T.e2 a2 * T.e2 a4)
          + (2 * T.c * T.e2 a2 * T.e2 a5 - T.c * T.e2 a3 * T.e2 a4) * T.w
          + T.c ^ 2 * (T.e2 a4 ^ 2 - T.e2 a3 * T.e2 a5) * T.w ^ 2 - T.e2 a4 * T.e2 a5 * T.w ^ 3
          + T.c * T.e2 a5 ^ 2 * T.w ^ 4) * T.w6)
  simp only [e2_add, e2_sub, e2_mul, e2_square, e2_nonRes, e2_double, e2_mul0, map_neg, map_pow,
    show T.φ cubeRoot = T.c from rfl, mul_eq_zero, neg_eq_zero, pow_eq_zero_iff, hcne, or_false,
    ne_eq, OfNat.ofNat_ne_zero, not_false_eq_true] at g0 g1 g2 g3 g4 g5
  exact ⟨g0, g1, g2, g3, g4, g5⟩

theorem Cyc.square {x : Fp12 Fq} (h : Cyc (T.e12 x)) : T.e12 (cyclotomicSquare x) = T.e12 x ^ 2 := by
  obtain ⟨g0, g1, g2, g3, g4, g5⟩ := Cyc.relations T h
  obtain ⟨⟨a0, a2, a4⟩, ⟨a1, a3, a5⟩⟩ := x
  rw [e12_w, e12_w]
  simp only [cyclotomicSquare, fp4Square, e2_add, e2_sub, e2_square, e2_nonRes, e2_double]
    at g0 g1 g2 g3 g4 g5 ⊢
  linear_combination 2 * g0 - 2 * T.w * g1 + 2 * T.w ^ 2 * g2 + 2 * T.w ^ 3 * g3 - 2 * T.w ^ 4 * g4
    + 2 * T.w ^ 5 * g5
    - ((T.e2 a3 ^ 2 + 2 * T.e2 a1 * T.e2 a5 + 2 * T.e2 a2 * T.e2 a4)
      + (2 * T.e2 a2 * T.e2 a5 + 2 * T.e2 a3 * T.e2 a4) * T.w
      + (T.e2 a4 ^ 2 + 2 * T.e2 a3 * T.e2 a5) * T.w ^ 2 + 2 * T.e2 a4 * T.e2 a5 * T.w ^ 3
      + T.e2 a5 ^ 2 * T.w ^ 4) * T.w6

/-! ## Exponentiation -/

theorem Cyc.loop {a : Fp12 Fq} (h : Cyc (T.e12 a)) (n : ℕ) (hn : n ≤ 64) (t : Fp12 Fq) (found : Bool)
    (m : ℕ) (ht : T.e12 t = T.e12 a ^ m) (hf : found = false → m = 0) :
    T.e12 (cyclotomicLoop a n t found) = T.e12 a ^ (m * 2 ^ n + paramX.toNat % 2 ^ n) := by
  induction n generalizing t found m with
  | zero => rw [cyclotomicLoop, ht]; simp [Nat.mod_one]
  | succ k ih =>
    have hbit := bit_eq paramX (n := k) (by omega)
    have hb : (((paramX >>> UInt64.ofNat k) &&& 1) == 1) = decide (paramX.toNat / 2 ^ k % 2 = 1) := by
      rw [← hbit]
      rw [Bool.eq_iff_iff, beq_iff_eq, decide_eq_true_eq]
      exact ⟨fun h => by rw [h]; rfl, fun h => UInt64.toNat_inj.1 (by rw [h]; rfl)⟩
    have hsplit : paramX.toNat % 2 ^ (k + 1)
        = 2 ^ k * (paramX.toNat / 2 ^ k % 2) + paramX.toNat % 2 ^ k := by
      rw [pow_succ, Nat.mod_mul]; ring
    have hsq : T.e12 (if found = true then cyclotomicSquare t else t) = T.e12 a ^ (2 * m) := by
      cases found with
      | true =>
        rw [if_pos rfl, Cyc.square T (by rw [ht]; exact h.pow m), ht, ← pow_mul, mul_comm]
      | false => rw [if_neg (by decide), ht, hf rfl]
    rw [cyclotomicLoop]
    simp only [hb]
    rcases Nat.mod_two_eq_zero_or_one (paramX.toNat / 2 ^ k) with h0 | h0
    · simp only [h0, Nat.zero_ne_one, decide_false, Bool.false_eq_true, if_false]
      rw [ih (by omega) _ _ (2 * m) hsq (fun hh => by
        cases found with
        | true => simp at hh
        | false => rw [hf rfl])]
      rw [hsplit, h0]
      congr 1; ring
    · simp only [h0, decide_true, if_true]
      rw [ih (by omega) _ _ (2 * m + 1) (by rw [e12_mul, hsq, pow_succ]) (fun hh => by
        cases found with
        | true => simp at hh
        | false => simp at hh)]
      rw [hsplit, h0]
      congr 1; ring

/-- the curve parameter, a negative number -/
def xParam : ℤ := -0xd201000000010000

theorem Cyc.exp {a : Fp12 Fq} (h : Cyc (T.e12 a)) :
    T.e12 (cyclotomicExp a) = T.e12 a ^ xParam := by
  have h1 := Cyc.loop T h 64 le_rfl Fp12.one false 0 (by rw [e12_one, pow_zero]) (fun _ => rfl)
  rw [Nat.zero_mul, Nat.zero_add, show paramX.toNat % 2 ^ 64 = 0xd201000000010000 by decide +kernel] at h1
  rw [cyclotomicExp, Cyc.conj T (by rw [h1]; exact h.pow _), h1, xParam, zpow_neg]
  norm_cast

/-! ## The final exponentiation -/

/-- `e12` of an element is a power of `g` -/
def Rep (g : K) (x : Fp12 Fq) (n : ℤ) : Prop := T.e12 x = g ^ n

variable {g : K} {x y : Fp12 Fq} {n m : ℤ}

theorem Rep.mul (hg : g ≠ 0) (hx : T.Rep g x n) (hy : T.Rep g y m) : T.Rep g (x.mul y) (n + m) := by
  rw [Rep, e12_mul, hx, hy, zpow_add₀ hg]

theorem Rep.cyc (hg : Cyc g) (hx : T.Rep g x n) : Cyc (T.e12 x) := by
  rw [hx]; exact hg.zpow n

theorem Rep.sq (hg : Cyc g) (hx : T.Rep g x n) : T.Rep g (cyclotomicSquare x) (n * 2) := by
  rw [Rep, Cyc.square T (Rep.cyc T hg hx), hx, zpow_mul]; norm_cast

theorem Rep.conj (hg : Cyc g) (hx : T.Rep g x n) : T.Rep g x.conj (-n) := by
  rw [Rep, Cyc.conj T (Rep.cyc T hg hx), hx, zpow_neg]

theorem Rep.exp (hg : Cyc g) (hx : T.Rep g x n) : T.Rep g (cyclotomicExp x) (n * xParam) := by
  rw [Rep, Cyc.exp T (Rep.cyc T hg hx), hx, zpow_mul]

theorem Rep.frob (hx : T.Rep g x n) : T.Rep g (fp12Frob x) (n * blsp) := by
  rw [Rep, e12_frob, hx, zpow_mul, zpow_natCast]

theorem fr2_eq (z : K) : fr2 z = z ^ ((blsp : ℤ) ^ 2) := by
  rw [fr2, pow_two, zpow_mul, zpow_natCast, zpow_natCast]

theorem e12_frob2 (x : Fp12 Fq) : T.e12 (fp12Frob (fp12Frob x)) = fr2 (T.e12 x) := by
  rw [e12_frob, e12_frob]; rfl

/-- the easy part lands in the cyclotomic subgroup -/
theorem easy_cyc {a : Fp12 Fq} (ha : T.e12 a ≠ 0) :
    Cyc (fr2 (fr2 (fr2 (fr2 (T.e12 a))) * (T.e12 a)⁻¹) * (fr2 (fr2 (fr2 (T.e12 a))) * (T.e12 a)⁻¹)) := by
  set A := T.e12 a with hA
  have h12 : fr2 (fr2 (fr2 (fr2 (fr2 (fr2 A))))) = A := by
    rw [hA, fr6_e12, fr6_e12]
    congr 1
    obtain ⟨⟨a0, a2, a4⟩, ⟨⟨a, b⟩, ⟨c, d⟩, ⟨e, f⟩⟩⟩ := a
    simp [Fp12.conj, Fp6.neg, Fp2.neg]
  set h := fr2 (fr2 (fr2 A)) * A⁻¹ with hh
  have h0 : h ≠ 0 := mul_ne_zero (fr2_ne (fr2_ne (fr2_ne ha))) (inv_ne_zero ha)
  have h6 : fr2 (fr2 (fr2 h)) = h⁻¹ := by
    rw [hh, fr2_mul, fr2_mul, fr2_mul, h12, fr2_inv, fr2_inv, fr2_inv, mul_inv, inv_inv, mul_comm]
  refine ⟨mul_ne_zero (fr2_ne h0) h0, ?_⟩
  rw [fr2_mul, fr2_mul, h6]
  field_simp

/-- the exponent of the hard part -/
def hardExp : ℤ :=
  xParam ^ 5 - 2 * xParam ^ 4 + 2 * xParam ^ 2 - xParam + 3
    + blsp * (xParam ^ 4 - 2 * xParam ^ 3 + 2 * xParam - 1)
    + blsp ^ 2 * (xParam ^ 3 - 2 * xParam ^ 2 + xParam)
    + blsp ^ 3 * (xParam ^ 2 - 2 * xParam + 1)

/-- the steps of `FinalExponentiation` before the first cyclotomic operation -/
def easyPart (a t1 : Fp12 Fq) : Fp12 Fq :=
  let t0 := fp12Frob (fp12Frob (fp12Frob (fp12Frob (fp12Frob (fp12Frob a)))))
  let t2 := t0.mul t1
  (fp12Frob (fp12Frob t2)).mul t2

/-- the remaining steps -/
def hardPart (t2 : Fp12 Fq) : Fp12 Fq :=
  let t1 := cyclotomicSquare t2
  let t1 := t1.conj
  let t3 := cyclotomicExp t2
  let t4 := cyclotomicSquare t3
  let t5 := t1.mul t3
  let t1 := cyclotomicExp t5
  let t0 := cyclotomicExp t1
  let t6 := cyclotomicExp t0
  let t6 := t6.mul t4
  let t4 := cyclotomicExp t6
  let t5 := t5.conj
  let t4 := t4.mul t5
  let t4 := t4.mul t2
  let t5 := t2.conj
  let t1 := t1.mul t2
  let t1 := fp12Frob t1
  let t1 := fp12Frob t1
  let t1 := fp12Frob t1
  let t6 := t6.mul t5
  let t6 := fp12Frob t6
  let t3 := t3.mul t0
  let t3 := fp12Frob t3
  let t3 := fp12Frob t3
  let t3 := t3.mul t1
  let t3 := t3.mul t6
  t3.mul t4

theorem final_eq (gt a : Fp12 Fq) : finalExponentiation gt a =
    sel gt (hardPart (easyPart a (Fp12.invert Fp12.zero a).1)) (Fp12.invert Fp12.zero a).2 := rfl

theorem hard_rep (hg : Cyc g) (r2 : T.Rep g x 1) : T.Rep g (hardPart x) hardExp := by
  have hg0 := hg.1
  have r1 := Rep.conj T hg (Rep.sq T hg r2)
  have r3 := Rep.exp T hg r2
  have r4 := Rep.sq T hg r3
  have r5 := Rep.mul T hg0 r1 r3
  have r1' := Rep.exp T hg r5
  have r0 := Rep.exp T hg r1'
  have r6 := Rep.mul T hg0 (Rep.exp T hg r0) r4
  have r4' := Rep.mul T hg0 (Rep.mul T hg0 (Rep.exp T hg r6) (Rep.conj T hg r5)) r2
  have r5' := Rep.conj T hg r2
  have r1'' := Rep.frob T (Rep.frob T (Rep.frob T (Rep.mul T hg0 r1' r2)))
  have r6' := Rep.frob T (Rep.mul T hg0 r6 r5')
  have r3' := Rep.frob T (Rep.frob T (Rep.mul T hg0 r3 r0))
  have r := Rep.mul T hg0 (Rep.mul T hg0 (Rep.mul T hg0 r3' r1'') r6') r4'
  have he : (1 * xParam + (-(1 * 2) + 1 * xParam) * xParam * xParam) * (blsp : ℤ) * blsp +
          ((-(1 * 2) + 1 * xParam) * xParam + 1) * blsp * blsp * blsp +
        ((-(1 * 2) + 1 * xParam) * xParam * xParam * xParam + 1 * xParam * 2 + -1) * blsp +
      (((-(1 * 2) + 1 * xParam) * xParam * xParam * xParam + 1 * xParam * 2) * xParam
        + -(-(1 * 2) + 1 * xParam) + 1) = hardExp := by
    rw [hardExp]; ring
  rw [he] at r
  exact r

theorem easy_rep {a t1 : Fp12 Fq} (h : T.e12 t1 = (T.e12 a)⁻¹) :
    T.Rep (fr2 (fr2 (fr2 (fr2 (T.e12 a))) * (T.e12 a)⁻¹) * (fr2 (fr2 (fr2 (T.e12 a))) * (T.e12 a)⁻¹))
      (easyPart a t1) 1 := by
  rw [Rep, easyPart, e12_mul, e12_frob2, e12_mul, e12_frob2, e12_frob2, e12_frob2, h, zpow_one]

theorem exp_num : (blsp : ℤ) ^ 2 * ((blsp : ℤ) ^ 2 * (blsp : ℤ) ^ 2) = (blsp : ℤ) ^ 6 := by ring

theorem final_num : ((blsp : ℤ) ^ 6 - 1) * ((blsp : ℤ) ^ 2 + 1) * hardExp
    = ((3 * ((blsp ^ 12 - 1) / blsr) : ℕ) : ℤ) := by decide +kernel

theorem fr6_zpow (A : K) : fr2 (fr2 (fr2 A)) = A ^ ((blsp : ℤ) ^ 6) := by
  rw [fr2_eq, fr2_eq, fr2_eq, ← zpow_mul, ← zpow_mul]
  exact congrArg (A ^ ·) (by ring)

theorem easy_zpow {A : K} (hA : A ≠ 0) :
    fr2 (fr2 (fr2 (fr2 A)) * A⁻¹) * (fr2 (fr2 (fr2 A)) * A⁻¹)
      = A ^ (((blsp : ℤ) ^ 6 - 1) * ((blsp : ℤ) ^ 2 + 1)) := by
  have h : fr2 (fr2 (fr2 A)) * A⁻¹ = A ^ ((blsp : ℤ) ^ 6 - 1) := by
    rw [fr6_zpow, zpow_sub_one₀ hA]
  rw [h, fr2_eq, ← zpow_mul, ← zpow_add₀ hA]
  exact congrArg (A ^ ·) (by ring)

theorem final_ne (gt : Fp12 Fq) {a : Fp12 Fq} (ha : a ≠ Fp12.zero) :
    T.e12 (finalExponentiation gt a) = T.e12 a ^ (3 * ((blsp ^ 12 - 1) / blsr)) := by
  have hA : T.e12 a ≠ 0 := fun h0 => ha (T.e12_eq_zero.1 h0)
  obtain ⟨hi1, hi2⟩ := T.invert12_ne Fp12.zero ha
  have h := hard_rep T (T.easy_cyc hA) (T.easy_rep hi2)
  rw [final_eq, hi1, sel, if_pos rfl, h, easy_zpow hA, ← zpow_mul, final_num, zpow_natCast]

theorem final_zero (gt : Fp12 Fq) : finalExponentiation gt Fp12.zero = gt := by
  rw [final_eq, invert12_zero, sel, if_neg (by decide)]

end Tower
end Verif.Bls381
