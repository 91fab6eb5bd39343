import Verif.Bls381.GtModel
import Verif.Bls381.TowerInv
import Verif.Bls381.TowerExist
import Mathlib.Algebra.CharP.Lemmas
import Mathlib.FieldTheory.Finite.Basic

/-!
# Frobenius maps and square roots in the tower over `ZMod p`
-/

namespace Verif.Bls381

open Verif.Primes

set_option exponentiation.threshold 1200

/-- `2^k` as an `fp` constant -/
theorem const_pos {k : ℕ} {l : List UInt64} (hk : k < 2 ^ 384)
    (h : Pock.powMod blsp 384 2 k 1 * 2 ^ 384 % blsp = limbVal l % blsp) : fpDec l = (2 : Fq) ^ k := by
  have h1 := (ZMod.natCast_eq_natCast_iff' _ _ blsp).2 h
  rw [Nat.cast_mul, Pock.powMod_eq blsp 384 2 k 1 hk, Nat.cast_one, one_mul, Nat.cast_pow 2 384,
    Nat.cast_ofNat] at h1
  show (limbVal l : Fq) * (2 ^ (64 * 6) : Fq)⁻¹ = _
  rw [← h1]
  exact mul_inv_cancel_right₀ fpTwo _

/-- `-2^k` as an `fp` constant -/
theorem const_neg {k : ℕ} {l : List UInt64} (hk : k < 2 ^ 384)
    (h : (Pock.powMod blsp 384 2 k 1 * 2 ^ 384 + limbVal l) % blsp = 0) : fpDec l = -(2 : Fq) ^ k := by
  have h1 : ((Pock.powMod blsp 384 2 k 1 * 2 ^ 384 + limbVal l : ℕ) : Fq) = 0 := by
    rw [ZMod.natCast_eq_zero_iff]; exact Nat.dvd_of_mod_eq_zero h
  rw [Nat.cast_add, Nat.cast_mul, Pock.powMod_eq blsp 384 2 k 1 hk, Nat.cast_one, one_mul,
    Nat.cast_pow 2 384, Nat.cast_ofNat] at h1
  have h2 : (limbVal l : Fq) = -(2 : Fq) ^ k * 2 ^ 384 := by linear_combination h1
  show (limbVal l : Fq) * (2 ^ (64 * 6) : Fq)⁻¹ = _
  rw [h2]
  exact mul_inv_cancel_right₀ fpTwo _

theorem pm1Div3_eq : pm1Div3 = ⟨0, -2 ^ ((blsp - 1) / 6)⟩ := by
  rw [pm1Div3, const_neg (k := (blsp - 1) / 6) (by decide +kernel) (by decide +kernel)]

theorem p2m2Div3_eq : p2m2Div3 = ⟨-2 ^ ((blsp - 1) / 3), 0⟩ := by
  rw [p2m2Div3, const_neg (k := (blsp - 1) / 3) (by decide +kernel) (by decide +kernel)]

theorem up1_eq : up1epm1div6 =
    ⟨⟨2 ^ (((blsp - 1) / 6 - 1) / 2), -2 ^ (((blsp - 1) / 6 - 1) / 2)⟩, Fp2.zero, Fp2.zero⟩ := by
  rw [up1epm1div6, const_pos (k := ((blsp - 1) / 6 - 1) / 2) (by decide +kernel) (by decide +kernel),
    const_neg (k := ((blsp - 1) / 6 - 1) / 2) (by decide +kernel) (by decide +kernel)]

theorem sqrtM1_eq : sqrtM1 = -1 := by
  rw [sqrtM1, const_neg (k := 0) (by decide +kernel) (by decide +kernel), pow_zero]

namespace Tower
variable {K : Type} [Field K] (T : Tower Fq K)

include T in
theorem charP : CharP K blsp := charP_of_injective_ringHom T.φ.injective blsp

/-! ## Powers of `u`, `v`, `w` -/

theorem u_pow4 : T.u ^ 4 = 1 := by
  rw [show (4 : ℕ) = 2 * 2 from rfl, pow_mul, T.hu]; ring

theorem u_pow_mod (n : ℕ) : T.u ^ n = T.u ^ (n % 4) := by
  conv_lhs => rw [← Nat.div_add_mod n 4, pow_add, pow_mul, u_pow4, one_pow, one_mul]

theorem u_pow3 : T.u ^ 3 = -T.u := by
  rw [pow_succ, T.hu]; ring

theorem two_u : (T.u + 1) ^ 2 = T.φ 2 * T.u := by
  have h2 : T.φ 2 = 2 := map_ofNat _ _
  rw [h2]
  linear_combination T.hu

theorem xi_pow (k : ℕ) : (T.u + 1) ^ (2 * k) = T.φ (2 ^ k) * T.u ^ (k % 4) := by
  rw [pow_mul, two_u, mul_pow, map_pow, ← u_pow_mod]

theorem u_pow_p : T.u ^ blsp = -T.u := by
  rw [u_pow_mod, show blsp % 4 = 3 by decide +kernel, u_pow3]

theorem v_pow_p : T.v ^ blsp = T.v * T.e2 pm1Div3 := by
  have h : T.v ^ blsp = T.v ^ (3 * (2 * ((blsp - 1) / 6)) + 1) := congrArg (T.v ^ ·) (by decide +kernel)
  rw [h, pow_succ, pow_mul, T.hv, xi_pow,
    show ((blsp - 1) / 6) % 4 = 3 by decide +kernel, u_pow3, pm1Div3_eq, e2_def, map_zero, map_neg]
  ring

theorem v_pow_2p : (T.v ^ blsp) ^ 2 = T.v ^ 2 * T.e2 p2m2Div3 := by
  rw [← pow_mul, show blsp * 2 = 3 * (2 * ((blsp - 1) / 3)) + 2 by decide +kernel, pow_add, pow_mul,
    T.hv, xi_pow, show ((blsp - 1) / 3) % 4 = 2 by decide +kernel, T.hu, p2m2Div3_eq, e2_def, map_zero,
    map_neg]
  ring

theorem w_pow_p : T.w ^ blsp = T.w * T.e6 up1epm1div6 := by
  have h : T.w ^ blsp = T.w ^ (2 * (3 * (2 * (((blsp - 1) / 6 - 1) / 2) + 1)) + 1) :=
    congrArg (T.w ^ ·) (by decide +kernel)
  rw [h, pow_succ, pow_mul, T.hw, pow_mul, T.hv, pow_succ, xi_pow,
    show (((blsp - 1) / 6 - 1) / 2) % 4 = 3 by decide +kernel, u_pow3, up1_eq, e6_def, e2_zero, e2_def,
    map_neg]
  linear_combination (T.w * T.φ (2 ^ (((blsp - 1) / 6 - 1) / 2))) * (-T.hu)

theorem phi_pow (a : Fq) : T.φ a ^ blsp = T.φ a := by
  rw [← map_pow, ZMod.pow_card]

/-! ## Frobenius -/

theorem e2_frob (x : Fp2 Fq) : T.e2 x.conj = T.e2 x ^ blsp := by
  have := T.charP
  rw [e2_def, e2_def, add_pow_char, mul_pow, phi_pow, phi_pow, u_pow_p]
  simp only [Fp2.conj, map_neg]
  ring

theorem e6_frob (x : Fp6 Fq) : T.e6 (fp6Frob x) = T.e6 x ^ blsp := by
  have := T.charP
  rw [e6_def, e6_def, add_pow_char, add_pow_char, mul_pow, mul_pow, ← pow_mul T.v 2, mul_comm 2, pow_mul,
    v_pow_2p, v_pow_p, ← e2_frob, ← e2_frob, ← e2_frob]
  simp only [fp6Frob, e2_mul]
  ring

theorem e12_frob (x : Fp12 Fq) : T.e12 (fp12Frob x) = T.e12 x ^ blsp := by
  have := T.charP
  rw [e12_def, e12_def, add_pow_char, mul_pow, w_pow_p, ← e6_frob, ← e6_frob]
  simp only [fp12Frob, e6_mul]
  ring

theorem e2_pow_sq (x : Fp2 Fq) : T.e2 x ^ (blsp * blsp) = T.e2 x := by
  rw [pow_mul, ← e2_frob, ← e2_frob]
  simp [Fp2.conj]

theorem e2_pow_sub {x : Fp2 Fq} (h : T.e2 x ≠ 0) : T.e2 x ^ (blsp * blsp - 1) = 1 := by
  have h1 := T.e2_pow_sq x
  rw [show blsp * blsp = (blsp * blsp - 1) + 1 by decide +kernel, pow_succ] at h1
  exact mul_right_cancel₀ h (by rw [h1, one_mul])

/-! ## Powers in `fp2` -/

theorem e2_powLimb (base : Fp2 Fq) (e : UInt64) (n : ℕ) (hn : n ≤ 64) (res : Fp2 Fq) :
    T.e2 (Fp2.powLimb base e n res) = T.e2 res ^ 2 ^ n * T.e2 base ^ (e.toNat % 2 ^ n) := by
  induction n generalizing res with
  | zero => rw [Fp2.powLimb]; simp [Nat.mod_one]
  | succ k ih =>
    have hbit := bit_eq e (n := k) (by omega)
    have hsplit : e.toNat % 2 ^ (k + 1) = 2 ^ k * (e.toNat / 2 ^ k % 2) + e.toNat % 2 ^ k := by
      rw [pow_succ, Nat.mod_mul]; ring
    rw [Fp2.powLimb]
    rw [ih (by omega)]
    have hb : (((e >>> UInt64.ofNat k) &&& 1) == 1) = decide (e.toNat / 2 ^ k % 2 = 1) := by
      rw [← hbit]
      rw [Bool.eq_iff_iff, beq_iff_eq, decide_eq_true_eq]
      exact ⟨fun h => by rw [h]; rfl, fun h => UInt64.toNat_inj.1 (by rw [h]; rfl)⟩
    rw [hb]
    rcases Nat.mod_two_eq_zero_or_one (e.toNat / 2 ^ k) with h | h
    · rw [hsplit, h]
      simp only [sel, Nat.zero_ne_one, decide_false, Bool.false_eq_true, if_false, e2_square]
      rw [Nat.mul_zero, Nat.zero_add, ← pow_mul, ← pow_succ']
    · rw [hsplit, h]
      simp only [sel, decide_true, if_true, e2_mul, e2_square]
      rw [Nat.mul_one, pow_add (T.e2 base), mul_pow, ← pow_mul, ← pow_succ', mul_assoc]

theorem e2_pow (base : Fp2 Fq) (e : List UInt64) : T.e2 (Fp2.pow base e) = T.e2 base ^ limbVal e := by
  induction e with
  | nil => rw [Fp2.pow]; simp
  | cons w ws ih =>
    have hstep : Fp2.pow base (w :: ws) = Fp2.powLimb base w 64 (Fp2.pow base ws) := by
      unfold Fp2.pow; rw [List.foldr_cons]
    rw [hstep, e2_powLimb _ _ _ _ le_rfl, ih, Nat.mod_eq_of_lt (toNat_lt w), limbVal_cons, pow_add, pow_mul',
      mul_comm]

/-! ## Square roots -/

theorem sqrtExp1_val : limbVal Fp2.sqrtExp1 = (blsp - 3) / 4 := by decide +kernel
theorem sqrtExp2_val : limbVal Fp2.sqrtExp2 = (blsp - 1) / 2 := by decide +kernel

/-- the candidate root of `fp2.Sqrt` -/
def sqrtCand (a : Fp2 Fq) : Fp2 Fq :=
  let a1 := Fp2.pow a Fp2.sqrtExp1
  let alpha := a1.square.mul a
  let x0 := a1.mul a
  sel ((Fp2.pow (Fp2.one.add alpha) Fp2.sqrtExp2).mul x0)
    (sel ⟨-x0.B, x0.A⟩ Fp2.zero a.isZero) (alpha.equal ⟨sqrtM1, 0⟩)

theorem fp2Sqrt_eq (f a : Fp2 Fq) : fp2Sqrt f a =
    (sel f (sqrtCand a) ((sqrtCand a).square.equal a), (sqrtCand a).square.equal a) := rfl

include T in
theorem e2_cand {a y : Fp2 Fq} (h : y.mul y = a) : (sqrtCand a).square = a := by
  apply T.e2_inj
  have hy : T.e2 a = T.e2 y ^ 2 := by rw [← h, e2_mul, sq]
  set α := T.e2 ((Fp2.pow a Fp2.sqrtExp1).square.mul a) with hα
  set X := T.e2 ((Fp2.pow a Fp2.sqrtExp1).mul a) with hX
  have hαv : α = T.e2 a ^ ((blsp - 1) / 2) := by
    rw [hα, e2_mul, e2_square, e2_pow, sqrtExp1_val, ← pow_mul, ← pow_succ]
    exact congrArg _ (by decide +kernel)
  have hX2 : X ^ 2 = α * T.e2 a := by
    rw [hX, hα, e2_mul, e2_mul, e2_square]; ring
  by_cases ha : a = Fp2.zero
  · have he : α = 0 := by
      rw [hαv, ha, e2_zero, zero_pow (by decide +kernel)]
    have hX0 : X = 0 := by rw [hX, ha, e2_mul, e2_zero, mul_zero]
    have hne : ((Fp2.pow a Fp2.sqrtExp1).square.mul a).equal ⟨sqrtM1, 0⟩ = false := by
      rw [Bool.eq_false_iff, Ne, fp2_equal]
      intro h1
      have h2 := congrArg T.e2 h1
      rw [← hα, he, sqrtM1_eq] at h2
      simp [e2_def] at h2
    have hX0' : T.e2 ((Fp2.pow a Fp2.sqrtExp1).mul a) = 0 := hX0
    simp only [sqrtCand, hne, sel, Bool.false_eq_true, if_false, e2_square, e2_mul T _ (Fp2.mul _ _), hX0']
    rw [ha, e2_zero]
    ring
  · have hea : T.e2 a ≠ 0 := fun h0 => ha (T.e2_eq_zero.1 h0)
    have hz : a.isZero = false := by rw [Bool.eq_false_iff, Ne, fp2_isZero]; exact ha
    by_cases hm : ((Fp2.pow a Fp2.sqrtExp1).square.mul a).equal ⟨sqrtM1, 0⟩ = true
    · have hv : α = -1 := by
        have h1 := congrArg T.e2 ((fp2_equal _ _).1 hm)
        rw [← hα, sqrtM1_eq] at h1
        rw [h1]; simp [e2_def]
      have hres : T.e2 ⟨-((Fp2.pow a Fp2.sqrtExp1).mul a).B, ((Fp2.pow a Fp2.sqrtExp1).mul a).A⟩
          = T.u * X := by
        rw [hX, e2_def, e2_def, map_neg]
        linear_combination (-T.φ ((Fp2.pow a Fp2.sqrtExp1).mul a).B) * T.hu
      simp only [sqrtCand, hm, hz, sel, if_true, Bool.false_eq_true, if_false, e2_square, hres]
      rw [mul_pow, hX2, T.hu, hv]; ring
    · have hm' : ((Fp2.pow a Fp2.sqrtExp1).square.mul a).equal ⟨sqrtM1, 0⟩ = false := by
        rw [Bool.eq_false_iff]; exact hm
      have hv : 1 + α ≠ 0 := by
        intro h1
        apply hm
        rw [fp2_equal]
        apply T.e2_inj
        rw [← hα, sqrtM1_eq]
        simp only [e2_def, map_neg, map_one, map_zero, zero_mul, add_zero]
        linear_combination h1
      have hey : T.e2 y ≠ 0 := by
        intro h0; rw [hy, h0] at hea; exact hea (by ring)
      -- `α^(p+1) = 1`
      have hα1 : α ^ blsp * α = 1 := by
        rw [← pow_succ, hαv, hy, ← pow_mul, ← pow_mul]
        rw [show 2 * ((blsp - 1) / 2 * (blsp + 1)) = blsp * blsp - 1 by decide +kernel]
        exact T.e2_pow_sub hey
      have := T.charP
      have hfrob : (1 + α) ^ (blsp - 1) * α = 1 := by
        apply mul_right_cancel₀ hv
        rw [mul_right_comm, ← pow_succ, show blsp - 1 + 1 = blsp by decide +kernel, add_pow_char, one_pow]
        linear_combination hα1
      simp only [sqrtCand, hm', sel, Bool.false_eq_true, if_false, e2_square, e2_pow, e2_add, e2_one,
        e2_mul T _ (Fp2.mul _ _), sqrtExp2_val]
      rw [← hα, ← hX, mul_pow, hX2, ← pow_mul, show (blsp - 1) / 2 * 2 = blsp - 1 by decide +kernel,
        ← mul_assoc, hfrob, one_mul]

end Tower

end Verif.Bls381
