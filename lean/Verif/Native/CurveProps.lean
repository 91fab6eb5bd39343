import Verif.Native.CurveFacts
import Verif.Native.LimbModel
import Verif.Native.PointProps

/-!
# The concrete curves: secp256k1 and P-256

* C56, C52 without hypotheses for the two curves
* C111 the parameters: generators on the curve, of the stated prime order
-/

set_option linter.unusedSectionVars false
set_option exponentiation.threshold 1000

namespace Verif.Native

open Primes

/-- the limbs of the secp256k1 parameters (`native/k256/point.go:30-49`): plain integers, converted by
`SetUint64`/`SetLimbs` -/
structure K256.Params where
  b : UInt64
  gx : Limbs
  gy : Limbs

/-- `k256PointParamsInit` (`native/k256/point.go:30-49`) -/
def K256.params : K256.Params where
  b := 7
  gx := ⟨0x59f2815b16f81798, 0x029bfcdb2dce28d9, 0x55a06295ce870b07, 0x79be667ef9dcbbac⟩
  gy := ⟨0x9c47d08ffb10d4b8, 0xfd17b448a6855419, 0x5da4fbfc0e1108a8, 0x483ada7726a3c465⟩

/-- the limbs of the P-256 parameters (`native/p256/point.go:28-47`): raw Montgomery limbs -/
structure P256.Params where
  a : Limbs
  b : Limbs
  gx : Limbs
  gy : Limbs

/-- `p256PointParamsInit` (`native/p256/point.go:39-46`) -/
def P256.params : P256.Params where
  a := ⟨0xfffffffffffffffc, 0x00000003ffffffff, 0x0000000000000000, 0xfffffffc00000004⟩
  b := ⟨0xd89cdf6229c4bddf, 0xacf005cd78843090, 0xe5a220abf7212ed6, 0xdc30061d04874834⟩
  gx := ⟨0x79e730d418a9143c, 0x75ba95fc5fedb601, 0x79fb732b77622510, 0x18905f76a53755c6⟩
  gy := ⟨0xddf25357ce95560a, 0x8b4ab8e4ba19e45c, 0xd2e88688dd21f325, 0x8571ff1825885d85⟩

/-- the field element whose Montgomery limbs are given -/
def unMont (p : ℕ) (l : Limbs) : ZMod p := (l.val : ZMod p) * (2 ^ 256)⁻¹

/-- the coefficient `b` of secp256k1 -/
abbrev K256.b : ZMod k256p := (K256.params.b.toNat : ZMod k256p)
/-- the coefficient `b` of P-256 -/
abbrev P256.b : ZMod p256p := unMont p256p P256.params.b

/-- `EllipticPoint.Generator` (`native/point.go:253-258`) of secp256k1 -/
def K256.generator : Proj (ZMod k256p) := ⟨K256.params.gx.val, K256.params.gy.val, 1⟩
/-- `EllipticPoint.Generator` (`native/point.go:253-258`) of P-256 -/
def P256.generator : Proj (ZMod p256p) := ⟨unMont p256p P256.params.gx, unMont p256p P256.params.gy, 1⟩

theorem two_ne_zero_of {p : ℕ} [hp : Fact p.Prime] (h : 2 < p) : (2 : ZMod p) ≠ 0 := by
  have : ((2 : ℕ) : ZMod p) ≠ 0 := by
    rw [Ne, ZMod.natCast_eq_zero_iff]
    intro hd
    exact absurd (Nat.le_of_dvd (by norm_num) hd) (by omega)
  exact_mod_cast this

theorem unMont_eq {p : ℕ} [hp : Fact p.Prime] (h2 : 2 < p) (l : Limbs) (x : ℕ)
    (h : x * 2 ^ 256 % p = l.val % p) : unMont p l = x := by
  unfold unMont
  have hu : ((2 : ZMod p) ^ 256) ≠ 0 := pow_ne_zero _ (two_ne_zero_of h2)
  have : ((x * 2 ^ 256 : ℕ) : ZMod p) = (l.val : ZMod p) := (ZMod.natCast_eq_natCast_iff' _ _ _).2 h
  rw [← this, Nat.cast_mul, Nat.cast_pow, Nat.cast_ofNat, mul_assoc, mul_inv_cancel₀ hu, mul_one]

/-- the published constants of P-256 -/
def P256.bN : ℕ := 0x5ac635d8aa3a93e7b3ebbd55769886bc651d06b0cc53b0f63bce3c3e27d2604b
def P256.gxN : ℕ := 0x6b17d1f2e12c4247f8bce6e563a440f277037d812deb33a0f4a13945d898c296
def P256.gyN : ℕ := 0x4fe342e2fe1a7f9b8ee7eb4a7c0f9e162bce33576b315ececbb6406837bf51f5

/-- C111: the Montgomery limbs of the P-256 parameters are the published constants
(`a = -3`, FIPS 186-4 D.1.2.3). -/
theorem C111_p256_params : unMont p256p P256.params.a = -3 ∧ P256.b = P256.bN ∧
    P256.generator = ⟨P256.gxN, P256.gyN, 1⟩ := by
  have h2 : 2 < p256p := by decide
  refine ⟨?_, unMont_eq h2 _ _ (by decide +kernel), ?_⟩
  · rw [unMont_eq h2 _ (p256p - 3) (by decide +kernel), Nat.cast_sub (by decide),
      ZMod.natCast_self, Nat.cast_ofNat, zero_sub]
  · unfold P256.generator
    rw [unMont_eq h2 _ P256.gxN (by decide +kernel), unMont_eq h2 _ P256.gyN (by decide +kernel)]

/-- C56: secp256k1 has no point of order two: `x³ + 7` has no root. -/
theorem K256.no_root (x : ZMod k256p) : x ^ 3 + 0 * x + K256.b ≠ 0 := by
  intro h
  refine Facts.noRoot k256p 0 (k256p - 7) 256
    (0, 0, 46758632835564736012269203954919337884311706168562511263687580192619680188360)
    (by decide +kernel) x ?_
  have hb : K256.b = 7 := by
    show ((K256.params.b.toNat : ℕ) : ZMod k256p) = 7
    rw [show K256.params.b.toNat = 7 by decide]; norm_num
  rw [hb] at h
  rw [Nat.cast_sub (by decide)]
  simp only [CharP.cast_eq_zero]
  linear_combination h

/-- C56: P-256 has no point of order two: `x³ - 3x + b` has no root. -/
theorem P256.no_root (x : ZMod p256p) : x ^ 3 + -3 * x + P256.b ≠ 0 := by
  intro h
  refine Facts.noRoot p256p 3 (p256p - P256.bN) 256
    (76626890310466861426869089647039036757962535851890885406097439786770458211455,
     74462945259064871768191128030512052509059297803194871526163573358218695456204,
     34768139465301476436978405170953382516735956999154666452188405812258086013549)
    (by decide +kernel) x ?_
  rw [C111_p256_params.2.1] at h
  rw [Nat.cast_sub (by decide)]
  simp only [CharP.cast_eq_zero]
  push_cast
  linear_combination h

theorem K256.two_ne : (2 : ZMod k256p) ≠ 0 := two_ne_zero_of (by decide)
theorem P256.two_ne : (2 : ZMod p256p) ≠ 0 := two_ne_zero_of (by decide)

/-- The group of points of secp256k1 (Mathlib's chord-and-tangent law). -/
abbrev K256.Group := (curve 0 K256.b).Point
/-- The group of points of P-256. -/
abbrev P256.Group := (curve (-3) P256.b).Point

/-- C56: the native secp256k1 `Add`/`Double`/`Identity` implement the group of the curve. -/
theorem C56_k256 : Implements (K256.ops K256.b) K256.Group Rep :=
  K256.implements K256.two_ne K256.no_root

/-- C56: the native P-256 `Add`/`Double`/`Identity` implement the group of the curve. -/
theorem C56_p256 : Implements (P256.ops P256.b) P256.Group Rep :=
  P256.implements P256.two_ne P256.no_root

/-- C52: native secp256k1 `Mul`. -/
theorem C52_k256 {p : Proj (ZMod k256p)} {P : K256.Group} (hp : Rep p P) (bytes : List UInt8)
    (hl : bytes.length = 32) : Rep (mul (K256.ops K256.b) p bytes) (leNat bytes • P) :=
  C52_mul C56_k256 hp bytes hl

/-- C52: native P-256 `Mul`. -/
theorem C52_p256 {p : Proj (ZMod p256p)} {P : P256.Group} (hp : Rep p P) (bytes : List UInt8)
    (hl : bytes.length = 32) : Rep (mul (P256.ops P256.b) p bytes) (leNat bytes • P) :=
  C52_mul C56_p256 hp bytes hl

theorem order_of {p : ℕ} [hp : Fact p.Prime] {a b : ZMod p} {q : ℕ} (hq : q.Prime)
    {G : (curve a b).Point} (h0 : G ≠ 0) (h : q • G = 0) : addOrderOf G = q :=
  addOrderOf_eq_prime (hp := ⟨hq⟩) h h0

theorem natCast_eq_of_mod {p a b : ℕ} (h : a % p = b % p) : (a : ZMod p) = b :=
  (ZMod.natCast_eq_natCast_iff' _ _ _).2 h

/-- C111: the secp256k1 generator is a point of the curve and has order exactly `q`. -/
theorem C111_k256_generator :
    ∃ G : K256.Group, Rep K256.generator G ∧ addOrderOf G = k256q := by
  have hb : K256.b = ((7 : ℕ) : ZMod k256p) := by
    show ((K256.params.b.toNat : ℕ) : ZMod k256p) = _
    rw [show K256.params.b.toNat = 7 by decide]
  have he : (K256.params.gy.val : ZMod k256p) ^ 2
      = (K256.params.gx.val : ZMod k256p) ^ 3 + 0 * (K256.params.gx.val : ZMod k256p) + K256.b := by
    rw [hb]
    have : ((K256.params.gy.val ^ 2 : ℕ) : ZMod k256p) = ((K256.params.gx.val ^ 3 + 7 : ℕ) : ZMod k256p) :=
      natCast_eq_of_mod (by decide +kernel)
    push_cast at this ⊢
    linear_combination this
  have hy : (K256.params.gy.val : ZMod k256p) ≠ 0 := by
    rw [Ne, ZMod.natCast_eq_zero_iff, Nat.dvd_iff_mod_eq_zero]; decide +kernel
  refine ⟨.some _ _ (nonsingular_curve K256.two_ne hy he), ?_, ?_⟩
  · exact ⟨one_ne_zero, by simp [K256.generator], by simp [K256.generator]⟩
  · refine order_of fact_k256q.out (by intro h; cases h) ?_
    refine Facts.nsmul_eq_zero (rawN := Facts.k256Raw k256p 7) (raw := K256.raw K256.b)
      (fun s t => by rw [Facts.castP_k256Raw, hb]) (K256.rawOk _) K256.two_ne K256.no_root 256 k256q
      (by decide) (0x79be667ef9dcbbac55a06295ce870b07029bfcdb2dce28d959f2815b16f81798,
        0x483ada7726a3c4655da4fbfc0e1108a8fd17b448a68554199c47d08ffb10d4b8, 1) _ ?_ (by decide +kernel)
    have e : Facts.castP k256p (0x79be667ef9dcbbac55a06295ce870b07029bfcdb2dce28d959f2815b16f81798,
        0x483ada7726a3c4655da4fbfc0e1108a8fd17b448a68554199c47d08ffb10d4b8, 1) = K256.generator := by
      unfold K256.generator
      rw [show K256.params.gx.val = 0x79be667ef9dcbbac55a06295ce870b07029bfcdb2dce28d959f2815b16f81798 by
          decide +kernel,
        show K256.params.gy.val = 0x483ada7726a3c4655da4fbfc0e1108a8fd17b448a68554199c47d08ffb10d4b8 by
          decide +kernel]
      simp only [Facts.castP, Nat.cast_one]
    rw [e]
    exact ⟨one_ne_zero, by simp [K256.generator], by simp [K256.generator]⟩

/-- C111: the P-256 generator is a point of the curve and has order exactly `q`. -/
theorem C111_p256_generator :
    ∃ G : P256.Group, Rep P256.generator G ∧ addOrderOf G = p256q := by
  have hb := C111_p256_params.2.1
  have he : (P256.gyN : ZMod p256p) ^ 2
      = (P256.gxN : ZMod p256p) ^ 3 + -3 * (P256.gxN : ZMod p256p) + P256.b := by
    rw [hb]
    have : ((P256.gyN ^ 2 + 3 * P256.gxN : ℕ) : ZMod p256p) = ((P256.gxN ^ 3 + P256.bN : ℕ) : ZMod p256p) :=
      natCast_eq_of_mod (by decide +kernel)
    push_cast at this ⊢
    linear_combination this
  have hy : (P256.gyN : ZMod p256p) ≠ 0 := by
    rw [Ne, ZMod.natCast_eq_zero_iff, Nat.dvd_iff_mod_eq_zero]; decide +kernel
  have hrep : Rep P256.generator (.some _ _ (nonsingular_curve P256.two_ne hy he) : P256.Group) := by
    rw [C111_p256_params.2.2]
    exact ⟨one_ne_zero, by simp, by simp⟩
  refine ⟨.some _ _ (nonsingular_curve P256.two_ne hy he), hrep, ?_⟩
  refine order_of fact_p256q.out (by intro h; cases h) ?_
  refine Facts.nsmul_eq_zero (rawN := Facts.p256Raw p256p P256.bN) (raw := P256.raw P256.b)
    (fun s t => by rw [Facts.castP_p256Raw, hb]) (P256.rawOk _) P256.two_ne P256.no_root 256 p256q
    (by decide) (P256.gxN, P256.gyN, 1) _ ?_ (by decide +kernel)
  have e : Facts.castP p256p (P256.gxN, P256.gyN, 1) = P256.generator := by
    rw [C111_p256_params.2.2]
    simp only [Facts.castP, Nat.cast_one]
  rw [e]
  exact hrep

/-- a real multiplication: `2^255` times the generator of secp256k1 is not the identity -/
example (bytes : List UInt8) (hl : bytes.length = 32) (hv : leNat bytes = 2 ^ 255) :
    ∃ P : K256.Group, Rep (mul (K256.ops K256.b) K256.generator bytes) P ∧ P ≠ 0 := by
  obtain ⟨G, hG, ho⟩ := C111_k256_generator
  refine ⟨_, C52_k256 hG bytes hl, fun h0 => ?_⟩
  have := addOrderOf_dvd_of_nsmul_eq_zero h0
  rw [ho, hv, Nat.dvd_iff_mod_eq_zero] at this
  revert this
  decide +kernel

example : (leBytes 32 (2 ^ 255)).length = 32 ∧ leNat (leBytes 32 (2 ^ 255)) = 2 ^ 255 := by
  decide +kernel

end Verif.Native
