import Verif.Native.EncodeModel
import Verif.Native.FieldProps
import Verif.Native.CurveProps

/-!
# C58: encodings of points

Decoding a compressed or uncompressed encoding; round trips; what happens off the curve and for the identity.
-/

set_option linter.unusedSectionVars false
set_option exponentiation.threshold 1000

namespace Verif.Native

/-- the limbs of projective coordinates -/
def encodeP (P : FieldParams) (p : Proj P.Ring) : LimbPoint := ⟨encode P p.x, encode P p.y, encode P p.z⟩

/-- what is assumed of a curve: a prime field, coefficients `a`, `b`, a correct square root, no point of
order two -/
structure EncCurve.Ok (C : EncCurve) (a b : C.P.Ring) : Prop where
  ok : C.P.Ok
  prime : C.P.modulus.val.Prime
  hA : C.A = encode C.P a
  hB : C.B = encode C.P b
  sqrt : SqrtSpec C.P C.sqrt
  noRoot : ∀ x : C.P.Ring, x ^ 3 + a * x + b ≠ 0

section Lemmas
variable {P : FieldParams} (hP : P.Ok)
include hP

theorem montAdd_encode (x y : P.Ring) : montAdd P (encode P x) (encode P y) = encode P (x + y) := by
  unfold montAdd
  rw [encode_val hP, encode_val hP]
  unfold encode
  congr 2
  ring

theorem montNeg_encode (x : P.Ring) : montNeg P (encode P x) = encode P (-x) := by
  unfold montNeg
  rw [encode_val hP]
  unfold encode
  congr 2
  ring

theorem zero_encode : (⟨0, 0, 0, 0⟩ : Limbs) = encode P 0 := by
  rw [← Limbs.val_inj, (encode_val_zero hP 0).2 rfl]; decide

theorem lowBit_encode (x : P.Ring) : lowBit P (encode P x) = if x.val % 2 = 1 then 1 else 0 := by
  unfold lowBit
  rw [C57_bytes hP]
  have h : (leBytes 32 x.val).headD 0 = UInt8.ofNat x.val := rfl
  rw [h]
  apply UInt8.toNat_inj.1
  rw [UInt8.toNat_and, UInt8.toNat_ofNat']
  show x.val % 2 ^ 8 &&& 1 = _
  rw [Nat.and_one_is_mod]
  split_ifs with h
  · show _ = 1
    omega
  · show _ = 0
    omega

theorem val_neg_parity {x : P.Ring} (hx : x ≠ 0) : (-x).val % 2 = 1 ↔ ¬ x.val % 2 = 1 := by
  have := hP.neZero
  have hn : NeZero x := ⟨hx⟩
  rw [ZMod.val_neg_of_ne_zero]
  have h1 := ZMod.val_lt x
  have h2 := hP.odd
  omega

end Lemmas

section Dec
variable {C : EncCurve} {a b : C.P.Ring} (hC : C.Ok a b)
include hC

theorem rhsEqLimbs_encode (x : C.P.Ring) :
    rhsEqLimbs C (encode C.P x) = encode C.P (x ^ 3 + a * x + b) := by
  unfold rhsEqLimbs
  simp only [montMul_encode hC.ok, hC.hA, hC.hB, montAdd_encode hC.ok]
  congr 1
  ring

/-- the sign byte -/
theorem sign_bit {s : UInt8} (h : s = 2 ∨ s = 3) : s &&& 1 = if s = 3 then 1 else 0 := by
  rcases h with rfl | rfl <;> decide

theorem root_unique {x y y' : C.P.Ring} (h : y ^ 2 = x ^ 3 + a * x + b) (h' : y' ^ 2 = x ^ 3 + a * x + b)
    (hp : y.val % 2 = 1 ↔ y'.val % 2 = 1) : y = y' := by
  have hf : Fact C.P.modulus.val.Prime := ⟨hC.prime⟩
  have hy0 : y' ≠ 0 := by
    rintro rfl
    exact hC.noRoot x (by rw [← h']; ring)
  rcases sq_eq_sq_iff_eq_or_eq_neg.1 (h.trans h'.symm) with e | e
  · exact e
  · rw [e, val_neg_parity hC.ok hy0] at hp
    tauto

theorem finish_eq (x : C.P.Ring) (t : UInt8) (ht : t = 2 ∨ t = 3) (v : LimbPoint) :
    ((if (C.sqrt ⟨0, 0, 0, 0⟩ (rhsEqLimbs C (encode C.P x))).1 = 1 then
        .ok ⟨encode C.P x,
          if lowBit C.P (C.sqrt ⟨0, 0, 0, 0⟩ (rhsEqLimbs C (encode C.P x))).2 ≠ t &&& 1 then
            montNeg C.P (C.sqrt ⟨0, 0, 0, 0⟩ (rhsEqLimbs C (encode C.P x))).2
          else (C.sqrt ⟨0, 0, 0, 0⟩ (rhsEqLimbs C (encode C.P x))).2, C.P.R⟩
      else .ok ⟨⟨0, 0, 0, 0⟩, ⟨0, 0, 0, 0⟩, ⟨0, 0, 0, 0⟩⟩ : Go LimbPoint) = .ok v) ↔
      ((IsSquare (x ^ 3 + a * x + b) ∧
            ∃ y : C.P.Ring, y ^ 2 = x ^ 3 + a * x + b ∧ (y.val % 2 = 1 ↔ t = 3) ∧
              v = encodeP C.P ⟨x, y, 1⟩) ∨
          (¬ IsSquare (x ^ 3 + a * x + b) ∧ v = encodeP C.P ⟨0, 0, 0⟩)) := by
  have hf : Fact C.P.modulus.val.Prime := ⟨hC.prime⟩
  rw [rhsEqLimbs_encode hC]
  obtain ⟨hs, hn⟩ := hC.sqrt ⟨0, 0, 0, 0⟩ (x ^ 3 + a * x + b)
  by_cases hsq : IsSquare (x ^ 3 + a * x + b)
  · obtain ⟨y, hy, he⟩ := hs hsq
    have hy0 : y ≠ 0 := by
      rintro rfl
      exact hC.noRoot x (by rw [← hy]; ring)
    have hpick : ∃ y' : C.P.Ring, y' ^ 2 = x ^ 3 + a * x + b ∧ (y'.val % 2 = 1 ↔ t = 3) ∧
        (if lowBit C.P (encode C.P y) ≠ t &&& 1 then montNeg C.P (encode C.P y) else encode C.P y)
          = encode C.P y' := by
      rw [lowBit_encode hC.ok, montNeg_encode hC.ok]
      have hneg := val_neg_parity hC.ok hy0
      by_cases h1 : y.val % 2 = 1 <;> rcases ht with rfl | rfl
      · exact ⟨-y, by rw [neg_sq, hy], by rw [hneg]; simp [h1], by rw [if_pos h1]; rfl⟩
      · exact ⟨y, hy, by simp [h1], by rw [if_pos h1]; rfl⟩
      · exact ⟨y, hy, by simp [h1], by rw [if_neg h1]; rfl⟩
      · exact ⟨-y, by rw [neg_sq, hy], by rw [hneg]; simp [h1], by rw [if_neg h1]; rfl⟩
    obtain ⟨y', hy', hpar, hif⟩ := hpick
    rw [he, if_pos rfl]
    simp only [hif, Except.ok.injEq, hsq, not_true_eq_false, false_and, or_false, true_and]
    have hR : (⟨encode C.P x, encode C.P y', C.P.R⟩ : LimbPoint) = encodeP C.P ⟨x, y', 1⟩ := by
      rw [R_encode hC.ok]; rfl
    rw [hR]
    constructor
    · rintro rfl
      exact ⟨y', hy', hpar, rfl⟩
    · rintro ⟨z, hz, hzp, rfl⟩
      rw [root_unique hC hy' hz (hpar.trans hzp.symm)]
  · rw [hn hsq, if_neg (by decide)]
    simp only [hsq, false_and, false_or, not_false_eq_true, true_and, Except.ok.injEq, encodeP,
      ← zero_encode hC.ok]
    exact eq_comm

/-- C58: `FromAffineCompressed` fails exactly on a wrong length, sign byte or an `x` that is not a canonical
field element. Otherwise, with `x` the decoded abscissa: if some point has that abscissa, the result is the
one whose ordinate has the parity of the sign byte; if not, it is the identity, without error. -/
theorem C58_fromCompressed (bytes : List UInt8) (v : LimbPoint) :
    fromAffineCompressed C bytes = .ok v ↔
      bytes.length = 33 ∧ (bytes.headD 0 = 2 ∨ bytes.headD 0 = 3) ∧
      beNat (bytes.drop 1) < C.P.modulus.val ∧
      ∃ x : C.P.Ring, x = (beNat (bytes.drop 1) : C.P.Ring) ∧
        ((IsSquare (x ^ 3 + a * x + b) ∧
            ∃ y : C.P.Ring, y ^ 2 = x ^ 3 + a * x + b ∧ (y.val % 2 = 1 ↔ bytes.headD 0 = 3) ∧
              v = encodeP C.P ⟨x, y, 1⟩) ∨
          (¬ IsSquare (x ^ 3 + a * x + b) ∧ v = encodeP C.P ⟨0, 0, 0⟩)) := by
  unfold fromAffineCompressed
  rw [Go.guard_bind_eq_ok]
  refine and_congr_right fun hlen => ?_
  show (Go.guard (¬ (bytes.headD 0 ≠ 2 ∧ bytes.headD 0 ≠ 3)) >>= fun _ => _) = _ ↔ _
  rw [Go.guard_bind_eq_ok]
  have hs : (¬ (bytes.headD 0 ≠ 2 ∧ bytes.headD 0 ≠ 3)) ↔ (bytes.headD 0 = 2 ∨ bytes.headD 0 = 3) := by
    tauto
  rw [hs]
  refine and_congr_right fun hsign => ?_
  show (setBytes C.P (bytes.drop 1).reverse >>= fun x => _) = _ ↔ _
  rw [Go.bind_eq_ok]
  have hl : ((bytes.drop 1).reverse).length = 32 := by simp [hlen]
  have hle : leNat (bytes.drop 1).reverse = beNat (bytes.drop 1) := (beNat_eq_leNat_reverse _).symm
  simp only [C57_setBytes hC.ok _ hl, hle]
  constructor
  · rintro ⟨xl, ⟨hlt, rfl⟩, h⟩
    exact ⟨hlt, _, rfl, (finish_eq hC _ _ hsign v).1 h⟩
  · rintro ⟨hlt, x, rfl, h⟩
    exact ⟨_, ⟨hlt, rfl⟩, (finish_eq hC _ _ hsign v).2 h⟩

/-- C58: `FromAffineUncompressed` fails exactly on a wrong length, first byte or a coordinate that is not a
canonical field element; it never checks the curve equation. -/
theorem C58_fromUncompressed (bytes : List UInt8) (v : LimbPoint) :
    fromAffineUncompressed C bytes = .ok v ↔
      bytes.length = 65 ∧ bytes.headD 0 = 4 ∧
      ∃ nx ny : ℕ, nx = beNat ((bytes.take 33).drop 1) ∧ ny = beNat (bytes.drop 33) ∧
        nx < C.P.modulus.val ∧ ny < C.P.modulus.val ∧ v = encodeP C.P ⟨nx, ny, 1⟩ := by
  unfold fromAffineUncompressed
  rw [Go.guard_bind_eq_ok]
  refine and_congr_right fun hlen => ?_
  rw [Go.guard_bind_eq_ok]
  refine and_congr_right fun hsign => ?_
  rw [Go.bind_eq_ok]
  have hl1 : (((bytes.take 33).drop 1).reverse).length = 32 := by simp [hlen]
  have hl2 : ((bytes.drop 33).reverse).length = 32 := by simp [hlen]
  simp only [C57_setBytes hC.ok _ hl1, C57_setBytes hC.ok _ hl2, Go.bind_eq_ok,
    ← beNat_eq_leNat_reverse, Except.ok.injEq, R_encode hC.ok]
  constructor
  · rintro ⟨_, ⟨h1, rfl⟩, _, ⟨h2, rfl⟩, rfl⟩
    exact ⟨_, _, rfl, rfl, h1, h2, rfl⟩
  · rintro ⟨_, _, rfl, rfl, h1, h2, rfl⟩
    exact ⟨_, ⟨h1, rfl⟩, _, ⟨h2, rfl⟩, rfl⟩

theorem two_ne : (2 : C.P.Ring) ≠ 0 := by
  have hf : Fact C.P.modulus.val.Prime := ⟨hC.prime⟩
  refine two_ne_zero_of ?_
  have := hC.ok.odd
  have := hC.ok.one_lt
  omega

end Dec

section Round
variable {C : EncCurve} {a b : C.P.Ring} [hf : Fact C.P.modulus.val.Prime] (hC : C.Ok a b)
include hC

theorem toAffineCompressed_eq (p : Proj C.P.Ring) : toAffineCompressed C.P p =
    (if (toAffine p).y.val % 2 = 1 then 3 else 2) :: beBytes 32 (toAffine p).x.val := by
  unfold toAffineCompressed
  simp only [lowBit_encode hC.ok, C57_bytes hC.ok]
  show _ = _ :: (leBytes 32 _).reverse
  congr 1
  split_ifs <;> decide

theorem toAffineUncompressed_eq (p : Proj C.P.Ring) : toAffineUncompressed C.P p =
    4 :: (beBytes 32 (toAffine p).x.val ++ beBytes 32 (toAffine p).y.val) := by
  unfold toAffineUncompressed
  simp only [C57_bytes hC.ok]
  rfl

theorem toAffine_some {p : Proj C.P.Ring} {x y : C.P.Ring} {h} (hp : Rep p (.some x y h : (curve a b).Point)) :
    toAffine p = ⟨x, y, 1⟩ := by
  obtain ⟨hz, hx, hy⟩ := hp
  simp [toAffine, invert, hz, hx, hy]

theorem val_256 (x : C.P.Ring) : x.val < 256 ^ 32 := by
  have := hC.ok.val_lt x
  norm_num at this ⊢
  exact this

/-- C58: encoding a point other than the identity in compressed form and decoding it gives the point. -/
theorem C58_roundtrip_compressed {p : Proj C.P.Ring} {Q : (curve a b).Point} (hp : Rep p Q) (h0 : Q ≠ 0) :
    ∃ q, fromAffineCompressed C (toAffineCompressed C.P p) = .ok (encodeP C.P q) ∧ Rep q Q := by
  have hne := hC.ok.neZero
  rcases Q with _ | ⟨x, y, h⟩
  · exact absurd rfl h0
  refine ⟨⟨x, y, 1⟩, ?_, one_ne_zero, by simp, by simp⟩
  rw [toAffineCompressed_eq hC, toAffine_some hC hp, C58_fromCompressed hC]
  have he := equation_curve.1 h.1
  simp only [List.length_cons, beBytes_length, List.headD_cons, List.drop_succ_cons, List.drop_zero,
    beNat_beBytes _ _ (val_256 hC x), true_and]
  refine ⟨by split_ifs <;> simp, ZMod.val_lt x, x, by rw [ZMod.natCast_zmod_val], Or.inl ⟨?_, y, he, ?_, rfl⟩⟩
  · exact ⟨y, by rw [← pow_two, he]⟩
  · split_ifs with h1 <;> simp [h1]

/-- C58: hence two points other than the identity with the same compressed encoding are equal. -/
theorem C58_compressed_inj {p p' : Proj C.P.Ring} {Q Q' : (curve a b).Point} (hp : Rep p Q)
    (hp' : Rep p' Q') (h0 : Q ≠ 0) (h0' : Q' ≠ 0)
    (h : toAffineCompressed C.P p = toAffineCompressed C.P p') : Q = Q' := by
  rcases Q with _ | ⟨x, y, hn⟩
  · exact absurd rfl h0
  rcases Q' with _ | ⟨x', y', hn'⟩
  · exact absurd rfl h0'
  have hne := hC.ok.neZero
  rw [toAffineCompressed_eq hC, toAffineCompressed_eq hC, toAffine_some hC hp, toAffine_some hC hp',
    List.cons.injEq] at h
  have hx : x = x' := by
    have := congrArg beNat h.2
    rw [beNat_beBytes _ _ (val_256 hC x), beNat_beBytes _ _ (val_256 hC x')] at this
    exact ZMod.val_injective _ this
  subst hx
  have hy : y = y' := by
    refine root_unique hC (equation_curve.1 hn.1) (equation_curve.1 hn'.1) ?_
    have := h.1
    by_cases h1 : y.val % 2 = 1 <;> by_cases h2 : y'.val % 2 = 1 <;> simp [h1, h2] at this ⊢
  subst hy
  rfl

/-- C58: the identity is encoded as the abscissa zero; decoding gives back the identity if the curve has no
point with that abscissa, and another point otherwise. -/
theorem C58_compressed_identity {p : Proj C.P.Ring} (hp : Rep p (0 : (curve a b).Point)) :
    toAffineCompressed C.P p = 2 :: List.replicate 32 0 ∧
    (¬ IsSquare b → ∃ q, fromAffineCompressed C (toAffineCompressed C.P p) = .ok (encodeP C.P q) ∧
      Rep q (0 : (curve a b).Point)) ∧
    (IsSquare b → ∃ q, ∃ Q : (curve a b).Point,
      fromAffineCompressed C (toAffineCompressed C.P p) = .ok (encodeP C.P q) ∧ Rep q Q ∧ Q ≠ 0) := by
  have hz : p.z = 0 := hp
  have ht : toAffine p = ⟨0, 0, 0⟩ := by simp [toAffine, invert, hz]
  have he : toAffineCompressed C.P p = 2 :: List.replicate 32 0 := by
    rw [toAffineCompressed_eq hC, ht, ZMod.val_zero]; rfl
  have hb : beNat ((2 :: List.replicate 32 (0 : UInt8)).drop 1) = 0 := by decide
  have hr : (0 : C.P.Ring) ^ 3 + a * 0 + b = b := by ring
  rw [he]
  refine ⟨rfl, fun h => ⟨⟨0, 0, 0⟩, ?_, rfl⟩, fun h => ?_⟩
  · rw [C58_fromCompressed hC, hb]
    refine ⟨rfl, by simp, hf.out.pos, 0, by simp, Or.inr ⟨by rw [hr]; exact h, rfl⟩⟩
  · obtain ⟨r, hr2⟩ := h
    have hr0 : r ≠ 0 := by
      rintro rfl
      exact hC.noRoot 0 (by rw [hr, hr2]; ring)
    have hpar : ∃ y : C.P.Ring, y ^ 2 = b ∧ y ≠ 0 ∧ ¬ y.val % 2 = 1 := by
      by_cases h1 : r.val % 2 = 1
      · exact ⟨-r, by rw [hr2]; ring, neg_ne_zero.2 hr0, by rw [val_neg_parity hC.ok hr0]; simpa using h1⟩
      · exact ⟨r, by rw [hr2]; ring, hr0, h1⟩
    obtain ⟨y, hy, hy0, hyp⟩ := hpar
    refine ⟨⟨0, y, 1⟩, .some 0 y (nonsingular_curve (two_ne hC) hy0 (by rw [hr, hy])), ?_,
      ⟨one_ne_zero, by simp, by simp⟩, fun h => by cases h⟩
    rw [C58_fromCompressed hC, hb]
    exact ⟨rfl, by simp, hf.out.pos, 0, by simp, Or.inl ⟨by rw [hr, hr2]; exact ⟨r, rfl⟩, y,
      by rw [hr, hy], by simp [hyp], rfl⟩⟩

theorem fromUncompressed_pair (x y : C.P.Ring) :
    fromAffineUncompressed C (4 :: (beBytes 32 x.val ++ beBytes 32 y.val)) =
      .ok (encodeP C.P ⟨x, y, 1⟩) := by
  have hne := hC.ok.neZero
  rw [C58_fromUncompressed hC]
  have hx : ((4 :: (beBytes 32 x.val ++ beBytes 32 y.val)).take 33).drop 1 = beBytes 32 x.val := by
    simp [beBytes_length]
  have hy : (4 :: (beBytes 32 x.val ++ beBytes 32 y.val)).drop 33 = beBytes 32 y.val := by
    show (beBytes 32 x.val ++ beBytes 32 y.val).drop 32 = _
    rw [List.drop_append_of_le_length (by rw [beBytes_length]), List.drop_of_length_le (by rw [beBytes_length])]
    rfl
  refine ⟨by simp [beBytes_length], rfl, _, _, rfl, rfl, ?_⟩
  rw [hx, hy, beNat_beBytes _ _ (val_256 hC x), beNat_beBytes _ _ (val_256 hC y), ZMod.natCast_zmod_val,
    ZMod.natCast_zmod_val]
  exact ⟨ZMod.val_lt x, ZMod.val_lt y, rfl⟩

/-- C58: encoding a point other than the identity in uncompressed form and decoding it gives the point. -/
theorem C58_roundtrip_uncompressed {p : Proj C.P.Ring} {Q : (curve a b).Point} (hp : Rep p Q) (h0 : Q ≠ 0) :
    ∃ q, fromAffineUncompressed C (toAffineUncompressed C.P p) = .ok (encodeP C.P q) ∧ Rep q Q := by
  rcases Q with _ | ⟨x, y, h⟩
  · exact absurd rfl h0
  refine ⟨⟨x, y, 1⟩, ?_, one_ne_zero, by simp, by simp⟩
  rw [toAffineUncompressed_eq hC, toAffine_some hC hp, fromUncompressed_pair hC]

/-- C58: every pair of field elements is the decoding of some uncompressed string, on the curve or not. -/
theorem C58_uncompressed_any (x y : C.P.Ring) :
    ∃ bytes, fromAffineUncompressed C bytes = .ok (encodeP C.P ⟨x, y, 1⟩) :=
  ⟨_, fromUncompressed_pair hC x y⟩

/-- C58: the identity in uncompressed form decodes to coordinates that are no point of the curve. -/
theorem C58_uncompressed_identity {p : Proj C.P.Ring} (hp : Rep p (0 : (curve a b).Point)) :
    ∃ q, fromAffineUncompressed C (toAffineUncompressed C.P p) = .ok (encodeP C.P q) ∧
      isOnCurve a b q = false ∧ ∀ Q : (curve a b).Point, ¬ Rep q Q := by
  have hz : p.z = 0 := hp
  have ht : toAffine p = ⟨0, 0, 0⟩ := by simp [toAffine, invert, hz]
  have hb : b ≠ 0 := fun h => hC.noRoot 0 (by rw [h]; ring)
  refine ⟨⟨0, 0, 1⟩, by rw [toAffineUncompressed_eq hC, ht, fromUncompressed_pair hC], ?_, ?_⟩
  · simp [isOnCurve, toAffine, invert, rhsEq, hb.symm]
  · rintro (_ | ⟨x, y, h⟩) hr
    · exact one_ne_zero hr
    · obtain ⟨_, h1, h2⟩ := hr
      have he := equation_curve.1 h.1
      simp only [mul_one] at h1 h2
      rw [← h1, ← h2] at he
      exact hb (by linear_combination -he)

end Round

/-! ## The two curves -/

open Primes

/-- secp256k1 (`native/k256/point.go:30-49`) -/
def k256Enc : EncCurve := ⟨k256Fp, ⟨0, 0, 0, 0⟩, setUint64 k256Fp K256.params.b, k256FpSqrt⟩
/-- P-256 (`native/p256/point.go:28-47`) -/
def p256Enc : EncCurve := ⟨p256Fp, P256.params.a, P256.params.b, p256FpSqrt⟩

theorem k256Enc_ok : k256Enc.Ok 0 (7 : ℕ) where
  ok := C111_constants.1.1
  prime := C111_constants.1.2.2
  hA := zero_encode C111_constants.1.1
  hB := by
    have e : encode k256Fp ((7 : ℕ) : k256Fp.Ring) = setUint64 k256Fp K256.params.b := by
      rw [setUint64, toMont_val C111_constants.1.1, show Limbs.val ⟨K256.params.b, 0, 0, 0⟩ = 7 by decide]
    exact e.symm
  sqrt := C113_sqrt.1
  noRoot := by
    have key : ∀ m, m = k256p → ∀ x : ZMod m, x ^ 3 + 0 * x + ((7 : ℕ) : ZMod m) ≠ 0 := by
      rintro _ rfl x
      exact K256.no_root x
    exact key _ (by decide +kernel)

theorem p256Enc_ok : p256Enc.Ok (-3) (P256.bN : ℕ) where
  ok := C111_constants.2.2.1.1
  prime := C111_constants.2.2.1.2.2
  hA := by
    have e : (-3 : p256Fp.Ring) = ((p256p - 3 : ℕ) : p256Fp.Ring) := by
      have key : ∀ m, m = p256p → (-3 : ZMod m) = ((p256p - 3 : ℕ) : ZMod m) := by
        rintro _ rfl
        rw [Nat.cast_sub (by decide), ZMod.natCast_self, Nat.cast_ofNat, zero_sub]
      exact key _ (by decide +kernel)
    show P256.params.a = encode p256Fp (-3)
    rw [e, encode_natCast C111_constants.2.2.1.1]
    decide +kernel
  hB := by
    have e : encode p256Fp ((P256.bN : ℕ) : p256Fp.Ring) = P256.params.b := by
      rw [encode_natCast C111_constants.2.2.1.1]
      decide +kernel
    exact e.symm
  sqrt := C113_sqrt.2.2.1
  noRoot := by
    have key : ∀ m, m = p256p → ∀ x : ZMod m, x ^ 3 + -3 * x + ((P256.bN : ℕ) : ZMod m) ≠ 0 := by
      rintro _ rfl x
      rw [← C111_p256_params.2.1]
      exact P256.no_root x
    exact key _ (by decide +kernel)

/-- `7` is not a square modulo the prime of secp256k1 -/
theorem k256_b_nonsquare : ¬ IsSquare ((7 : ℕ) : k256Enc.P.Ring) := by
  have key : ∀ m, m = k256p → ¬ IsSquare ((7 : ℕ) : ZMod m) := by
    rintro _ rfl ⟨r, hr⟩
    have h7 : ((7 : ℕ) : ZMod k256p) ≠ 0 := by
      rw [Ne, ZMod.natCast_eq_zero_iff, Nat.dvd_iff_mod_eq_zero]; decide +kernel
    have hr0 : r ≠ 0 := by rintro rfl; exact h7 (by rw [hr]; ring)
    have h1 : ((7 : ℕ) : ZMod k256p) ^ ((k256p - 1) / 2) = 1 := by
      rw [hr, ← pow_two, ← pow_mul, show 2 * ((k256p - 1) / 2) = k256p - 1 by decide +kernel]
      exact ZMod.pow_card_sub_one_eq_one hr0
    have h2 := Pock.powMod_eq k256p 256 7 ((k256p - 1) / 2) 1 (by decide +kernel)
    rw [h1, show Pock.powMod k256p 256 7 ((k256p - 1) / 2) 1 = k256p - 1 by decide +kernel,
      Nat.cast_sub (by decide), ZMod.natCast_self, Nat.cast_one] at h2
    exact K256.two_ne (by linear_combination -h2)
  exact key _ (by decide +kernel)

/-- `b` is a square modulo the prime of P-256 -/
theorem p256_b_square : IsSquare ((P256.bN : ℕ) : p256Enc.P.Ring) := by
  refine ⟨((0x66485c780e2f83d72433bd5d84a06bb6541c2af31dae871728bf856a174f93f4 : ℕ) : p256Enc.P.Ring), ?_⟩
  rw [← Nat.cast_mul]
  exact natCast_eq_of_mod (by decide +kernel)

/-- C58: on secp256k1 the compressed encoding of the identity decodes to the identity. -/
theorem C58_k256_identity [Fact k256Enc.P.modulus.val.Prime] {p : Proj k256Enc.P.Ring}
    (hp : Rep p (0 : (curve (0 : k256Enc.P.Ring) (7 : ℕ)).Point)) :
    ∃ q, fromAffineCompressed k256Enc (toAffineCompressed k256Enc.P p) = .ok (encodeP k256Enc.P q) ∧
      Rep q (0 : (curve (0 : k256Enc.P.Ring) (7 : ℕ)).Point) :=
  (C58_compressed_identity k256Enc_ok hp).2.1 k256_b_nonsquare

/-- C58: on P-256 the compressed encoding of the identity decodes to another point. -/
theorem C58_p256_identity [Fact p256Enc.P.modulus.val.Prime] {p : Proj p256Enc.P.Ring}
    (hp : Rep p (0 : (curve (-3 : p256Enc.P.Ring) (P256.bN : ℕ)).Point)) :
    ∃ q, ∃ Q : (curve (-3 : p256Enc.P.Ring) (P256.bN : ℕ)).Point,
      fromAffineCompressed p256Enc (toAffineCompressed p256Enc.P p) = .ok (encodeP p256Enc.P q) ∧
        Rep q Q ∧ Q ≠ 0 :=
  (C58_compressed_identity p256Enc_ok hp).2.2 p256_b_square

instance : Fact k256Enc.P.modulus.val.Prime := ⟨k256Enc_ok.prime⟩
instance : Fact p256Enc.P.modulus.val.Prime := ⟨p256Enc_ok.prime⟩

/-- a point to which the round trips apply: on P-256, the point with abscissa zero -/
example : ∃ Q : (curve (-3 : p256Enc.P.Ring) (P256.bN : ℕ)).Point, Q ≠ 0 ∧ ∃ p, Rep p Q ∧
    toAffineCompressed p256Enc.P p = 2 :: List.replicate 32 0 := by
  obtain ⟨q, Q, h, hq, h0⟩ := C58_p256_identity (p := ⟨0, 1, 0⟩) rfl
  refine ⟨Q, h0, q, hq, ?_⟩
  rw [(C58_compressed_identity p256Enc_ok (p := ⟨0, 1, 0⟩) rfl).1, C58_fromCompressed p256Enc_ok] at h
  obtain ⟨_, _, _, x, hx, h⟩ := h
  have hx0 : x = 0 := by
    rw [hx, show beNat ((2 :: List.replicate 32 (0 : UInt8)).drop 1) = 0 by decide]; simp
  subst hx0
  rcases h with ⟨_, y, _, hp, he⟩ | ⟨hn, _⟩
  · simp only [encodeP, LimbPoint.mk.injEq, encode_inj p256Enc_ok.ok] at he
    obtain ⟨e1, e2, e3⟩ := he
    have ht : toAffine q = ⟨0, y, 1⟩ := by simp [toAffine, invert, e1, e2, e3]
    rw [toAffineCompressed_eq p256Enc_ok, ht, if_neg (by rw [hp]; decide), ZMod.val_zero]
    rfl
  · exact absurd (by simpa using p256_b_square) hn

/-- off the curve: on secp256k1 the abscissa zero decodes to the identity -/
example : fromAffineCompressed k256Enc (3 :: List.replicate 32 0) = .ok (encodeP k256Enc.P ⟨0, 0, 0⟩) := by
  rw [C58_fromCompressed k256Enc_ok, show beNat ((3 :: List.replicate 32 (0 : UInt8)).drop 1) = 0 by decide]
  exact ⟨rfl, by simp, k256Enc_ok.prime.pos, 0, by simp, Or.inr ⟨by simpa using k256_b_nonsquare, rfl⟩⟩

/-- a string rejected for a coordinate that is not canonical -/
example : fromAffineCompressed k256Enc (2 :: List.replicate 32 255) = .error .error ∧
    (∀ v, fromAffineUncompressed k256Enc (4 :: List.replicate 64 255) ≠ .ok v) := by
  refine ⟨by decide +kernel, fun v h => ?_⟩
  rw [C58_fromUncompressed k256Enc_ok] at h
  obtain ⟨_, _, nx, _, hx, _, hlt, _⟩ := h
  rw [hx] at hlt
  exact absurd hlt (by decide +kernel)

end Verif.Native
