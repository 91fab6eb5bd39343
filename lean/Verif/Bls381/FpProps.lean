import Verif.Bls381.DecLemmas
import Verif.Native.LimbLemmas
import Mathlib.NumberTheory.LegendreSymbol.Basic

/-!
# The base field of BLS12-381: limbs compute residues

A value is `Canon blsp 6 a`: six limbs, below the modulus. It stands for `dec blsp 6 a`, the residue
`a·2^-384`. Specifications are operations of `ZMod blsp`.
-/

namespace Verif.Bls381

open Verif.Primes

set_option exponentiation.threshold 1200
set_option maxRecDepth 4000

attribute [local irreducible] mulMod squareMod fromMontgomery addMod subMod fpPowLimb sbbRow

abbrev FpCanon (a : List UInt64) : Prop := Canon blsp 6 a

/-- the residue of an `fp` -/
abbrev fpDec (a : List UInt64) : ZMod blsp := dec blsp 6 a

/-- C143: the constants. -/
theorem C143_constants :
    limbVal fpModulus = blsp ∧ fpBiModulus = blsp ∧ limbVal fpR = 2 ^ 384 % blsp ∧
      limbVal fpR2 = 2 ^ 768 % blsp ∧ limbVal fpR3 = 2 ^ 1152 % blsp ∧
      2 * limbVal fpHalf = blsp + 1 ∧ (fpInv.toNat * blsp) % 2 ^ 64 = 2 ^ 64 - 1 := by
  refine ⟨?_, ?_, ?_, ?_, ?_, ?_, ?_⟩ <;> decide +kernel

theorem fpGood : GoodMod fpInv fpModulus :=
  ⟨⟨_, _, rfl, by decide +kernel⟩, by decide +kernel⟩

theorem fpField : FieldMod fpInv fpModulus blsp 6 :=
  ⟨fpGood, C143_constants.1, rfl, by decide +kernel⟩

theorem fpTwo : (2 ^ 384 : ZMod blsp) ≠ 0 := two_pow_ne fpField

theorem canon_R : FpCanon fpR := ⟨rfl, by decide +kernel⟩
theorem canon_R2 : FpCanon fpR2 := ⟨rfl, by decide +kernel⟩
theorem canon_R3 : FpCanon fpR3 := ⟨rfl, by decide +kernel⟩
theorem canon_zero : FpCanon [0, 0, 0, 0, 0, 0] := ⟨rfl, by decide +kernel⟩

theorem cast_R : (limbVal fpR : ZMod blsp) = 2 ^ 384 := by
  rw [C143_constants.2.2.1, ZMod.natCast_mod, Nat.cast_pow, Nat.cast_ofNat]
theorem cast_R2 : (limbVal fpR2 : ZMod blsp) = 2 ^ 384 * 2 ^ 384 := by
  have h : 768 = 384 + 384 := by norm_num
  rw [C143_constants.2.2.2.1, ZMod.natCast_mod, Nat.cast_pow, Nat.cast_ofNat, h, pow_add]
theorem cast_R3 : (limbVal fpR3 : ZMod blsp) = 2 ^ 384 * 2 ^ 384 * 2 ^ 384 := by
  have h : 1152 = 384 + 384 + 384 := by norm_num
  rw [C143_constants.2.2.2.2.1, ZMod.natCast_mod, Nat.cast_pow, Nat.cast_ofNat, h, pow_add, pow_add]

theorem dec_R : fpDec fpR = 1 := by
  simp only [fpDec, dec, cast_R]; exact mul_inv_cancel₀ fpTwo
theorem dec_R2 : fpDec fpR2 = 2 ^ 384 := by
  simp only [fpDec, dec, cast_R2]; exact mul_inv_cancel_right₀ fpTwo _
theorem dec_R3 : fpDec fpR3 = 2 ^ 384 * 2 ^ 384 := by
  simp only [fpDec, dec, cast_R3]; exact mul_inv_cancel_right₀ fpTwo _
theorem dec_zero : fpDec [0, 0, 0, 0, 0, 0] = 0 := by
  have h : limbVal [0, 0, 0, 0, 0, 0] = 0 := by decide
  simp only [fpDec, dec, h, Nat.cast_zero, zero_mul]

/-- C143: one 64-bit multiply-accumulate loses nothing. -/
theorem C143_mac (a b c d : UInt64) :
    (mac a b c d).1.toNat + 2 ^ 64 * (mac a b c d).2.toNat = a.toNat + b.toNat * c.toNat + d.toNat :=
  mac_eq a b c d

/-- C143: the sum with carry is exact as soon as one of the three words is 0 or 1. -/
theorem C143_adc (x y c : UInt64) (h : x.toNat ≤ 1 ∨ y.toNat ≤ 1 ∨ c.toNat ≤ 1) :
    (adc x y c).1.toNat + 2 ^ 64 * (adc x y c).2.toNat = x.toNat + y.toNat + c.toNat :=
  (adc_eq x y c h).1

/-- C143: and not in general. -/
theorem C143_adc_limit : ∃ x y c : UInt64,
    (adc x y c).1.toNat + 2 ^ 64 * (adc x y c).2.toNat ≠ x.toNat + y.toNat + c.toNat :=
  ⟨0xffffffffffffffff, 0xffffffffffffffff, 0xffffffffffffffff, by decide +kernel⟩

/-- C143: the difference with borrow. -/
theorem C143_sbb (x y b : UInt64) (h : b.toNat ≤ 1) :
    (sbb x y b).1.toNat + y.toNat + b.toNat = x.toNat + 2 ^ 64 * (sbb x y b).2.toNat :=
  (sbb_eq x y b h).1

/-- C143: `Mul`. -/
theorem C143_mul {x y : List UInt64} (hx : FpCanon x) (hy : FpCanon y) :
    FpCanon (fpMul x y) ∧ fpDec (fpMul x y) = fpDec x * fpDec y := mul_gen fpField hx.1 hy

/-- C143: `Square`. -/
theorem C143_square {x : List UInt64} (hx : FpCanon x) :
    FpCanon (fpSquare x) ∧ fpDec (fpSquare x) = fpDec x * fpDec x := square_gen fpField hx

/-- C143: `Square` is `Mul` of the value with itself, limb for limb. -/
theorem C143_square_mul {x : List UInt64} (hx : FpCanon x) : fpSquare x = fpMul x x :=
  dec_inj fpField (C143_square hx).1 (C143_mul hx hx).1
    ((C143_square hx).2.trans (C143_mul hx hx).2.symm)

/-- C143: `Add`. -/
theorem C143_add {x y : List UInt64} (hx : FpCanon x) (hy : FpCanon y) :
    FpCanon (fpAdd x y) ∧ fpDec (fpAdd x y) = fpDec x + fpDec y := add_gen fpField hx hy

/-- C143: `Sub`. -/
theorem C143_sub {x y : List UInt64} (hx : FpCanon x) (hy : FpCanon y) :
    FpCanon (fpSub x y) ∧ fpDec (fpSub x y) = fpDec x - fpDec y := sub_gen fpField hx hy

/-- C143: `Double`. -/
theorem C143_double {x : List UInt64} (hx : FpCanon x) :
    FpCanon (fpDouble x) ∧ fpDec (fpDouble x) = 2 * fpDec x :=
  ⟨(C143_add hx hx).1, by rw [fpDouble, (C143_add hx hx).2]; ring⟩

/-- C143: `MulBy3b` multiplies by 12. -/
theorem C143_mulBy3b {x : List UInt64} (hx : FpCanon x) :
    FpCanon (fpMulBy3b x) ∧ fpDec (fpMulBy3b x) = 12 * fpDec x := by
  have h2 := C143_double hx
  have h4 := C143_double h2.1
  have h8 := C143_double h4.1
  have h12 := C143_add h8.1 h4.1
  refine ⟨h12.1, ?_⟩
  rw [fpMulBy3b, h12.2, h8.2, h4.2, h2.2]; ring

/-- canonical zero -/
theorem canon_eq_zero {x : List UInt64} (hx : FpCanon x) : fpDec x = 0 ↔ limbVal x = 0 := by
  constructor
  · intro h
    have h1 : x = [0, 0, 0, 0, 0, 0] := dec_inj fpField hx canon_zero (h.trans dec_zero.symm)
    rw [h1]; decide
  · intro h
    simp only [fpDec, dec, h, Nat.cast_zero, zero_mul]

/-- C143: `Neg`, also of zero. -/
theorem C143_neg {x : List UInt64} (hx : FpCanon x) :
    FpCanon (fpNeg x) ∧ fpDec (fpNeg x) = -fpDec x := by
  obtain ⟨h1, h2⟩ := sbb_modulus fpField hx
  simp only [fpNeg, map_mask]
  by_cases h0 : orAll x = 0
  · rw [if_pos h0]
    rw [orAll_eq_zero] at h0
    have hz := limbVal_zeros (sbbRow fpModulus x 0).1
    have hc : FpCanon ((sbbRow fpModulus x 0).1.map fun _ => (0 : UInt64)) :=
      ⟨by rw [List.length_map, h1], by rw [hz]; decide +kernel⟩
    refine ⟨hc, ?_⟩
    rw [(canon_eq_zero hx).mpr h0, (canon_eq_zero hc).mpr hz, neg_zero]
  · rw [if_neg h0]
    rw [orAll_eq_zero] at h0
    have hlt := hx.2
    refine ⟨⟨h1, by rw [h2]; omega⟩, ?_⟩
    simp only [fpDec, dec]
    rw [h2, Nat.cast_sub (by omega), ZMod.natCast_self]
    ring

/-- C143: `toMontgomery` on any six limbs, `SetLimbs`, `SetUint64`. -/
theorem C143_toMont {a : List UInt64} (ha : a.length = 6) :
    FpCanon (fpSetLimbs a) ∧ fpDec (fpSetLimbs a) = limbVal a := by
  obtain ⟨h1, h2⟩ := mul_gen fpField ha canon_R2
  refine ⟨h1, ?_⟩
  refine h2.trans ?_
  have d2 : dec blsp 6 fpR2 = 2 ^ 384 := dec_R2
  rw [d2, dec]
  exact inv_mul_cancel_right₀ fpTwo _

theorem C143_setUint64 (n : UInt64) :
    FpCanon (fpSetUint64 n) ∧ fpDec (fpSetUint64 n) = n.toNat := by
  obtain ⟨h1, h2⟩ := C143_toMont (a := [n, 0, 0, 0, 0, 0]) rfl
  refine ⟨h1, h2.trans ?_⟩
  simp

/-- C143: `fromMontgomery`/`Raw`: the limbs of the least residue. -/
theorem C143_raw {a : List UInt64} (ha : a.length = 6) :
    FpCanon (fpFromMont a) ∧ limbVal (fpFromMont a) = (fpDec a).val := fromMont_gen fpField ha

/-- C143: distinct canonical limbs are distinct residues. -/
theorem C143_injective {x y : List UInt64} (hx : FpCanon x) (hy : FpCanon y) (h : fpDec x = fpDec y) :
    x = y := dec_inj fpField hx hy h

/-- C143: every residue has canonical limbs. -/
theorem C143_surjective (z : ZMod blsp) : ∃ x, FpCanon x ∧ fpDec x = z := by
  have hlt := ZMod.val_lt z
  have hl := wordsLE_val 6 (leBytes 48 z.val) (leBytes_length _ _)
  rw [leNat_leBytes _ _ (hlt.trans (by decide +kernel))] at hl
  obtain ⟨h1, h2⟩ := C143_toMont (wordsLE_length 6 (leBytes 48 z.val))
  exact ⟨_, h1, by rw [h2, hl, ZMod.natCast_zmod_val]⟩

theorem bit_eq (e : UInt64) {n : ℕ} (hn : n < 64) :
    ((e >>> UInt64.ofNat n) &&& 1).toNat = e.toNat / 2 ^ n % 2 := by
  rw [UInt64.toNat_and, UInt64.toNat_shiftRight, ofNat_toNat,
    Nat.mod_eq_of_lt (show n < 2 ^ 64 by omega), Nat.mod_eq_of_lt hn, Nat.shiftRight_eq_div_pow]
  exact Nat.and_two_pow_sub_one_eq_mod _ 1

theorem powLimb_spec {base : List UInt64} (hb : FpCanon base) (e : UInt64) (n : ℕ) (hn : n ≤ 64)
    {res : List UInt64} (hr : FpCanon res) :
    FpCanon (fpPowLimb base e n res) ∧
      fpDec (fpPowLimb base e n res) = fpDec res ^ 2 ^ n * fpDec base ^ (e.toNat % 2 ^ n) := by
  induction n generalizing res with
  | zero => rw [fpPowLimb]; exact ⟨hr, by simp [Nat.mod_one]⟩
  | succ k ih =>
    have hs := C143_square hr
    have hm := C143_mul hs.1 hb
    have hbit := bit_eq e (n := k) (by omega)
    have hsplit : e.toNat % 2 ^ (k + 1) = 2 ^ k * (e.toNat / 2 ^ k % 2) + e.toNat % 2 ^ k := by
      rw [pow_succ, Nat.mod_mul]; ring
    rw [fpPowLimb]
    simp only [hbit]
    rcases Nat.mod_two_eq_zero_or_one (e.toNat / 2 ^ k) with h | h
    · rw [h, Nat.cast_zero, cmove_zero _ _ (hs.1.1.trans hm.1.1.symm)]
      obtain ⟨i1, i2⟩ := ih (by omega) hs.1
      refine ⟨i1, ?_⟩
      rw [i2, hs.2, hsplit, h, Nat.mul_zero, Nat.zero_add, ← sq, ← pow_mul, ← pow_succ']
    · rw [h, Nat.cast_one, cmove_one _ _ (hs.1.1.trans hm.1.1.symm)]
      obtain ⟨i1, i2⟩ := ih (by omega) hm.1
      refine ⟨i1, ?_⟩
      rw [i2, hm.2, hs.2, hsplit, h, Nat.mul_one, pow_add (fpDec base), mul_pow, ← sq, ← pow_mul,
        ← pow_succ', mul_assoc]

/-- C143: `pow` with any exponent limbs. -/
theorem C143_pow {base : List UInt64} (hb : FpCanon base) (e : List UInt64) :
    FpCanon (fpPow base e) ∧ fpDec (fpPow base e) = fpDec base ^ limbVal e := by
  induction e with
  | nil => exact ⟨canon_R, by rw [fpPow]; simp [dec_R]⟩
  | cons w ws ih =>
    obtain ⟨h1, h2⟩ := powLimb_spec hb w 64 le_rfl ih.1
    have hstep : fpPow base (w :: ws) = fpPowLimb base w 64 (fpPow base ws) := by
      unfold fpPow; rw [List.foldr_cons]
    rw [hstep]
    refine ⟨h1, ?_⟩
    rw [h2, ih.2, Nat.mod_eq_of_lt (toNat_lt w), limbVal_cons, pow_add, pow_mul', mul_comm]

/-- C143: `Exp` raises to the least residue of the exponent. -/
theorem C143_exp {base e : List UInt64} (hb : FpCanon base) (he : FpCanon e) :
    FpCanon (fpExp base e) ∧ fpDec (fpExp base e) = fpDec base ^ (fpDec e).val := by
  obtain ⟨h1, h2⟩ := C143_pow hb (fpFromMont e)
  refine ⟨h1, ?_⟩
  rw [fpExp, h2, (C143_raw he.1).2]

/-! ## C144: inversion and square roots -/

/-- C144: `Invert`. -/
theorem C144_invert {a : List UInt64} (ha : FpCanon a) :
    FpCanon (fpInvert a).1 ∧ (fpInvert a).2 = (if fpDec a = 0 then 0 else 1) ∧
      fpDec (fpInvert a).1 = (fpDec a)⁻¹ := by
  have hp := C143_pow ha fpInvExp
  have he : limbVal fpInvExp = blsp - 2 := by decide +kernel
  simp only [fpInvert, isNonZero_eq]
  by_cases h0 : limbVal a = 0
  · have hd := (canon_eq_zero ha).mpr h0
    rw [if_pos h0, cmove_zero _ _ (ha.1.trans hp.1.1.symm), if_pos hd, hd, inv_zero]
    exact ⟨ha, rfl, rfl⟩
  · have hd : fpDec a ≠ 0 := fun h => h0 ((canon_eq_zero ha).mp h)
    rw [if_neg h0, cmove_one _ _ (ha.1.trans hp.1.1.symm), if_neg hd]
    refine ⟨hp.1, rfl, ?_⟩
    rw [hp.2, he]
    have h1 := ZMod.pow_card_sub_one_eq_one hd
    have h2 : blsp - 1 = blsp - 2 + 1 := by decide +kernel
    rw [h2, pow_succ] at h1
    exact eq_inv_of_mul_eq_one_left h1

/-- C144: `Sqrt`: the flag says whether the argument is a square; then the result is a root, otherwise
the receiver is unchanged. -/
theorem C144_sqrt {f a : List UInt64} (hf : FpCanon f) (ha : FpCanon a) :
    FpCanon (fpSqrt f a).1 ∧ (fpSqrt f a).2 = (if IsSquare (fpDec a) then 1 else 0) ∧
      (IsSquare (fpDec a) → fpDec (fpSqrt f a).1 * fpDec (fpSqrt f a).1 = fpDec a) ∧
      (¬ IsSquare (fpDec a) → (fpSqrt f a).1 = f) := by
  have hp := C143_pow ha fpSqrtExp
  have hs := C143_square hp.1
  have he : limbVal fpSqrtExp = (blsp + 1) / 4 := by decide +kernel
  have hroot : fpSquare (fpPow a fpSqrtExp) = a ↔ IsSquare (fpDec a) := by
    constructor
    · intro h
      exact ⟨fpDec (fpPow a fpSqrtExp), by rw [← hs.2, h]⟩
    · rintro ⟨r, hr⟩
      apply C143_injective hs.1 ha
      rw [hs.2, hp.2, he, hr, ← pow_add]
      rcases eq_or_ne r 0 with h0 | h0
      · rw [h0, mul_zero, zero_pow (by decide +kernel)]
      · have h1 := ZMod.pow_card_sub_one_eq_one h0
        have h2 : 2 * ((blsp + 1) / 4 + (blsp + 1) / 4) = (blsp - 1) + 2 := by decide +kernel
        rw [← sq, ← pow_mul, h2, pow_add, h1, one_mul, sq]
  have heq := equal_eq (fpSquare (fpPow a fpSqrtExp)) a (hs.1.1.trans ha.1.symm)
  simp only [hroot] at heq
  simp only [fpSqrt, heq]
  by_cases h : IsSquare (fpDec a)
  · rw [if_pos h, cmove_one _ _ (hf.1.trans hp.1.1.symm)]
    exact ⟨hp.1, trivial, fun _ => by rw [← hs.2, hroot.mpr h], fun h' => absurd h h'⟩
  · rw [if_neg h, cmove_zero _ _ (hf.1.trans hp.1.1.symm)]
    exact ⟨hf, trivial, fun h' => absurd h' h, fun _ => rfl⟩

/-! ## C145: bytes and integers -/

theorem setBytes_eq (f : List UInt64) (b : List UInt8) (hf : f.length = 6) (hb : b.length = 48) :
    fpSetBytes f b = if leNat b < blsp then (fpSetLimbs (wordsLE 6 b), 1) else (f, 0) := by
  have hl := wordsLE_length 6 b
  have hv := wordsLE_val 6 b hb
  have hbr := sbbRow_borrow (wordsLE 6 b) fpModulus hl
  rw [hv, C143_constants.1] at hbr
  have hc : (fpToMont (wordsLE 6 b)).length = 6 := (C143_toMont hl).1.1
  simp only [fpSetBytes, hbr]
  by_cases h : leNat b < blsp
  · rw [if_pos h, if_pos h]
    show (cmove f (fpToMont (wordsLE 6 b)) 1, (1 : ℤ)) = _
    rw [cmove_one _ _ (hf.trans hc.symm)]; rfl
  · rw [if_neg h, if_neg h]
    show (cmove f (fpToMont (wordsLE 6 b)) 0, (0 : ℤ)) = _
    rw [cmove_zero _ _ (hf.trans hc.symm)]

/-- C145: `SetBytes` accepts exactly the encodings below the modulus; a rejected one leaves the receiver. -/
theorem C145_setBytes {f : List UInt64} {b : List UInt8} (hf : FpCanon f) (hb : b.length = 48) :
    FpCanon (fpSetBytes f b).1 ∧ (fpSetBytes f b).2 = (if leNat b < blsp then 1 else 0) ∧
      fpDec (fpSetBytes f b).1 = if leNat b < blsp then (leNat b : ZMod blsp) else fpDec f := by
  rw [setBytes_eq f b hf.1 hb]
  by_cases h : leNat b < blsp
  · rw [if_pos h, if_pos h, if_pos h]
    obtain ⟨h1, h2⟩ := C143_toMont (wordsLE_length 6 b)
    dsimp only
    exact ⟨h1, rfl, by rw [h2, wordsLE_val 6 b hb]⟩
  · rw [if_neg h, if_neg h, if_neg h]
    exact ⟨hf, rfl, rfl⟩

/-- C145: `Bytes` is the 48-byte little-endian least residue. -/
theorem C145_bytes {a : List UInt64} (ha : a.length = 6) : fpBytes a = leBytes 48 (fpDec a).val := by
  obtain ⟨h1, h2⟩ := C143_raw ha
  rw [fpBytes, bytesLE_eq, h1.1, h2]

theorem val_lt48 (z : ZMod blsp) : z.val < 256 ^ 48 := (ZMod.val_lt z).trans (by decide +kernel)

/-- C145: decoding an encoding gives the element back. -/
theorem C145_roundtrip {f a : List UInt64} (hf : FpCanon f) (ha : FpCanon a) :
    fpSetBytes f (fpBytes a) = (a, 1) := by
  have hb := C145_bytes ha.1
  have hlen : (fpBytes a).length = 48 := by rw [hb, leBytes_length]
  have hval : leNat (fpBytes a) = (fpDec a).val := by rw [hb, leNat_leBytes _ _ (val_lt48 _)]
  obtain ⟨h1, h2, h3⟩ := C145_setBytes hf hlen
  have hlt := ZMod.val_lt (fpDec a)
  rw [hval, if_pos hlt] at h2 h3
  rw [ZMod.natCast_zmod_val] at h3
  exact Prod.ext (C143_injective h1 ha h3) h2

/-- C145: encoding an accepted string gives the string back, so no element has two encodings. -/
theorem C145_canonical {f : List UInt64} {b : List UInt8} (hf : FpCanon f) (hb : b.length = 48)
    (hacc : (fpSetBytes f b).2 = 1) : fpBytes (fpSetBytes f b).1 = b := by
  obtain ⟨h1, h2, h3⟩ := C145_setBytes hf hb
  rw [hacc] at h2
  have hlt : leNat b < blsp := by
    by_contra h; rw [if_neg h] at h2; exact absurd h2 (by decide)
  rw [if_pos hlt] at h3
  rw [C145_bytes h1.1, h3, ZMod.val_natCast, Nat.mod_eq_of_lt hlt, ← hb, leBytes_leNat]

/-- C145: `SetBytesWide` reduces the 768-bit integer. -/
theorem C145_wide {b : List UInt8} (hb : b.length = 96) :
    FpCanon (fpSetBytesWide b) ∧ fpDec (fpSetBytesWide b) = leNat b := by
  have l0 := wordsLE_length 6 b
  have l1 := wordsLE_length 6 (b.drop 48)
  have m0 := mul_gen fpField l0 canon_R2
  have m1 := mul_gen fpField l1 canon_R3
  have ha := C143_add m0.1 m1.1
  refine ⟨ha.1, ?_⟩
  have v0 : limbVal (wordsLE 6 b) = leNat (b.take 48) := by
    rw [← wordsLE_take, wordsLE_val 6 _ (by rw [List.length_take]; omega)]
  have v1 : limbVal (wordsLE 6 (b.drop 48)) = leNat (b.drop 48) :=
    wordsLE_val 6 _ (by rw [List.length_drop]; omega)
  have hsplit : leNat b = leNat (b.take 48) + 256 ^ 48 * leNat (b.drop 48) := by
    conv_lhs => rw [← List.take_append_drop 48 b]
    rw [leNat_append, List.length_take, hb]; rfl
  have e256 : (256 ^ 48 : ZMod blsp) = 2 ^ 384 := by
    rw [show (256 : ZMod blsp) = 2 ^ 8 by norm_num, ← pow_mul]
  show fpDec (fpAdd (mulMod fpInv fpModulus (wordsLE 6 b) fpR2)
    (mulMod fpInv fpModulus (wordsLE 6 (b.drop 48)) fpR3)) = _
  rw [ha.2]
  simp only [fpDec]
  rw [m0.2, m1.2]
  have d2 : dec blsp 6 fpR2 = 2 ^ 384 := dec_R2
  have d3 : dec blsp 6 fpR3 = 2 ^ 384 * 2 ^ 384 := dec_R3
  rw [d2, d3]
  simp only [dec]
  rw [v0, v1, hsplit, Nat.cast_add, Nat.cast_mul, Nat.cast_pow, Nat.cast_ofNat, e256]
  have hne := fpTwo
  rw [inv_mul_cancel_right₀ hne, ← mul_assoc, inv_mul_cancel_right₀ hne]
  ring

/-- C145: `SetBigInt` is reduction, for negative integers as well. -/
theorem C145_setBigInt {f : List UInt64} (hf : FpCanon f) (z : ℤ) :
    FpCanon (fpSetBigInt f z) ∧ fpDec (fpSetBigInt f z) = (z : ZMod blsp) := by
  have hm : (fpBiModulus : ℤ) = (blsp : ℤ) := by rw [C143_constants.2.1]
  have hpos : (0 : ℤ) < (blsp : ℤ) := by decide +kernel
  have h0 := Int.emod_nonneg z hpos.ne'
  have h1 := Int.emod_lt_of_pos z hpos
  simp only [fpSetBigInt, hm]
  set t := (z % (blsp : ℤ)).toNat with ht
  have htz : (t : ℤ) = z % (blsp : ℤ) := Int.toNat_of_nonneg h0
  have htlt : t < blsp := by
    have : (t : ℤ) < (blsp : ℤ) := by rw [htz]; exact h1
    exact_mod_cast this
  have hrev : (beBytes 48 t).reverse = leBytes 48 t := by rw [beBytes, List.reverse_reverse]
  rw [hrev]
  have hv : leNat (leBytes 48 t) = t := leNat_leBytes _ _ (htlt.trans (by decide +kernel))
  obtain ⟨c1, -, c3⟩ := C145_setBytes hf (leBytes_length 48 t)
  rw [hv, if_pos htlt] at c3
  refine ⟨c1, c3.trans ?_⟩
  have : ((t : ℤ) : ZMod blsp) = (z : ZMod blsp) := by
    rw [htz]
    exact (ZMod.intCast_eq_intCast_iff _ _ blsp).mpr (Int.mod_modEq z blsp)
  exact_mod_cast this

/-- C145: `BigInt` is the least residue. -/
theorem C145_bigInt {a : List UInt64} (ha : FpCanon a) : fpBigInt a = (fpDec a).val := by
  rw [fpBigInt, beNat_eq_leNat_reverse, List.reverse_reverse, C145_bytes ha.1,
    leNat_leBytes _ _ (val_lt48 _)]

/-- C145: `Hash` is the big-endian 512-bit integer of the expanded message, reduced. -/
theorem C145_hash {xmd : List UInt8} (h : xmd.length = 64) :
    FpCanon (fpHash xmd) ∧ fpDec (fpHash xmd) = beNat xmd := by
  obtain ⟨h1, h2⟩ := C145_wide (b := xmd.reverse ++ List.replicate 32 0)
    (by rw [List.length_append, List.length_reverse, h, List.length_replicate])
  refine ⟨h1, h2.trans ?_⟩
  have hz : leNat (List.replicate 32 0) = 0 := by decide
  rw [leNat_append, hz, Nat.mul_zero, Nat.add_zero, ← beNat_eq_leNat_reverse]

/-! ## C146: predicates -/

/-- C146: `IsZero`, `IsNonZero`, `IsOne`, `Equal` on canonical values. -/
theorem C146_predicates {x y : List UInt64} (hx : FpCanon x) (hy : FpCanon y) :
    isZero x = (if fpDec x = 0 then 1 else 0) ∧ isNonZero x = (if fpDec x = 0 then 0 else 1) ∧
      fpIsOne x = (if fpDec x = 1 then 1 else 0) ∧ equal x y = (if fpDec x = fpDec y then 1 else 0) := by
  have he : ∀ {y}, FpCanon y → (x = y ↔ fpDec x = fpDec y) := fun hy =>
    ⟨fun h => by rw [h], C143_injective hx hy⟩
  refine ⟨?_, ?_, ?_, ?_⟩
  · rw [isZero_eq]; simp only [canon_eq_zero hx]
  · rw [isNonZero_eq]; simp only [canon_eq_zero hx]
  · rw [fpIsOne, equal_eq _ _ (hx.1.trans canon_R.1.symm)]; simp only [he canon_R, dec_R]
  · rw [equal_eq _ _ (hx.1.trans hy.1.symm)]; simp only [he hy]

theorem lex_aux (p H v : ℕ) (hH : 2 * H = p + 1) (hv : v < p) :
    (if v < H then (0 : ℤ) else 1) = if (if v = 0 then 0 else p - v) < v then 1 else 0 := by
  by_cases h0 : v = 0
  · rw [if_pos h0, if_pos (by omega), if_neg (by omega)]
  · rw [if_neg h0]
    by_cases h : v < H
    · rw [if_pos h, if_neg (by omega)]
    · rw [if_neg h, if_pos (by omega)]

/-- C146: `LexicographicallyLargest` compares the element with its negation. -/
theorem C146_lexLargest {x : List UInt64} (hx : FpCanon x) :
    fpLexLargest x = if (-fpDec x).val < (fpDec x).val then 1 else 0 := by
  obtain ⟨h1, h2⟩ := C143_raw hx.1
  have hb := sbbRow_borrow (fpFromMont x) fpHalf h1.1
  rw [h2] at hb
  have hh := C143_constants.2.2.2.2.2.1
  have hmain : fpLexLargest x = if (fpDec x).val < limbVal fpHalf then 0 else 1 := by
    simp only [fpLexLargest, hb]
    split <;> rfl
  rw [hmain]
  have hneg := ZMod.neg_val (fpDec x)
  simp only [← ZMod.val_eq_zero (fpDec x)] at hneg
  rw [hneg]
  exact lex_aux blsp (limbVal fpHalf) _ hh (ZMod.val_lt _)

/-- C146: `Sgn0` is the parity of the least residue. -/
theorem C146_sgn0 {x : List UInt64} (hx : FpCanon x) : fpSgn0 x = ((fpDec x).val % 2 : ℕ) := by
  obtain ⟨h1, h2⟩ := C143_raw hx.1
  rw [fpSgn0, ← h2]
  rcases hl : fpFromMont x with _ | ⟨w, ws⟩
  · rw [hl] at h1; exact absurd h1.1 (by decide)
  · rw [limbVal_cons, List.headD_cons, UInt64.toNat_and]
    have : w.toNat &&& (1 : UInt64).toNat = w.toNat % 2 := Nat.and_two_pow_sub_one_eq_mod _ 1
    rw [this]
    congr 1
    omega

end Verif.Bls381
