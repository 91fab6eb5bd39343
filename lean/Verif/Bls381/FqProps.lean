import Verif.Bls381.FpProps
import Verif.Native.FieldProps
import Mathlib.NumberTheory.LegendreSymbol.Basic

/-!
# The scalar field of BLS12-381 on limbs, and `Cmp`, `CMove`, `CNeg` of the base field

`Verif.Native` models the field operations of the scalar field by what they compute
(`montMul blsFq` and so on). Here the limb code of `fq.go` is shown to compute exactly that, with one
exception: `Neg` of zero.
-/

namespace Verif.Bls381

open Verif.Primes Verif.Native

set_option exponentiation.threshold 1200
set_option maxRecDepth 4000

attribute [local irreducible] mulMod squareMod fromMontgomery addMod subMod sbbRow

/-- four limbs as a list -/
def limbs4 (l : Limbs) : List UInt64 := [l.l0, l.l1, l.l2, l.l3]

theorem limbs4_length (l : Limbs) : (limbs4 l).length = 4 := rfl

theorem limbs4_val (l : Limbs) : limbVal (limbs4 l) = l.val := by
  simp only [limbs4, limbVal_cons, limbVal_nil, Limbs.val, Nat.mul_zero, Nat.add_zero]

theorem limbs4_inj {a b : Limbs} (h : limbs4 a = limbs4 b) : a = b := by
  obtain ⟨a0, a1, a2, a3⟩ := a
  obtain ⟨b0, b1, b2, b3⟩ := b
  simp only [limbs4, List.cons.injEq, and_true] at h
  obtain ⟨rfl, rfl, rfl, rfl⟩ := h
  rfl

theorem fqMod_eq : fqModulus = limbs4 blsFq.modulus := rfl
theorem fqR2_eq : fqR2 = limbs4 blsFq.R2 := rfl
theorem fqVal : blsFq.modulus.val = blsr := by decide +kernel

theorem fqField : FieldMod fqInv fqModulus blsr 4 :=
  ⟨⟨⟨_, _, rfl, by decide +kernel⟩, by decide +kernel⟩, by decide +kernel, rfl, by decide +kernel⟩

theorem fqTwo : (2 ^ 256 : ZMod blsr) ≠ 0 := two_pow_ne fqField

/-- a list of four limbs with the value `n` is `Limbs.ofNat n` -/
theorem eq_ofNat {a : List UInt64} {n : ℕ} (ha : a.length = 4) (hv : limbVal a = n) :
    a = limbs4 (Limbs.ofNat n) := by
  have hlt : n < 2 ^ 256 := by
    have := limbVal_lt a
    rw [ha, hv] at this
    exact this
  apply limbVal_inj (ha.trans (limbs4_length _).symm)
  rw [limbs4_val, Limbs.val_ofNat hlt, hv]

/-- canonical limbs carrying `z` in Montgomery form -/
theorem eq_of_dec {a : List UInt64} {z : ZMod blsr} (ha : Canon blsr 4 a) (hd : dec blsr 4 a = z) :
    limbVal a = (z * 2 ^ 256).val := by
  have h : (limbVal a : ZMod blsr) = z * 2 ^ 256 := by
    rw [← hd, dec]
    exact (inv_mul_cancel_right₀ fqTwo _).symm
  rw [← h, ZMod.val_natCast, Nat.mod_eq_of_lt ha.2]

section
variable {a b : Limbs}

/-- C147: `Mul`, when one factor is reduced. -/
theorem C147_mul (hb : b.val < blsr) : fqMul (limbs4 a) (limbs4 b) = limbs4 (montMul blsFq a b) := by
  have hcb : Canon blsr 4 (limbs4 b) := ⟨rfl, by rw [limbs4_val]; exact hb⟩
  obtain ⟨h1, h2⟩ := mul_gen fqField (limbs4_length a) hcb
  apply eq_ofNat h1.1
  have h3 := eq_of_dec h1 h2
  refine h3.trans ?_
  show _ = (((a.val : ZMod blsr) * b.val * (2 ^ 256 : ZMod blsr)⁻¹)).val
  congr 1
  simp only [dec, limbs4_val]
  have hne := fqTwo
  show (a.val : ZMod blsr) * (2 ^ 256)⁻¹ * (b.val * (2 ^ 256)⁻¹) * 2 ^ 256 = _
  rw [mul_assoc, inv_mul_cancel_right₀ hne]; ring

/-- C147: `Square`. -/
theorem C147_square (ha : a.val < blsr) : fqSquare (limbs4 a) = limbs4 (montMul blsFq a a) := by
  have hca : Canon blsr 4 (limbs4 a) := ⟨rfl, by rw [limbs4_val]; exact ha⟩
  have h1 := square_gen fqField hca
  have h2 := mul_gen fqField (limbs4_length a) hca
  rw [← C147_mul ha]
  exact dec_inj fqField h1.1 h2.1 (h1.2.trans h2.2.symm)

/-- C147: `Add`. -/
theorem C147_add (ha : a.val < blsr) (hb : b.val < blsr) :
    fqAdd (limbs4 a) (limbs4 b) = limbs4 (montAdd blsFq a b) := by
  have hca : Canon blsr 4 (limbs4 a) := ⟨rfl, by rw [limbs4_val]; exact ha⟩
  have hcb : Canon blsr 4 (limbs4 b) := ⟨rfl, by rw [limbs4_val]; exact hb⟩
  obtain ⟨h1, h2⟩ := add_gen fqField hca hcb
  apply eq_ofNat h1.1
  refine (eq_of_dec h1 h2).trans ?_
  show _ = ((a.val : ZMod blsr) + b.val).val
  congr 1
  simp only [dec, limbs4_val]
  rw [← add_mul]
  exact inv_mul_cancel_right₀ fqTwo _

/-- C147: `Sub`. -/
theorem C147_sub (ha : a.val < blsr) (hb : b.val < blsr) :
    fqSub (limbs4 a) (limbs4 b) = limbs4 (Limbs.ofNat (((a.val : ZMod blsr) - b.val).val)) := by
  have hca : Canon blsr 4 (limbs4 a) := ⟨rfl, by rw [limbs4_val]; exact ha⟩
  have hcb : Canon blsr 4 (limbs4 b) := ⟨rfl, by rw [limbs4_val]; exact hb⟩
  obtain ⟨h1, h2⟩ := sub_gen fqField hca hcb
  apply eq_ofNat h1.1
  refine (eq_of_dec h1 h2).trans ?_
  congr 1
  simp only [dec, limbs4_val]
  rw [← sub_mul]
  exact inv_mul_cancel_right₀ fqTwo _

/-- C147: `ToMontgomery` of any four limbs. -/
theorem C147_toMont : fqToMont (limbs4 a) = limbs4 (toMont blsFq a) := by
  have hR2 : blsFq.R2.val < blsr := by decide +kernel
  rw [fqToMont, fqR2_eq, C147_mul hR2, montMul, toMont]
  congr 2
  have h2 : ((blsFq.R2.val : ℕ) : ZMod blsr) = 2 ^ 256 * 2 ^ 256 := by
    have e : blsFq.R2.val = 2 ^ 512 % blsr := by decide +kernel
    have h : 512 = 256 + 256 := by norm_num
    rw [e, ZMod.natCast_mod, Nat.cast_pow, Nat.cast_ofNat, h, pow_add]
  show ((a.val : ZMod blsr) * (blsFq.R2.val : ℕ) * (2 ^ 256 : ZMod blsr)⁻¹).val
    = ((a.val : ZMod blsr) * 2 ^ 256).val
  rw [h2, ← mul_assoc, mul_inv_cancel_right₀ fqTwo]

/-- C147: `FromMontgomery` of any four limbs. -/
theorem C147_fromMont : fqFromMont (limbs4 a) = limbs4 (fromMont blsFq a) := by
  obtain ⟨h1, h2⟩ := fromMont_gen fqField (limbs4_length a)
  apply eq_ofNat h1.1
  refine h2.trans ?_
  simp only [dec, limbs4_val]
  rfl

/-- C147: `FromBytes`, `ToBytes`. -/
theorem C147_bytes (bs : List UInt8) (h : bs.length = 32) :
    fqFromBytes bs = limbs4 (fromBytes bs) ∧ fqToBytes (limbs4 a) = toBytes a := by
  constructor
  · exact eq_ofNat (wordsLE_length 4 bs) (wordsLE_val 4 bs h)
  · rw [fqToBytes, bytesLE_eq, limbs4_val]; rfl

/-- C147: `Neg` of a reduced element `a` has the limbs of `q - a`. -/
theorem C147_neg (ha : a.val < blsr) : fqNeg (limbs4 a) = limbs4 (Limbs.ofNat (blsr - a.val)) := by
  have hca : Canon blsr 4 (limbs4 a) := ⟨rfl, by rw [limbs4_val]; exact ha⟩
  obtain ⟨h1, h2⟩ := sbb_modulus fqField hca
  rw [limbs4_val] at h2
  have hne : orAll (sbbRow fqModulus (limbs4 a) 0).1 ≠ 0 := by
    rw [Ne, orAll_eq_zero, h2]; omega
  simp only [fqNeg, map_mask]
  rw [if_neg hne]
  exact eq_ofNat h1 h2

/-- C147: for a non-zero element that is the reduced negation. -/
theorem C147_neg_nonzero (ha : a.val < blsr) (h0 : a.val ≠ 0) :
    fqNeg (limbs4 a) = limbs4 (Limbs.ofNat ((-(a.val : ZMod blsr)).val)) := by
  rw [C147_neg ha]
  congr 2
  have hz : (a.val : ZMod blsr) ≠ 0 := by
    intro h
    rw [ZMod.natCast_eq_zero_iff] at h
    exact absurd (Nat.le_of_dvd (by omega) h) (by omega)
  rw [ZMod.neg_val, if_neg hz, ZMod.val_natCast, Nat.mod_eq_of_lt ha]

/-- C147: for zero it is the modulus itself. -/
theorem C147_neg_zero : fqNeg (limbs4 ⟨0, 0, 0, 0⟩) = limbs4 blsFq.modulus := by
  have h := C147_neg (a := ⟨0, 0, 0, 0⟩) (by decide +kernel)
  rw [h]
  decide +kernel

/-- the last factor of the addition chain has the argument as a factor -/
theorem chain_shape {α : Type} (mul : α → α → α) (arg : α) :
    ∃ u v, blsFqChain mul arg = mul u (mul (mul (mul arg arg) arg) v) := ⟨_, _, rfl⟩

/-- C147: `0.Neg()` stands for zero (same bytes, and a zero factor), but is neither `IsZero` nor `Equal` to
zero, compares as greater, and `Invert` reports success, with the value zero. -/
theorem C147_negated_zero (x out : Limbs) :
    bytesOf blsFq blsFq.modulus = bytesOf blsFq ⟨0, 0, 0, 0⟩ ∧
      montMul blsFq x blsFq.modulus = ⟨0, 0, 0, 0⟩ ∧
      Native.isZero blsFq.modulus = 0 ∧ equalHelper blsFq.modulus ⟨0, 0, 0, 0⟩ = 0 ∧
      cmpHelper blsFq.modulus ⟨0, 0, 0, 0⟩ = 1 ∧
      (blsFqInvert out blsFq.modulus).1 = 1 ∧ (blsFqInvert out blsFq.modulus).2 = ⟨0, 0, 0, 0⟩ := by
  have hmod : ((blsFq.modulus.val : ℕ) : blsFq.Ring) = 0 := ZMod.natCast_self _
  have hmul : ∀ x, montMul blsFq x blsFq.modulus = ⟨0, 0, 0, 0⟩ := by
    intro x
    rw [montMul, hmod, mul_zero, zero_mul, ZMod.val_zero]; rfl
  have hmul0 : ∀ x y : Limbs, (x.val : blsFq.Ring) = 0 ∨ (y.val : blsFq.Ring) = 0 →
      montMul blsFq x y = ⟨0, 0, 0, 0⟩ := by
    intro x y h
    rw [montMul]
    rcases h with h | h <;> rw [h] <;> simp [ZMod.val_zero] <;> rfl
  refine ⟨?_, hmul x, by decide +kernel, by decide +kernel, by decide +kernel, ?_, ?_⟩
  · simp only [bytesOf, fromMont, hmod]
    rfl
  · rw [blsFqInvert, invertWith]
    have : Native.isNonZero blsFq.modulus = 1 := by decide +kernel
    exact this
  · rw [blsFqInvert, invertWith]
    have h1 : Native.isNonZero blsFq.modulus = 1 := by decide +kernel
    simp only [h1, if_true]
    obtain ⟨u, v, h⟩ := chain_shape (montMul blsFq) blsFq.modulus
    rw [h]
    apply hmul0
    right
    rw [hmul0 _ v (Or.inl (by rw [hmul]; rfl))]
    rfl

end

/-! ## `Cmp`, `CMove`, `CNeg` of the base field -/

theorem cmp_fold (x y : List UInt64) (h : x.length = y.length) :
    (x.zip y).foldr (fun w st => cmpStep st w.1 w.2) (0, 0)
      = flags (compare (limbVal x) (limbVal y)) := by
  induction x generalizing y with
  | nil => cases y with
    | nil => rfl
    | cons y ys => cases h
  | cons a as ih => cases y with
    | nil => cases h
    | cons b bs =>
      rw [List.zip_cons_cons, List.foldr_cons, ih bs (by simpa using h), cmpStep_eq]
      rw [limbVal_cons, limbVal_cons]
      refine congrArg flags ?_
      dsimp only
      have ha := toNat_lt a
      have hb := toNat_lt b
      rcases lt_trichotomy (limbVal as) (limbVal bs) with h | h | h
      · have e : compare (a.toNat + 2 ^ 64 * limbVal as) (b.toNat + 2 ^ 64 * limbVal bs) = .lt :=
          Nat.compare_eq_lt.2 (by omega)
        rw [Nat.compare_eq_lt.2 h, e]; rfl
      · rw [Nat.compare_eq_eq.2 h]
        rcases lt_trichotomy a.toNat b.toNat with h' | h' | h'
        · rw [Nat.compare_eq_lt.2 h', Nat.compare_eq_lt.2 (by omega)]; rfl
        · rw [Nat.compare_eq_eq.2 h', Nat.compare_eq_eq.2 (by omega)]; rfl
        · rw [Nat.compare_eq_gt.2 h', Nat.compare_eq_gt.2 (by omega)]; rfl
      · have e : compare (a.toNat + 2 ^ 64 * limbVal as) (b.toNat + 2 ^ 64 * limbVal bs) = .gt :=
          Nat.compare_eq_gt.2 (by omega)
        rw [Nat.compare_eq_gt.2 h, e]; rfl

/-- C146: `Cmp` orders the limbs, that is, the least residues of `x·2^384`. -/
theorem C146_cmp {x y : List UInt64} (hx : FpCanon x) (hy : FpCanon y) :
    (fpCmp x y = -1 ↔ (fpDec x * 2 ^ 384).val < (fpDec y * 2 ^ 384).val) ∧
    (fpCmp x y = 0 ↔ fpDec x = fpDec y) ∧
    (fpCmp x y = 1 ↔ (fpDec y * 2 ^ 384).val < (fpDec x * 2 ^ 384).val) := by
  have hval : ∀ {z}, FpCanon z → (fpDec z * 2 ^ 384).val = limbVal z := by
    intro z hz
    have h : fpDec z * 2 ^ 384 = (limbVal z : ZMod blsp) := inv_mul_cancel_right₀ fpTwo _
    rw [h, ZMod.val_natCast, Nat.mod_eq_of_lt hz.2]
  have heq : fpDec x = fpDec y ↔ limbVal x = limbVal y :=
    ⟨fun h => by rw [C143_injective hx hy h], fun h => by
      rw [limbVal_inj (hx.1.trans hy.1.symm) h]⟩
  rw [hval hx, hval hy, heq]
  simp only [fpCmp, cmp_fold x y (hx.1.trans hy.1.symm)]
  rcases lt_trichotomy (limbVal x) (limbVal y) with h | h | h
  · rw [Nat.compare_eq_lt.2 h]
    refine ⟨⟨fun _ => h, fun _ => rfl⟩, ⟨fun h' => absurd h' (by decide), fun h' => by omega⟩,
      ⟨fun h' => absurd h' (by decide), fun h' => by omega⟩⟩
  · rw [Nat.compare_eq_eq.2 h]
    refine ⟨⟨fun h' => absurd h' (by decide), fun h' => by omega⟩, ⟨fun _ => h, fun _ => rfl⟩,
      ⟨fun h' => absurd h' (by decide), fun h' => by omega⟩⟩
  · rw [Nat.compare_eq_gt.2 h]
    refine ⟨⟨fun h' => absurd h' (by decide), fun h' => by omega⟩,
      ⟨fun h' => absurd h' (by decide), fun h' => by omega⟩, ⟨fun _ => h, fun _ => rfl⟩⟩

/-- C146: so `Cmp` is not the order of the numbers: 1 is reported greater than 2. -/
theorem C146_cmp_not_order : fpCmp (fpSetUint64 1) (fpSetUint64 2) = 1 := by decide +kernel

/-- C146: `CMove` selects, `CNeg` with choice 1 negates. -/
theorem C146_cmove {f x y : List UInt64} (hf : FpCanon f) (hx : FpCanon x) (hy : FpCanon y) :
    cmove x y 0 = x ∧ cmove x y 1 = y ∧ fpCNeg f x 1 = fpNeg x :=
  ⟨cmove_zero _ _ (hx.1.trans hy.1.symm), cmove_one _ _ (hx.1.trans hy.1.symm),
    cmove_one _ _ (hf.1.trans (C143_neg hx).1.1.symm)⟩

/-- C146: with choice 0 `CNeg` keeps the receiver; its argument is not copied. -/
theorem C146_cneg_zero {f x : List UInt64} (hf : FpCanon f) (hx : FpCanon x) : fpCNeg f x 0 = f :=
  cmove_zero _ _ (hf.1.trans (C143_neg hx).1.1.symm)

/-! ## Concrete cases -/

/-- the largest element, all of whose six limbs are in use -/
example : FpCanon (fpSub [0, 0, 0, 0, 0, 0] fpR) ∧
    fpBytes (fpMul (fpSub [0, 0, 0, 0, 0, 0] fpR) (fpSub [0, 0, 0, 0, 0, 0] fpR)) = leBytes 48 1 ∧
    fpSquare (fpSub [0, 0, 0, 0, 0, 0] fpR) = fpR ∧ fpLexLargest (fpNeg fpR) = 1 ∧
    fpSgn0 (fpNeg fpR) = 0 ∧ fpNeg [0, 0, 0, 0, 0, 0] = [0, 0, 0, 0, 0, 0] := by
  refine ⟨(C143_sub canon_zero canon_R).1, ?_, ?_, ?_, ?_, ?_⟩ <;> decide +kernel

/-- five is invertible, four is a square, and minus one is not -/
example : (fpInvert (fpSetUint64 5)).2 = 1 ∧ (fpSqrt fpR (fpSetUint64 4)).2 = 1 ∧
    (fpSqrt fpR (fpNeg (fpSetUint64 1))).2 = 0 ∧ (fpSqrt fpR (fpNeg (fpSetUint64 1))).1 = fpR := by
  have hsq : ¬ IsSquare (fpDec (fpNeg (fpSetUint64 1))) := by
    rw [(C143_neg (C143_setUint64 1).1).2, (C143_setUint64 1).2]
    intro h
    have h1 : IsSquare (-1 : ZMod blsp) := by simpa using h
    exact absurd (ZMod.exists_sq_eq_neg_one_iff.1 h1) (by decide +kernel)
  have hm := (C143_neg (C143_setUint64 1).1).1
  refine ⟨?_, ?_, ?_, (C144_sqrt canon_R hm).2.2.2 hsq⟩
  · rw [(C144_invert (C143_setUint64 5).1).2.1, if_neg]
    rw [(C143_setUint64 5).2, ZMod.natCast_eq_zero_iff]
    decide +kernel
  · rw [(C144_sqrt canon_R (C143_setUint64 4).1).2.1, if_pos]
    exact ⟨2, by rw [(C143_setUint64 4).2]; norm_num [show (4 : UInt64).toNat = 4 from rfl]⟩
  · rw [(C144_sqrt canon_R hm).2.1, if_neg hsq]

example : (fpSetBytes fpR (leBytes 48 blsp)).2 = 0 ∧ (fpSetBytes fpR (leBytes 48 (blsp - 1))).2 = 1 ∧
    (fpSetBytes fpR (leBytes 48 (blsp - 1))).1 = fpNeg fpR ∧ fpSetBigInt fpR (-1) = fpNeg fpR ∧
    fpBigInt (fpSetBytesWide (List.replicate 96 0xff)) = (2 ^ 768 - 1) % blsp := by
  refine ⟨?_, ?_, ?_, ?_, ?_⟩ <;> decide +kernel

example : fqMul (limbs4 blsFq.R2) (limbs4 blsFq.R3) = limbs4 (montMul blsFq blsFq.R2 blsFq.R3) ∧
    blsFq.R3.val < blsr ∧ fqNeg (fqNeg (limbs4 blsFq.R3)) = limbs4 blsFq.R3 := by
  refine ⟨C147_mul (by decide +kernel), ?_, ?_⟩ <;> decide +kernel

end Verif.Bls381
