import Mathlib.Algebra.Field.ZMod
import Verif.Common.Primes
import Verif.Native.LimbLemmas

/-!
# Properties of the native field elements

* C53 exponentiation, C54 comparison of limbs, C55 `Cmp`, C57 byte encodings
* C111 the constants of the four fields
-/

set_option linter.unusedSectionVars false
set_option exponentiation.threshold 1000

namespace Verif.Native

/-! ## C54 -/

/-- C54: `cmpHelper` is the order of the integers. -/
theorem C54_cmp (l r : Limbs) :
    (cmpHelper l r = -1 ↔ l.val < r.val) ∧ (cmpHelper l r = 0 ↔ l.val = r.val) ∧
    (cmpHelper l r = 1 ↔ r.val < l.val) := by
  rw [cmpHelper_eq]
  rcases lt_trichotomy l.val r.val with h | h | h
  · rw [Nat.compare_eq_lt.2 h]; simp [ordInt]; try omega
  · rw [Nat.compare_eq_eq.2 h]; simp [ordInt]; try omega
  · rw [Nat.compare_eq_gt.2 h]; simp [ordInt]; try omega

/-- C54: `equalHelper`, `IsZero` and `IsNonZero` are 0/1 and decide equality. -/
theorem C54_equal (l r : Limbs) :
    equalHelper l r = (if l = r then 1 else 0) ∧
    isZero l = (if l.val = 0 then 1 else 0) ∧ isNonZero l = (if l.val = 0 then 0 else 1) := by
  have hz : (l.l0 ||| l.l1 ||| l.l2 ||| l.l3 = 0) ↔ l.val = 0 := by
    rw [or_eq_zero, or_eq_zero, or_eq_zero]
    simp only [← UInt64.toNat_inj, Limbs.val, UInt64.toNat_zero]
    omega
  refine ⟨?_, ?_, ?_⟩
  · unfold equalHelper
    simp only [zeroFlag_eq, or_eq_zero, xor_eq_zero]
    congr 1
    obtain ⟨a0, a1, a2, a3⟩ := l
    obtain ⟨b0, b1, b2, b3⟩ := r
    simp only [Limbs.mk.injEq, and_assoc]
  · unfold isZero
    simp only [zeroFlag_eq, hz]
  · unfold isNonZero
    simp only [sign_ne_zero, ne_eq, hz]
    by_cases h : l.val = 0 <;> simp [h]

/-- unequal numbers that agree except in the lowest bit, and the extreme values -/
example : cmpHelper ⟨0, 0, 0, 0x8000000000000000⟩ ⟨1, 0, 0, 0x8000000000000000⟩ = -1 ∧
    cmpHelper ⟨0, 0, 0, 0x8000000000000000⟩ ⟨0xffffffffffffffff, 0xffffffffffffffff, 0xffffffffffffffff, 0⟩
      = 1 ∧
    isZero ⟨0, 0, 0x8000000000000000, 0⟩ = 0 ∧ isNonZero ⟨0, 0, 0x8000000000000000, 0⟩ = 1 := by
  decide +kernel

/-! ## C53 -/

/-- C53: the square-and-multiply loop over four limbs computes powers in every commutative monoid. -/
theorem C53_pow {M : Type} [CommMonoid M] (base : M) (e : Limbs) :
    pow (· * ·) 1 base e = base ^ e.val := pow_eq base e

/-- C53: `Pow2k`. -/
theorem C53_pow2k {M : Type} [CommMonoid M] (k : ℕ) (x : M) : pow2k (· * ·) x k = x ^ 2 ^ k :=
  pow2k_eq k x

example : pow (· * ·) (1 : ZMod 257) 3 ⟨5, 1, 0, 0⟩ = 3 ^ (2 ^ 64 + 5) := C53_pow _ _

/-! ## C111: constants -/

/-- What the constants of a field have to satisfy. -/
structure FieldParams.Ok (P : FieldParams) : Prop where
  one_lt : 1 < P.modulus.val
  odd : P.modulus.val % 2 = 1
  R : P.R.val = 2 ^ 256 % P.modulus.val
  R2 : P.R2.val = 2 ^ 512 % P.modulus.val
  R3 : P.R3.val = 2 ^ 768 % P.modulus.val
  bi : P.biModulus = P.modulus.val

/-- C111: the constants of the four fields satisfy the requirements, and the moduli are the primes of
secp256k1 and P-256. -/
theorem C111_constants :
    (k256Fp.Ok ∧ k256Fp.modulus.val = 2 ^ 256 - 2 ^ 32 - 977 ∧ k256Fp.modulus.val.Prime) ∧
    (k256Fq.Ok ∧ k256Fq.modulus.val.Prime) ∧
    (p256Fp.Ok ∧ p256Fp.modulus.val = 2 ^ 256 - 2 ^ 224 + 2 ^ 192 + 2 ^ 96 - 1 ∧
      p256Fp.modulus.val.Prime) ∧
    (p256Fq.Ok ∧ p256Fq.modulus.val.Prime) := by
  have e1 : k256Fp.modulus.val = Primes.k256p := by decide +kernel
  have e2 : k256Fq.modulus.val = Primes.k256q := by decide +kernel
  have e3 : p256Fp.modulus.val = Primes.p256p := by decide +kernel
  have e4 : p256Fq.modulus.val = Primes.p256q := by decide +kernel
  refine ⟨⟨?_, by decide +kernel, ?_⟩, ⟨?_, ?_⟩, ⟨?_, by decide +kernel, ?_⟩, ⟨?_, ?_⟩⟩
  · constructor <;> decide +kernel
  · rw [e1]; exact Primes.fact_k256p.out
  · constructor <;> decide +kernel
  · rw [e2]; exact Primes.fact_k256q.out
  · constructor <;> decide +kernel
  · rw [e3]; exact Primes.fact_p256p.out
  · constructor <;> decide +kernel
  · rw [e4]; exact Primes.fact_p256q.out

/-! ## C57, C55: Montgomery form -/

section Mont
variable {P : FieldParams}

/-- the limbs that hold the residue `x` -/
def encode (P : FieldParams) (x : P.Ring) : Limbs := Limbs.ofNat (x * 2 ^ 256).val

variable (hP : P.Ok)
include hP

theorem FieldParams.Ok.neZero : NeZero P.modulus.val := ⟨by have := hP.one_lt; omega⟩

theorem FieldParams.Ok.unit : IsUnit ((2 : P.Ring) ^ 256) := by
  have : IsUnit ((2 : ℕ) : P.Ring) := by
    rw [ZMod.isUnit_iff_coprime]
    rw [Nat.coprime_two_left]
    exact Nat.odd_iff.2 hP.odd
  simpa using this.pow 256

theorem FieldParams.Ok.cancel (x : P.Ring) : x * 2 ^ 256 * ((2 : P.Ring) ^ 256)⁻¹ = x := by
  rw [mul_assoc, ZMod.mul_inv_of_unit _ hP.unit, mul_one]

theorem FieldParams.Ok.val_lt (x : P.Ring) : x.val < 2 ^ 256 := by
  have := hP.neZero
  exact (ZMod.val_lt x).trans P.modulus.val_lt

theorem FieldParams.Ok.val_ofNat (x : P.Ring) : ((Limbs.ofNat x.val).val : P.Ring) = x := by
  have := hP.neZero
  rw [Limbs.val_ofNat (hP.val_lt x)]
  exact ZMod.natCast_zmod_val x

theorem encode_val (x : P.Ring) : ((encode P x).val : P.Ring) = x * 2 ^ 256 := hP.val_ofNat _

/-- distinct residues have distinct limbs -/
theorem encode_inj {x y : P.Ring} : encode P x = encode P y ↔ x = y := by
  constructor
  · intro h
    have h1 := congrArg (fun l : Limbs => (l.val : P.Ring)) h
    simp only [encode_val hP] at h1
    rw [← hP.cancel x, h1, hP.cancel]
  · rintro rfl; rfl

theorem montMul_encode (x y : P.Ring) : montMul P (encode P x) (encode P y) = encode P (x * y) := by
  unfold montMul
  rw [encode_val hP, encode_val hP, ← mul_assoc, hP.cancel]
  unfold encode
  congr 2
  ring

theorem fromMont_encode (x : P.Ring) : (fromMont P (encode P x)).val = x.val := by
  unfold fromMont
  rw [encode_val hP, hP.cancel, Limbs.val_ofNat (hP.val_lt x)]

theorem R_encode : P.R = encode P 1 := by
  have := hP.neZero
  rw [← Limbs.val_inj, hP.R, encode, Limbs.val_ofNat (hP.val_lt _), one_mul,
    show (2 : P.Ring) ^ 256 = ((2 ^ 256 : ℕ) : P.Ring) by push_cast; ring, ZMod.val_natCast]

/-- C57: `SetBytes` accepts 32 bytes exactly when they encode an integer below the modulus, and then the
element is that integer. -/
theorem C57_setBytes (b : List UInt8) (hb : b.length = 32) (v : Limbs) :
    setBytes P b = .ok v ↔ leNat b < P.modulus.val ∧ v = encode P (leNat b : P.Ring) := by
  have hlt : leNat b < 2 ^ 256 := by
    have := leNat_lt b
    rw [hb] at this
    calc _ < 256 ^ 32 := this
      _ = 2 ^ 256 := by norm_num
  have hv : (fromBytes b).val = leNat b := Limbs.val_ofNat hlt
  unfold setBytes
  rw [Go.guard_bind_eq_ok, not_not, (C54_cmp _ _).1, hv]
  refine and_congr_right fun _ => ?_
  unfold toMont encode
  rw [hv]
  constructor
  · intro h; cases h; rfl
  · rintro rfl; rfl

/-- C57: `Bytes` is the 32-byte little-endian encoding of the least residue. -/
theorem C57_bytes (x : P.Ring) : bytesOf P (encode P x) = leBytes 32 x.val := by
  unfold bytesOf toBytes
  rw [fromMont_encode hP]

/-- C57: decoding an encoding gives the element back. -/
theorem C57_roundtrip (x : P.Ring) : setBytes P (bytesOf P (encode P x)) = .ok (encode P x) := by
  have := hP.neZero
  rw [C57_bytes hP]
  have h : leNat (leBytes 32 x.val) = x.val := by
    refine leNat_leBytes _ _ ?_
    calc x.val < 2 ^ 256 := hP.val_lt x
      _ = 256 ^ 32 := by norm_num
  rw [C57_setBytes hP _ (by simp [leBytes_length]), h]
  exact ⟨ZMod.val_lt x, by rw [ZMod.natCast_zmod_val]⟩

/-- C57: an accepted string is the encoding of what it decodes to. -/
theorem C57_canonical (b : List UInt8) (hb : b.length = 32) (v : Limbs) (h : setBytes P b = .ok v) :
    bytesOf P v = b := by
  obtain ⟨hlt, rfl⟩ := (C57_setBytes hP b hb v).1 h
  rw [C57_bytes hP, ZMod.val_natCast, Nat.mod_eq_of_lt hlt, ← hb, leBytes_leNat]

omit hP in
theorem leNat_append (a b : List UInt8) : leNat (a ++ b) = leNat a + 256 ^ a.length * leNat b := by
  rw [leNat_eq_ofDigits, leNat_eq_ofDigits, leNat_eq_ofDigits, List.map_append, Nat.ofDigits_append,
    List.length_map]

/-- C57: `SetBytesWide` reduces the 512-bit little-endian integer. -/
theorem C57_wide (b : List UInt8) (hb : b.length = 64) :
    setBytesWide P b = encode P (leNat b : P.Ring) := by
  have := hP.neZero
  have hl : ∀ c : List UInt8, c.length = 32 → (fromBytes c).val = leNat c := by
    intro c hc
    refine Limbs.val_ofNat ?_
    have := leNat_lt c
    rw [hc] at this
    calc _ < 256 ^ 32 := this
      _ = 2 ^ 256 := by norm_num
  have h1 := hl (b.take 32) (by simp [hb])
  have h2 := hl (b.drop 32) (by simp [hb])
  have e : leNat b = leNat (b.take 32) + 2 ^ 256 * leNat (b.drop 32) := by
    conv_lhs => rw [← List.take_append_drop 32 b]
    rw [leNat_append]
    congr 2
    rw [List.length_take, hb]
    norm_num
  unfold setBytesWide montAdd montMul encode
  simp only []
  rw [hP.val_ofNat, hP.val_ofNat, h1, h2, hP.R2, hP.R3, ZMod.natCast_mod, ZMod.natCast_mod, e]
  congr 2
  have c := ZMod.mul_inv_of_unit _ hP.unit
  rw [show (2 : ℕ) ^ 512 = 2 ^ 256 * 2 ^ 256 by norm_num,
    show (2 : ℕ) ^ 768 = 2 ^ 256 * 2 ^ 256 * 2 ^ 256 by norm_num]
  have t : ((2 ^ 256 : ℕ) : P.Ring) = 2 ^ 256 := by push_cast; ring
  generalize (2 : ℕ) ^ 256 = T at t ⊢
  rw [← t] at c ⊢
  push_cast
  linear_combination ((leNat (b.take 32) : P.Ring) * T + leNat (b.drop 32) * T * T) * c

/-- C57: `SetBigInt` reduces any integer, and `BigInt` returns the least residue. -/
theorem C57_bigInt (f : Limbs) (z : ℤ) (x : P.Ring) :
    setBigIntField P f z = encode P (z : P.Ring) ∧ bigIntOf P (encode P x) = x.val := by
  have := hP.neZero
  have hpos : (0 : ℤ) < P.modulus.val := by have := hP.one_lt; omega
  constructor
  · have h0 := Int.emod_nonneg z hpos.ne'
    have h1 := Int.emod_lt_of_pos z hpos
    have hn : ((z % P.modulus.val).toNat : ℤ) = z % P.modulus.val := Int.toNat_of_nonneg h0
    have hlt : (z % P.modulus.val).toNat < P.modulus.val := by omega
    have hle : leNat (beBytes 32 (z % P.modulus.val).toNat).reverse = (z % P.modulus.val).toNat := by
      have := beNat_eq_leNat_reverse (beBytes 32 (z % P.modulus.val).toNat)
      rw [← this]
      refine beNat_beBytes _ _ ?_
      calc (z % P.modulus.val).toNat < P.modulus.val := hlt
        _ < 2 ^ 256 := P.modulus.val_lt
        _ = 256 ^ 32 := by norm_num
    have hs : setBytes P (beBytes 32 (z % P.biModulus).toNat).reverse = .ok (encode P (z : P.Ring)) := by
      rw [hP.bi, C57_setBytes hP _ (by simp [beBytes_length]), hle]
      refine ⟨hlt, ?_⟩
      have hz : (z : P.Ring) = (((z % P.modulus.val).toNat : ℕ) : P.Ring) := by
        rw [← Int.cast_natCast, hn, ZMod.intCast_mod]
      rw [hz]
    unfold setBigIntField
    simp only [hs]
  · unfold bigIntOf
    rw [C57_bytes hP, beNat_eq_leNat_reverse, List.reverse_reverse]
    refine congrArg _ (leNat_leBytes _ _ ?_)
    calc x.val < 2 ^ 256 := hP.val_lt x
      _ = 256 ^ 32 := by norm_num

omit hP in
/-- the hypotheses are met by each of the four fields: a real round trip in the scalar field of
secp256k1 -/
example : setBytes k256Fq (bytesOf k256Fq (encode k256Fq 12345)) = .ok (encode k256Fq 12345) :=
  C57_roundtrip C111_constants.2.1.1 _

/-- C53: `Exp` computes `base ^ e` with the exponent taken as the least residue; `IsOne` recognises one. -/
theorem C53_exp (x e : P.Ring) :
    exp P (encode P x) (encode P e) = encode P (x ^ e.val) ∧
    isOne P (encode P x) = if x = 1 then 1 else 0 := by
  constructor
  · unfold exp
    rw [R_encode hP, pow_map (encode P) (· * ·) (montMul P) (montMul_encode hP), pow_eq,
      fromMont_encode hP]
  · unfold isOne
    rw [(C54_equal _ _).1, R_encode hP]
    simp only [encode_inj hP]

/-- C55: `Cmp` is zero exactly for equal elements. -/
theorem C55_cmp_zero (x y : P.Ring) :
    cmpHelper (encode P x) (encode P y) = 0 ↔ x = y := by
  rw [(C54_cmp _ _).2.1, Limbs.val_inj, encode_inj hP]

/-- C55: what `Cmp` orders by is the least residue of `x·2^256`. -/
theorem C55_cmp_montgomery (x y : P.Ring) :
    cmpHelper (encode P x) (encode P y) = -1 ↔ (x * 2 ^ 256).val < (y * 2 ^ 256).val := by
  rw [(C54_cmp _ _).1, encode, encode, Limbs.val_ofNat (hP.val_lt _), Limbs.val_ofNat (hP.val_lt _)]

/-- C55: in every field the order is wrong for some pair: `1` is reported greater than the larger
element `2^-256` whenever `2^256 mod m ≠ 1`. -/
theorem C55_cmp_not_order (h : P.R.val ≠ 1) (h2 : (2 ^ 256 : P.Ring)⁻¹ ≠ 1) :
    (1 : P.Ring).val < ((2 ^ 256 : P.Ring)⁻¹).val ∧
      cmpHelper (encode P 1) (encode P (2 ^ 256 : P.Ring)⁻¹) = 1 := by
  have := hP.neZero
  have : Fact (1 < P.modulus.val) := ⟨hP.one_lt⟩
  have : Nontrivial P.Ring := ZMod.nontrivial _
  have hinv : (2 ^ 256 : P.Ring)⁻¹ * 2 ^ 256 = 1 := by
    rw [mul_comm]; exact ZMod.mul_inv_of_unit _ hP.unit
  have v1 : (1 : P.Ring).val = 1 := ZMod.val_one _
  constructor
  · rw [v1]
    have hne0 : ((2 ^ 256 : P.Ring)⁻¹).val ≠ 0 := by
      intro h0
      rw [ZMod.val_eq_zero] at h0
      rw [h0, zero_mul] at hinv
      exact zero_ne_one hinv
    have hne1 : ((2 ^ 256 : P.Ring)⁻¹).val ≠ 1 := by
      intro h1
      apply h2
      exact ZMod.val_injective _ (h1.trans v1.symm)
    omega
  · rw [(C54_cmp _ _).2.2, ← R_encode hP, encode, hinv, Limbs.val_ofNat (hP.val_lt _), v1]
    have : P.R.val ≠ 0 := by
      intro h0
      have h1 : ((P.R.val : ℕ) : P.Ring) = 2 ^ 256 := by rw [hP.R, ZMod.natCast_mod]; push_cast; ring
      rw [h0, Nat.cast_zero] at h1
      exact hP.unit.ne_zero h1.symm
    omega

end Mont

/-- C55 for the four fields of the library. -/
theorem C55_witness (P : FieldParams) (h : P = k256Fp ∨ P = k256Fq ∨ P = p256Fp ∨ P = p256Fq) :
    ∃ x y : P.Ring, x.val < y.val ∧ cmpHelper (encode P x) (encode P y) = 1 := by
  have hok : P.Ok := by
    rcases h with rfl | rfl | rfl | rfl
    · exact C111_constants.1.1
    · exact C111_constants.2.1.1
    · exact C111_constants.2.2.1.1
    · exact C111_constants.2.2.2.1
  have hR : P.R.val ≠ 1 := by
    rcases h with rfl | rfl | rfl | rfl <;> decide +kernel
  refine ⟨1, (2 ^ 256 : P.Ring)⁻¹, C55_cmp_not_order hok hR ?_⟩
  have := hok.neZero
  have : Fact (1 < P.modulus.val) := ⟨hok.one_lt⟩
  intro e
  have h1 := ZMod.mul_inv_of_unit _ hok.unit
  rw [e, mul_one] at h1
  apply hR
  rw [hok.R]
  have h2 : ((2 ^ 256 : ℕ) : P.Ring) = ((1 : ℕ) : P.Ring) := by
    rw [Nat.cast_one, ← h1]; push_cast; ring
  rw [ZMod.natCast_eq_natCast_iff'] at h2
  rw [h2, Nat.mod_eq_of_lt hok.one_lt]

end Verif.Native
