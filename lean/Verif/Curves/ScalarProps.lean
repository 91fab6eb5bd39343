import Verif.Curves.ScalarModel
import Verif.Native.MapHash
import Verif.Bls381.FqProps

/-!
# Scalars of secp256k1, P-256 and BLS12-381: every method of the interface

* C177 the methods are the operations of the field of integers modulo the order
-/

set_option exponentiation.threshold 600
set_option maxRecDepth 10000

namespace Verif.Curves

open Native Primes

/-- what the native package proves of its fields (C111, C113) -/
structure NatField.Ok (N : NatField) : Prop where
  ok : N.P.Ok
  prime : N.P.modulus.val.Prime
  invert : InvertSpec N.P N.invert
  sqrt : SqrtSpec N.P N.sqrt

theorem k256Scalar_ok : k256Scalar.Ok :=
  ⟨C111_constants.2.1.1, C111_constants.2.1.2, C113_invert.2.1, C113_sqrt.2.1⟩
theorem p256Scalar_ok : p256Scalar.Ok :=
  ⟨C111_constants.2.2.2.1, C111_constants.2.2.2.2, C113_invert.2.2.2.1, C113_sqrt.2.2.2.1⟩
theorem blsScalar_ok : blsScalar.Ok :=
  ⟨C111_more_constants.1.1, C111_more_constants.1.2, C113_invert.2.2.2.2, C113_sqrt.2.2.2.2⟩

theorem montAdd_encode {P : FieldParams} (hP : P.Ok) (x y : P.Ring) :
    montAdd P (encode P x) (encode P y) = encode P (x + y) := by
  unfold montAdd
  rw [encode_val hP, encode_val hP, ← add_mul]; rfl

theorem montSub_encode {P : FieldParams} (hP : P.Ok) (x y : P.Ring) :
    montSub P (encode P x) (encode P y) = encode P (x - y) := by
  unfold montSub
  rw [encode_val hP, encode_val hP, ← sub_mul]; rfl

theorem fiatNeg_encode {P : FieldParams} (hP : P.Ok) (x : P.Ring) : fiatNeg P (encode P x) = encode P (-x) := by
  unfold fiatNeg
  rw [encode_val hP, ← neg_mul]; rfl

theorem encode_zero (P : FieldParams) : encode P 0 = ⟨0, 0, 0, 0⟩ := by
  unfold encode
  rw [zero_mul, ZMod.val_zero]; rfl

section
variable {N : NatField} (hN : N.Ok) (x y z : N.P.Ring)
include hN

/-- C177: `Zero`, `One`, `Add`, `Sub`, `Mul`, `Square`, `Double`, `Cube` and `MulAdd`. -/
theorem C177_ring :
    scZero = encode N.P 0 ∧ scOne N = encode N.P 1 ∧
    scAdd N (encode N.P x) (some (encode N.P y)) = some (encode N.P (x + y)) ∧
    scSub N (encode N.P x) (some (encode N.P y)) = some (encode N.P (x - y)) ∧
    scMul N (encode N.P x) (some (encode N.P y)) = some (encode N.P (x * y)) ∧
    scSquare N (encode N.P x) = encode N.P (x ^ 2) ∧ scDouble N (encode N.P x) = encode N.P (2 * x) ∧
    scCube N (encode N.P x) = encode N.P (x ^ 3) ∧
    scMulAdd N (encode N.P x) (some (encode N.P y)) (some (encode N.P z)) = .ok (some (encode N.P (x * y + z))) := by
  have hP := hN.ok
  refine ⟨(encode_zero _).symm, R_encode hP, ?_, ?_, ?_, ?_, ?_, ?_, ?_⟩
  · rw [scAdd, Option.map_some, montAdd_encode hP]
  · rw [scSub, Option.map_some, montSub_encode hP]
  · rw [scMul, Option.map_some, montMul_encode hP]
  · rw [scSquare, montMul_encode hP, pow_two]
  · rw [scDouble, montAdd_encode hP, two_mul]
  · rw [scCube, montMul_encode hP, montMul_encode hP]; congr 1; ring
  · rw [scMulAdd, scMul, Option.map_some, montMul_encode hP]
    show Except.ok (scAdd N _ _) = _
    rw [scAdd, Option.map_some, montAdd_encode hP]

/-- C177: `Invert` and `Div`: the inverse and the quotient, refused exactly for zero. -/
theorem C177_div :
    (x ≠ 0 → ∃ i, x * i = 1 ∧ scInvert N (encode N.P x) = .ok (encode N.P i) ∧
      scDiv N (encode N.P y) (some (encode N.P x)) = some (encode N.P (y * i))) ∧
    (x = 0 → scInvert N (encode N.P x) = Go.err ∧ scDiv N (encode N.P y) (some (encode N.P x)) = none) := by
  constructor
  · intro hx
    obtain ⟨i, hi, h⟩ := (hN.invert fresh x).1 hx
    refine ⟨i, hi, ?_, ?_⟩
    · simp [scInvert, h]
    · simp [scDiv, h, montMul_encode hN.ok, mul_comm]
  · intro hx
    have h := (hN.invert fresh x).2 hx
    constructor
    · simp [scInvert, h]
    · simp [scDiv, h]

/-- C177: `Sqrt` returns a root, refused exactly for non-squares. -/
theorem C177_sqrt :
    (IsSquare x → ∃ r, r ^ 2 = x ∧ scSqrt N (encode N.P x) = .ok (encode N.P r)) ∧
    (¬ IsSquare x → scSqrt N (encode N.P x) = Go.err) := by
  constructor
  · intro hx
    obtain ⟨r, hr, h⟩ := (hN.sqrt fresh x).1 hx
    exact ⟨r, hr, by simp [scSqrt, h]⟩
  · intro hx
    simp [scSqrt, (hN.sqrt fresh x).2 hx]

omit hN in
theorem odd_head (n : ℕ) : ((leBytes 32 n).headD 0 &&& 1 = (1 : UInt8) ↔ n % 2 = 1) ∧
    ((leBytes 32 n).headD 0 &&& 1 = (0 : UInt8) ↔ n % 2 = 0) := by
  have hb : (leBytes 32 n).headD 0 = UInt8.ofNat n := rfl
  have h : ((leBytes 32 n).headD 0 &&& (1 : UInt8)).toNat = n % 2 := by
    rw [hb, UInt8.toNat_and, UInt8.toNat_ofNat']
    show n % 256 &&& 1 = _
    rw [Nat.and_one_is_mod]; omega
  constructor
  · rw [← UInt8.toNat_inj, h]; rfl
  · rw [← UInt8.toNat_inj, h]; rfl

/-- C177: `IsZero`, `IsOne`, `IsOdd` and `IsEven` decide what they say. -/
theorem C177_predicates :
    (scIsZero (encode N.P x) = true ↔ x = 0) ∧ (scIsOne N (encode N.P x) = true ↔ x = 1) ∧
    (scIsOdd N (encode N.P x) = true ↔ x.val % 2 = 1) ∧ (scIsEven N (encode N.P x) = true ↔ x.val % 2 = 0) := by
  have hP := hN.ok
  refine ⟨?_, ?_, ?_, ?_⟩
  · unfold scIsZero
    rw [(C54_equal (encode N.P x) (encode N.P x)).2.1, decide_eq_true_eq, ← encode_val_zero hP]
    split_ifs <;> simp_all
  · unfold scIsOne
    rw [(C53_exp hP x x).2, decide_eq_true_eq]
    split_ifs <;> simp_all
  · unfold scIsOdd
    rw [decide_eq_true_eq, C57_bytes hP]
    exact (odd_head _).1
  · unfold scIsEven
    rw [decide_eq_true_eq, C57_bytes hP]
    exact (odd_head _).2

/-- C177: `Cmp` is zero exactly for equal elements, and `-2` exactly for a nil argument or one of another type. -/
theorem C177_cmp : (scCmp (encode N.P x) (some (encode N.P y)) = 0 ↔ x = y) ∧
    (∀ s, scCmp s none = -2) ∧ scCmp (encode N.P x) (some (encode N.P y)) ≠ -2 := by
  refine ⟨C55_cmp_zero hN.ok x y, fun _ => rfl, ?_⟩
  show cmpHelper _ _ ≠ -2
  rw [cmpHelper_eq]
  rcases compare (encode N.P x).val (encode N.P y).val with _ | _ | _ <;> decide

/-- C177: `New` is the integer modulo the order for every machine integer. -/
theorem C177_new (v : Int64) : scNew N v = encode N.P (v.toInt : N.P.Ring) := by
  unfold scNew
  simp only []
  rw [(C57_bigInt hN.ok _ _ 0).1]
  congr 1
  split_ifs
  · rw [hN.ok.bi, ZMod.intCast_mod]
  · rfl

/-- C177: `SetBigInt` reduces every integer and refuses nil; `BigInt` is the least residue, so the two are inverse. -/
theorem C177_bigInt (v : ℤ) : scSetBigInt N (some v) = .ok (encode N.P (v : N.P.Ring)) ∧ scSetBigInt N none = Go.err ∧
    scBigInt N (encode N.P x) = x.val ∧ scSetBigInt N (some (scBigInt N (encode N.P x))) = .ok (encode N.P x) := by
  have := hN.ok.neZero
  have h1 : ∀ v : ℤ, scSetBigInt N (some v) = .ok (encode N.P (v : N.P.Ring)) := fun v => by
    unfold scSetBigInt
    simp only []
    rw [(C57_bigInt hN.ok fresh v x).1]
  have h2 : scBigInt N (encode N.P x) = x.val := (C57_bigInt hN.ok fresh 0 x).2
  refine ⟨h1 v, rfl, h2, ?_⟩
  rw [h1, h2, Int.cast_natCast, ZMod.natCast_zmod_val]

theorem scBytes_eq : scBytes N (encode N.P x) = (leBytes 32 x.val).reverse := by
  rw [scBytes, C57_bytes hN.ok]

/-- C177: `Bytes` is 32 bytes, the big-endian encoding of the least residue. -/
theorem C177_bytes : (scBytes N (encode N.P x)).length = 32 ∧ beNat (scBytes N (encode N.P x)) = x.val := by
  rw [scBytes_eq hN]
  refine ⟨by rw [List.length_reverse, leBytes_length], ?_⟩
  rw [beNat_eq_leNat_reverse, List.reverse_reverse, leNat_leBytes]
  have := hN.ok.val_lt x
  norm_num at this ⊢
  exact this

/-- C177: `SetBytes` accepts exactly 32 bytes that stand, in big-endian order, for a number below the order. -/
theorem C177_setBytes (b : List UInt8) (v : Limbs) : scSetBytes N b = .ok v ↔
    b.length = 32 ∧ beNat b < N.P.modulus.val ∧ v = encode N.P (beNat b : N.P.Ring) := by
  unfold scSetBytes
  rw [Go.guard_bind_eq_ok]
  refine and_congr_right fun hl => ?_
  rw [C57_setBytes hN.ok _ (by simp [hl]), beNat_eq_leNat_reverse]

/-- C177: hence `SetBytes` inverts `Bytes` and nothing else is accepted. -/
theorem C177_roundtrip : scSetBytes N (scBytes N (encode N.P x)) = .ok (encode N.P x) ∧
    ∀ b v, scSetBytes N b = .ok v → scBytes N v = b := by
  have hz := hN.ok.neZero
  constructor
  · rw [C177_setBytes hN, (C177_bytes hN x).2]
    exact ⟨(C177_bytes hN x).1, ZMod.val_lt x, by rw [ZMod.natCast_zmod_val]⟩
  · intro b v h
    unfold scSetBytes at h
    rw [Go.guard_bind_eq_ok] at h
    rw [scBytes, C57_canonical hN.ok _ (by simp [h.1]) v h.2, List.reverse_reverse]

/-- C177: `SetBytesWide` accepts exactly 64 bytes and reduces the number they stand for in little-endian order. -/
theorem C177_wide (b : List UInt8) : scSetBytesWide N b =
    if b.length = 64 then .ok (encode N.P (leNat b : N.P.Ring)) else .error .error := by
  unfold scSetBytesWide
  split_ifs with h
  · rw [Go.guard_true h, Go.ok_bind, C57_wide hN.ok b h]
  · rw [Go.guard_false h]; rfl

/-- C177: so it does not extend `SetBytes`: the encoding of one, padded in front with zeros to 64 bytes, is read as
`256^63`. -/
theorem C177_wide_order : scSetBytes N (List.replicate 31 0 ++ [1]) = .ok (encode N.P 1) ∧
    scSetBytesWide N (List.replicate 32 0 ++ (List.replicate 31 0 ++ [1])) = .ok (encode N.P (256 ^ 63)) := by
  constructor
  · rw [C177_setBytes hN]
    have h1 : beNat (List.replicate 31 (0 : UInt8) ++ [1]) = 1 := by decide +kernel
    rw [h1]
    exact ⟨by simp, hN.ok.one_lt, by rw [Nat.cast_one]⟩
  · rw [C177_wide hN, if_pos (by simp)]
    have h1 : leNat (List.replicate 32 (0 : UInt8) ++ (List.replicate 31 0 ++ [1])) = 256 ^ 63 := by decide +kernel
    rw [h1, Nat.cast_pow]; rfl

/-- C177: `Hash` reduces the big-endian number of the 48 bytes of `expand_message_xmd`, for every hash function with 32
bytes of output; `Random` is `Hash` of the 64 bytes read and nil without a reader. -/
theorem C177_hash {H : List UInt8 → List UInt8} (hH : ∀ m, (H m).length = 32) (msg : List UInt8) :
    scHash N H msg = encode N.P ((beNat (expandMsgXmd H 32 64 msg N.dst 48) : ℕ) : N.P.Ring) ∧
    scRandom N H none = none ∧
    ∀ r : List UInt8, r.length = 64 → scRandom N H (some r) = some (scHash N H r) := by
  refine ⟨?_, rfl, fun r hr => ?_⟩
  · have hl : (expandMsgXmd H 32 64 msg N.dst 48).length = 48 := C162_expandXmd_length H 32 64 (by norm_num) hH msg N.dst (by norm_num)
    unfold scHash
    simp only []
    rw [C57_wide hN.ok _ (by simp [hl]), leNat_append_zeros, ← beNat_eq_leNat_reverse]
  · simp [scRandom, ← hr]

omit hN in
/-- C177: an argument that is nil or of another type gives nil from `Add`, `Sub`, `Mul` and `Div`, and from `MulAdd` when it
is the second; as the first it makes `MulAdd` panic. -/
theorem C177_foreign (s t : Limbs) (w : Option Limbs) : scAdd N s none = none ∧ scSub N s none = none ∧
    scMul N s none = none ∧ scDiv N s none = none ∧ scMulAdd N s (some t) none = .ok none ∧
    scMulAdd N s none w = Go.crash := ⟨rfl, rfl, rfl, rfl, rfl, rfl⟩

end

/-- C177: `Neg` on secp256k1 and P-256. -/
theorem C177_neg (x : k256Fq.Ring) (y : p256Fq.Ring) : scNeg k256Scalar (encode k256Fq x) = encode k256Fq (-x) ∧
    scNeg p256Scalar (encode p256Fq y) = encode p256Fq (-y) :=
  ⟨fiatNeg_encode k256Scalar_ok.ok x, fiatNeg_encode p256Scalar_ok.ok y⟩

/-- C177: `Neg` on BLS12-381 for non-zero elements. -/
theorem C177_neg_bls {x : blsFq.Ring} (hx : x ≠ 0) : scNeg blsScalar (encode blsFq x) = encode blsFq (-x) := by
  have hP : blsFq.Ok := blsScalar_ok.ok
  have := hP.neZero
  show Limbs.ofNat (blsFq.modulus.val - (encode blsFq x).val) = _
  have hu := hP.unit
  have hx' : x * 2 ^ 256 ≠ 0 := by
    intro h
    exact hx (by simpa using (hu.mul_left_eq_zero).1 h)
  rw [encode_val_eq hP]
  show _ = Limbs.ofNat (-x * 2 ^ 256).val
  rw [neg_mul, ZMod.neg_val, if_neg hx']

/-- C177: the negation of zero on BLS12-381 is said not to be zero, differs from zero under `Cmp` and is invertible with
inverse zero, although its bytes are those of zero; `Sub` gives the true zero. -/
theorem C177_neg_bls_zero :
    scIsZero (scNeg blsScalar scZero) = false ∧ scCmp (scNeg blsScalar scZero) (some scZero) = 1 ∧
    scBytes blsScalar (scNeg blsScalar scZero) = scBytes blsScalar scZero ∧
    scIsZero (montSub blsFq scZero scZero) = true ∧
    (∃ v, scInvert blsScalar (scNeg blsScalar scZero) = .ok v ∧ scIsZero v = true) := by
  have hn : scNeg blsScalar scZero = blsFq.modulus := by decide +kernel
  obtain ⟨h1, h2, h3, h4, h5, h6, h7⟩ := Bls381.C147_negated_zero ⟨0, 0, 0, 0⟩ fresh
  rw [hn]
  refine ⟨by decide +kernel, by decide +kernel, ?_, by decide +kernel, ?_⟩
  · rw [scBytes, scBytes]
    exact congrArg List.reverse h1
  · exact ⟨⟨0, 0, 0, 0⟩, by simp [scInvert, blsScalar, h6, h7], by decide⟩

/-- the hypotheses hold of the three fields, and the statements speak of different elements -/
example : k256Scalar.Ok ∧ p256Scalar.Ok ∧ blsScalar.Ok ∧ scNew k256Scalar (-1) ≠ scOne k256Scalar ∧
    scBytes p256Scalar (scNew p256Scalar 258) = List.replicate 30 0 ++ [1, 2] ∧ (1 : blsFq.Ring) ≠ 0 :=
  ⟨k256Scalar_ok, p256Scalar_ok, blsScalar_ok, by decide +kernel, by decide +kernel, by decide +kernel⟩

end Verif.Curves
