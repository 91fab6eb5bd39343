import Verif.Native.FieldProps
import Verif.Native.MapModel

/-!
# The scalars of secp256k1, P-256 and BLS12-381 behind the `Scalar` interface

`ScalarK256` (`pkg/core/curves/k256_curve.go:108-353`), `ScalarP256` (`pkg/core/curves/p256_curve.go:106-351`) and
`ScalarBls12381` (`pkg/core/curves/bls12381_curve.go:38-284`) differ in the field, the domain of `Hash` and the extra
`point` of BLS12-381, which `Curves/MarshalModel.lean` treats.  The native field is that of `Native/LimbModel.lean`.

An argument of interface type `Scalar` is `none` when it is nil or of another Go type: the type assertions
`rhs.(*ScalarK256)` treat both alike.  A result `none` is a nil interface.
-/

namespace Verif.Curves

open Native

/-- the bytes of an ASCII string -/
def ascii (s : String) : List UInt8 := s.toList.map fun c => UInt8.ofNat c.toNat

/-- a scalar field of the native package with what depends on it -/
structure NatField where
  /-- constants and arithmetic -/
  P : FieldParams
  /-- `Arithmetic.Neg` -/
  neg : Limbs → Limbs
  /-- `Arithmetic.Invert` -/
  invert : Limbs → Limbs → ℤ × Limbs
  /-- `Arithmetic.Sqrt` -/
  sqrt : Limbs → Limbs → ℤ × Limbs
  /-- the domain of `Hash` -/
  dst : List UInt8

/-- `Arithmetic.Neg` as fiat-crypto generates it (`native/k256/fq/fq.go`, `native/p256/fq/fq.go`) -/
def fiatNeg (P : FieldParams) (a : Limbs) : Limbs := Limbs.ofNat ((-(a.val : P.Ring)).val)
/-- `Arithmetic.Sub` (`native/field.go:314-317`) -/
def montSub (P : FieldParams) (a b : Limbs) : Limbs := Limbs.ofNat (((a.val : P.Ring) - b.val).val)

/-- `ScalarK256` (`k256_curve.go:121`) -/
def k256Scalar : NatField :=
  ⟨k256Fq, fiatNeg k256Fq, k256FqInvert, k256FqSqrt, ascii "secp256k1_XMD:SHA-256_SSWU_RO_"⟩
/-- `ScalarP256` (`p256_curve.go:119`) -/
def p256Scalar : NatField := ⟨p256Fq, fiatNeg p256Fq, p256FqInvert, p256FqSqrt, ascii "P256_XMD:SHA-256_SSWU_RO_"⟩
/-- `ScalarBls12381` (`bls12381_curve.go:48`); its `Neg` subtracts from the modulus without looking at zero (C147) -/
def blsScalar : NatField :=
  ⟨blsFq, fun a => Limbs.ofNat (blsFq.modulus.val - a.val), blsFqInvert, blsFqSqrt, ascii "BLS12381_XMD:SHA-256_SSWU_RO_"⟩

/-- a new element of the field (`fq.K256FqNew()`) -/
def fresh : Limbs := ⟨0, 0, 0, 0⟩

variable (N : NatField)

/-- `Hash` (`k256_curve.go:120-129`): the first 48 of the 64 bytes are the expansion, reversed -/
def scHash (H : List UInt8 → List UInt8) (bytes : List UInt8) : Limbs :=
  let xmd := expandMsgXmd H 32 64 bytes N.dst 48
  setBytesWide N.P (xmd.reverse ++ List.replicate 16 0)

/-- `Random` (`k256_curve.go:111-118`): 64 bytes of the reader are hashed; a short read leaves zeros -/
def scRandom (H : List UInt8 → List UInt8) (read : Option (List UInt8)) : Option Limbs :=
  read.map fun r => scHash N H (r.take 64 ++ List.replicate (64 - r.length) 0)

/-- `Zero` (`k256_curve.go:131-135`) -/
def scZero : Limbs := ⟨0, 0, 0, 0⟩
/-- `One` (`k256_curve.go:137-141`) -/
def scOne : Limbs := setOne N.P
/-- `IsZero` (`k256_curve.go:143-145`) -/
def scIsZero (s : Limbs) : Bool := isZero s = 1
/-- `IsOne` (`k256_curve.go:147-149`) -/
def scIsOne (s : Limbs) : Bool := isOne N.P s = 1
/-- `IsOdd` (`k256_curve.go:151-153`) -/
def scIsOdd (s : Limbs) : Bool := (bytesOf N.P s).headD 0 &&& 1 = 1
/-- `IsEven` (`k256_curve.go:155-157`) -/
def scIsEven (s : Limbs) : Bool := (bytesOf N.P s).headD 0 &&& 1 = 0
/-- `New` (`k256_curve.go:159-168`) -/
def scNew (value : Int64) : Limbs :=
  let v : ℤ := value.toInt
  let v := if value < 0 then v % (N.P.biModulus : ℤ) else v
  setBigIntField N.P fresh v
/-- `Cmp` (`k256_curve.go:170-177`) -/
def scCmp (s : Limbs) : Option Limbs → ℤ
  | some r => cmpHelper s r
  | none => -2
/-- `Square` (`k256_curve.go:179-183`) -/
def scSquare (s : Limbs) : Limbs := montMul N.P s s
/-- `Double` (`k256_curve.go:185-189`) -/
def scDouble (s : Limbs) : Limbs := montAdd N.P s s
/-- `Invert` (`k256_curve.go:191-199`) -/
def scInvert (s : Limbs) : Go Limbs :=
  let r := N.invert fresh s
  if r.1 = 1 then .ok r.2 else Go.err
/-- `Sqrt` (`k256_curve.go:201-209`) -/
def scSqrt (s : Limbs) : Go Limbs :=
  let r := N.sqrt fresh s
  if r.1 = 1 then .ok r.2 else Go.err
/-- `Cube` (`k256_curve.go:211-217`) -/
def scCube (s : Limbs) : Limbs := montMul N.P (montMul N.P s s) s
/-- `Add` (`k256_curve.go:219-228`) -/
def scAdd (s : Limbs) (rhs : Option Limbs) : Option Limbs := rhs.map fun r => montAdd N.P s r
/-- `Sub` (`k256_curve.go:230-239`) -/
def scSub (s : Limbs) (rhs : Option Limbs) : Option Limbs := rhs.map fun r => montSub N.P s r
/-- `Mul` (`k256_curve.go:241-250`) -/
def scMul (s : Limbs) (rhs : Option Limbs) : Option Limbs := rhs.map fun r => montMul N.P s r
/-- `MulAdd` (`k256_curve.go:252-254`): the method call on a nil interface panics -/
def scMulAdd (s : Limbs) (y z : Option Limbs) : Go (Option Limbs) :=
  match scMul N s y with
  | none => Go.crash
  | some m => .ok (scAdd N m z)
/-- `Div` (`k256_curve.go:256-268`) -/
def scDiv (s : Limbs) : Option Limbs → Option Limbs
  | none => none
  | some r =>
    let v := N.invert fresh r
    if v.1 = 1 then some (montMul N.P v.2 s) else none
/-- `Neg` (`k256_curve.go:270-274`) -/
def scNeg (s : Limbs) : Limbs := N.neg s
/-- `SetBigInt` (`k256_curve.go:276-284`) -/
def scSetBigInt : Option ℤ → Go Limbs
  | none => Go.err
  | some v => .ok (setBigIntField N.P fresh v)
/-- `BigInt` (`k256_curve.go:286-288`) -/
def scBigInt (s : Limbs) : ℤ := bigIntOf N.P s
/-- `Bytes` (`k256_curve.go:290-293`) -/
def scBytes (s : Limbs) : List UInt8 := (bytesOf N.P s).reverse
/-- `SetBytes` (`k256_curve.go:295-308`) -/
def scSetBytes (bytes : List UInt8) : Go Limbs := do
  Go.guard (bytes.length = 32)
  setBytes N.P bytes.reverse
/-- `SetBytesWide` (`k256_curve.go:310-319`): the bytes are not reversed -/
def scSetBytesWide (bytes : List UInt8) : Go Limbs := do
  Go.guard (bytes.length = 64)
  .ok (setBytesWide N.P bytes)

end Verif.Curves
