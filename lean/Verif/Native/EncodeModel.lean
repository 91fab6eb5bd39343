import Verif.Native.FieldModel
import Verif.Native.LimbProps
import Verif.Native.PointModel

/-!
# Affine encodings of secp256k1 and P-256 points

`pkg/core/curves/k256_curve.go:493-580` and, identical up to names, `pkg/core/curves/p256_curve.go:491-578`.
Encoding starts from coordinates in the field (`toAffine` of `PointModel`, whose bytes are those of their
Montgomery limbs); decoding works on limbs throughout.
-/

namespace Verif.Native

/-- projective coordinates as limbs (`native.EllipticPoint`, `native/point.go`) -/
structure LimbPoint where
  x : Limbs
  y : Limbs
  z : Limbs
  deriving DecidableEq

/-- what the encodings depend on: the field, the curve coefficients (`A`, `B` as limbs; `A = 0` for
secp256k1) and the square root -/
structure EncCurve where
  P : FieldParams
  A : Limbs
  B : Limbs
  sqrt : Limbs → Limbs → ℤ × Limbs

/-- `FieldArithmetic.Neg` -/
def montNeg (P : FieldParams) (a : Limbs) : Limbs := Limbs.ofNat ((-(a.val : P.Ring)).val)

/-- `Field.Bytes()[0] & 1` of limbs -/
def lowBit (P : FieldParams) (v : Limbs) : UInt8 := (bytesOf P v).headD 0 &&& 1

section To
variable (P : FieldParams) [Fact P.modulus.val.Prime]

/-- `ToAffineCompressed` (`k256_curve.go:493-505`, `p256_curve.go:491-503`) -/
def toAffineCompressed (p : Proj P.Ring) : List UInt8 :=
  let t := toAffine p
  let sign := 2 ||| lowBit P (encode P t.y)
  sign :: (bytesOf P (encode P t.x)).reverse

/-- `ToAffineUncompressed` (`k256_curve.go:507-516`, `p256_curve.go:505-514`) -/
def toAffineUncompressed (p : Proj P.Ring) : List UInt8 :=
  let t := toAffine p
  4 :: ((bytesOf P (encode P t.x)).reverse ++ (bytesOf P (encode P t.y)).reverse)

end To

section From
variable (C : EncCurve)

/-- `RhsEq` (`native/k256/point.go:441-446`, `native/p256/point.go:311-317`) on limbs -/
def rhsEqLimbs (x : Limbs) : Limbs :=
  let out := montMul C.P x x
  let out := montMul C.P out x
  let out := montAdd C.P out C.B
  montAdd C.P out (montMul C.P C.A x)

/-- `FromAffineCompressed` (`k256_curve.go:518-552`, `p256_curve.go:516-550`) -/
def fromAffineCompressed (bytes : List UInt8) : Go LimbPoint := do
  Go.guard (bytes.length = 33)
  let sign := bytes.headD 0
  Go.guard (¬ (sign ≠ 2 ∧ sign ≠ 3))
  let sign := sign &&& 1
  let x ← setBytes C.P (bytes.drop 1).reverse
  let rhs := rhsEqLimbs C x
  let r := C.sqrt ⟨0, 0, 0, 0⟩ rhs
  if r.1 = 1 then
    let y := if lowBit C.P r.2 ≠ sign then montNeg C.P r.2 else r.2
    .ok ⟨x, y, C.P.R⟩
  else
    .ok ⟨⟨0, 0, 0, 0⟩, ⟨0, 0, 0, 0⟩, ⟨0, 0, 0, 0⟩⟩

/-- `FromAffineUncompressed` (`k256_curve.go:554-580`, `p256_curve.go:552-578`) -/
def fromAffineUncompressed (bytes : List UInt8) : Go LimbPoint := do
  Go.guard (bytes.length = 65)
  Go.guard (bytes.headD 0 = 4)
  let x ← setBytes C.P ((bytes.take 33).drop 1).reverse
  let y ← setBytes C.P (bytes.drop 33).reverse
  .ok ⟨x, y, C.P.R⟩

end From

end Verif.Native
