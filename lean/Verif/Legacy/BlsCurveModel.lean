import Verif.Legacy.CurveModel
import Verif.Bls381.GModel

/-!
# Model of `Bls12381G1Curve` (`pkg/sharing/v1/bls12381g1curve.go`) and `Bls12381G2Curve` (`bls12381g2curve.go`)
-/

namespace Verif.Legacy
open Verif.Primes Verif.Bls381 Verif.Native

/-- `G1.SetBigInt` on pointers -/
def g1Set : Option ℤ → Option ℤ → Go (Proj Fq)
  | some x, some y => g1SetBigInt x y
  | _, _ => Go.crash

/-- `G2.SetBigInt` on pointers -/
def g2Set : Option ℤ → Option ℤ → Go (Proj (Fp2 Fq))
  | some x, some y => g2SetBigInt x y
  | _, _ => Go.crash

/-- the coordinates as integers that are not nil -/
def toXY (r : ℕ × ℕ) : XY := (some (r.1 : ℤ), some (r.2 : ℤ))

/-- `copy(bb[:], k)` and `SetBytes` (bls12381g1curve.go:74-79): the bytes are those of a big-endian number but are read as little-endian -/
def g1Scalar (k : List UInt8) : Go (List UInt8) := do
  let bytes := (k ++ List.replicate 32 0).take 32
  Go.guard (leNat bytes < blsr)
  .ok bytes

/-- `IsOnCurve` (bls12381g1curve.go:45-48) -/
def g1IsOnCurve (x y : Option ℤ) : Go Bool :=
  match g1Set x y with
  | .ok _ => .ok true
  | .error .error => .ok false
  | .error .panic => Go.crash

/-- `Add` (bls12381g1curve.go:50-58): both are decoded before the errors are looked at -/
def g1cAdd (x1 y1 x2 y2 : Option ℤ) : Go XY :=
  match g1Set x1 y1, g1Set x2 y2 with
  | .error .panic, _ => Go.crash
  | _, .error .panic => Go.crash
  | .ok p1, .ok p2 => .ok (toXY (g1BigInt (gAdd mulBy3b1 p1 p2)))
  | _, _ => .ok (none, none)

/-- `Double` (bls12381g1curve.go:60-66) -/
def g1cDouble (x y : Option ℤ) : Go XY := orNil (g1Set x y) fun p => .ok (toXY (g1BigInt (gDouble mulBy3b1 p)))

/-- `ScalarMult` (bls12381g1curve.go:68-80) -/
def g1cScalarMult (x y : Option ℤ) (k : List UInt8) : Go XY :=
  orNil (g1Set x y) fun p => orNil (g1Scalar k) fun s => .ok (toXY (g1BigInt (gMultiply mulBy3b1 p s)))

/-- `ScalarBaseMult` (bls12381g1curve.go:82-91): here the bytes are reversed -/
def g1cScalarBaseMult (k : List UInt8) : Go XY :=
  orNil (natScalar blsr k) fun s => .ok (toXY (g1BigInt (gMultiply mulBy3b1 g1Generator s)))

/-- `bls12381g1InitAll` (bls12381g1curve.go:26-36) -/
def g1Params (refs : List ℕ) : Params where
  refs := refs
  P := 0x1a0111ea397fe69a4b1ba7b6434bacd764774b84f38512bf6730d2a0f6b0f6241eabfffeb153ffffb9feffffffffaaab
  N := blsr
  B := 0x0bbc3efc5008a26a0e1c8c3fad0059c051ac582950405194dd595f13570725ce8c22631a7918fd8ebaac93d50ce72271
  Gx := 0x120177419e0bfb75edce6ecc21dbf440f0ae6acdf3d0e747154f95c7143ba1c17817fc679976fff55cb38790fd530c16
  Gy := 0x0bbc3efc5008a26a0e1c8c3fad0059c051ac582950405194dd595f13570725ce8c22631a7918fd8ebaac93d50ce72271
  bitSize := 381
  name := "Bls12381G1"

/-- `Bls12381G1` (bls12381g1curve.go:38-41) -/
def g1Curve (refs : List ℕ) : ECurve where
  params := g1Params refs
  isOnCurve := g1IsOnCurve
  add := g1cAdd
  double := g1cDouble
  scalarMult := g1cScalarMult
  scalarBaseMult := g1cScalarBaseMult

/-- `Bls12381G2Curve.IsOnCurve` (bls12381g2curve.go:45-48) -/
def g2IsOnCurve (x y : Option ℤ) : Go Bool :=
  match g2Set x y with
  | .ok _ => .ok true
  | .error .error => .ok false
  | .error .panic => Go.crash

/-- `Add` (bls12381g2curve.go:50-58) -/
def g2cAdd (x1 y1 x2 y2 : Option ℤ) : Go XY :=
  match g2Set x1 y1, g2Set x2 y2 with
  | .error .panic, _ => Go.crash
  | _, .error .panic => Go.crash
  | .ok p1, .ok p2 => .ok (toXY (g2BigInt (gAdd mulBy3b2 p1 p2)))
  | _, _ => .ok (none, none)

/-- `Double` (bls12381g2curve.go:60-66) -/
def g2cDouble (x y : Option ℤ) : Go XY := orNil (g2Set x y) fun p => .ok (toXY (g2BigInt (gDouble mulBy3b2 p)))

/-- `ScalarMult` (bls12381g2curve.go:68-80) -/
def g2cScalarMult (x y : Option ℤ) (k : List UInt8) : Go XY :=
  orNil (g2Set x y) fun p => orNil (g1Scalar k) fun s => .ok (toXY (g2BigInt (gMultiply mulBy3b2 p s)))

/-- `ScalarBaseMult` (bls12381g2curve.go:82-91) -/
def g2cScalarBaseMult (k : List UInt8) : Go XY :=
  orNil (g1Scalar k) fun s => .ok (toXY (g2BigInt (gMultiply mulBy3b2 g2Generator s)))

/-- a `Bls12381G2Curve` with the parameters of `bls12381g2InitAll` (bls12381g2curve.go:25-35).  The function `Bls12381G2`
(bls12381g2curve.go:37-40) does not return it but the curve of `G1`; what it returns is `g1Curve` after a call of `Bls12381G1`, and has no
parameters before. -/
def g2Curve (refs : List ℕ) : ECurve where
  params := g1Params refs
  isOnCurve := g2IsOnCurve
  add := g2cAdd
  double := g2cDouble
  scalarMult := g2cScalarMult
  scalarBaseMult := g2cScalarBaseMult

end Verif.Legacy
