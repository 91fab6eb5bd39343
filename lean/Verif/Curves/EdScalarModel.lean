import Verif.Common.Go
import Verif.Common.Bytes
import Verif.Common.Primes
import Mathlib.Data.ZMod.Basic

/-!
# `ScalarEd25519`

`pkg/core/curves/ed25519_curve.go:25-298`.  A scalar of `filippo.io/edwards25519` is a residue modulo the group order `edl`;
the operations of that library are taken from its documentation: `SetCanonicalBytes` accepts the 32-byte little-endian
encodings of numbers below the order, `SetUniformBytes` reduces 64 bytes, `SetBytesWithClamping` clamps and reduces 32 bytes,
`Invert` of zero is zero.  `big.Int.ModSqrt` is a parameter that returns a root or, for a non-residue, nothing; in that case
the receiver keeps its value.  `ristretto.Scalar.Derive` is the reduction of a 64-byte hash.

As in `Curves/ScalarModel.lean` an argument `none` is nil or of another type.
-/

namespace Verif.Curves.Ed

open Primes

/-- the scalar field -/
abbrev Fl := ZMod edl

/-- `edwards25519.Scalar.Bytes` -/
def libBytes (s : Fl) : List UInt8 := leBytes 32 s.val
/-- `SetCanonicalBytes` -/
def libSetCanonical (b : List UInt8) : Go Fl := do
  Go.guard (b.length = 32)
  Go.guard (leNat b < edl)
  .ok (leNat b : ℕ)
/-- `SetUniformBytes` -/
def libSetUniform (b : List UInt8) : Go Fl := do
  Go.guard (b.length = 64)
  .ok (leNat b : ℕ)
/-- the pruning of RFC 8032, section 5.1.5 -/
def clamp (b : List UInt8) : List UInt8 :=
  ((b.take 1).map (· &&& 248)) ++ (b.drop 1).take 30 ++ ((b.drop 31).map fun x => (x &&& 63) ||| 64)
/-- `SetBytesWithClamping` -/
def libSetClamped (b : List UInt8) : Go Fl := do
  Go.guard (b.length = 32)
  .ok (leNat (clamp b) : ℕ)
/-- `Invert` -/
def libInvert (s : Fl) : Fl := s⁻¹

/-- `Hash` (`ed25519_curve.go:46-55`), for a hash function `H` with 64 bytes of output -/
def scHash (H : List UInt8 → List UInt8) (bytes : List UInt8) : Option Fl :=
  let v : Fl := (leNat (H bytes) : ℕ)
  match libSetCanonical (libBytes v) with
  | .ok x => some x
  | .error _ => none
/-- `Random` (`ed25519_curve.go:37-44`) -/
def scRandom (H : List UInt8 → List UInt8) (read : Option (List UInt8)) : Option Fl :=
  read.bind fun r => scHash H (r.take 64 ++ List.replicate (64 - r.length) 0)
/-- `Zero` (`ed25519_curve.go:57-61`) -/
def scZero : Fl := 0
/-- `One` (`ed25519_curve.go:35,63-67`): the encoding of one, read at start-up -/
def scOne : Go Fl := libSetCanonical (1 :: List.replicate 31 0)
/-- `IsZero` (`ed25519_curve.go:69-75`) -/
def scIsZero (s : Fl) : Bool := (libBytes s).foldl (· ||| ·) (0 : UInt8) == 0
/-- `IsOne` (`ed25519_curve.go:77-84`) -/
def scIsOne (s : Fl) : Bool :=
  ((libBytes s).drop 1).foldl (· ||| ·) (0 : UInt8) == 0 && (libBytes s).headD 0 == 1
/-- `IsOdd` (`ed25519_curve.go:86-88`) -/
def scIsOdd (s : Fl) : Bool := (libBytes s).headD 0 &&& 1 = 1
/-- `IsEven` (`ed25519_curve.go:90-92`) -/
def scIsEven (s : Fl) : Bool := (libBytes s).headD 0 &&& 1 = 0
/-- `New` (`ed25519_curve.go:94-115`): the low 32 bits of the absolute value -/
def scNew (input : Int64) : Option Fl :=
  let i : Int64 := if input < 0 then -input else input
  let u := i.toUInt64
  let data : List UInt8 := [u.toUInt8, (u >>> 8).toUInt8, (u >>> 16).toUInt8, (u >>> 24).toUInt8] ++ List.replicate 60 0
  match libSetUniform data with
  | .error _ => none
  | .ok v => some (if input < 0 then -v else v)
/-- `Square` (`ed25519_curve.go:126-129`) -/
def scSquare (s : Fl) : Fl := s * s
/-- `Double` (`ed25519_curve.go:131-135`) -/
def scDouble (s : Fl) : Fl := s + s
/-- `Invert` (`ed25519_curve.go:137-141`) -/
def scInvert (s : Fl) : Go Fl := .ok (libInvert s)
/-- `Cube` (`ed25519_curve.go:150-154`) -/
def scCube (s : Fl) : Fl := s * s * s
/-- `Add` (`ed25519_curve.go:156-165`) -/
def scAdd (s : Fl) (rhs : Option Fl) : Option Fl := rhs.map fun r => s + r
/-- `Sub` (`ed25519_curve.go:167-176`) -/
def scSub (s : Fl) (rhs : Option Fl) : Option Fl := rhs.map fun r => s - r
/-- `Mul` (`ed25519_curve.go:178-187`) -/
def scMul (s : Fl) (rhs : Option Fl) : Option Fl := rhs.map fun r => s * r
/-- `MulAdd` (`ed25519_curve.go:189-199`) -/
def scMulAdd (s : Fl) (y z : Option Fl) : Option Fl :=
  match y with
  | none => none
  | some yy => match z with
    | none => none
    | some zz => some (s * yy + zz)
/-- `Div` (`ed25519_curve.go:201-210`) -/
def scDiv (s : Fl) (rhs : Option Fl) : Option Fl := rhs.map fun r => libInvert r * s
/-- `Neg` (`ed25519_curve.go:212-216`) -/
def scNeg (s : Fl) : Fl := -s
/-- `Cmp` (`ed25519_curve.go:117-124`) -/
def scCmp (s : Fl) (rhs : Option Fl) : ℤ :=
  match scSub s rhs with
  | some r => if scIsZero r then 0 else -2
  | none => -2
/-- `BigInt` (`ed25519_curve.go:237-241`) -/
def scBigInt (s : Fl) : ℤ := beNat (libBytes s).reverse
/-- `SetBigInt` (`ed25519_curve.go:218-235`) -/
def scSetBigInt : Option ℤ → Go Fl
  | none => Go.err
  | some x =>
    let buf := natBytes (x % edl).toNat
    let rBuf := (buf.reverse.take 32) ++ List.replicate (32 - buf.length) 0
    libSetCanonical rBuf
/-- `Sqrt` (`ed25519_curve.go:143-148`) -/
def scSqrt (modSqrt : ℤ → Option ℤ) (s : Fl) : Go Fl :=
  let x := scBigInt s
  let x := (modSqrt x).getD x
  scSetBigInt (some x)
/-- `Bytes` (`ed25519_curve.go:243-245`) -/
def scBytes (s : Fl) : List UInt8 := libBytes s
/-- `SetBytes`, `SetBytesCanonical` (`ed25519_curve.go:247-258,286-288`) -/
def scSetBytes (b : List UInt8) : Go Fl := do
  Go.guard (b.length = 32)
  libSetCanonical b
/-- `SetBytesWide` (`ed25519_curve.go:260-269`) -/
def scSetBytesWide (b : List UInt8) : Go Fl := libSetUniform b
/-- `SetBytesClamping` (`ed25519_curve.go:271-281`) -/
def scSetBytesClamping (b : List UInt8) : Go Fl := libSetClamped b

end Verif.Curves.Ed
