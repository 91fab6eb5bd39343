import Verif.Common.Go
import Verif.Common.Bytes
import Verif.Curves.EdScalarModel
import Verif.Ed25519.Order

/-!
# `PointEd25519`

`pkg/core/curves/ed25519_curve.go:359-785`.  The value of an `edwards25519.Point` is a point of the curve in affine coordinates;
its representation in extended coordinates is not modelled.  What the two imported libraries do is taken from their
documentation: `Add`, `Negate`, `ScalarMult`, `MultiScalarMult`, `VarTimeDoubleScalarBaseMult`, `MultByCofactor` and `Equal` are
the operations of the group; `SetBytes` decodes as in RFC 8032 but takes any ordinate modulo `2^255` and any sign for `x = 0`;
`SetExtendedCoordinates` checks the equation; `field.Element.SetBytes` and the `SetBytes` of go-ristretto ignore bit 255 and
do not check the range; `SetBigInt` reduces.

As in `Curves/ScalarModel.lean` an argument `none` is nil or of another type, and a result `none` is nil.
-/

namespace Verif.Ed25519

open Primes Verif.Curves.Ed

/-! ## Field elements -/

/-- `SetBytes` of a field element on 32 bytes -/
def feSetBytes (b : List UInt8) : Fp := ((leNat b % 2 ^ 255 : ℕ) : Fp)
/-- `Bytes` of a field element -/
def feBytes (x : Fp) : List UInt8 := leBytes 32 x.val
/-- `Abs`: the even one of `x` and `-x` -/
def feAbs (x : Fp) : Fp := if x.val % 2 = 1 then -x else x

/-- the number with five limbs of 51 bits -/
def limbs51 (l : List ℕ) : ℕ := l.foldr (fun a acc => a + 2 ^ 51 * acc) 0

/-- `sqrtM1` (`ed25519_curve.go:515-518`): the root of `-1` that is not the one of the drafts, see `C180_sqrtM1` -/
def sqrtM1 : Fp := (limbs51 [533094393274173, 2016890930128738, 18285341111199, 134597186663265, 1486323764102114] : ℕ)

/-- the exponent of `Exp22523` -/
def exp22523 : ℕ := 2 ^ 252 - 3

/-- `sqrtRatio` (`ed25519_curve.go:514-558`) -/
def sqrtRatio (u v : Fp) : Fp × Bool :=
  let v2 := v ^ 2
  let uv3 := u * (v2 * v)
  let uv7 := uv3 * v2 ^ 2
  let r := uv3 * uv7 ^ exp22523
  let check := v * r ^ 2
  let uNeg := -u
  let correctSignSqrt := decide (check = u)
  let flippedSignSqrt := decide (check = uNeg)
  let flippedSignSqrtI := decide (check = uNeg * sqrtM1)
  let r' := if flippedSignSqrt || flippedSignSqrtI then r * sqrtM1 else r
  (feAbs r', correctSignSqrt || flippedSignSqrt)

/-! ## The imported library -/

/-- a point from its coordinates: `SetExtendedCoordinates(x, y, 1, xy)` -/
def libFromXY (x y : Fp) : Go EdPt :=
  if h : -x ^ 2 + y ^ 2 = 1 + dEd * x ^ 2 * y ^ 2 then .ok ⟨x, y, h⟩ else Go.err

/-- `Point.Bytes`: the ordinate, and in bit 255 the parity of the abscissa -/
def libPointBytes (P : EdPt) : List UInt8 := leBytes 32 (P.y.val + 2 ^ 255 * (P.x.val % 2))

/-- `Point.SetBytes`; its square root is the algorithm of `sqrtRatio` -/
def libPointSetBytes (b : List UInt8) : Go EdPt := do
  Go.guard (b.length = 32)
  let y := feSetBytes b
  let (x, wasSquare) := sqrtRatio (y ^ 2 - 1) (dEd * y ^ 2 + 1)
  Go.guard wasSquare
  libFromXY (if leNat b / 2 ^ 255 = 1 then -x else x) y

/-! ## The methods -/

/-- `Identity` (`ed25519_curve.go:380-384`) -/
def ptIdentity : EdPt := 0
/-- `Generator` (`ed25519_curve.go:386-390`) -/
def ptGenerator : EdPt := base
/-- `Equal` (`ed25519_curve.go:470-488`) -/
def ptEqual (p : EdPt) (rhs : Option EdPt) : Bool :=
  match rhs with
  | some r => decide (p.x = r.x) && decide (p.y = r.y)
  | none => false
/-- `IsIdentity` (`ed25519_curve.go:392-394`) -/
def ptIsIdentity (p : EdPt) : Bool := ptEqual p (some ptIdentity)
/-- `IsNegative` (`ed25519_curve.go:396-399`) -/
def ptIsNegative (_ : EdPt) : Bool := false
/-- `ToAffineCompressed` (`ed25519_curve.go:561-563`) -/
def ptToCompressed (p : EdPt) : List UInt8 := libPointBytes p
/-- `IsOnCurve` (`ed25519_curve.go:401-404`) -/
def ptIsOnCurve (p : EdPt) : Bool := (libPointSetBytes (ptToCompressed p)).toOption.isSome
/-- `Double` (`ed25519_curve.go:406-408`) -/
def ptDouble (p : EdPt) : EdPt := p + p
/-- `Neg` (`ed25519_curve.go:414-416`) -/
def ptNeg (p : EdPt) : EdPt := -p
/-- `Add` (`ed25519_curve.go:418-428`) -/
def ptAdd (p : EdPt) (rhs : Option EdPt) : Option EdPt := rhs.map fun r => p + r
/-- `Sub` (`ed25519_curve.go:430-441`) -/
def ptSub (p : EdPt) (rhs : Option EdPt) : Option EdPt := rhs.map fun r => p + -r
/-- `Mul` (`ed25519_curve.go:443-454`): the multiple by the representative of the scalar below `l` -/
def ptMul (p : EdPt) (rhs : Option Fl) : Option EdPt := rhs.map fun r => r.val • p
/-- `MangleScalarBitsAndMulByBasepointToProducePublicKey` (`ed25519_curve.go:460-468`) -/
def ptMangle (rhs : Fl) : Option EdPt :=
  match libSetClamped (libBytes rhs) with
  | .ok s => some (s.val • base)
  | .error _ => none
/-- `ToAffineUncompressed` (`ed25519_curve.go:565-574`) -/
def ptToUncompressed (p : EdPt) : List UInt8 := feBytes p.x ++ feBytes p.y
/-- `FromAffineCompressed` (`ed25519_curve.go:576-582`) -/
def ptFromCompressed (b : List UInt8) : Go EdPt := libPointSetBytes b
/-- `FromAffineUncompressed` (`ed25519_curve.go:584-606`) -/
def ptFromUncompressed (b : List UInt8) : Go EdPt := do
  Go.guard (b.length = 64)
  if b = List.replicate 64 0 then .ok 0
  else libFromXY (feSetBytes (b.take 32)) (feSetBytes (b.drop 32))
/-- `Set` (`ed25519_curve.go:490-507`) -/
def ptSet (x y : ℤ) : Go EdPt :=
  if x = 0 ∨ y = 0 then .ok ptIdentity
  else ptFromUncompressed (feBytes (x : Fp) ++ feBytes (y : Fp))
/-- `SumOfProducts` (`ed25519_curve.go:612-631`): the scalars are of any type and contribute their `Bytes`; `MultiScalarMult`
panics on different lengths -/
def ptSumOfProducts (points : List (Option EdPt)) (scalarBytes : List (List UInt8)) : Go (Option EdPt) :=
  match scalarBytes.mapM libSetCanonical with
  | .error _ => .ok none
  | .ok ss =>
    match points.mapM id with
    | none => .ok none
    | some ps =>
      if ss.length = ps.length then .ok (some ((List.zipWith (fun (s : Fl) p => s.val • p) ss ps).sum))
      else Go.crash
/-- `VarTimeDoubleScalarBaseMult` (`ed25519_curve.go:633-648`) -/
def ptVarTimeDouble (a : Option Fl) (A : Option EdPt) (b : Option Fl) : Option EdPt := do
  let A ← A
  let a ← a
  let b ← b
  some (a.val • A + b.val • base)

/-! ## Hashing to the curve -/

/-- `montgomeryA` (`ed25519_curve.go:752-754`) -/
def montA : Fp := (limbs51 [486662, 0, 0, 0, 0] : ℕ)
/-- `montgomeryANeg` (`ed25519_curve.go:756-760`) -/
def montANeg : Fp :=
  (limbs51 [2251799813198567, 2251799813685247, 2251799813685247, 2251799813685247, 2251799813685247] : ℕ)

/-- `elligatorEncode` (`ed25519_curve.go:751-785`) -/
def elligatorEncode (r0 : Fp) : Fp :=
  let d1 := 1 + 2 * r0 ^ 2
  let d := montANeg * d1⁻¹
  let dsq := d ^ 2
  let au := montA * d
  let inner := dsq + au + 1
  let eps := d * inner
  let wasSquare := (sqrtRatio eps 1).2
  let aTemp := if wasSquare then 0 else montA
  let u := d + aTemp
  if wasSquare then u else -u

/-- `toEdwards` (`ed25519_curve.go:713-746`); the `xor` into the top byte, whose bit 7 is clear, sets bit 255 -/
def toEdwards (u : Fp) (sign : ℕ) : Option EdPt :=
  if u = -1 then none
  else
    let y := (u - 1) * (u + 1)⁻¹
    match libPointSetBytes (leBytes 32 (y.val + 2 ^ 255 * sign)) with
    | .ok pt => some (8 • pt)
    | .error _ => none

/-- `Hash` (`ed25519_curve.go:365-378`), for a hash function `H` with at least 32 bytes of output -/
def ptHash (H : List UInt8 → List UInt8) (bytes : List UInt8) : Option EdPt :=
  let res := (H bytes).take 32
  let signBit := leNat res / 2 ^ 255
  toEdwards (elligatorEncode (feSetBytes res)) signBit

/-- `Random` (`ed25519_curve.go:359-363`): an error of the reader is ignored -/
def ptRandom (H : List UInt8 → List UInt8) (read : List UInt8) : Option EdPt :=
  ptHash H (read.take 64 ++ List.replicate (64 - read.length) 0)

end Verif.Ed25519
