import Verif.Core.Model

/-!
# Model of `EcPoint` (`pkg/core/curves/ec_point.go`)

The points of the older interface are pairs of big integers over an `elliptic.Curve`.  A curve is a record of the methods of that interface,
which may panic; a nil integer is `none`.  Pointers to the integers of the parameters are numbers, for `sameCurve` compares pointers.
JSON text is the record that is encoded.
-/

namespace Verif.Legacy
open Verif.Core

/-- `elliptic.CurveParams`; `refs` are the addresses of `P`, `N`, `B`, `Gx` and `Gy`. -/
structure Params where
  refs : List ℕ
  P : ℤ
  N : ℤ
  B : ℤ
  Gx : ℤ
  Gy : ℤ
  bitSize : ℕ
  name : String
  deriving DecidableEq

/-- two integers that may be nil -/
abbrev XY := Option ℤ × Option ℤ

/-- `elliptic.Curve` -/
structure ECurve where
  params : Params
  isOnCurve : Option ℤ → Option ℤ → Go Bool
  add : Option ℤ → Option ℤ → Option ℤ → Option ℤ → Go XY
  double : Option ℤ → Option ℤ → Go XY
  scalarMult : Option ℤ → Option ℤ → List UInt8 → Go XY
  scalarBaseMult : List UInt8 → Go XY

/-- `EcPoint` (ec_point.go:45-48) -/
structure EcPoint where
  curve : ECurve
  X : Option ℤ
  Y : Option ℤ

/-- `big.Int.FillBytes` into `n` bytes: the absolute value in big-endian order; it panics when that does not fit. -/
def fillBytes (n : ℕ) : Option ℤ → Go (List UInt8)
  | none => Go.crash
  | some z => if z.natAbs < 256 ^ n then .ok (beBytes n z.natAbs) else Go.crash

/-- `sameCurve` (ec_point.go:236-259) for two points that are not nil -/
def sameCurve (a b : EcPoint) : Bool :=
  decide (a.curve.params.refs = b.curve.params.refs ∧ a.curve.params.bitSize = b.curve.params.bitSize ∧
    a.curve.params.name = b.curve.params.name)

/-- `IsIdentity` (ec_point.go:109-113) -/
def EcPoint.isIdentity (a : EcPoint) : Bool :=
  (constantTimeEqByte a.X (some 0) &&& constantTimeEqByte a.Y (some 0)) == 1

/-- `IsOnCurve` (ec_point.go:104-106) -/
def EcPoint.isOnCurve (a : EcPoint) : Go Bool := a.curve.isOnCurve a.X a.Y

/-- `IsValid` (ec_point.go:100-102) -/
def EcPoint.isValid (a : EcPoint) : Go Bool := do
  if ← a.isOnCurve then .ok true else .ok a.isIdentity

/-- `Equals` (ec_point.go:116-124) -/
def EcPoint.equals (a : EcPoint) : Option EcPoint → Bool
  | none => false
  | some b => sameCurve a b && ((constantTimeEqByte a.X b.X &&& constantTimeEqByte a.Y b.Y) == 1)

/-- `IsBasePoint` (ec_point.go:127-132) -/
def EcPoint.isBasePoint (a : EcPoint) : Bool :=
  (constantTimeEqByte a.X (some a.curve.params.Gx) &&& constantTimeEqByte a.Y (some a.curve.params.Gy)) == 1

/-- the check at the end of `Add`, `Neg`, `ScalarMult`, `NewScalarBaseMult` and `PointFromBytesUncompressed` -/
def checked (p : EcPoint) : Go EcPoint := do
  if ← p.isValid then .ok p else Go.err

/-- `Add` (ec_point.go:140-154) -/
def EcPoint.add : Option EcPoint → Option EcPoint → Go EcPoint
  | some a, some b => do
    Go.guard (sameCurve a b = true)
    let (x, y) ← a.curve.add a.X a.Y b.X b.Y
    checked ⟨a.curve, x, y⟩
  | _, _ => Go.err

/-- `Neg` (ec_point.go:157-168) -/
def EcPoint.neg : Option EcPoint → Go EcPoint
  | none => Go.err
  | some a => match a.Y with
    | none => Go.crash
    | some y => checked ⟨a.curve, a.X, some (a.curve.params.P - y)⟩

/-- `reduceModN` (ec_point.go:135-137) followed by `Bytes`; the order of a curve is not zero -/
def scalarBytes (c : ECurve) (k : ℤ) : Go (List UInt8) := do
  let n ← Big.mod k c.params.N
  .ok (intBytes n)

/-- `ScalarMult` (ec_point.go:171-183) -/
def EcPoint.scalarMult : Option EcPoint → Option ℤ → Go EcPoint
  | some a, some k => do
    let n ← scalarBytes a.curve k
    let (x, y) ← a.curve.scalarMult a.X a.Y n
    checked ⟨a.curve, x, y⟩
  | _, _ => Go.err

/-- `NewScalarBaseMult` (ec_point.go:186-198) -/
def newScalarBaseMult : Option ECurve → Option ℤ → Go EcPoint
  | some c, some k => do
    let n ← scalarBytes c k
    let (x, y) ← c.scalarBaseMult n
    checked ⟨c, x, y⟩
  | _, _ => Go.err

/-- `internal.CalcFieldSize` (internal/point.go:16-19) -/
def fieldSize (c : ECurve) : ℕ := (c.params.bitSize + 7) / 8

/-- `Bytes` (ec_point.go:201-208) -/
def EcPoint.bytes (a : EcPoint) : Go (List UInt8) := do
  let x ← fillBytes (fieldSize a.curve) a.X
  let y ← fillBytes (fieldSize a.curve) a.Y
  .ok (x ++ y)

/-- `PointFromBytesUncompressed` (ec_point.go:212-226) -/
def pointFromBytes (c : ECurve) (b : List UInt8) : Go EcPoint := do
  Go.guard (b.length = fieldSize c * 2)
  checked ⟨c, some (beNat (b.take (fieldSize c))), some (beNat (b.drop (fieldSize c)))⟩

/-- the curves of `curveMapper` (ec_point.go:37-43) and `curveIdToName` (ec_point.go:29-35): `btcec.S256` and those of `crypto/elliptic`.
They are not of this repository. -/
structure StdCurves where
  s256 : ECurve
  p224 : ECurve
  p256 : ECurve
  p384 : ECurve
  p521 : ECurve

/-- `curveNameToId` (ec_point.go:21-27) -/
def curveNameToId (s : String) : Option UInt8 :=
  if s = "secp256k1" then some 0 else if s = "P-224" then some 1 else if s = "P-256" then some 2
  else if s = "P-384" then some 3 else if s = "P-521" then some 4 else none

/-- `curveIdToName` (ec_point.go:29-35) -/
def StdCurves.byId (s : StdCurves) (b : UInt8) : Option ECurve :=
  if b = 0 then some s.s256 else if b = 1 then some s.p224 else if b = 2 then some s.p256
  else if b = 3 then some s.p384 else if b = 4 then some s.p521 else none

/-- `curveMapper` (ec_point.go:37-43) -/
def StdCurves.byName (s : StdCurves) (n : String) : Option ECurve :=
  if n = "secp256k1" then some s.s256 else if n = "P-224" then some s.p224 else if n = "P-256" then some s.p256
  else if n = "P-384" then some s.p384 else if n = "P-521" then some s.p521 else none

/-- `MarshalBinary` (ec_point.go:80-89) -/
def EcPoint.marshalBinary (a : EcPoint) : Go (List UInt8) :=
  match curveNameToId a.curve.params.name with
  | none => Go.err
  | some code => do
    let x ← fillBytes 32 a.X
    let y ← fillBytes 32 a.Y
    .ok (code :: x ++ y)

/-- `UnmarshalBinary` (ec_point.go:91-98): indexing and slicing panic when the data is too short, but the code of the curve is looked up
before the slices are taken -/
def unmarshalBinary (s : StdCurves) (data : List UInt8) : Go EcPoint :=
  match data with
  | [] => Go.crash
  | code :: rest => match s.byId code with
    | none => Go.err
    | some c => if rest.length < 64 then Go.crash
      else .ok ⟨c, some (beNat (rest.take 32)), some (beNat ((rest.drop 32).take 32))⟩

/-- `EcPointJson` (ec_point.go:53-56) -/
structure EcPointJson where
  curveName : String
  X : Option ℤ
  Y : Option ℤ
  deriving DecidableEq

/-- `MarshalJSON` (ec_point.go:59-65) -/
def EcPoint.marshalJSON (a : EcPoint) : EcPointJson := ⟨a.curve.params.name, a.X, a.Y⟩

/-- `UnmarshalJSON` (ec_point.go:67-78), for text that is a record -/
def unmarshalJSON (s : StdCurves) (d : EcPointJson) : Go EcPoint :=
  match s.byName d.curveName with
  | none => Go.err
  | some c => .ok ⟨c, d.X, d.Y⟩

end Verif.Legacy
