import Verif.Legacy.CurveModel
import Verif.Ed25519.PointModel

/-!
# Model of `Ed25519Curve` (`pkg/sharing/v1/ed25519curve.go`)

A point is the pair of zero and its 32 bytes read as a big-endian integer.  The library of edwards25519 is as in `Verif.Ed25519`.
-/

namespace Verif.Legacy
open Verif.Primes Verif.Ed25519 Verif.Curves.Ed

/-- `BigInt2Ed25519Point` (`internal/point.go:33-38`): the absolute value in 32 bytes; a nil integer and one that is too long panic, the
latter because of the negative index of the slice -/
def edPoint : Option ℤ → Go EdPt
  | none => Go.crash
  | some y => if y.natAbs < 256 ^ 32 then libPointSetBytes (beBytes 32 y.natAbs) else Go.crash

/-- `BigInt2Ed25519Scalar` (`internal/point.go:40-46`): the low 32 bytes of the absolute value -/
def edBigScalar (x : ℤ) : Go Fl := libSetCanonical (((natBytes x.natAbs).reverse ++ List.replicate 32 0).take 32)

/-- the scalar of `ScalarMult` and `ScalarBaseMult` (ed25519curve.go:87-95, 101-109) -/
def edScalar (k : List UInt8) : Go Fl :=
  match edBigScalar (beNat k) with
  | .ok s => .ok s
  | .error _ => match libSetUniform ((k.reverse ++ List.replicate 64 0).take 64) with
    | .ok s => .ok s
    | .error _ => Go.crash

/-- `if err != nil { panic(err) }` -/
def orPanic {α : Type} (r : Go α) : Go α :=
  match r with
  | .ok v => .ok v
  | .error _ => Go.crash

/-- the result of all methods: `new(big.Int), new(big.Int).SetBytes(p.Bytes())` -/
def edBigInt (P : EdPt) : XY := (some 0, some (beNat (libPointBytes P)))

/-- `IsOnCurve` (ed25519curve.go:45-50) -/
def edIsOnCurve (_ y : Option ℤ) : Go Bool :=
  match edPoint y with
  | .ok _ => .ok true
  | .error .error => .ok false
  | .error .panic => Go.crash

/-- an operand of `Add` and `Neg` (ed25519curve.go:55-61): zero stands for the neutral element -/
def edOperand (y : Option ℤ) : Go EdPt :=
  match y with
  | none => Go.crash
  | some z => if z = 0 then .ok 0 else orPanic (edPoint (some z))

/-- `Add` (ed25519curve.go:52-73) -/
def edAdd (_ y1 _ y2 : Option ℤ) : Go XY := do
  let p1 ← edOperand y1
  let p2 ← edOperand y2
  .ok (edBigInt (p1 + p2))

/-- `Double` (ed25519curve.go:75-83) -/
def edDouble (_ y1 : Option ℤ) : Go XY := do
  let p ← orPanic (edPoint y1)
  .ok (edBigInt (p + p))

/-- `ScalarMult` (ed25519curve.go:85-99) -/
def edScalarMult (_ y : Option ℤ) (k : List UInt8) : Go XY := do
  let p ← orPanic (edPoint y)
  let s ← edScalar k
  .ok (edBigInt (s.val • p))

/-- `ScalarBaseMult` (ed25519curve.go:101-113) -/
def edScalarBaseMult (k : List UInt8) : Go XY := do
  let s ← edScalar k
  .ok (edBigInt (s.val • base))

/-- `Neg` (ed25519curve.go:115-128), which is not a method of `elliptic.Curve` -/
def edNeg (_ y : Option ℤ) : Go XY := do
  let p ← edOperand y
  .ok (edBigInt (-p))

/-- `Hash` (ed25519curve.go:130-137) after the hash to the curve: the bytes of the point are reversed -/
def edHashOut : Option EdPt → Go XY
  | none => Go.crash
  | some P => do
    let pt ← orPanic (libPointSetBytes (ptToCompressed P))
    .ok (some 0, some (beNat (libPointBytes pt).reverse))

/-- `Hash` (ed25519curve.go:130-137) -/
def edHash (H : List UInt8 → List UInt8) (msg : List UInt8) : Go XY := edHashOut (ptHash H msg)

/-- `Ed25519` (ed25519curve.go:20-43); `B` is nil, which no method of `EcPoint` reads -/
def ed25519Curve (refs : List ℕ) : ECurve where
  params := ⟨refs, edp, edl, 0, 0, beNat (libPointBytes base), 255, "ed25519"⟩
  isOnCurve := edIsOnCurve
  add := edAdd
  double := edDouble
  scalarMult := edScalarMult
  scalarBaseMult := edScalarBaseMult

end Verif.Legacy
