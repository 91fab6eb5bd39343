import Verif.Legacy.PointModel
import Verif.Native.CurveProps

/-!
# Model of `Koblitz256` (`pkg/core/curves/k256_curve.go:22-105`) and `NistP256` (`pkg/core/curves/p256_curve.go:22-99`)

Both are the same code over the native points of secp256k1 and P-256; one set of definitions with the operations of the native point as a
parameter.  Field elements are residues: `SetBigInt` reduces (C57).
-/

namespace Verif.Legacy
open Verif.Native Verif.Primes

section
variable {p : ℕ} [Fact p.Prime]

/-- `EllipticPoint.SetBigInt` on pointers: a nil integer panics -/
def natSet (a b : ZMod p) : Option ℤ → Option ℤ → Go (Proj (ZMod p))
  | some x, some y => setBigInt a b (fun z => (z : ZMod p)) x y
  | _, _ => Go.crash

/-- `EllipticPoint.BigInt` (`native/point.go:348-354`) -/
def natBigInt (r : Proj (ZMod p)) : XY :=
  let t := toAffine r
  (some (t.x.val : ℤ), some (t.y.val : ℤ))

/-- `if err != nil { return nil, nil }` -/
def orNil {α : Type} (r : Go α) (f : α → Go XY) : Go XY :=
  match r with
  | .ok v => f v
  | .error .error => .ok (none, none)
  | .error .panic => Go.crash

/-- `copy(bytes[:], internal.ReverseScalarBytes(k))` and `SetBytes`, which refuses values that are not reduced (C57) -/
def natScalar (q : ℕ) (k : List UInt8) : Go (List UInt8) := do
  let bytes := (k.reverse ++ List.replicate 32 0).take 32
  Go.guard (leNat bytes < q)
  .ok bytes

/-- `IsOnCurve` (k256_curve.go:53-56, p256_curve.go:51-54) -/
def natIsOnCurve (a b : ZMod p) (x y : Option ℤ) : Go Bool :=
  match natSet a b x y with
  | .ok _ => .ok true
  | .error .error => .ok false
  | .error .panic => Go.crash

/-- `Add` (k256_curve.go:58-68, p256_curve.go:56-66) -/
def natAdd (a b : ZMod p) (ops : PtOps (Proj (ZMod p))) (x1 y1 x2 y2 : Option ℤ) : Go XY :=
  orNil (natSet a b x1 y1) fun p1 => orNil (natSet a b x2 y2) fun p2 => .ok (natBigInt (ops.add p1 p2))

/-- `Double` (k256_curve.go:70-76, p256_curve.go:68-74) -/
def natDouble (a b : ZMod p) (ops : PtOps (Proj (ZMod p))) (x1 y1 : Option ℤ) : Go XY :=
  orNil (natSet a b x1 y1) fun p1 => .ok (natBigInt (ops.double p1))

/-- `Koblitz256.ScalarMult` (k256_curve.go:78-90), `NistP256.ScalarMul` (p256_curve.go:76-88) -/
def natScalarMult (a b : ZMod p) (ops : PtOps (Proj (ZMod p))) (q : ℕ) (x y : Option ℤ) (k : List UInt8) : Go XY :=
  orNil (natSet a b x y) fun p1 => orNil (natScalar q k) fun s => .ok (natBigInt (mul ops p1 s))

/-- `ScalarBaseMult` (k256_curve.go:92-101, p256_curve.go:90-99) -/
def natScalarBaseMult (ops : PtOps (Proj (ZMod p))) (gen : Proj (ZMod p)) (q : ℕ) (k : List UInt8) : Go XY :=
  orNil (natScalar q k) fun s => .ok (natBigInt (mul ops gen s))

end

/-- `K256Curve` (k256_curve.go:22-51): the parameters are those of `btcec.S256`, at the same addresses -/
def k256Curve (refs : List ℕ) : ECurve where
  params := ⟨refs, k256p, k256q, 7, K256.generator.x.val, K256.generator.y.val, 256, "secp256k1"⟩
  isOnCurve := natIsOnCurve 0 K256.b
  add := natAdd 0 K256.b (K256.ops K256.b)
  double := natDouble 0 K256.b (K256.ops K256.b)
  scalarMult := natScalarMult 0 K256.b (K256.ops K256.b) k256q
  scalarBaseMult := natScalarBaseMult (K256.ops K256.b) K256.generator k256q

/-- `NistP256Curve` (p256_curve.go:22-49).  The multiplication of the repository is called `ScalarMul`, so the method `ScalarMult` of the
interface is that of the embedded `elliptic.CurveParams`: `std`. -/
def p256Curve (refs : List ℕ) (std : Option ℤ → Option ℤ → List UInt8 → Go XY) : ECurve where
  params := ⟨refs, p256p, p256q, P256.b.val, P256.generator.x.val, P256.generator.y.val, 256, "P-256"⟩
  isOnCurve := natIsOnCurve (-3) P256.b
  add := natAdd (-3) P256.b (P256.ops P256.b)
  double := natDouble (-3) P256.b (P256.ops P256.b)
  scalarMult := std
  scalarBaseMult := natScalarBaseMult (P256.ops P256.b) P256.generator p256q

/-- `NistP256.ScalarMul` (p256_curve.go:76-88) -/
def p256ScalarMul : Option ℤ → Option ℤ → List UInt8 → Go XY :=
  natScalarMult (-3) P256.b (P256.ops P256.b) p256q

end Verif.Legacy
