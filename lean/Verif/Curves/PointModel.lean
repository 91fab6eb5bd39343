import Verif.Native.EncodeModel
import Verif.Native.CurveProps
import Verif.Native.LimbProps
import Verif.Bls381.GModel
import Verif.Curves.MarshalModel

/-!
# Points of secp256k1, P-256 and BLS12-381 behind the interfaces

`PointK256` (`k256_curve.go:382-616`), `PointP256` (`p256_curve.go:380-614`), `PointBls12381G1` and `PointBls12381G2`
(`bls12381_curve.go:344-560,592-800`) wrap the points of the native packages.  The four sets of methods have the same text up to the names of
the native types, so there is one model over the native operations.  A native point is its projective coordinates, a scalar its residue.
Receivers with a nil value, which the packages do not make, are left out.
-/

namespace Verif.Curves.Pt
open Native Bls381 Primes

/-- an argument of an interface type: nil, a value of another implementation, or one of this -/
inductive Arg (α : Type) where
  | nil
  | foreign
  | mine (a : α)

/-- what the wrappers call -/
structure Native' (α : Type) where
  /-- the order of the scalar field -/
  q : ℕ
  identity : α
  generator : α
  isIdentity : α → Bool
  double : α → α
  neg : α → α
  add : α → α → α
  sub : α → α → α
  mul : α → List UInt8 → α
  equal : α → α → Bool
  sum : List α → List (List UInt8) → Go α

section
variable {α : Type} (N : Native' α)

/-- `Add` (`k256_curve.go:437-448`, `p256_curve.go:435-446`, `bls12381_curve.go:397-407,645-655`); `none` is the nil interface -/
def add (p : α) : Arg α → Option α
  | .mine r => some (N.add p r)
  | _ => none

/-- `Sub` (`k256_curve.go:450-461`, `p256_curve.go:448-459`, `bls12381_curve.go:409-419,657-667`) -/
def sub (p : α) : Arg α → Option α
  | .mine r => some (N.sub p r)
  | _ => none

/-- `Mul` (`k256_curve.go:463-474`, `p256_curve.go:461-472`, `bls12381_curve.go:421-431,669-679`): the native loop reads the 32 bytes of the scalar -/
def mul (p : α) : Arg (ZMod N.q) → Option α
  | .mine s => some (N.mul p (leBytes 32 s.val))
  | _ => none

/-- `Equal` (`k256_curve.go:476-483`, `p256_curve.go:474-481`, `bls12381_curve.go:433-440,681-688`) -/
def equal (p : α) : Arg α → Bool
  | .mine r => N.equal p r
  | _ => false

/-- the loop with the type assertion of `SumOfProducts` -/
def allMine {β : Type} : List (Arg β) → Option (List β)
  | [] => some []
  | .mine a :: l => (allMine l).map (a :: ·)
  | _ :: _ => none

/-- `SumOfProducts` (`k256_curve.go:583-606`, `p256_curve.go:581-604`, `bls12381_curve.go:484-506,732-754`) -/
def sum (points : List (Arg α)) (scalars : List (Arg (ZMod N.q))) : Option α :=
  match allMine points with
  | none => none
  | some ps =>
    match allMine scalars with
    | none => none
    | some ss =>
      match N.sum ps (ss.map fun s => leBytes 32 s.val) with
      | .error _ => none
      | .ok r => some r

/-- `Curve.ScalarBaseMult` (`curve.go:375-377`) -/
def scalarBaseMult (s : Arg (ZMod N.q)) : Option α := mul N N.generator s

/-- `PairingCurve.ScalarG1BaseMult`, `ScalarG2BaseMult` (`curve.go:430-436`): the type assertion on a nil interface panics -/
def scalarBaseMultPairing (s : Arg (ZMod N.q)) : Go α :=
  match mul N N.generator s with
  | none => Go.crash
  | some p => .ok p

end

/-- secp256k1 (`native/point.go`, `native/k256/point.go`); `Sub` is `native/point.go:286-290` -/
def k256 : Native' (Proj (ZMod k256p)) where
  q := k256q
  identity := Native.identity
  generator := K256.generator
  isIdentity := Native.isIdentity
  double := (K256.ops K256.b).double
  neg := Native.neg
  add := (K256.ops K256.b).add
  sub p r := (K256.ops K256.b).add p (Native.neg r)
  mul := Native.mul (K256.ops K256.b)
  equal := Native.equal
  sum := Native.sumOfProducts (K256.ops K256.b)

/-- P-256 (`native/point.go`, `native/p256/point.go`) -/
def p256 : Native' (Proj (ZMod p256p)) where
  q := p256q
  identity := Native.identity
  generator := P256.generator
  isIdentity := Native.isIdentity
  double := (P256.ops P256.b).double
  neg := Native.neg
  add := (P256.ops P256.b).add
  sub p r := (P256.ops P256.b).add p (Native.neg r)
  mul := Native.mul (P256.ops P256.b)
  equal := Native.equal
  sum := Native.sumOfProducts (P256.ops P256.b)

/-- the first group of BLS12-381 (`native/bls12381/g1.go`) -/
def g1 : Native' (Proj Fq) where
  q := blsr
  identity := gIdentity
  generator := g1Generator
  isIdentity p := decide (p.z = 0)
  double := gDouble mulBy3b1
  neg := gNeg
  add := gAdd mulBy3b1
  sub := gSub mulBy3b1
  mul := gMultiply mulBy3b1
  equal := gEqual
  sum := gSumOfProducts mulBy3b1

/-- the second group of BLS12-381 (`native/bls12381/g2.go`) -/
def g2 : Native' (Proj (Fp2 Fq)) where
  q := blsr
  identity := gIdentity
  generator := g2Generator
  isIdentity p := decide (p.z = 0)
  double := gDouble mulBy3b2
  neg := gNeg
  add := gAdd mulBy3b2
  sub := gSub mulBy3b2
  mul := gMultiply mulBy3b2
  equal := gEqual
  sum := gSumOfProducts mulBy3b2

/-! ## Signs -/

/-- `PointK256.IsNegative`, `PointP256.IsNegative` (`k256_curve.go:415-417`, `p256_curve.go:413-415`): the lowest bit of the first limb of `y`,
which is in Montgomery form -/
def isNegative (P : FieldParams) [Fact P.modulus.val.Prime] (p : Proj P.Ring) : Bool := (encode P (toAffine p).y).l0 &&& 1 == 1

/-- `PointBls12381G1.IsNegative` (`bls12381_curve.go:372-376`) -/
def g1IsNegative (p : Proj Fq) : Bool := ((g1ToCompressed p).headD 0 >>> 5) &&& 1 == 1

/-- `PointBls12381G2.IsNegative` (`bls12381_curve.go:620-624`) -/
def g2IsNegative (p : Proj (Fp2 Fq)) : Bool := ((g2ToCompressed p).headD 0 >>> 5) &&& 1 == 1

/-! ## Decoding -/

/-- `var b [n]byte; copy(b[:], bytes)` -/
def fit (n : ℕ) (b : List UInt8) : List UInt8 := b.take n ++ List.replicate (n - b.length) 0

/-- `PointBls12381G1.FromAffineCompressed` (`bls12381_curve.go:460-468`) -/
def g1Dec (b : List UInt8) : Go (Proj Fq) := g1FromCompressed (fit 48 b)
/-- `PointBls12381G1.FromAffineUncompressed` (`bls12381_curve.go:470-478`) -/
def g1DecU (b : List UInt8) : Go (Proj Fq) := g1FromUncompressed (fit 96 b)
/-- `PointBls12381G2.FromAffineCompressed` (`bls12381_curve.go:708-716`) -/
def g2Dec (b : List UInt8) : Go (Proj (Fp2 Fq)) := g2FromCompressed (fit 96 b)
/-- `PointBls12381G2.FromAffineUncompressed` (`bls12381_curve.go:718-726`) -/
def g2DecU (b : List UInt8) : Go (Proj (Fp2 Fq)) := g2FromUncompressed (fit 192 b)

/-! ## Coordinates -/

/-- `PointBls12381G1.X`, `Y` (`bls12381_curve.go:529-535`) -/
def g1XY (p : Proj Fq) : ℕ × ℕ := g1BigInt p
/-- `PointBls12381G2.X`, `Y` (`bls12381_curve.go:777-785`) -/
def g2XY (p : Proj (Fp2 Fq)) : ℕ × ℕ := (beNat ((g2ToUncompressed p).take 96), beNat ((g2ToUncompressed p).drop 96))

/-- `ToEllipticCurve` (`curve.go:392-418`): whether the named curve is converted -/
def toEllipticCurve (name : List UInt8) : Go CurveId :=
  if name = ascii "secp256k1" then .ok .k256
  else if name = ascii "P-256" then .ok .p256
  else Go.err

end Verif.Curves.Pt
