import Verif.Bls377.ScalarModel
import Verif.Native.PointModel

/-!
# Model of the points, the pairing and the target group of BLS12-377 (`pkg/core/curves/bls12377_curve.go:343-922`)

The arithmetic is that of the library gnark-crypto, which is not part of the repository.  Its affine points are the elements of a commutative
group (all points of the curve, not only those of prime order), its target group the non-zero elements of a field; decoding, the subgroup
test and the pairing are parameters.  The methods of `G1` and `G2` have the same text, so those that concern one group are modelled once.
-/

namespace Verif.Bls377

/-- what is used of gnark-crypto -/
structure Gnark (G1 G2 T : Type) where
  /-- `IsInSubGroup` -/
  in1 : G1 → Bool
  in2 : G2 → Bool
  /-- `bls12377.Pair`; `none` is an error -/
  pair : List G1 → List G2 → Option T

/-- a value of the interface `PairingPoint`: nil and the points of other curves fail both type assertions -/
inductive PP (G1 G2 : Type)
  | g1 (P : G1)
  | g2 (Q : G2)
  | other

section Point
variable {G : Type} [AddCommGroup G] [DecidableEq G]

/-- `Identity` (bls12377_curve.go:359-364, 633-638) -/
def identity : G := 0
/-- `IsIdentity` (bls12377_curve.go:374-376, 648-650) -/
def isIdentity (p : G) : Bool := decide (p = 0)
/-- `Double` (bls12377_curve.go:389-395, 662-668) -/
def ptDouble (p : G) : G := p + p
/-- `Neg` (bls12377_curve.go:404-408, 677-681) -/
def ptNeg (p : G) : G := -p
/-- `Add` (bls12377_curve.go:410-421, 683-694); `none` is nil or a point of another type -/
def ptAdd (p : G) (rhs : Option G) : Option G := rhs.map fun r => p + r
/-- `Sub` (bls12377_curve.go:423-434, 696-707) -/
def ptSub (p : G) (rhs : Option G) : Option G := rhs.map fun r => p - r
/-- `Mul` (bls12377_curve.go:436-447, 709-720): the scalar is not required to belong to the same group; a nil value panics -/
def ptMul (p : G) : Iface → Go (Option G)
  | .other => .ok none
  | .own s => do
    let v ← s.get
    .ok (some (v • p))
/-- `Equal` (bls12377_curve.go:449-456, 722-729) -/
def ptEqual (p : G) (rhs : Option G) : Bool := match rhs with
  | some r => decide (p = r)
  | none => false

/-- `FillBytes` of a `big.Int` -/
def fillBytes (w : ℕ) (v : ℤ) : Go (List UInt8) := if v.natAbs < 256 ^ w then .ok (beBytes w v.natAbs) else Go.crash

/-- `Set` (bls12377_curve.go:458-472, 731-745), `w` being 48 or 96 and `dec` the method `SetBytes` of the library -/
def ptSet (w : ℕ) (dec : List UInt8 → Option G) (x y : ℤ) : Go G :=
  if x = 0 ∧ y = 0 then .ok identity
  else do
    let bx ← fillBytes w x
    let ys ← fillBytes w y
    Go.ofOption (dec (bx ++ ys))

/-- `FromAffineCompressed` (bls12377_curve.go:484-494, 757-767) and, with `2 * w`, `FromAffineUncompressed` (bls12377_curve.go:496-506, 769-779) -/
def fromAffine (n : ℕ) (dec : List UInt8 → Option G) (b : List UInt8) : Go G := do
  Go.guard (b.length = n)
  Go.ofOption (dec b)

/-- the type assertion `sc.(*ScalarBls12377)` -/
def Iface.asSc : Iface → Option Sc
  | .own s => some s
  | .other => none

/-- `SumOfProducts` (bls12377_curve.go:512-522, 785-795): nil for a scalar of another type; `sumOfProductsPippenger` compares the lengths
before it reads a scalar -/
def sumOfProducts (points : List G) (scalars : List Iface) : Go (Option G) :=
  match scalars.mapM Iface.asSc with
  | none => .ok none
  | some ss =>
    if points.length ≠ ss.length then .ok none
    else do
      let vs ← ss.mapM Sc.get
      Native.pippenger (Native.grpOps G) points vs

end Point

section Pairing
variable {G1 G2 T : Type} [AddCommGroup G1] [DecidableEq G1] [AddCommGroup G2] [DecidableEq G2] [Field T] (L : Gnark G1 G2 T)

/-- the common part of the two methods `Pairing`: `GT{}` has all coordinates zero -/
def pairBody (P : G1) (Q : G2) : Option T :=
  if !L.in1 P || !L.in2 Q then none
  else if isIdentity P || isIdentity Q then some 0
  else L.pair [P] [Q]

/-- `Pairing` on `G1` (bls12377_curve.go:528-547) -/
def pairing1 (P : G1) : PP G1 G2 → Option T
  | .g2 Q => pairBody L P Q
  | _ => none

/-- `Pairing` on `G2` (bls12377_curve.go:801-820) -/
def pairing2 (Q : G2) : PP G1 G2 → Option T
  | .g1 P => pairBody L P Q
  | _ => none

/-- the state of the loop of `multiPairingBls12377` -/
structure MState (G1 G2 : Type) where
  g1Arr : List G1
  g2Arr : List G2
  valid : Bool

/-- the body of the loop (bls12377_curve.go:898-912) -/
def multiStep (st : MState G1 G2) (a b : PP G1 G2) : MState G1 G2 :=
  match a, b with
  | .g1 P, .g2 Q =>
    if st.valid && L.in1 P && L.in2 Q then ⟨st.g1Arr ++ [P], st.g2Arr ++ [Q], true⟩ else ⟨st.g1Arr, st.g2Arr, false⟩
  | _, _ => ⟨st.g1Arr, st.g2Arr, false⟩

/-- the loop (bls12377_curve.go:898-913) -/
def multiLoop : List (PP G1 G2) → MState G1 G2 → MState G1 G2
  | a :: b :: rest, st => multiLoop rest (multiStep L st a b)
  | _, st => st

/-- `multiPairingBls12377` (bls12377_curve.go:891-922), `MultiPairing` of both groups (bls12377_curve.go:549-551, 822-824) -/
def multiPairing (points : List (PP G1 G2)) : Option T :=
  if points.length % 2 ≠ 0 then none
  else
    let st := multiLoop L points ⟨[], [], true⟩
    if !st.valid then none else L.pair st.g1Arr st.g2Arr

end Pairing
end Verif.Bls377
