import Mathlib.Algebra.Field.Defs
import Mathlib.Algebra.Group.Nat.Even
import Verif.Common.Go
import Verif.Common.Bytes

/-!
# The native Weierstrass points (`pkg/core/curves/native/point.go`, `k256/point.go`, `p256/point.go`)

Field elements are elements of an arbitrary field `F`: `Field.Value` holds the canonical
Montgomery representative, so comparing limbs is comparing field elements (see
`Verif.Native.LimbModel` for the limb level). `FieldArithmetic.Invert` is modelled by its result
(`Verif.Native.FieldModel` has the addition chains): `(z⁻¹, 1)` for `z ≠ 0`, and for `z = 0` the
output argument unchanged together with `0`. Aliasing of receivers and arguments is modelled only
where stated.
-/

namespace Verif.Native

/-- `EllipticPoint` (`native/point.go:43-49`) without the pointers to the parameters: projective
coordinates. `IsIdentity` only looks at `z`. -/
structure Proj (F : Type) where
  x : F
  y : F
  z : F
  deriving DecidableEq

section Curve
variable {F : Type} [Field F] [DecidableEq F]

/-- `k256PointArithmetic.Double` (`native/k256/point.go:279-321`), statement by statement. -/
def K256.double (b : F) (arg : Proj F) : Proj F :=
  let yy := arg.y * arg.y
  let zz := arg.z * arg.z
  let xy2 := arg.x * arg.y
  let xy2 := xy2 + xy2
  let bzz := zz * b
  let bzz3 := bzz + bzz
  let bzz3 := bzz3 + bzz
  let bzz9 := bzz3 + bzz3
  let bzz9 := bzz9 + bzz3
  let yyMBzz9 := -bzz9
  let yyMBzz9 := yyMBzz9 + yy
  let yyPBzz3 := yy + bzz3
  let yyzz := yy * zz
  let yyzz8 := yyzz + yyzz
  let yyzz8 := yyzz8 + yyzz8
  let yyzz8 := yyzz8 + yyzz8
  let t := yyzz8 + yyzz8
  let t := t + yyzz8
  let t := t * b
  let x := xy2 * yyMBzz9
  let y := yyMBzz9 * yyPBzz3
  let y := y + t
  let z := yy * arg.y
  let z := z * arg.z
  let z := z + z
  let z := z + z
  let z := z + z
  ⟨x, y, z⟩

/-- The last lines of both `Add` functions (`native/k256/point.go:393-403`,
`native/p256/point.go:263-273`): the result is replaced by `arg2` when `arg1.Z = 0`, and then by
`arg1` when `arg2.Z = 0`. -/
def selectIdentity (arg1 arg2 r : Proj F) : Proj F :=
  let r := if arg1.z = 0 then arg2 else r
  if arg2.z = 0 then arg1 else r

/-- `k256PointArithmetic.Add` (`native/k256/point.go:323-408`), statement by statement. -/
def K256.add (b : F) (arg1 arg2 : Proj F) : Proj F :=
  let xx := arg1.x * arg2.x
  let yy := arg1.y * arg2.y
  let zz := arg1.z * arg2.z
  let nXxYy := -(xx + yy)
  let nYyZz := -(yy + zz)
  let nXxZz := -(xx + zz)
  let xyPairs := (arg1.x + arg1.y) * (arg2.x + arg2.y)
  let xyPairs := xyPairs + nXxYy
  let yzPairs := (arg1.y + arg1.z) * (arg2.y + arg2.z)
  let yzPairs := yzPairs + nYyZz
  let xzPairs := (arg1.x + arg1.z) * (arg2.x + arg2.z)
  let xzPairs := xzPairs + nXxZz
  let bzz := zz * b
  let bzz3 := bzz + bzz
  let bzz3 := bzz3 + bzz
  let yyMBzz3 := -bzz3
  let yyMBzz3 := yyMBzz3 + yy
  let yyPBzz3 := yy + bzz3
  let byz := yzPairs * b
  let byz3 := byz + byz
  let byz3 := byz3 + byz
  let xx3 := xx + xx
  let xx3 := xx3 + xx
  let bxx9 := xx3 + xx3
  let bxx9 := bxx9 + xx3
  let bxx9 := bxx9 * b
  let tv1 := xyPairs * yyMBzz3
  let tv2 := byz3 * xzPairs
  let tv2 := -tv2
  let x := tv1 + tv2
  let tv1 := yyPBzz3 * yyMBzz3
  let tv2 := bxx9 * xzPairs
  let y := tv1 + tv2
  let tv1 := yzPairs * yyPBzz3
  let tv2 := xx3 * xyPairs
  let z := tv1 + tv2
  selectIdentity arg1 arg2 ⟨x, y, z⟩

/-- `p256PointArithmetic.Double` (`native/p256/point.go:134-194`), statement by statement. -/
def P256.double (b : F) (arg : Proj F) : Proj F :=
  let xx := arg.x * arg.x
  let yy := arg.y * arg.y
  let zz := arg.z * arg.z
  let xy2 := arg.x * arg.y
  let xy2 := xy2 + xy2
  let yz2 := arg.y * arg.z
  let yz2 := yz2 + yz2
  let xz2 := arg.x * arg.z
  let xz2 := xz2 + xz2
  let bzz := b * zz
  let bzz := bzz - xz2
  let bzz3 := bzz + bzz
  let bzz3 := bzz3 + bzz
  let yyMBzz3 := yy - bzz3
  let yyPBzz3 := yy + bzz3
  let yFrag := yyPBzz3 * yyMBzz3
  let xFrag := yyMBzz3 * xy2
  let zz3 := zz + zz
  let zz3 := zz3 + zz
  let bxz2 := b * xz2
  let bxz2 := bxz2 - zz3
  let bxz2 := bxz2 - xx
  let bxz6 := bxz2 + bxz2
  let bxz6 := bxz6 + bxz2
  let xx3Mzz3 := xx + xx
  let xx3Mzz3 := xx3Mzz3 + xx
  let xx3Mzz3 := xx3Mzz3 - zz3
  let x := bxz6 * yz2
  let x := xFrag - x
  let y := xx3Mzz3 * bxz6
  let y := yFrag + y
  let z := yz2 * yy
  let z := z + z
  let z := z + z
  ⟨x, y, z⟩

/-- `p256PointArithmetic.Add` (`native/p256/point.go:196-278`), statement by statement. -/
def P256.add (b : F) (arg1 arg2 : Proj F) : Proj F :=
  let xx := arg1.x * arg2.x
  let yy := arg1.y * arg2.y
  let zz := arg1.z * arg2.z
  let tv1 := arg2.x + arg2.y
  let xyPairs := arg1.x + arg1.y
  let xyPairs := xyPairs * tv1
  let xyPairs := xyPairs - xx
  let xyPairs := xyPairs - yy
  let tv1 := arg2.y + arg2.z
  let yzPairs := arg1.y + arg1.z
  let yzPairs := yzPairs * tv1
  let yzPairs := yzPairs - yy
  let yzPairs := yzPairs - zz
  let tv1 := arg2.x + arg2.z
  let xzPairs := arg1.x + arg1.z
  let xzPairs := xzPairs * tv1
  let xzPairs := xzPairs - xx
  let xzPairs := xzPairs - zz
  let bzz := b * zz
  let bzz := xzPairs - bzz
  let bzz3 := bzz + bzz
  let bzz3 := bzz3 + bzz
  let yyMBzz3 := yy - bzz3
  let yyPBzz3 := yy + bzz3
  let zz3 := zz + zz
  let zz3 := zz3 + zz
  let bxz := b * xzPairs
  let bxz := bxz - zz3
  let bxz := bxz - xx
  let bxz3 := bxz + bxz
  let bxz3 := bxz3 + bxz
  let xx3Mzz3 := xx + xx
  let xx3Mzz3 := xx3Mzz3 + xx
  let xx3Mzz3 := xx3Mzz3 - zz3
  let tv1 := yzPairs * bxz3
  let x := yyPBzz3 * xyPairs
  let x := x - tv1
  let tv1 := xx3Mzz3 * bxz3
  let y := yyPBzz3 * yyMBzz3
  let y := y + tv1
  let tv1 := xyPairs * xx3Mzz3
  let z := yyMBzz3 * yzPairs
  let z := z + tv1
  selectIdentity arg1 arg2 ⟨x, y, z⟩

/-- `FieldArithmetic.Invert(&wasInverted, &out, &arg)` with `out` initially zero: the pair
`(wasInverted, out)`. -/
def invert (z : F) : Bool × F := if z = 0 then (false, 0) else (true, z⁻¹)

/-- `ToAffine` (`native/k256/point.go:419-439`, `native/p256/point.go:289-309`). -/
def toAffine (arg : Proj F) : Proj F :=
  let wi := invert arg.z
  let x := arg.x * wi.2
  let y := arg.y * wi.2
  ⟨if wi.1 then x else 0, if wi.1 then y else 0, if wi.1 then 1 else 0⟩

/-- `RhsEq`: `x³ + 7` for secp256k1 (`native/k256/point.go:441-446`), `x³ + b + a·x` for P-256
(`native/p256/point.go:311-317`); one definition with `a = 0` for the former. -/
def rhsEq (a b x : F) : F := x * x * x + b + a * x

/-- `IsOnCurve` (`native/k256/point.go:410-417`, `native/p256/point.go:280-287`). -/
def isOnCurve (a b : F) (arg : Proj F) : Bool :=
  let affine := toAffine arg
  affine.y * affine.y = rhsEq a b affine.x

/-- `EllipticPoint.Identity` (`native/point.go:245-250`). -/
def identity : Proj F := ⟨0, 0, 0⟩

/-- `EllipticPoint.IsIdentity` (`native/point.go:261-263`). -/
def isIdentity (p : Proj F) : Bool := p.z = 0

/-- `EllipticPoint.Neg` (`native/point.go:273-277`). -/
def neg (p : Proj F) : Proj F := { p with y := -p.y }

/-- `EllipticPoint.Equal` (`native/point.go:316-335`), with the 0/1 arithmetic as booleans. -/
def equal (p rhs : Proj F) : Bool :=
  let x1 := p.x * rhs.z
  let x2 := rhs.x * p.z
  let y1 := p.y * rhs.z
  let y2 := rhs.y * p.z
  let e1 : Bool := p.z = 0
  let e2 : Bool := rhs.z = 0
  (e1 && e2) || (!e1 && !e2 && decide (x1 = x2) && decide (y1 = y2))

/-- `EllipticPoint.SetBigInt` (`native/point.go:358-381`). `toF` is `Field.SetBigInt`: reduction
modulo the field modulus. -/
def setBigInt (a b : F) (toF : ℤ → F) (x y : ℤ) : Go (Proj F) := do
  let xx := toF x
  let yy := toF y
  let isId : Bool := xx = 0 ∧ yy = 0
  let pp : Proj F := ⟨if isId then 0 else xx, if isId then 0 else yy, if isId then 0 else 1⟩
  Go.guard (¬ (isOnCurve a b pp = false ∧ isId = false))
  .ok pp

end Curve

/-- The point operations the generic algorithms use (`EllipticPoint.Identity/Double/Add`,
respectively the methods of the interface `curves.Point`). -/
structure PtOps (α : Type) where
  identity : α
  double : α → α
  add : α → α → α

section Generic
variable {α : Type} (o : PtOps α)

/-- the operations of a native secp256k1 point -/
def K256.ops {F : Type} [Field F] [DecidableEq F] (b : F) : PtOps (Proj F) :=
  ⟨Native.identity, K256.double b, K256.add b⟩

/-- the operations of a native P-256 point -/
def P256.ops {F : Type} [Field F] [DecidableEq F] (b : F) : PtOps (Proj F) :=
  ⟨Native.identity, P256.double b, P256.add b⟩

/-- `f` applied `n` times (a `for` loop that does not use its counter). -/
def times (f : α → α) : ℕ → α → α
  | 0, x => x
  | n + 1, x => times f n (f x)

/-- The table `precomputed` of `EllipticPoint.Mul` (`native/point.go:296-302`); iteration `k`
of the loop has `i = 2k + 2`, so `i >> 1 = k + 1`. -/
def mulTable (point : α) : List α :=
  (List.range 7).foldl (fun t k =>
    let d := o.double (t.getD (k + 1) o.identity)
    t ++ [d, o.add d point]) [o.identity, point]

/-- the nibble `bytes[32-1-i>>3] >> (4 - i&0x04) & 0x0F` (`native/point.go:309`) with `i = 4k` -/
def mulWindow (bytes : List UInt8) (k : ℕ) : UInt8 :=
  (bytes.getD (31 - (4 * k) / 8) 0) >>> (if k % 2 = 0 then 4 else 0) &&& 0x0F

/-- `EllipticPoint.Mul` (`native/point.go:294-313`); `bytes` is `scalar.Bytes()`, 32 bytes, least
significant first. -/
def mul (point : α) (bytes : List UInt8) : α :=
  let precomputed := mulTable o point
  (List.range 64).foldl (fun p k =>
    let p := times o.double 4 p
    o.add p (precomputed.getD (mulWindow bytes k).toNat o.identity)) o.identity

/-- the nibble `bytes[i][j*W>>3] >> (W * j & W) & (1<<W - 1)` (`native/point.go:447`), `W = 4` -/
def sopIndex (bytes : List UInt8) (j : ℕ) : UInt8 :=
  (bytes.getD (j * 4 / 8) 0) >>> (if j % 2 = 0 then 0 else 4) &&& 0x0F

/-- Putting the points into buckets (`native/point.go:442-449`, `curve.go:837-842`): `idx` lists
the bucket of each point. -/
def fillBuckets (size : ℕ) (items : List (ℕ × α)) : List α :=
  items.foldl (fun bs it => bs.set it.1 (o.add (bs.getD it.1 o.identity) it.2))
    (List.replicate size o.identity)

/-- The running sums over the buckets from the last to the first (`native/point.go:451-456`):
the pair `(sum, window)`. -/
def sumBuckets (bs : List α) (init : α × α) : α × α :=
  bs.foldr (fun b st =>
    let sum := o.add st.1 b
    (sum, o.add st.2 sum)) init

/-- The final loop (`native/point.go:459-466`, `curve.go:853-859`): windows from the last to the
first, `w` doublings before each addition. -/
def joinWindows (w : ℕ) (windows : List α) : α :=
  windows.foldr (fun win acc => o.add (times o.double w acc) win) o.identity

/-- `EllipticPoint.SumOfProducts` (`native/point.go:411-468`); `scalars` holds the little-endian
bytes of the scalars. Bucket 0 is filled but not summed. -/
def sumOfProducts (points : List α) (scalars : List (List UInt8)) : Go α := do
  Go.guard (points.length = scalars.length)
  let windows := (List.range 64).map fun j =>
    let buckets := fillBuckets o 16 (List.zipWith (fun s p => ((sopIndex s j).toNat, p)) scalars points)
    (sumBuckets o buckets.tail (o.identity, o.identity)).2
  .ok (joinWindows o 4 windows)

/-- the digit `bucketSize & int(new(big.Int).Rsh(scalars[i], uint(w*j)).Int64())`
(`curve.go:838`): `Rsh` rounds towards minus infinity, `Int64` keeps the low 64 bits (negated for a
negative number), `& 63` keeps six of them. -/
def pipIndex (s : ℤ) (j : ℕ) : ℕ := (s / 2 ^ (6 * j) % 64).toNat

/-- `sumOfProductsPippenger` (`curve.go:818-861`): `none` is the returned `nil`; empty lists index
`points[0]` out of range. A point with digit 0 is skipped. -/
def pippenger (points : List α) (scalars : List ℤ) : Go (Option α) :=
  if points.length ≠ scalars.length then .ok none
  else if points = [] then Go.crash
  else
    let windows := (List.range 43).map fun j =>
      let items := (List.zipWith (fun s p => (pipIndex s j, p)) scalars points).filter (·.1 ≠ 0)
      let buckets := fillBuckets o 63 (items.map fun it => (it.1 - 1, it.2))
      (sumBuckets o buckets (o.identity, o.identity)).2
    .ok (some (joinWindows o 6 windows))

end Generic

end Verif.Native
