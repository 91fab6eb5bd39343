import Verif.Native.MapHash
import Verif.Native.FieldProps

/-!
# Pallas points (`pkg/core/curves/pallas_curve.go`)

An `fp.Fp` is a residue modulo `pallasp`; its limbs are C53–C57 and C111–C113.  `Sqrt`, `Invert`, `SetBytes` and
`SetBigInt` are the limb functions of `Verif.Native.FieldModel`, carried over to residues, so their peculiarities
(C112) are part of this model.  An `Ep` holds Jacobian coordinates `(x, y, z)` for `(x/z², y/z³)`.  The receiver of a
method is its result; `Ep.Set` copies, so results never share memory with arguments.
-/

namespace Verif.Pallas

open Primes Native

/-- an `fp.Fp` -/
abbrev Fp := ZMod pallasp
/-- an `fq.Fq` -/
abbrev Fq := ZMod pallasq

/-- `SetRaw` (`native/pasta/fp/fp.go:194-197`): plain limbs -/
def raw (l : Limbs) : Fp := l.val
/-- an `fp.Fp` written as a literal: Montgomery limbs -/
def lit (l : Limbs) : Fp := unMont pallasp l

/-- the limbs of a residue -/
def fpLimbs (x : Fp) : Limbs := encode pastaFp (x.val : ℕ)
/-- the limbs of a scalar -/
def fqLimbs (x : Fq) : Limbs := encode pastaFq (x.val : ℕ)

/-- `Fp.Sqrt` (`native/pasta/fp/fp.go:231-286`) -/
def fpSqrt (x : Fp) : Fp × Bool :=
  let r := pastaFpSqrt (fpLimbs x)
  (unMont pallasp r.1, r.2)

/-- `Fp.Invert` (`native/pasta/fp/fp.go:290-298`) -/
def fpInvert (x : Fp) : Fp := unMont pallasp (pastaFpInvert (fpLimbs x)).1

/-- `Fp.SetBytes` (`native/pasta/fp/fp.go:166-179`) -/
def fpSetBytes (b : List UInt8) : Go Fp := do
  let l ← pastaSetBytes pastaFp b
  .ok (unMont pallasp l)

/-- `new(fp.Fp).SetBigInt` (`native/pasta/fp/fp.go:183-191`) -/
def fpSetBigInt (z : ℤ) : Fp := unMont pallasp (pastaSetBigInt pastaFp ⟨0, 0, 0, 0⟩ z)
/-- `new(fq.Fq).SetBigInt` (`native/pasta/fq/fq.go:177-185`) -/
def fqSetBigInt (z : ℤ) : Fq := unMont pallasq (pastaSetBigInt pastaFq ⟨0, 0, 0, 0⟩ z)

/-- `Fp.Bytes` (`native/pasta/fp/fp.go:201-207`) -/
def fpBytes (x : Fp) : List UInt8 := bytesOf pastaFp (fpLimbs x)
/-- `Fq.Bytes` (`native/pasta/fq/fq.go:195-201`) -/
def fqBytes (x : Fq) : List UInt8 := bytesOf pastaFq (fqLimbs x)

/-- `Fp.SetBytesWide` (`native/pasta/fp/fp.go:141-163`) -/
def fpSetBytesWide (b : List UInt8) : Fp := unMont pallasp (setBytesWide pastaFp b)

/-! ## The group operations -/

/-- `b` (`pallas_curve.go:24`) -/
def b : Fp := 5
/-- `three` (`pallas_curve.go:25`) -/
def three : Fp := lit ⟨0x6b0ee5d0fffffff5, 0x86f76d2b99b14bd0, 0xfffffffffffffffe, 0x3fffffffffffffff⟩
/-- `eight` (`pallas_curve.go:26`) -/
def eight : Fp := lit ⟨0x7387134cffffffe1, 0xd973797adfadd5a8, 0xfffffffffffffffb, 0x3fffffffffffffff⟩

/-- an `Ep` (`pallas_curve.go:675-679`): Jacobian coordinates -/
abbrev Ep := Proj Fp

/-- `Ep.Identity` (`pallas_curve.go:707-712`) -/
def epIdentity : Ep := ⟨0, 0, 0⟩

/-- `Ep.Generator` (`pallas_curve.go:714-719`) -/
def epGenerator : Ep :=
  ⟨1, lit ⟨0x2f474795455d409d, 0xb443b9b74b8255d9, 0x270c412f2c9a5d66, 0x8e00f71ba43dd6b⟩, 1⟩

/-- `Ep.IsIdentity` (`pallas_curve.go:721-723`) -/
def epIsIdentity (p : Ep) : Bool := p.z = 0

/-- `Ep.Double` (`pallas_curve.go:725-752`), statement by statement -/
def epDouble (other : Ep) : Ep :=
  if epIsIdentity other then other
  else
    let a := other.x * other.x
    let b := other.y * other.y
    let c := b * b
    let rx := other.x + b
    let ry := rx * rx
    let rz := ry - a
    let rx := rz - c
    let d := rx + rx
    let e := three * a
    let f := e * e
    let ry := d + d
    let rx := f - ry
    let ry := d - rx
    let f := eight * c
    let rz := e * ry
    let ry := rz - f
    let f := other.y * other.z
    let rz := f + f
    ⟨rx, ry, rz⟩

/-- `Ep.Neg` (`pallas_curve.go:754-759`) -/
def epNeg (other : Ep) : Ep := ⟨other.x, -other.y, other.z⟩

/-- `Ep.Add` (`pallas_curve.go:761-812`), statement by statement -/
def epAdd (lhs rhs : Ep) : Ep :=
  if epIsIdentity lhs then rhs
  else if epIsIdentity rhs then lhs
  else
    let z1z1 := lhs.z * lhs.z
    let z2z2 := rhs.z * rhs.z
    let u1 := lhs.x * z2z2
    let u2 := rhs.x * z1z1
    let s1 := lhs.y * z2z2
    let s1 := s1 * rhs.z
    let s2 := rhs.y * z1z1
    let s2 := s2 * lhs.z
    if u1 = u2 then
      if s1 = s2 then epDouble lhs else epIdentity
    else
      let h := u2 - u1
      let i := h + h
      let i := i * i
      let j := i * h
      let r := s2 - s1
      let r := r + r
      let v := u1 * i
      let x3 := r * r
      let x3 := x3 - j
      let x3 := x3 - (v + v)
      let s1 := s1 * j
      let s1 := s1 + s1
      let y3 := r * (v - x3)
      let y3 := y3 - s1
      let z3 := lhs.z + rhs.z
      let z3 := z3 * z3
      let z3 := z3 - z1z1
      let z3 := z3 - z2z2
      let z3 := z3 * h
      ⟨x3, y3, z3⟩

/-- `Ep.Sub` (`pallas_curve.go:814-816`) -/
def epSub (lhs rhs : Ep) : Ep := epAdd lhs (epNeg rhs)

/-- the operations the generic algorithms use -/
def epOps : PtOps Ep := ⟨epIdentity, epDouble, epAdd⟩

/-- `Ep.Mul` (`pallas_curve.go:818-838`): the same table and loop as `EllipticPoint.Mul` -/
def epMul (point : Ep) (scalar : Fq) : Ep := Native.mul epOps point (fqBytes scalar)

/-- `Ep.toAffine` (`pallas_curve.go:861-878`) -/
def epToAffine (p : Ep) : Ep :=
  if epIsIdentity p then ⟨0, 0, 1⟩
  else
    let zInv3 := fpInvert p.z
    let zInv2 := zInv3 * zInv3
    let zInv3 := zInv3 * zInv2
    ⟨p.x * zInv2, p.y * zInv3, 1⟩

/-- `Ep.Equal` (`pallas_curve.go:840-851`) -/
def epEqual (p other : Ep) : Bool :=
  let lhs := epToAffine p
  let rhs := epToAffine other
  decide (lhs.x = rhs.x) && decide (lhs.y = rhs.y)

/-- `Ep.X` (`pallas_curve.go:976-980`) -/
def epX (p : Ep) : Fp := (epToAffine p).x
/-- `Ep.Y` (`pallas_curve.go:982-986`) -/
def epY (p : Ep) : Fp := (epToAffine p).y

/-- `Ep.IsOnCurve` (`pallas_curve.go:988-1004`) -/
def epIsOnCurve (p : Ep) : Bool :=
  let z2 := p.z * p.z
  let z4 := z2 * z2
  let z6 := z2 * z4
  let x2 := p.x * p.x
  let x3 := x2 * p.x
  let lhs := p.y * p.y
  let rhs : Fp := 5
  let rhs := rhs * z6
  let rhs := rhs + x3
  decide (p.z = 0) || decide (lhs = rhs)

/-- `sumOfProductsPippengerPallas` (`pallas_curve.go:1013-1055`): `none` is the returned `nil` -/
def epPippenger (points : List Ep) (scalars : List ℤ) : Option Ep :=
  if points.length ≠ scalars.length then none
  else
    let windows := (List.range 43).map fun j =>
      let items := (List.zipWith (fun s p => (pipIndex s j, p)) scalars points).filter (·.1 ≠ 0)
      let buckets := fillBuckets epOps 63 (items.map fun it => (it.1 - 1, it.2))
      (sumBuckets epOps buckets (epOps.identity, epOps.identity)).2
    some (joinWindows epOps 6 windows)

/-- `Ep.SumOfProducts` (`pallas_curve.go:964-974`) for scalars of the right type -/
def epSumOfProducts (points : List Ep) (scalars : List Fq) : Option Ep :=
  epPippenger points (scalars.map fun s => (leNat (fqBytes s) : ℤ))

/-! ## Encodings -/

/-- `Ep.ToAffineCompressed` (`pallas_curve.go:880-891`): `IsIdentity` looks at the `z` that `toAffine` has set to one, so
the constant-time copy of zeros is never made -/
def epToCompressed (p : Ep) : List UInt8 :=
  let p1 := epToAffine p
  let x := fpBytes p1.x
  let x := x.set 31 (x.getD 31 0 ||| ((fpBytes p1.y).getD 0 0 &&& 1) <<< 7)
  if epIsIdentity p1 then List.replicate 32 0 else x

/-- `Ep.ToAffineUncompressed` (`pallas_curve.go:893-899`) -/
def epToUncompressed (p : Ep) : List UInt8 :=
  let p1 := epToAffine p
  fpBytes p1.x ++ fpBytes p1.y

/-- `rhsPallas` (`pallas_curve.go:954-958`) -/
def rhsPallas (x : Fp) : Fp :=
  let x2 := x * x
  let x3 := x * x2
  x3 + b

/-- `Ep.FromAffineCompressed` (`pallas_curve.go:901-929`) -/
def epFromCompressed (bytes : List UInt8) : Go Ep := do
  Go.guard (bytes.length = 32)
  let sign := (bytes.getD 31 0 >>> 7) &&& 1
  let input := bytes.set 31 (bytes.getD 31 0 &&& 0x7F)
  let x ← fpSetBytes input
  let rhs := rhsPallas x
  let rs := fpSqrt rhs
  Go.guard (rs.2 = true)
  let y := if (fpBytes rs.1).getD 0 0 &&& 1 ≠ sign then -rs.1 else rs.1
  let p : Ep := ⟨x, y, 1⟩
  Go.guard (epIsOnCurve p = true)
  .ok p

/-- `Ep.FromAffineUncompressed` (`pallas_curve.go:931-951`) -/
def epFromUncompressed (bytes : List UInt8) : Go Ep := do
  Go.guard (bytes.length = 64)
  let x ← fpSetBytes (bytes.take 32)
  let y ← fpSetBytes (bytes.drop 32)
  let p : Ep := ⟨x, y, 1⟩
  Go.guard (epIsOnCurve p = true)
  .ok p

/-- `PointPallas.Set` (`pallas_curve.go:563-583`); `Bytes()` of an integer is empty exactly for zero -/
def pointSet (x y : ℤ) : Go Ep := do
  let xElem := fpSetBigInt x
  if y = 0 then
    if x = 0 then .ok epIdentity else epFromCompressed (fpBytes xElem)
  else
    let value : Ep := ⟨xElem, fpSetBigInt y, 1⟩
    Go.guard (epIsOnCurve value = true)
    .ok value

/-- `PointPallas.IsNegative` (`pallas_curve.go:514-516`) -/
def pointIsNegative (p : Ep) : Bool := lowBitOf (epY p)

/-- `ScalarPallas.IsOdd` (`pallas_curve.go:261-263`): the lowest bit of the Montgomery limbs -/
def scalarIsOdd (s : Fq) : Bool := (fqLimbs s).l0 &&& 1 = 1

/-! ## The `elliptic.Curve` interface -/

/-- the point `PallasCurve` makes of two integers (`pallas_curve.go:100-105`) -/
def ofInts (x y : ℤ) : Ep :=
  let px := fpSetBigInt x
  let py := fpSetBigInt y
  ⟨px, py, if px = 0 ∧ py = 0 then 0 else 1⟩

/-- the integers `PallasCurve` returns (`pallas_curve.go:115-116`) -/
def toInts (p : Ep) : ℕ × ℕ :=
  let p := epToAffine p
  (leNat (fpBytes p.x), leNat (fpBytes p.y))

/-- `PallasCurve.IsOnCurve` (`pallas_curve.go:90-97`) -/
def curveIsOnCurve (x y : ℤ) : Bool := epIsOnCurve ⟨fpSetBigInt x, fpSetBigInt y, 1⟩
/-- `PallasCurve.Add` (`pallas_curve.go:99-117`) -/
def curveAdd (x1 y1 x2 y2 : ℤ) : ℕ × ℕ := toInts (epAdd (ofInts x1 y1) (ofInts x2 y2))
/-- `PallasCurve.Double` (`pallas_curve.go:119-131`) -/
def curveDouble (x1 y1 : ℤ) : ℕ × ℕ := toInts (epDouble (ofInts x1 y1))
/-- `PallasCurve.ScalarMult` (`pallas_curve.go:133-148`) -/
def curveScalarMult (x y : ℤ) (k : List UInt8) : ℕ × ℕ := toInts (epMul (ofInts x y) (fqSetBigInt (beNat k)))
/-- `PallasCurve.ScalarBaseMult` (`pallas_curve.go:150-159`) -/
def curveScalarBaseMult (k : List UInt8) : ℕ × ℕ := toInts (epMul epGenerator (fqSetBigInt (beNat k)))

/-! ## Hashing -/

/-- `isomapper` (`pallas_curve.go:32-46`) -/
def isomapper : List Fp := [
  raw ⟨0x775f6034aaaaaaab, 0x4081775473d8375b, 0xe38e38e38e38e38e, 0x0e38e38e38e38e38⟩,
  raw ⟨0x8cf863b02814fb76, 0x0f93b82ee4b99495, 0x267c7ffa51cf412a, 0x3509afd51872d88e⟩,
  raw ⟨0x0eb64faef37ea4f7, 0x380af066cfeb6d69, 0x98c7d7ac3d98fd13, 0x17329b9ec5253753⟩,
  raw ⟨0xeebec06955555580, 0x8102eea8e7b06eb6, 0xc71c71c71c71c71c, 0x1c71c71c71c71c71⟩,
  raw ⟨0xc47f2ab668bcd71f, 0x9c434ac1c96b6980, 0x5a607fcce0494a79, 0x1d572e7ddc099cff⟩,
  raw ⟨0x2aa3af1eae5b6604, 0xb4abf9fb9a1fc81c, 0x1d13bf2a7f22b105, 0x325669becaecd5d1⟩,
  raw ⟨0x5ad985b5e38e38e4, 0x7642b01ad461bad2, 0x4bda12f684bda12f, 0x1a12f684bda12f68⟩,
  raw ⟨0xc67c31d8140a7dbb, 0x07c9dc17725cca4a, 0x133e3ffd28e7a095, 0x1a84d7ea8c396c47⟩,
  raw ⟨0x02e2be87d225b234, 0x1765e924f7459378, 0x303216cce1db9ff1, 0x3fb98ff0d2ddcadd⟩,
  raw ⟨0x93e53ab371c71c4f, 0x0ac03e8e134eb3e4, 0x7b425ed097b425ed, 0x025ed097b425ed09⟩,
  raw ⟨0x5a28279b1d1b42ae, 0x5941a3a4a97aa1b3, 0x0790bfb3506defb6, 0x0c02c5bcca0e6b7f⟩,
  raw ⟨0x4d90ab820b12320a, 0xd976bbfabbc5661d, 0x573b3d7f7d681310, 0x17033d3c60c68173⟩,
  raw ⟨0x992d30ecfffffde5, 0x224698fc094cf91b, 0x0000000000000000, 0x4000000000000000⟩]

/-- `isoa` (`pallas_curve.go:47`) -/
def isoa : Fp := raw ⟨0x92bb4b0b657a014b, 0xb74134581a27a59f, 0x49be2d7258370742, 0x18354a2eb0ea8c9c⟩
/-- `isob` (`pallas_curve.go:48`) -/
def isob : Fp := raw ⟨1265, 0, 0, 0⟩
/-- `z` (`pallas_curve.go:49`) -/
def sswuZ : Fp := raw ⟨0x992d30ecfffffff4, 0x224698fc094cf91b, 0x0000000000000000, 0x4000000000000000⟩

/-- `isoMap` (`pallas_curve.go:1060-1123`) -/
def isoMap (p : Ep) : Ep :=
  let iso (i : ℕ) : Fp := isomapper.getD i 0
  let z0 := p.z * p.z
  let z1 := z0 * p.z
  let z2 := z0 * z0
  let z3 := z1 * z1
  let numX := iso 0
  let numX := numX * p.x
  let numX := numX + iso 1 * z0
  let numX := numX * p.x
  let numX := numX + iso 2 * z2
  let numX := numX * p.x
  let numX := numX + iso 3 * z3
  let divX := z0
  let divX := divX * p.x
  let divX := divX + iso 4 * z2
  let divX := divX * p.x
  let divX := divX + iso 5 * z3
  let numY := iso 6
  let numY := numY * p.x
  let numY := numY + iso 7 * z0
  let numY := numY * p.x
  let numY := numY + iso 8 * z2
  let numY := numY * p.x
  let numY := numY + iso 9 * z3
  let numY := numY * p.y
  let divY := p.x
  let divY := divY + iso 10 * z0
  let divY := divY * p.x
  let divY := divY + iso 11 * z2
  let divY := divY * p.x
  let divY := divY + iso 12 * z3
  let divY := divY * z1
  let zo := divX * divY
  let x := numX * divY
  let x := x * zo
  let y := numY * divX
  let y := y * (zo * zo)
  ⟨x, y, zo⟩

/-- `c1` (`pallas_curve.go:1129-1134`) -/
def sswuC1 : Fp := lit ⟨0x1ee770ce078456ec, 0x48cfd64c2ce76be0, 0x43d5774c0ab79e2f, 0x23368d2bdce28cf3⟩
/-- `c2` (`pallas_curve.go:1137-1142`) -/
def sswuC2 : Fp := lit ⟨0x03df915f89d89d8a, 0x8f1e8db09ef82653, 0xd89d89d89d89d89d, 0x1d89d89d89d89d89⟩

/-- `mapSswu` (`pallas_curve.go:1125-1173`); `CMove(l, r, 1)` is `r` -/
def mapSswu (u : Fp) : Ep :=
  let u2 := u * u
  let tv1 := sswuZ * u2
  let tv2 := tv1 * tv1
  let x1 := tv1 + tv2
  let x1 := fpInvert x1
  let e1 := decide (x1 = 0)
  let x1 := x1 + 1
  let x1 := if e1 then sswuC2 else x1
  let x1 := x1 * sswuC1
  let gx1 := x1 * x1
  let gx1 := gx1 + isoa
  let gx1 := gx1 * x1
  let gx1 := gx1 + isob
  let x2 := tv1 * x1
  let tv2 := tv1 * tv2
  let gx2 := gx1 * tv2
  let s1 := fpSqrt gx1
  let x := if s1.2 then x1 else x2
  let s2 := fpSqrt gx2
  let y := if s1.2 then s1.1 else s2.1
  let e3 := lowBitOf u == lowBitOf y
  let y := if e3 then y else -y
  ⟨x, y, 1⟩

/-- the tag of `Ep.Hash` (`pallas_curve.go:692`) -/
def hashDst : List UInt8 := "pallas_XMD:BLAKE2b_SSWU_RO_".toUTF8.toList

/-- `Ep.Hash` (`pallas_curve.go:687-705`); `H` is BLAKE2b with 64 bytes of output and blocks of 128; the tag is short, so
`curves.expandMsgXmd` (`curve.go:718-762`) is the function of the native package -/
def epHash (H : List UInt8 → List UInt8) (bytes : List UInt8) : Ep :=
  let u := expandMsgXmd H 64 128 bytes hashDst 128
  let u0 := fpSetBytesWide (u.take 64)
  let u1 := fpSetBytesWide (u.drop 64)
  epAdd (isoMap (mapSswu u0)) (isoMap (mapSswu u1))

end Verif.Pallas
