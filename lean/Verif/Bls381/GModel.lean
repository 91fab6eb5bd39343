import Verif.Bls381.Fp2Field
import Verif.Native.PointModel

/-!
# The points of BLS12-381 (`g1.go`, `g2.go`)

`G1` and `G2` are the same code over `fp` and over `fp2`; both are written here over an arbitrary field `F`
with the two things that differ as arguments: the coefficient `b` of the curve and the function `MulBy3b`.
A `G1` is a `Proj Fq`, a `G2` a `Proj (Fp2 Fq)`. The operations of the field are those of the code
(C143 to C146 for `fp`; `Verif.Bls381.Fp2Field` for `fp2`, where `Square` and `Double` are `x * x` and
`x + x`). Line numbers are those of `g1.go`, then of `g2.go`. Every method writes a receiver that may also be
an argument; all of them read their arguments before they write, so the receiver is the result.
-/

namespace Verif.Bls381

open Verif.Primes Verif.Native

section Generic
variable {F : Type} [Field F] [DecidableEq F]

/-- `Identity` (`g1.go:581-586`, `g2.go:549-554`) -/
def gIdentity : Proj F := ⟨0, 1, 0⟩

/-- `Add` (`g1.go:626-668`, `g2.go:594-636`) -/
def gAdd (mulBy3b : F → F) (arg1 arg2 : Proj F) : Proj F :=
  let t0 := arg1.x * arg2.x
  let t1 := arg1.y * arg2.y
  let t2 := arg1.z * arg2.z
  let t3 := arg1.x + arg1.y
  let t4 := arg2.x + arg2.y
  let t3 := t3 * t4
  let t4 := t0 + t1
  let t3 := t3 - t4
  let t4 := arg1.y + arg1.z
  let x3 := arg2.y + arg2.z
  let t4 := t4 * x3
  let x3 := t1 + t2
  let t4 := t4 - x3
  let x3 := arg1.x + arg1.z
  let y3 := arg2.x + arg2.z
  let x3 := x3 * y3
  let y3 := t0 + t2
  let y3 := x3 - y3
  let x3 := t0 + t0
  let t0 := t0 + x3
  let t2 := mulBy3b t2
  let z3 := t1 + t2
  let t1 := t1 - t2
  let y3 := mulBy3b y3
  let x3 := t4 * y3
  let t2 := t3 * t1
  let x3 := t2 - x3
  let y3 := y3 * t0
  let t1 := t1 * z3
  let y3 := t1 + y3
  let t0 := t0 * t3
  let z3 := z3 * t4
  let z3 := z3 + t0
  ⟨x3, y3, z3⟩

/-- `Double` (`g1.go:678-706`, `g2.go:646-674`) -/
def gDouble (mulBy3b : F → F) (a : Proj F) : Proj F :=
  let t0 := a.y * a.y
  let z3 := t0 + t0
  let z3 := z3 + z3
  let z3 := z3 + z3
  let t1 := a.y * a.z
  let t2 := a.z * a.z
  let t2 := mulBy3b t2
  let x3 := t2 * z3
  let y3 := t0 + t2
  let z3 := t1 * z3
  let t1 := t2 + t2
  let t2 := t2 + t1
  let t0 := t0 - t2
  let y3 := t0 * y3
  let y3 := y3 + x3
  let t1 := a.x * a.y
  let x3 := t0 * t1
  let x3 := x3 + x3
  let e := decide (a.z = 0)
  ⟨sel x3 0 e, sel y3 1 e, sel z3 0 e⟩

/-- `Neg` (`g1.go:761-765`, `g2.go:742-746`) -/
def gNeg (a : Proj F) : Proj F := ⟨a.x, sel a.y (-a.y) (!decide (a.z = 0)), a.z⟩

/-- `Sub` (`g1.go:671-675`, `g2.go:639-643`) -/
def gSub (mulBy3b : F → F) (arg1 arg2 : Proj F) : Proj F := gAdd mulBy3b arg1 (gNeg arg2)

/-- the operations the loops of `multiply` and `SumOfProducts` are built from -/
def gOps (mulBy3b : F → F) : PtOps (Proj F) := ⟨gIdentity, gDouble mulBy3b, gAdd mulBy3b⟩

/-- `multiply` (`g1.go:714-733`, `g2.go:682-701`): the loop of `EllipticPoint.Mul`, with the 32 bytes of the
scalar, least significant first -/
def gMultiply (mulBy3b : F → F) (a : Proj F) (bytes : List UInt8) : Proj F := Native.mul (gOps mulBy3b) a bytes

/-- `SumOfProducts` (`g1.go:978-1031`, `g2.go:974-1026`): the loops of `EllipticPoint.SumOfProducts` -/
def gSumOfProducts (mulBy3b : F → F) (points : List (Proj F)) (scalars : List (List UInt8)) : Go (Proj F) :=
  Native.sumOfProducts (gOps mulBy3b) points scalars

/-- the loop `for x := paramX >> 1; x != 0; x >>= 1` of `MulByX`; `n` bounds the number of iterations, a
`uint64` is zero after 64 shifts -/
def mulByXLoop (mulBy3b : F → F) : ℕ → UInt64 → Proj F → Proj F → Proj F
  | 0, _, _, r => r
  | n + 1, x, t, r =>
    if x ≠ 0 then
      let t := gDouble mulBy3b t
      let s := gAdd mulBy3b r t
      mulByXLoop mulBy3b n (x >>> 1) t (sel r s ((x &&& 1) == 1))
    else r

/-- `MulByX` (`g1.go:736-749`, `g2.go:704-717`) -/
def gMulByX (mulBy3b : F → F) (a : Proj F) : Proj F :=
  gNeg (mulByXLoop mulBy3b 64 (paramX >>> 1) a gIdentity)

/-- `fqModulusBytes` (`bls12381.go:9`) -/
def fqModulusBytes : List UInt8 :=
  [0x01, 0x00, 0x00, 0x00, 0xff, 0xff, 0xff, 0xff, 0xfe, 0x5b, 0xfe, 0xff, 0x02, 0xa4, 0xbd, 0x53, 0x05, 0xd8,
    0xa1, 0x09, 0x08, 0xd8, 0x39, 0x33, 0x48, 0x7d, 0x9d, 0x29, 0x53, 0xa7, 0xed, 0x73]

/-- `InCorrectSubgroup` (`g1.go:619-623`, `g2.go:587-591`) -/
def gInSubgroup (mulBy3b : F → F) (a : Proj F) : Bool := decide ((gMultiply mulBy3b a fqModulusBytes).z = 0)

/-- `IsOnCurve` (`g1.go:602-616`, `g2.go:570-584`) -/
def gIsOnCurve (b : F) (g : Proj F) : Bool :=
  let lhs := g.y * g.y
  let lhs := lhs * g.z
  let rhs := g.x * g.x
  let rhs := rhs * g.x
  let t := g.z * g.z
  let t := t * g.z
  let t := t * b
  let rhs := rhs + t
  decide (lhs = rhs)

/-- `ToAffine` (`g1.go:921-932`, `g2.go:917-928`) -/
def gToAffine (a : Proj F) : Proj F :=
  let z := a.z⁻¹
  let wasInverted := decide (a.z ≠ 0)
  let x := a.x * z
  let y := a.y * z
  ⟨sel 0 x wasInverted, sel 0 y wasInverted, sel 0 1 wasInverted⟩

/-- `Equal` (`g1.go:949-966`, `g2.go:945-962`); `^e` of a flag 0 or 1 keeps the bit of a flag it is `&`-ed with
exactly if `e` is 0 -/
def gEqual (g rhs : Proj F) : Bool :=
  let x1 := g.x * rhs.z
  let x2 := rhs.x * g.z
  let y1 := g.y * rhs.z
  let y2 := rhs.y * g.z
  let e1 := decide (g.z = 0)
  let e2 := decide (rhs.z = 0)
  e1 && e2 || (!e1 && !e2) && decide (x1 = x2) && decide (y1 = y2)

end Generic

/-! ## `g1.go` -/

/-- `curveG1B` (`g1.go:31-38`) -/
def curveG1B : Fq := fpDec [0xaa270000000cfff3, 0x53cc0032fc34000a, 0x478fe97a6b0a807f, 0xb1d37ebee6ba24d7,
    0x8ec9733bbf78ab2f, 0x09d645513d83de7e]

/-- `fp.MulBy3b` (`fp.go:362-369`) -/
def mulBy3b1 (arg : Fq) : Fq :=
  let a := arg + arg
  let t := a + a
  let a := t + t
  a + t

/-- `Generator` (`g1.go:589-594`) with `g1x`, `g1y` (`g1.go:15-30`) -/
def g1Generator : Proj Fq := ⟨fpDec [0x5cb38790fd530c16, 0x7817fc679976fff5, 0x154f95c7143ba1c1, 0xf0ae6acdf3d0e747,
    0xedce6ecc21dbf440, 0x120177419e0bfb75],
    fpDec [0xbaac93d50ce72271, 0x8c22631a7918fd8e, 0xdd595f13570725ce, 0x51ac582950405194,
    0x0e1c8c3fad0059c0, 0x0bbc3efc5008a26a], 1⟩

/-- `ClearCofactor` (`g1.go:754-758`) -/
def g1ClearCofactor (a : Proj Fq) : Proj Fq :=
  let t := gMulByX mulBy3b1 a
  gSub mulBy3b1 a t

/-- the loop over the bits `n-1, …, 0` of a limb in `fp.pow` (`fp.go:618-622`) on residues -/
def powLimb1 (base : Fq) (e : UInt64) : ℕ → Fq → Fq
  | 0, res => res
  | n + 1, res =>
    let res := res * res
    let tmp := res * base
    powLimb1 base e n (sel res tmp (((e >>> UInt64.ofNat n) &&& 1) == 1))

/-- `fp.pow` (`fp.go:613-631`) on residues -/
def pow1 (base : Fq) (e : List UInt64) : Fq := e.foldr (fun w res => powLimb1 base w 64 res) 1

/-- `fp.Sqrt` (`fp.go:417-436`) on residues, receiver holding `f` (C144) -/
def sqrt1 (f a : Fq) : Fq × Bool :=
  let z := pow1 a fpSqrtExp
  let c := z * z
  let wasSquare := decide (c = a)
  (sel f z wasSquare, wasSquare)

/-- `out[0] |= f` -/
def orHead (f : UInt8) : List UInt8 → List UInt8
  | [] => []
  | b :: bs => (b ||| f) :: bs

/-- the reversed array with `x[FieldBytes-1] &= 0x1F`, reversed back -/
def maskHead : List UInt8 → List UInt8
  | [] => []
  | b :: bs => (b &&& 0x1F) :: bs

/-- `ToCompressed` (`g1.go:807-821`) -/
def g1ToCompressed (g : Proj Fq) : List UInt8 :=
  let t := gToAffine g
  let out := fpBE t.x
  let isInfinity := decide (g.z = 0)
  let out := orHead 0x80 out
  let out := orHead (if isInfinity then 0x40 else 0) out
  orHead (if isInfinity then 0 else if lexLargest1 t.y then 0x20 else 0) out

/-- `FromCompressed` (`g1.go:824-866`); `input` has 48 bytes -/
def g1FromCompressed (input : List UInt8) : Go (Proj Fq) := do
  let b0 := input.headD 0
  let compressedFlag := (b0 >>> 7) &&& 1 == 1
  let infinityFlag := (b0 >>> 6) &&& 1 == 1
  let sortFlag := (b0 >>> 5) &&& 1 == 1
  Go.guard (compressedFlag = true)
  if infinityFlag then return gIdentity
  let x := fpSetBE 0 (maskHead input)
  Go.guard (x.2 = true)
  let y := x.1 * x.1
  let y := y * x.1
  let y := y + curveG1B
  let s := sqrt1 y y
  Go.guard (s.2 = true)
  let y := s.1
  let y := sel y (-y) (xor (lexLargest1 y) sortFlag)
  let p : Proj Fq := ⟨x.1, y, 1⟩
  Go.guard (gInSubgroup mulBy3b1 p = true)
  return p

/-- `ToUncompressed` (`g1.go:869-880`) -/
def g1ToUncompressed (g : Proj Fq) : List UInt8 :=
  let t := gToAffine g
  orHead (if g.z = 0 then 0x40 else 0) (fpBE t.x ++ fpBE t.y)

/-- `FromUncompressed` (`g1.go:883-918`); `input` has 96 bytes -/
def g1FromUncompressed (input : List UInt8) : Go (Proj Fq) := do
  let infinityFlag := (input.headD 0 >>> 6) &&& 1 == 1
  if infinityFlag then return gIdentity
  let x := fpSetBE 0 (maskHead (input.take 48))
  Go.guard (x.2 = true)
  let y := fpSetBE 0 (input.drop 48)
  Go.guard (y.2 = true)
  let p : Proj Fq := ⟨x.1, y.1, 1⟩
  Go.guard (gIsOnCurve curveG1B p = true)
  Go.guard (gInSubgroup mulBy3b1 p = true)
  return p

/-- `BigInt` (`g1.go:776-782`) -/
def g1BigInt (g : Proj Fq) : ℕ × ℕ :=
  let t := gToAffine g
  (t.x.val, t.y.val)

/-- `SetBigInt` (`g1.go:786-804`); `fp.SetBigInt` reduces any integer (C145) -/
def g1SetBigInt (x y : ℤ) : Go (Proj Fq) := do
  let xx : Fq := x
  let yy : Fq := y
  if decide (xx = 0) && decide (yy = 0) then return gIdentity
  let pp : Proj Fq := ⟨xx, yy, 1⟩
  Go.guard ((gIsOnCurve curveG1B pp && gInSubgroup mulBy3b1 pp || decide (xx = 0) && decide (yy = 0)) = true)
  return pp

/-! ## `g2.go` -/

/-- `curveG2B` (`g2.go:51-68`) -/
def curveG2B : Fp2 Fq := ⟨fpDec [0xaa270000000cfff3, 0x53cc0032fc34000a, 0x478fe97a6b0a807f, 0xb1d37ebee6ba24d7,
    0x8ec9733bbf78ab2f, 0x09d645513d83de7e],
    fpDec [0xaa270000000cfff3, 0x53cc0032fc34000a, 0x478fe97a6b0a807f, 0xb1d37ebee6ba24d7,
    0x8ec9733bbf78ab2f, 0x09d645513d83de7e]⟩

/-- `curveG23B` (`g2.go:69-86`) -/
def curveG23B : Fp2 Fq := ⟨fpDec [0x447600000027552e, 0xdcb8009a43480020, 0x6f7ee9ce4a6e8b59, 0xb10330b7c0a95bc6,
    0x6140b1fcfb1e54b7, 0x0381be097f0bb4e1],
    fpDec [0x447600000027552e, 0xdcb8009a43480020, 0x6f7ee9ce4a6e8b59, 0xb10330b7c0a95bc6,
    0x6140b1fcfb1e54b7, 0x0381be097f0bb4e1]⟩

/-- `fp2.MulBy3b` (`fp2.go:207-209`) -/
def mulBy3b2 (arg : Fp2 Fq) : Fp2 Fq := arg * curveG23B

/-- `Generator` (`g2.go:557-562`) with `g2x`, `g2y` (`g2.go:15-50`) -/
def g2Generator : Proj (Fp2 Fq) := ⟨⟨fpDec [0xf5f28fa202940a10, 0xb3f5fb2687b4961a, 0xa1a893b53e2ae580, 0x9894999d1a3caee9,
    0x6f67b7631863366b, 0x058191924350bcd7],
    fpDec [0xa5a9c0759e23f606, 0xaaa0c59dbccd60c3, 0x3bb17e18e2867806, 0x1b1ab6cc8541b367,
    0xc2b6ed0ef2158547, 0x11922a097360edf3]⟩,
    ⟨fpDec [0x4c730af860494c4a, 0x597cfa1f5e369c5a, 0xe7e6856caa0a635a, 0xbbefb5e96e0d495f,
    0x07d3a975f0ef25a2, 0x0083fd8e7e80dae5],
    fpDec [0xadc0fc92df64b05d, 0x18aa270a2b1461dc, 0x86adac6a3be4eba0, 0x79495c4ec93da33a,
    0xe7175850a43ccaed, 0x0b2bc2a163de1bf2]⟩, 1⟩

/-- `psiCoeffX` (`g2.go:451-461`) -/
def psiCoeffX : Fp2 Fq := ⟨0,
    fpDec [0x890dc9e4867545c3, 0x2af322533285a5d5, 0x50880866309b7e2c, 0xa20d1b8c7e881024,
    0x14e4f04fe2db9068, 0x14e56d3f1564853a]⟩

/-- `psiCoeffY` (`g2.go:463-480`) -/
def psiCoeffY : Fp2 Fq := ⟨fpDec [0x3e2f585da55c9ad1, 0x4294213d86c18183, 0x382844c88b623732, 0x92ad2afd19103e18,
    0x1d794e4fac7cf0b9, 0x0bd592fc7d825ec8],
    fpDec [0x7bcfa7a25aa30fda, 0xdc17dec12a927e7c, 0x2f088dd86b4ebef1, 0xd1ca2087da74d4a7,
    0x2da2596696cebc1d, 0x0e2b7eedbbfd87d2]⟩

/-- `psi2CoeffX` (`g2.go:483-493`) -/
def psi2CoeffX : Fp2 Fq := ⟨fpDec [0xcd03c9e48671f071, 0x5dab22461fcda5d2, 0x587042afd3851b95, 0x8eb60ebe01bacb9e,
    0x03f97d6e83d050d2, 0x18f0206554638741],
    0⟩

/-- `psi` (`g2.go:1028-1041`) -/
def g2Psi (a : Proj (Fp2 Fq)) : Proj (Fp2 Fq) := ⟨a.x.conj * psiCoeffX, a.y.conj * psiCoeffY, a.z.conj⟩

/-- `psi2` (`g2.go:1042-1049`) -/
def g2Psi2 (a : Proj (Fp2 Fq)) : Proj (Fp2 Fq) := ⟨a.x * psi2CoeffX, -a.y, a.z⟩

/-- `ClearCofactor` (`g2.go:722-741`) -/
def g2ClearCofactor (a : Proj (Fp2 Fq)) : Proj (Fp2 Fq) :=
  let t1 := gMulByX mulBy3b2 a
  let t2 := g2Psi a
  let pt := gDouble mulBy3b2 a
  let pt := g2Psi2 pt
  let t3 := gAdd mulBy3b2 t1 t2
  let t3 := gMulByX mulBy3b2 t3
  let pt := gAdd mulBy3b2 pt t3
  let pt := gSub mulBy3b2 pt t1
  let pt := gSub mulBy3b2 pt t2
  gSub mulBy3b2 pt a

/-- `ToCompressed` (`g2.go:780-796`) -/
def g2ToCompressed (g : Proj (Fp2 Fq)) : List UInt8 :=
  let t := gToAffine g
  let out := fpBE t.x.B ++ fpBE t.x.A
  let isInfinity := decide (g.z = 0)
  let out := orHead 0x80 out
  let out := orHead (if isInfinity then 0x40 else 0) out
  orHead (if isInfinity then 0 else if lexLargest2 t.y then 0x20 else 0) out

/-- `FromCompressed` (`g2.go:799-845`); `input` has 96 bytes -/
def g2FromCompressed (input : List UInt8) : Go (Proj (Fp2 Fq)) := do
  let b0 := input.headD 0
  let compressedFlag := (b0 >>> 7) &&& 1 == 1
  let infinityFlag := (b0 >>> 6) &&& 1 == 1
  let sortFlag := (b0 >>> 5) &&& 1 == 1
  Go.guard (compressedFlag = true)
  if infinityFlag then return gIdentity
  let xA := fpSetBE 0 (input.drop 48)
  let xB := fpSetBE 0 (maskHead (input.take 48))
  Go.guard ((xA.2 && xB.2) = true)
  let x : Fp2 Fq := ⟨xA.1, xB.1⟩
  let y := x * x
  let y := y * x
  let y := y + curveG2B
  let s := fp2Sqrt y y
  Go.guard (s.2 = true)
  let y := s.1
  let y := Fp2.cneg y y (xor (lexLargest2 y) sortFlag)
  let p : Proj (Fp2 Fq) := ⟨x, y, 1⟩
  Go.guard (gInSubgroup mulBy3b2 p = true)
  return p

/-- `ToUncompressed` (`g2.go:847-863`) -/
def g2ToUncompressed (g : Proj (Fp2 Fq)) : List UInt8 :=
  let t := gToAffine g
  orHead (if g.z = 0 then 0x40 else 0) (fpBE t.x.B ++ fpBE t.x.A ++ fpBE t.y.B ++ fpBE t.y.A)

/-- `FromUncompressed` (`g2.go:865-914`); `input` has 192 bytes -/
def g2FromUncompressed (input : List UInt8) : Go (Proj (Fp2 Fq)) := do
  let infinityFlag := (input.headD 0 >>> 6) &&& 1 == 1
  if infinityFlag then return gIdentity
  let xB := fpSetBE 0 (maskHead (input.take 48))
  Go.guard (xB.2 = true)
  let xA := fpSetBE 0 ((input.drop 48).take 48)
  Go.guard (xA.2 = true)
  let yB := fpSetBE 0 ((input.drop 96).take 48)
  Go.guard (yB.2 = true)
  let yA := fpSetBE 0 (input.drop 144)
  Go.guard (yA.2 = true)
  let p : Proj (Fp2 Fq) := ⟨⟨xA.1, xB.1⟩, ⟨yA.1, yB.1⟩, 1⟩
  Go.guard (gIsOnCurve curveG2B p = true)
  Go.guard (gInSubgroup mulBy3b2 p = true)
  return p

/-- `BigInt` (`g2.go:757-763`): the method encodes the fresh variable `t`, not its receiver -/
def g2BigInt (_g : Proj (Fp2 Fq)) : ℕ × ℕ :=
  let t : Proj (Fp2 Fq) := ⟨0, 0, 0⟩
  let out := g2ToUncompressed t
  (beNat (out.take 96), beNat (out.drop 96))

/-- `SetBigInt` (`g2.go:767-777`): `Bytes` and `FillBytes` use the absolute value, `FillBytes` panics if it
does not fit -/
def g2SetBigInt (x y : ℤ) : Go (Proj (Fp2 Fq)) := do
  if x = 0 ∧ y = 0 then return gIdentity
  if 256 ^ 96 ≤ x.natAbs then Go.crash
  if 256 ^ 96 ≤ y.natAbs then Go.crash
  g2FromUncompressed (beBytes 96 x.natAbs ++ beBytes 96 y.natAbs)

end Verif.Bls381
