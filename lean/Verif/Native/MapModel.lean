import Verif.Native.CurveProps

/-!
# Hashing to secp256k1 and P-256 (`native/osswu.go`, `native/isogeny.go`, `native/hash2field.go`, the `Hash`
methods of `native/k256/point.go` and `native/p256/point.go`)

A `Field` is a residue; the arithmetic of the limbs is C53–C57, C113.  A hash function is its function on byte
strings, with its output and block length; an extendable-output function also takes the number of bytes read.
-/

namespace Verif.Native

open Primes

section Maps
variable {F : Type} [Field F] [DecidableEq F]

/-- `SswuParams` (`osswu.go:5-7`); the exponent `C1` is plain limbs -/
structure SswuParams (F : Type) where
  C1 : Limbs
  C2 : F
  A : F
  B : F
  Z : F

/-- `Osswu3mod4` (`osswu.go:11-82`); `sgn` is the lowest bit of `Bytes()` -/
def osswu3mod4 (sgn : F → Bool) (p : SswuParams F) (u : F) : F × F :=
  let tv1 := u * u
  let tv3 := p.Z * tv1
  let tv2 := tv3 * tv3
  let xd := tv2 + tv3
  let x1n := 1 + xd
  let x1n := x1n * p.B
  let aNeg := -p.A
  let xd := xd * aNeg
  let xdIsZero := decide (xd = 0)
  let zA := p.Z * p.A
  let xd := if xdIsZero then zA else xd
  let tv2 := xd * xd
  let gxd := tv2 * xd
  let tv2 := tv2 * p.A
  let gx1 := x1n * x1n
  let gx1 := gx1 + tv2
  let gx1 := gx1 * x1n
  let tv2 := gxd * p.B
  let gx1 := gx1 + tv2
  let tv4 := gxd * gxd
  let tv2 := gx1 * gxd
  let tv4 := tv4 * tv2
  let y1 := pow (· * ·) 1 tv4 p.C1
  let y1 := y1 * tv2
  let x2n := tv3 * x1n
  let y2 := y1 * p.C2
  let y2 := y2 * tv1
  let y2 := y2 * u
  let tv2 := y1 * y1
  let tv2 := tv2 * gxd
  let e2 := decide (tv2 = gx1)
  let x := if e2 then x1n else x2n
  let wi := invert xd
  let tv1 := x * wi.2
  let x := if wi.1 then tv1 else x
  let y := if e2 then y1 else y2
  let y := if sgn u != sgn y then -y else y
  (x, y)

/-- `IsogenyParams` (`isogeny.go:4-9`) -/
structure IsogenyParams (F : Type) where
  xNum : List F
  xDen : List F
  yNum : List F
  yDen : List F

/-- the powers `xs[3], xs[4], …` (`isogeny.go:30-33`): `n` of them, after `last` -/
def isoTail (x : F) : ℕ → F → List F
  | 0, _ => []
  | n + 1, last => (last * x) :: isoTail x n (last * x)

/-- the powers of `x` (`isogeny.go:26-33`) for `degree ≥ 3` -/
def isoXs (x : F) (degree : ℕ) : List F := 1 :: x :: (x * x) :: isoTail x (degree - 3) (x * x)

/-- `computeIsoK` (`isogeny.go:52-59`) -/
def computeIsoK (xxs k : List F) : F := (xxs.zip k).foldl (fun out p => out + p.1 * p.2) 0

/-- `IsogenyParams.Map` (`isogeny.go:12-50`) -/
def IsogenyParams.map (p : IsogenyParams F) (xIn yIn : F) : F × F :=
  let degree := max (max p.xNum.length p.xDen.length) (max p.yNum.length p.yDen.length)
  let xs := isoXs xIn degree
  let xNum := computeIsoK xs p.xNum
  let xDen := computeIsoK xs p.xDen
  let yNum := computeIsoK xs p.yNum
  let yDen := computeIsoK xs p.yDen
  let wi := invert xDen
  let tv := xNum * wi.2
  let x := if wi.1 then tv else xIn
  let wi := invert yDen
  let tv := yNum * wi.2
  let y := if wi.1 then tv else yIn
  let y := y * yIn
  (x, y)

end Maps

/-! ## Expanding a message -/

/-- `EllipticPointHasher` (`point.go:64-69`) by what `Hash` uses of it -/
inductive Hasher where
  /-- a hash with `size` output bytes and blocks of `block` bytes -/
  | xmd (H : List UInt8 → List UInt8) (size block : ℕ)
  /-- an extendable-output function: input and number of bytes read -/
  | xof (X : List UInt8 → ℕ → List UInt8)

/-- `OversizeDstSalt` (`hash2field.go:10`) -/
def oversizeDstSalt : List UInt8 := "H2C-OVERSIZE-DST-".toUTF8.toList

/-- `getDomainXmd` (`hash2field.go:15-26`) -/
def getDomainXmd (H : List UInt8 → List UInt8) (domain : List UInt8) : List UInt8 :=
  if domain.length > 255 then H (oversizeDstSalt ++ domain) else domain

/-- `getDomainXof` (`hash2field.go:28-41`) -/
def getDomainXof (X : List UInt8 → ℕ → List UInt8) (domain : List UInt8) : List UInt8 :=
  if domain.length > 255 then X (oversizeDstSalt ++ domain) 64 else domain

/-- the loop of `ExpandMsgXmd` (`hash2field.go:72-89`): `k` rounds left, counter `i`, current block `bi`; the
blocks copied to `out` -/
def xmdLoop (H : List UInt8 → List UInt8) (b0 dstPrime : List UInt8) : ℕ → ℕ → List UInt8 → List (List UInt8)
  | 0, _, bi => [bi]
  | k + 1, i, bi =>
    let tmp := List.zipWith (· ^^^ ·) b0 bi
    bi :: xmdLoop H b0 dstPrime k (i + 1) (H (tmp ++ [1 + UInt8.ofNat i] ++ dstPrime))

/-- `ExpandMsgXmd` (`hash2field.go:46-91`) for `outLen > 0`; `copy` into `out` stops at its end -/
def expandMsgXmd (H : List UInt8 → List UInt8) (size block : ℕ) (msg domain : List UInt8) (outLen : ℕ) :
    List UInt8 :=
  let domain := getDomainXmd H domain
  let domainLen := UInt8.ofNat domain.length
  let b0 := H (List.replicate block (0 : UInt8) ++ msg ++ [UInt8.ofNat (outLen >>> 8), UInt8.ofNat outLen] ++ [0] ++ domain
    ++ [domainLen])
  let b1 := H (b0 ++ [1] ++ domain ++ [domainLen])
  let ell := (outLen + size - 1) / size
  ((xmdLoop H b0 (domain ++ [domainLen]) (ell - 1) 1 b1).flatten).take outLen

/-- `ExpandMsgXof` (`hash2field.go:96-107`) -/
def expandMsgXof (X : List UInt8 → ℕ → List UInt8) (msg domain : List UInt8) (outLen : ℕ) : List UInt8 :=
  let domain := getDomainXof X domain
  let domainLen := UInt8.ofNat domain.length
  X (msg ++ [UInt8.ofNat (outLen >>> 8), UInt8.ofNat outLen] ++ domain ++ [domainLen]) outLen

/-- the `switch` on the type of the hasher (`k256/point.go:251-256`) -/
def Hasher.expand (h : Hasher) (msg dst : List UInt8) (outLen : ℕ) : List UInt8 :=
  match h with
  | .xmd H size block => expandMsgXmd H size block msg dst outLen
  | .xof X => expandMsgXof X msg dst outLen

/-! ## secp256k1 and P-256 -/

/-- the lowest bit of `Bytes()` -/
def lowBitOf {p : ℕ} (x : ZMod p) : Bool := decide (x.val % 2 = 1)

/-- 48 bytes of the expanded message as a field element: reversed, padded to 64 bytes and reduced by `SetBytesWide`
(`k256/point.go:257-261`, `p256/point.go:114-118`) -/
def elem48 (p : ℕ) (P : FieldParams) (u : List UInt8) : ZMod p :=
  unMont p (setBytesWide P (u.reverse ++ List.replicate 16 0))

/-- `k256PointSswuParamsInit` (`k256/point.go:122-133`) -/
def K256.sswu : SswuParams (ZMod k256p) where
  C1 := ⟨0xffffffffbfffff0b, 0xffffffffffffffff, 0xffffffffffffffff, 0x3fffffffffffffff⟩
  C2 := unMont k256p ⟨0x5b57ba53a30d1520, 0x908f7cef34a762eb, 0x190b0ffe068460c8, 0x98a9828e8f00ff62⟩
  A := unMont k256p ⟨0xdb714ce7b18444a1, 0x4458ce38a32a19a2, 0xa0e58ae2837bfbf0, 0x505aabc49336d959⟩
  B := unMont k256p ⟨0x000006eb001a66db, 0x0000000000000000, 0x0000000000000000, 0x0000000000000000⟩
  Z := unMont k256p ⟨0xfffffff3ffffd234, 0xffffffffffffffff, 0xffffffffffffffff, 0xffffffffffffffff⟩

/-- the limbs of `k256PointIsogenyInit` (`k256/point.go:136-237`) -/
def K256.isoLimbs : IsogenyParams Limbs where
  xNum := [
    ⟨0x0000003b1c72a8b4, 0x0000000000000000, 0x0000000000000000, 0x0000000000000000⟩,
    ⟨0xd5bd51a17b2edf46, 0x2cc06f7c86b86bcd, 0x50b37e74f3294a00, 0xeb32314a9da73679⟩,
    ⟨0x48c18b1b0d2191bd, 0x5a3f74c29bfccce3, 0xbe55a02e5e8bd357, 0x09bf218d11fff905⟩,
    ⟨0x000000001c71c789, 0x0000000000000000, 0x0000000000000000, 0x0000000000000000⟩]
  xDen := [
    ⟨0x8af79c1ffdf1e7fa, 0xb84bc22235735eb5, 0x82ee5655a55ace04, 0xce4b32dea0a2becb⟩,
    ⟨0x8ecde3f3762e1fa5, 0x2c3b1ad77be333fd, 0xb102a1a152ea6e12, 0x57b82df5a1ffc133⟩,
    ⟨0x00000001000003d1, 0x0000000000000000, 0x0000000000000000, 0x0000000000000000⟩]
  yNum := [
    ⟨0xffffffce425e12c3, 0xffffffffffffffff, 0xffffffffffffffff, 0xffffffffffffffff⟩,
    ⟨0xba60d5fd6e56922e, 0x4ec198c898a435f2, 0x27e77a577b9764ab, 0xb3b80a1197651d12⟩,
    ⟨0xa460c58d0690c6f6, 0xad1fba614dfe6671, 0xdf2ad0172f45e9ab, 0x84df90c688fffc82⟩,
    ⟨0x00000000097b4283, 0x0000000000000000, 0x0000000000000000, 0x0000000000000000⟩]
  yDen := [
    ⟨0xfffffd0afff4b6fb, 0xffffffffffffffff, 0xffffffffffffffff, 0xffffffffffffffff⟩,
    ⟨0xa0e6d461f9d5bf90, 0x28e34666a05a1c20, 0x88cb0300f0106a0e, 0x6ae1989be1e83c62⟩,
    ⟨0x5634d5edb1453160, 0x4258a84339d4cdfc, 0x8983f271fc5fa51b, 0x039444f072ffa1cd⟩,
    ⟨0x00000001000003d1, 0x0000000000000000, 0x0000000000000000, 0x0000000000000000⟩]

/-- `k256PointIsogenyInit` (`k256/point.go:136-237`) -/
def K256.iso : IsogenyParams (ZMod k256p) where
  xNum := K256.isoLimbs.xNum.map (unMont k256p)
  xDen := K256.isoLimbs.xDen.map (unMont k256p)
  yNum := K256.isoLimbs.yNum.map (unMont k256p)
  yDen := K256.isoLimbs.yDen.map (unMont k256p)

/-- one point of `Hash` for secp256k1 (`k256/point.go:263-268`) -/
def K256.mapToCurve (u : ZMod k256p) : Proj (ZMod k256p) :=
  let r := osswu3mod4 lowBitOf K256.sswu u
  let q := K256.iso.map r.1 r.2
  ⟨q.1, q.2, 1⟩

/-- `k256PointArithmetic.Hash` (`k256/point.go:246-277`) -/
def K256.hash (h : Hasher) (msg dst : List UInt8) : Proj (ZMod k256p) :=
  let u := h.expand msg dst 96
  let u0 := elem48 k256p k256Fp (u.take 48)
  let u1 := elem48 k256p k256Fp (u.drop 48)
  K256.add K256.b (K256.mapToCurve u0) (K256.mapToCurve u1)

/-- `p256PointSswuParamsInit` (`p256/point.go:93-99`) -/
def P256.sswu : SswuParams (ZMod p256p) where
  C1 := ⟨0xffffffffffffffff, 0x000000003fffffff, 0x4000000000000000, 0x3fffffffc0000000⟩
  C2 := unMont p256p ⟨0x53e43951f64fdbe7, 0xb2806c63966a1a66, 0x1ac5d59c3298bf50, 0xa3323851ba997e27⟩
  A := unMont p256p ⟨0xfffffffffffffffc, 0x00000003ffffffff, 0x0000000000000000, 0xfffffffc00000004⟩
  B := unMont p256p ⟨0xd89cdf6229c4bddf, 0xacf005cd78843090, 0xe5a220abf7212ed6, 0xdc30061d04874834⟩
  Z := unMont p256p ⟨0xfffffffffffffff5, 0x0000000affffffff, 0x0000000000000000, 0xfffffff50000000b⟩

/-- one point of `Hash` for P-256 (`p256/point.go:120-127`) -/
def P256.mapToCurve (u : ZMod p256p) : Proj (ZMod p256p) :=
  let q := osswu3mod4 lowBitOf P256.sswu u
  ⟨q.1, q.2, 1⟩

/-- `p256PointArithmetic.Hash` (`p256/point.go:104-132`) -/
def P256.hash (h : Hasher) (msg dst : List UInt8) : Proj (ZMod p256p) :=
  let u := h.expand msg dst 96
  let u0 := elem48 p256p p256Fp (u.take 48)
  let u1 := elem48 p256p p256Fp (u.drop 48)
  P256.add P256.b (P256.mapToCurve u0) (P256.mapToCurve u1)

end Verif.Native
