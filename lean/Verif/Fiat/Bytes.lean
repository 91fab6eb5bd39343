import Verif.Fiat.Syntax

/-!
# Bytes, selection and constants of the generated files

`ToBytes`, `FromBytes`, `Nonzero` and `Selectznz` have the same text in all six files; the lines are those of `k256/fp/secp256k1_fp.go`. The pasta
files have the same code at `pasta_fp.go:1235-1436` under other names.
-/

namespace Verif.Fiat
open Verif.Native

/-- the eight bytes of one limb in `ToBytes` (`secp256k1_fp.go:1393-1406`; the same for the other limbs, `:1407-1448`) -/
def limbBytes (x4 : UInt64) : List UInt8 :=
  let x5 := x4.toUInt8 &&& 0xff
  let x6 := x4 >>> 8
  let x7 := x6.toUInt8 &&& 0xff
  let x8 := x6 >>> 8
  let x9 := x8.toUInt8 &&& 0xff
  let x10 := x8 >>> 8
  let x11 := x10.toUInt8 &&& 0xff
  let x12 := x10 >>> 8
  let x13 := x12.toUInt8 &&& 0xff
  let x14 := x12 >>> 8
  let x15 := x14.toUInt8 &&& 0xff
  let x16 := x14 >>> 8
  let x17 := x16.toUInt8 &&& 0xff
  let x18 := (x16 >>> 8).toUInt8
  [x5, x7, x9, x11, x13, x15, x17, x18]

/-- `ToBytes` (`secp256k1_fp.go:1388-1481`) -/
def toBytes (a : Limbs) : List UInt8 := limbBytes a.l0 ++ limbBytes a.l1 ++ limbBytes a.l2 ++ limbBytes a.l3

/-- one limb of `FromBytes` from the bytes `b i, …, b (i+7)` (`secp256k1_fp.go:1520-1534`; the same for the other limbs) -/
def bytesLimb (b : ℕ → UInt8) (i : ℕ) : UInt64 :=
  let x25 := (b (i + 7)).toUInt64 <<< 56
  let x26 := (b (i + 6)).toUInt64 <<< 48
  let x27 := (b (i + 5)).toUInt64 <<< 40
  let x28 := (b (i + 4)).toUInt64 <<< 32
  let x29 := (b (i + 3)).toUInt64 <<< 24
  let x30 := (b (i + 2)).toUInt64 <<< 16
  let x31 := (b (i + 1)).toUInt64 <<< 8
  let x33 := x31 + (b i).toUInt64
  let x34 := x30 + x33
  let x35 := x29 + x34
  let x36 := x28 + x35
  let x37 := x27 + x36
  let x38 := x26 + x37
  x25 + x38

/-- `FromBytes` (`secp256k1_fp.go:1495-1560`) -/
def fromBytes (b : List UInt8) : Limbs :=
  let f := fun i => b.getD i 0
  ⟨bytesLimb f 0, bytesLimb f 8, bytesLimb f 16, bytesLimb f 24⟩

/-- `Nonzero` (`secp256k1_fp.go:1346-1349`) -/
def nonzeroWord (a : Limbs) : UInt64 := a.l0 ||| (a.l1 ||| (a.l2 ||| a.l3))

/-- `Selectznz` (`secp256k1_fp.go:1362-1376`) -/
def selectznz (c : UInt64) (x y : Limbs) : Limbs :=
  ⟨cmovMul c x.l0 y.l0, cmovMul c x.l1 y.l1, cmovMul c x.l2 y.l2, cmovMul c x.l3 y.l3⟩

/-- `fiat_pasta_fp_selectznz` (`pasta_fp.go:1235-1249`) -/
def selectznzPasta (c : UInt64) (x y : Limbs) : Limbs :=
  ⟨cmovMask c x.l0 y.l0, cmovMask c x.l1 y.l1, cmovMask c x.l2 y.l2, cmovMask c x.l3 y.l3⟩

/-- `SetOne` of secp256k1's base field (`secp256k1_fp.go:1568-1573`) -/
def setOneK256Fp : Limbs := ⟨0x1000003d1, 0, 0, 0⟩

/-- `SetOne` of secp256k1's scalar field (`secp256k1_fq.go:1628-1633`) -/
def setOneK256Fq : Limbs := ⟨0x402da1732fc9bebf, 0x4551231950b75fc4, 1, 0⟩

/-- `SetOne` of P-256's base field (`p256_fp.go:1422-1427`) -/
def setOneP256Fp : Limbs := ⟨1, 0xffffffff00000000, 0xffffffffffffffff, 0xfffffffe⟩

/-- `SetOne` of P-256's scalar field (`p256_fq.go:1610-1615`) -/
def setOneP256Fq : Limbs := ⟨0xc46353d039cdaaf, 0x4319055258e8617b, 0, 0xffffffff⟩

end Verif.Fiat
