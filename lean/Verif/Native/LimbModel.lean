import Mathlib.Data.ZMod.Basic
import Verif.Common.Go
import Verif.Common.Bytes

/-!
# The limb level of the native fields (`pkg/core/curves/native/field.go`)

The comparison helpers are modelled on 64-bit words, instruction by instruction. The functions
generated by fiat-crypto (`Mul`, `Square`, `Add`, `FromMontgomery`, … in `*/f{p,q}/*_f{p,q}.go`) are given here by
what they compute on the integers the limbs stand for: Montgomery multiplication with `R = 2^256`. `Verif.Fiat` has their
code and proves that it computes this.
-/

namespace Verif.Native

/-- `[FieldLimbs]uint64` (`field.go:12,23-25`), least significant limb first -/
structure Limbs where
  l0 : UInt64
  l1 : UInt64
  l2 : UInt64
  l3 : UInt64
  deriving DecidableEq

/-- the integer the limbs stand for -/
def Limbs.val (l : Limbs) : ℕ :=
  l.l0.toNat + 2 ^ 64 * (l.l1.toNat + 2 ^ 64 * (l.l2.toNat + 2 ^ 64 * l.l3.toNat))

/-- the limbs of an integer below `2^256` -/
def Limbs.ofNat (n : ℕ) : Limbs :=
  ⟨UInt64.ofNat n, UInt64.ofNat (n / 2 ^ 64), UInt64.ofNat (n / 2 ^ 128), UInt64.ofNat (n / 2 ^ 192)⟩

/-- `x >> 32 & 1 &^ m` (`field.go:103-106`): all three operators have the same precedence in Go and
associate to the left -/
def borrowBit (x m : UInt64) : UInt64 := ((x >>> 32) &&& 1) &&& ~~~m

/-- one iteration of the loop of `cmpHelper` (`field.go:91-107`) on the state `(gt, lt)` -/
def cmpStep (st : UInt64 × UInt64) (lhs rhs : UInt64) : UInt64 × UInt64 :=
  let rhsH := rhs >>> 32
  let rhsL := rhs &&& 0xffffffff
  let lhsH := lhs >>> 32
  let lhsL := lhs &&& 0xffffffff
  let gt := st.1 ||| borrowBit (rhsH - lhsH) st.2
  let lt := st.2 ||| borrowBit (lhsH - rhsH) gt
  let gt := gt ||| borrowBit (rhsL - lhsL) lt
  let lt := lt ||| borrowBit (lhsL - rhsL) gt
  (gt, lt)

/-- `cmpHelper` (`field.go:88-110`) -/
def cmpHelper (lhs rhs : Limbs) : ℤ :=
  let st := cmpStep (0, 0) lhs.l3 rhs.l3
  let st := cmpStep st lhs.l2 rhs.l2
  let st := cmpStep st lhs.l1 rhs.l1
  let st := cmpStep st lhs.l0 rhs.l0
  (st.1.toNat : ℤ) - st.2.toNat

/-- `int(((int64(t) | int64(-t)) >> 63) + 1)` (`field.go:122,131`): the arithmetic shift of a 64-bit
integer by 63 is `-1` for a set sign bit and `0` otherwise -/
def zeroFlag (t : UInt64) : ℤ := (if (t ||| (0 - t)) >>> 63 = 1 then -1 else 0) + 1

/-- `equalHelper` (`field.go:117-123`) -/
def equalHelper (lhs rhs : Limbs) : ℤ :=
  let t := lhs.l0 ^^^ rhs.l0
  let t := t ||| (lhs.l1 ^^^ rhs.l1)
  let t := t ||| (lhs.l2 ^^^ rhs.l2)
  let t := t ||| (lhs.l3 ^^^ rhs.l3)
  zeroFlag t

/-- `IsZero` (`field.go:126-132`) -/
def isZero (f : Limbs) : ℤ :=
  let t := f.l0
  let t := t ||| f.l1
  let t := t ||| f.l2
  let t := t ||| f.l3
  zeroFlag t

/-- `IsNonZero` (`field.go:135-141`) -/
def isNonZero (f : Limbs) : ℤ :=
  let t := f.l0
  let t := t ||| f.l1
  let t := t ||| f.l2
  let t := t ||| f.l3
  Neg.neg (if (t ||| (0 - t)) >>> 63 = 1 then -1 else 0)

/-! ## Montgomery form -/

/-- `FieldParams` (`field.go:32-43`) -/
structure FieldParams where
  R : Limbs
  R2 : Limbs
  R3 : Limbs
  modulus : Limbs
  biModulus : ℕ

section Mont
variable (P : FieldParams)

/-- the ring of residues -/
abbrev FieldParams.Ring : Type := ZMod P.modulus.val

/-- `FieldArithmetic.Mul` on integers: `a·b·R⁻¹ mod m` -/
def montMul (a b : Limbs) : Limbs :=
  Limbs.ofNat (((a.val : P.Ring) * b.val * (2 ^ 256 : P.Ring)⁻¹).val)

/-- `FieldArithmetic.Add` -/
def montAdd (a b : Limbs) : Limbs := Limbs.ofNat (((a.val : P.Ring) + b.val).val)

/-- `FieldArithmetic.ToMontgomery` -/
def toMont (a : Limbs) : Limbs := Limbs.ofNat (((a.val : P.Ring) * 2 ^ 256).val)

/-- `FieldArithmetic.FromMontgomery` -/
def fromMont (a : Limbs) : Limbs := Limbs.ofNat (((a.val : P.Ring) * (2 ^ 256 : P.Ring)⁻¹).val)

/-- `FieldArithmetic.FromBytes` (little endian) -/
def fromBytes (b : List UInt8) : Limbs := Limbs.ofNat (leNat b)

/-- `FieldArithmetic.ToBytes` (little endian, 32 bytes) -/
def toBytes (a : Limbs) : List UInt8 := leBytes 32 a.val

/-- `Field.SetBytes` (`field.go:226-234`): the new value of the receiver -/
def setBytes (b : List UInt8) : Go Limbs := do
  let d0 := fromBytes b
  Go.guard (¬ (cmpHelper d0 P.modulus ≠ -1))
  .ok (toMont P d0)

/-- `Field.Bytes` (`field.go:266-272`) -/
def bytesOf (v : Limbs) : List UInt8 := toBytes (fromMont P v)

/-- `Field.SetBytesWide` (`field.go:196-222`) -/
def setBytesWide (b : List UInt8) : Limbs :=
  let d0 := fromBytes (b.take 32)
  let d1 := fromBytes (b.drop 32)
  montAdd P (montMul P d0 P.R2) (montMul P d1 P.R3)

/-- `Field.SetBigInt` (`field.go:238-246`): `FillBytes` writes 32 bytes, most significant first; the
error of `SetBytes` is dropped, leaving the old value `f` -/
def setBigIntField (f : Limbs) (bi : ℤ) : Limbs :=
  let t := bi % P.biModulus
  match setBytes P (beBytes 32 t.toNat).reverse with
  | .ok v => v
  | .error _ => f

/-- `Field.BigInt` (`field.go:275-278`) -/
def bigIntOf (v : Limbs) : ℤ := beNat (bytesOf P v).reverse

/-- `Field.SetUint64` (`field.go:158-162`) -/
def setUint64 (n : UInt64) : Limbs := toMont P ⟨n, 0, 0, 0⟩

/-- `Field.SetOne` (`field.go:165-171`) -/
def setOne : Limbs := P.R

/-- `Field.IsOne` (`field.go:144-146`) -/
def isOne (v : Limbs) : ℤ := equalHelper v P.R

/-- the bit `int(exp[i]>>j) & 1` (`field.go:374`) -/
def expBit (e : UInt64) (j : ℕ) : Bool := (e >>> UInt64.ofNat j) &&& 1 = 1

/-- the inner loop of `Pow` over the bits `n-1, …, 0` of one limb (`field.go:371-375`), for any
multiplication -/
def powLimb {M : Type} (mul : M → M → M) (base : M) (e : UInt64) : ℕ → M → M
  | 0, res => res
  | n + 1, res =>
    let res := mul res res
    let tmp := mul res base
    powLimb mul base e n (if expBit e n then tmp else res)

/-- `Pow` (`field.go:366-381`): `one` is `params.R` -/
def pow {M : Type} (mul : M → M → M) (one base : M) (e : Limbs) : M :=
  let res := powLimb mul base e.l3 64 one
  let res := powLimb mul base e.l2 64 res
  let res := powLimb mul base e.l1 64 res
  powLimb mul base e.l0 64 res

/-- `Pow2k` (`field.go:385-401`) -/
def pow2k {M : Type} (mul : M → M → M) (arg : M) : ℕ → M
  | 0 => arg
  | k + 1 => pow2k mul (mul arg arg) k

/-- `Field.Exp` (`field.go:350-355`) -/
def exp (base e : Limbs) : Limbs := pow (montMul P) P.R base (fromMont P e)

end Mont

/-- `k256FqParamsInit` (`k256/fq/fq.go:27-37`) -/
def k256Fq : FieldParams where
  R := ⟨0x402da1732fc9bebf, 0x4551231950b75fc4, 0x0000000000000001, 0x0000000000000000⟩
  R2 := ⟨0x896cf21467d7d140, 0x741496c20e7cf878, 0xe697f5e45bcd07c6, 0x9d671cd581c69bc5⟩
  R3 := ⟨0x7bc0cfe0e9ff41ed, 0x0017648444d4322c, 0xb1b31347f1d0b2da, 0x555d800c18ef116d⟩
  modulus := ⟨0xbfd25e8cd0364141, 0xbaaedce6af48a03b, 0xfffffffffffffffe, 0xffffffffffffffff⟩
  biModulus := 0xfffffffffffffffffffffffffffffffebaaedce6af48a03bbfd25e8cd0364141

/-- `k256FpParamsInit` (`k256/fp/fp.go:27-37`) -/
def k256Fp : FieldParams where
  R := ⟨0x00000001000003d1, 0x0000000000000000, 0x0000000000000000, 0x0000000000000000⟩
  R2 := ⟨0x000007a2000e90a1, 0x0000000000000001, 0x0000000000000000, 0x0000000000000000⟩
  R3 := ⟨0x002bb1e33795f671, 0x0000000100000b73, 0x0000000000000000, 0x0000000000000000⟩
  modulus := ⟨0xfffffffefffffc2f, 0xffffffffffffffff, 0xffffffffffffffff, 0xffffffffffffffff⟩
  biModulus := 0xfffffffffffffffffffffffffffffffffffffffffffffffffffffffefffffc2f

/-- `p256FpParamsInit` (`p256/fp/fp.go:27-37`) -/
def p256Fp : FieldParams where
  R := ⟨0x0000000000000001, 0xffffffff00000000, 0xffffffffffffffff, 0x00000000fffffffe⟩
  R2 := ⟨0x0000000000000003, 0xfffffffbffffffff, 0xfffffffffffffffe, 0x00000004fffffffd⟩
  R3 := ⟨0xfffffffd0000000a, 0xffffffedfffffff7, 0x00000005fffffffc, 0x0000001800000001⟩
  modulus := ⟨0xffffffffffffffff, 0x00000000ffffffff, 0x0000000000000000, 0xffffffff00000001⟩
  biModulus := 0xffffffff00000001000000000000000000000000ffffffffffffffffffffffff

/-- `p256FqParamsInit` (`p256/fq/fq.go:27-38`) -/
def p256Fq : FieldParams where
  R := ⟨0x0c46353d039cdaaf, 0x4319055258e8617b, 0x0000000000000000, 0x00000000ffffffff⟩
  R2 := ⟨0x83244c95be79eea2, 0x4699799c49bd6fa6, 0x2845b2392b6bec59, 0x66e12d94f3d95620⟩
  R3 := ⟨0xac8ebec90b65a624, 0x111f28ae0c0555c9, 0x2543b9246ba5e93f, 0x503a54e76407be65⟩
  modulus := ⟨0xf3b9cac2fc632551, 0xbce6faada7179e84, 0xffffffffffffffff, 0xffffffff00000000⟩
  biModulus := 0xffffffff00000000ffffffffffffffffbce6faada7179e84f3b9cac2fc632551

end Verif.Native
