import Verif.Bls381.LimbModel
import Verif.Native.FieldModel

/-!
# The base field of BLS12-381 on limbs (`pkg/core/curves/native/bls12381/fp.go`)

An `fp` is six 64-bit limbs in Montgomery form, least significant first; here a list. A method takes the
old value of its receiver only where the result depends on it.
-/

namespace Verif.Bls381

/-- `modulus` (`fp.go:17-24`) -/
def fpModulus : List UInt64 :=
  [0xb9feffffffffaaab, 0x1eabfffeb153ffff, 0x6730d2a0f6b0f624, 0x64774b84f38512bf, 0x4b1ba7b6434bacd7,
    0x1a0111ea397fe69a]

/-- `halfModulus` (`fp.go:25-32`) -/
def fpHalf : List UInt64 :=
  [0xdcff7fffffffd556, 0x0f55ffff58a9ffff, 0xb39869507b587b12, 0xb23ba5c279c2895f, 0x258dd3db21a5d66b,
    0x0d0088f51cbff34d]

/-- `r` (`fp.go:34-41`) -/
def fpR : List UInt64 :=
  [0x760900000002fffd, 0xebf4000bc40c0002, 0x5f48985753c758ba, 0x77ce585370525745, 0x5c071a97a256ec6d,
    0x15f65ec3fa80e493]

/-- `r2` (`fp.go:43-50`) -/
def fpR2 : List UInt64 :=
  [0xf4df1f341c341746, 0x0a76e6a609d104f1, 0x8de5476c4c95b6d5, 0x67eb88a9939d83c0, 0x9a793e85b519952d,
    0x11988fe592cae3aa]

/-- `r3` (`fp.go:52-59`) -/
def fpR3 : List UInt64 :=
  [0xed48ac6bd94ca1e0, 0x315f831e03a7adf8, 0x9a53352a615e29dd, 0x34c04e5e921e1761, 0x2512d43565724728,
    0x0aa6346091755d4d]

/-- `biModulus` (`fp.go:60-62`) -/
def fpBiModulus : ℕ :=
  0x1a0111ea397fe69a4b1ba7b6434bacd764774b84f38512bf6730d2a0f6b0f6241eabfffeb153ffffb9feffffffffaaab

/-- `inv` (`fp.go:66`) -/
def fpInv : UInt64 := 0x89f3fffcfffcfffd

/-- `fp.Mul` (`fp.go:311-359`) -/
def fpMul (x y : List UInt64) : List UInt64 := mulMod fpInv fpModulus x y

/-- `fp.Square` (`fp.go:253-303`) -/
def fpSquare (x : List UInt64) : List UInt64 := squareMod fpInv fpModulus x

/-- `fp.Add` (`fp.go:372-386`) -/
def fpAdd (x y : List UInt64) : List UInt64 := addMod fpModulus x y

/-- `fp.Sub` (`fp.go:389-414`) -/
def fpSub (x y : List UInt64) : List UInt64 := subMod fpModulus x y

/-- `fp.Double` (`fp.go:306-308`) -/
def fpDouble (x : List UInt64) : List UInt64 := fpAdd x x

/-- `fp.MulBy3b` (`fp.go:362-369`) -/
def fpMulBy3b (arg : List UInt64) : List UInt64 :=
  let a := fpDouble arg
  let t := fpDouble a
  let a := fpDouble t
  fpAdd a t

/-- `fp.Neg` (`fp.go:227-250`): the mask comes from the argument -/
def fpNeg (a : List UInt64) : List UInt64 :=
  let t := (sbbRow fpModulus a 0).1
  let mask := fullMask (orAll a)
  t.map (· &&& mask)

/-- `fp.toMontgomery` (`fp.go:214-217`) -/
def fpToMont (a : List UInt64) : List UInt64 := fpMul a fpR2

/-- `fp.fromMontgomery`, also `Raw` (`fp.go:220-224`, `:582-585`) -/
def fpFromMont (a : List UInt64) : List UInt64 := fromMontgomery fpInv fpModulus a

/-- `fp.IsOne` (`fp.go:92-94`) -/
def fpIsOne (f : List UInt64) : ℤ := equal f fpR

/-- `fp.Cmp` (`fp.go:99-122`): from the most significant limb down -/
def fpCmp (f rhs : List UInt64) : ℤ :=
  let st := (f.zip rhs).foldr (fun w st => Native.cmpStep st w.1 w.2) (0, 0)
  (st.1.toNat : ℤ) - st.2.toNat

/-- `fp.LexicographicallyLargest` (`fp.go:138-150`): `(int(borrow) - 1) & 1` of a bit -/
def fpLexLargest (f : List UInt64) : ℤ :=
  let ff := fpFromMont f
  let borrow := (sbbRow ff fpHalf 0).2
  ((borrow.toNat : ℤ) - 1) % 2

/-- `fp.Sgn0` (`fp.go:153-156`) -/
def fpSgn0 (f : List UInt64) : ℤ := ((fpFromMont f).headD 0 &&& 1).toNat

/-- `fp.SetUint64` (`fp.go:181-189`) -/
def fpSetUint64 (n : UInt64) : List UInt64 := fpToMont [n, 0, 0, 0, 0, 0]

/-- `fp.SetLimbs` (`fp.go:546-548`) -/
def fpSetLimbs (a : List UInt64) : List UInt64 := fpToMont a

/-- the inner loop of `fp.pow` over the bits `n-1, …, 0` of a limb (`fp.go:618-622`) -/
def fpPowLimb (base : List UInt64) (e : UInt64) : ℕ → List UInt64 → List UInt64
  | 0, res => res
  | n + 1, res =>
    let res := fpSquare res
    let tmp := fpMul res base
    fpPowLimb base e n (cmove res tmp (((e >>> UInt64.ofNat n) &&& 1).toNat))

/-- `fp.pow` (`fp.go:613-631`): from the most significant limb down -/
def fpPow (base e : List UInt64) : List UInt64 := e.foldr (fun w res => fpPowLimb base w 64 res) fpR

/-- `fp.Exp` (`fp.go:608-611`) -/
def fpExp (base e : List UInt64) : List UInt64 := fpPow base (fpFromMont e)

/-- the exponent of `fp.Sqrt` (`fp.go:423-430`) -/
def fpSqrtExp : List UInt64 :=
  [0xee7fbfffffffeaab, 0x07aaffffac54ffff, 0xd9cc34a83dac3d89, 0xd91dd2e13ce144af, 0x92c6e9ed90d2eb35,
    0x0680447a8e5ff9a6]

/-- `fp.Sqrt` (`fp.go:417-436`) on a receiver holding `f`: the new receiver and the flag -/
def fpSqrt (f a : List UInt64) : List UInt64 × ℤ :=
  let z := fpPow a fpSqrtExp
  let c := fpSquare z
  let wasSquare := equal c a
  (cmove f z wasSquare, wasSquare)

/-- the exponent of `fp.Invert` (`fp.go:442-449`) -/
def fpInvExp : List UInt64 :=
  [0xb9feffffffffaaa9, 0x1eabfffeb153ffff, 0x6730d2a0f6b0f624, 0x64774b84f38512bf, 0x4b1ba7b6434bacd7,
    0x1a0111ea397fe69a]

/-- `fp.Invert` (`fp.go:439-453`) -/
def fpInvert (a : List UInt64) : List UInt64 × ℤ :=
  let t := fpPow a fpInvExp
  let wasInverted := isNonZero a
  (cmove a t wasInverted, wasInverted)

/-- `binary.LittleEndian.Uint64` on consecutive groups of eight bytes, `n` times -/
def wordsLE : ℕ → List UInt8 → List UInt64
  | 0, _ => []
  | n + 1, b => UInt64.ofNat (leNat (b.take 8)) :: wordsLE n (b.drop 8)

/-- `binary.LittleEndian.PutUint64` for each limb -/
def bytesLE (l : List UInt64) : List UInt8 := l.flatMap fun w => leBytes 8 w.toNat

/-- `fp.SetBytes` (`fp.go:457-481`) on a receiver holding `f` -/
def fpSetBytes (f : List UInt64) (arg : List UInt8) : List UInt64 × ℤ :=
  let t := wordsLE 6 arg
  let borrow := (sbbRow t fpModulus 0).2
  let mask : ℤ := borrow.toNat
  (cmove f (fpToMont t) mask, mask)

/-- `fp.SetBytesWide` (`fp.go:498-519`) -/
def fpSetBytesWide (a : List UInt8) : List UInt64 :=
  let d0 := wordsLE 6 a
  let d1 := wordsLE 6 (a.drop 48)
  fpAdd (fpMul d0 fpR2) (fpMul d1 fpR3)

/-- `fp.SetBigInt` (`fp.go:523-531`) on a receiver holding `f`: `Mod` is Euclidean, `FillBytes` writes 48
bytes, most significant first -/
def fpSetBigInt (f : List UInt64) (bi : ℤ) : List UInt64 :=
  let t := bi % fpBiModulus
  (fpSetBytes f (beBytes 48 t.toNat).reverse).1

/-- `fp.Bytes` (`fp.go:563-573`) -/
def fpBytes (f : List UInt64) : List UInt8 := bytesLE (fpFromMont f)

/-- `fp.BigInt` (`fp.go:576-579`) -/
def fpBigInt (f : List UInt64) : ℕ := beNat (fpBytes f).reverse

/-- `fp.CNeg` (`fp.go:601-605`) on a receiver holding `f`: for `choice = 0` the receiver keeps its value -/
def fpCNeg (f a : List UInt64) (choice : ℤ) : List UInt64 := cmove f (fpNeg a) choice

/-- `fp.Hash` (`fp.go:205-211`): `xmd` are the 64 bytes of `ExpandMsgXmd` -/
def fpHash (xmd : List UInt8) : List UInt64 := fpSetBytesWide (xmd.reverse ++ List.replicate 32 0)

/-! ## The scalar field (`fq.go`) -/

/-- `fqModulus` (`fq.go:26`) -/
def fqModulus : List UInt64 :=
  [0xffffffff00000001, 0x53bda402fffe5bfe, 0x3339d80809a1d805, 0x73eda753299d7d48]

/-- `qInv` (`fq.go:20`) -/
def fqInv : UInt64 := 0xfffffffeffffffff

/-- `R2` (`fq.go:39`) -/
def fqR2 : List UInt64 :=
  [0xc999e990f3f29c6d, 0x2b6cedcb87925c23, 0x05d314967254398f, 0x0748d9d99f59ff11]

/-- `Mul` (`fq.go:125-151`) -/
def fqMul (x y : List UInt64) : List UInt64 := mulMod fqInv fqModulus x y

/-- `Square` (`fq.go:91-122`) -/
def fqSquare (x : List UInt64) : List UInt64 := squareMod fqInv fqModulus x

/-- `Add` (`fq.go:154-166`) -/
def fqAdd (x y : List UInt64) : List UInt64 := addMod fqModulus x y

/-- `Sub` (`fq.go:169-187`) -/
def fqSub (x y : List UInt64) : List UInt64 := subMod fqModulus x y

/-- `Neg` (`fq.go:70-88`): the mask comes from the difference `t`, not from the argument -/
def fqNeg (arg : List UInt64) : List UInt64 :=
  let t := (sbbRow fqModulus arg 0).1
  let mask := fullMask (orAll t)
  t.map (· &&& mask)

/-- `ToMontgomery` (`fq.go:57-60`) -/
def fqToMont (a : List UInt64) : List UInt64 := fqMul a fqR2

/-- `FromMontgomery` (`fq.go:63-67`) -/
def fqFromMont (a : List UInt64) : List UInt64 := fromMontgomery fqInv fqModulus a

/-- `FromBytes` (`fq.go:354-359`) -/
def fqFromBytes (b : List UInt8) : List UInt64 := wordsLE 4 b

/-- `ToBytes` (`fq.go:362-367`) -/
def fqToBytes (a : List UInt64) : List UInt8 := bytesLE a

end Verif.Bls381
