import Verif.Bls381.TowerModel
import Verif.Bls381.FpProps

/-!
# Constants of the tower, Frobenius maps and the target group (`fp2.go`, `fp6.go`, `fp12.go`, `gt.go`)

An `fp` is a residue modulo `p`; a constant given by Montgomery limbs is `fpDec` of them.
-/

namespace Verif.Bls381

open Verif.Primes

/-- a residue as the code handles it -/
abbrev Fq := ZMod blsp

/-- `fp.LexicographicallyLargest` (C146) -/
def lexLargest1 (x : Fq) : Bool := decide ((-x).val < x.val)

/-- `fp.Sgn0` (C146) -/
def sgn0of1 (x : Fq) : Bool := decide (x.val % 2 = 1)

/-- `fp2.LexicographicallyLargest` (`fp2.go:73-82`) -/
def lexLargest2 (f : Fp2 Fq) : Bool := lexLargest1 f.B || decide (f.B = 0) && lexLargest1 f.A

/-- `fp2.Sgn0` (`fp2.go:85-92`) -/
def sgn0of2 (f : Fp2 Fq) : Bool :=
  let a := decide (f.A = 0)
  let t := sgn0of1 f.B && a
  let a := !a
  t || sgn0of1 f.A && a

/-- the constant compared with `alpha` in `fp2.Sqrt` (`fp2.go:250-257`) -/
def sqrtM1 : Fq := fpDec
  [0x43f5fffffffcaaae, 0x32b7fff2ed47fffd, 0x07e83a49a2e99d69, 0xeca8f3318332bb7a, 0xef148d1ea0f4c069,
    0x040ab3263eff0206]

/-- `fp2.Sqrt` (`fp2.go:219-283`) -/
def fp2Sqrt (f a : Fp2 Fq) : Fp2 Fq × Bool := Fp2.sqrt sqrtM1 f a

/-- `pm1Div3` (`fp6.go:199-209`) -/
def pm1Div3 : Fp2 Fq := ⟨0, fpDec
  [0xcd03c9e48671f071, 0x5dab22461fcda5d2, 0x587042afd3851b95, 0x8eb60ebe01bacb9e, 0x03f97d6e83d050d2,
    0x18f0206554638741]⟩

/-- `p2m2Div3` (`fp6.go:210-220`) -/
def p2m2Div3 : Fp2 Fq := ⟨fpDec
  [0x890dc9e4867545c3, 0x2af322533285a5d5, 0x50880866309b7e2c, 0xa20d1b8c7e881024, 0x14e4f04fe2db9068,
    0x14e56d3f1564853a], 0⟩

/-- `fp6.FrobeniusMap` (`fp6.go:197-235`) -/
def fp6Frob (arg : Fp6 Fq) : Fp6 Fq :=
  let a := arg.A.conj
  let b := arg.B.conj
  let c := arg.C.conj
  let b := b.mul pm1Div3
  let c := c.mul p2m2Div3
  ⟨a, b, c⟩

/-- `up1epm1div6` (`fp12.go:180-197`): the coefficients `B`, `C` are left zero -/
def up1epm1div6 : Fp6 Fq := ⟨⟨fpDec
  [0x07089552b319d465, 0xc6695f92b50a8313, 0x97e83cccd117228f, 0xa35baecab2dc29ee, 0x1ce393ea5daace4d,
    0x08f2220fb0fb66eb], fpDec
  [0xb2f66aad4ce5d646, 0x5842a06bfc497cec, 0xcf4895d42599d394, 0xc11b9cba40a8e8d0, 0x2e3813cbe5a0de89,
    0x110eefda88847faf]⟩, Fp2.zero, Fp2.zero⟩

/-- `fp12.FrobeniusMap` (`fp12.go:176-208`) -/
def fp12Frob (arg : Fp12 Fq) : Fp12 Fq :=
  let a := fp6Frob arg.A
  let b := fp6Frob arg.B
  let b := b.mul up1epm1div6
  ⟨a, b⟩

/-! ## `gt.go` -/

/-- `FinalExponentiation` (`gt.go:26-71`) on a receiver holding `gt` -/
def finalExponentiation (gt a : Fp12 Fq) : Fp12 Fq :=
  let t0 := fp12Frob a
  let t0 := fp12Frob t0
  let t0 := fp12Frob t0
  let t0 := fp12Frob t0
  let t0 := fp12Frob t0
  let t0 := fp12Frob t0
  let inv := Fp12.invert Fp12.zero a
  let t1 := inv.1
  let wasInverted := inv.2
  let t2 := t0.mul t1
  let t1 := t2
  let t2 := fp12Frob t2
  let t2 := fp12Frob t2
  let t2 := t2.mul t1
  let t1 := cyclotomicSquare t2
  let t1 := t1.conj
  let t3 := cyclotomicExp t2
  let t4 := cyclotomicSquare t3
  let t5 := t1.mul t3
  let t1 := cyclotomicExp t5
  let t0 := cyclotomicExp t1
  let t6 := cyclotomicExp t0
  let t6 := t6.mul t4
  let t4 := cyclotomicExp t6
  let t5 := t5.conj
  let t4 := t4.mul t5
  let t4 := t4.mul t2
  let t5 := t2.conj
  let t1 := t1.mul t2
  let t1 := fp12Frob t1
  let t1 := fp12Frob t1
  let t1 := fp12Frob t1
  let t6 := t6.mul t5
  let t6 := fp12Frob t6
  let t3 := t3.mul t0
  let t3 := fp12Frob t3
  let t3 := fp12Frob t3
  let t3 := t3.mul t1
  let t3 := t3.mul t6
  let t := t3.mul t4
  sel gt t wasInverted

/-- `fp.Bytes` reversed by `internal.ReverseScalarBytes` (C145): 48 bytes, most significant first -/
def fpBE (x : Fq) : List UInt8 := (leBytes 48 x.val).reverse

/-- `fp.SetBytes` of reversed bytes, on a receiver holding `f` (C145) -/
def fpSetBE (f : Fq) (b : List UInt8) : Fq × Bool :=
  if leNat b.reverse < blsp then ((leNat b.reverse : Fq), true) else (f, false)

/-- the coefficients in the order of `Bytes` -/
def coeffs12 (x : Fp12 Fq) : List Fq :=
  [x.A.A.A, x.A.A.B, x.A.B.A, x.A.B.B, x.A.C.A, x.A.C.B, x.B.A.A, x.B.A.B, x.B.B.A, x.B.B.B, x.B.C.A,
    x.B.C.B]

/-- `Gt.Bytes` (`gt.go:97-125`) -/
def gtBytes (gt : Fp12 Fq) : List UInt8 := (coeffs12 gt).flatMap fpBE

/-- the slice `input[i*FieldBytes:(i+1)*FieldBytes]` -/
def gtSlice (input : List UInt8) (i : ℕ) : List UInt8 := (input.drop (48 * i)).take 48

/-- `Gt.SetBytes` (`gt.go:129-163`) on a receiver holding `gt` -/
def gtSetBytes (gt : Fp12 Fq) (input : List UInt8) : Fp12 Fq × Bool :=
  let c0 := fpSetBE gt.A.A.A (gtSlice input 0)
  let c1 := fpSetBE gt.A.A.B (gtSlice input 1)
  let c2 := fpSetBE gt.A.B.A (gtSlice input 2)
  let c3 := fpSetBE gt.A.B.B (gtSlice input 3)
  let c4 := fpSetBE gt.A.C.A (gtSlice input 4)
  let c5 := fpSetBE gt.A.C.B (gtSlice input 5)
  let c6 := fpSetBE gt.B.A.A (gtSlice input 6)
  let c7 := fpSetBE gt.B.A.B (gtSlice input 7)
  let c8 := fpSetBE gt.B.B.A (gtSlice input 8)
  let c9 := fpSetBE gt.B.B.B (gtSlice input 9)
  let c10 := fpSetBE gt.B.C.A (gtSlice input 10)
  let c11 := fpSetBE gt.B.C.B (gtSlice input 11)
  (⟨⟨⟨c0.1, c1.1⟩, ⟨c2.1, c3.1⟩, ⟨c4.1, c5.1⟩⟩, ⟨⟨c6.1, c7.1⟩, ⟨c8.1, c9.1⟩, ⟨c10.1, c11.1⟩⟩⟩,
    c0.2 && c1.2 && c2.2 && c3.2 && c4.2 && c5.2 && c6.2 && c7.2 && c8.2 && c9.2 && c10.2 && c11.2)

/-- `Gt.Generator` (`gt.go:171-288`) -/
def gtGenerator : Fp12 Fq := ⟨⟨⟨fpDec [0x1972e433a01f85c5, 0x97d32b76fd772538, 0xc8ce546fc96bcdf9, 0xcef63e7366d40614, 0xa611342781843780,
      0x13f3448a3fc6d825],
    fpDec [0xd26331b02e9d6995, 0x9d68a482f7797e7d, 0x9c9b29248d39ea92, 0xf4801ca2e13107aa, 0xa16c0732bdbcb066,
      0x083ca4afba360478]⟩,
  ⟨fpDec [0x59e261db0916b641, 0x2716b6f4b23e960d, 0xc8e55b10a0bd9c45, 0x0bdb0bd99c4deda8, 0x8cf89ebf57fdaac5,
      0x12d6b7929e777a5e],
    fpDec [0x5fc85188b0e15f35, 0x34a06e3a8f096365, 0xdb3126a6e02ad62c, 0xfc6f5aa97d9a990b, 0xa12f55f5eb89c210,
      0x1723703a926f8889]⟩,
  ⟨fpDec [0x93588f2971828778, 0x43f65b8611ab7585, 0x3183aaf5ec279fdf, 0xfa73d7e18ac99df6, 0x64e176a6a64c99b0,
      0x179fa78c58388f1f],
    fpDec [0x672a0a11ca2aef12, 0x0d11b9b52aa3f16b, 0xa44412d0699d056e, 0xc01d0177221a5ba5, 0x66e0cede6c735529,
      0x05f5a71e9fddc339]⟩⟩,
  ⟨⟨fpDec [0xd30a88a1b062c679, 0x5ac56a5d35fc8304, 0xd0c834a6a81f290d, 0xcd5430c2da3707c7, 0xf0c27ff780500af0,
      0x09245da6e2d72eae],
    fpDec [0x9f2e0676791b5156, 0xe2d1c8234918fe13, 0x4c9e459f3c561bf4, 0xa3e85e53b9d3e3c1, 0x820a121e21a70020,
      0x15af618341c59acc]⟩,
  ⟨fpDec [0x7c95658c24993ab1, 0x73eb38721ca886b9, 0x5256d749477434bc, 0x8ba41902ea504a8b, 0x04a3d3f80c86ce6d,
      0x18a64a87fb686eaa],
    fpDec [0xbb83e71bb920cf26, 0x2a5277ac92a73945, 0xfc0ee59f94f046a0, 0x7158cdf3786058f7, 0x7cc1061b82f945f6,
      0x03f847aa9fdbe567]⟩,
  ⟨fpDec [0x8078dba56134e657, 0x1cd7ec9a43998a6e, 0xb1aa599a1a993766, 0xc9a0f62f0842ee44, 0x8e159be3b605dffa,
      0x0c86ba0d4af13fc2],
    fpDec [0xe80ff2a06a52ffb1, 0x7694ca48721a906c, 0x7583183e03b08514, 0xf567afdd40cee4e2, 0x9a6d96d2e526a5fc,
      0x197e9f49861f2242]⟩⟩⟩

/-- `Gt.Add` (`gt.go:291-294`) -/
def gtAdd (a b : Fp12 Fq) : Fp12 Fq := a.mul b

/-- `Gt.Double` (`gt.go:297-300`) -/
def gtDouble (a : Fp12 Fq) : Fp12 Fq := a.square

/-- `Gt.Sub` (`gt.go:303-308`) -/
def gtSub (a b : Fp12 Fq) : Fp12 Fq := a.mul b.conj

/-- `Gt.Neg` (`gt.go:311-314`) -/
def gtNeg (a : Fp12 Fq) : Fp12 Fq := a.conj

/-- `Gt.Square` (`gt.go:341-344`) -/
def gtSquare (a : Fp12 Fq) : Fp12 Fq := cyclotomicSquare a

/-- the table of `Gt.Mul` (`gt.go:322-327`): the entry 0 keeps Go's zero value -/
def gtTable (f : Fp12 Fq) : List (Fp12 Fq) :=
  [2, 4, 6, 8, 10, 12, 14].foldl
    (fun pre i =>
      let pre := pre.set i (pre.getD (i / 2) Fp12.zero).square
      pre.set (i + 1) ((pre.getD i Fp12.zero).mul f))
    ((List.replicate 16 Fp12.zero).set 1 f)

/-- the window of round `i` (`gt.go:333`): `bytes[31 - i/8] >> (4 - i&4) & 15` -/
def gtWindow (bytes : List UInt8) (i : ℕ) : ℕ :=
  (bytes.getD (31 - i / 8) 0).toNat / 2 ^ (4 - i % 8 / 4 * 4) % 16

/-- `Gt.Mul` (`gt.go:317-338`): `bytes` are the little-endian bytes of the scalar; the accumulator `p` starts
from Go's zero value -/
def gtMul (a : Fp12 Fq) (bytes : List UInt8) : Fp12 Fq :=
  let pre := gtTable a
  (List.range 64).foldl
    (fun p k => p.square.square.square.square.mul (pre.getD (gtWindow bytes (4 * k)) Fp12.zero))
    Fp12.zero

end Verif.Bls381
