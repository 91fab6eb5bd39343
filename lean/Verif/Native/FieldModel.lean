import Verif.Native.LimbModel

/-!
# Inversion, square roots and the Pasta fields

* the addition chains of `Invert` for any multiplication, and `Invert` on limbs;
* `Sqrt`: the exponent `(p+1)/4` for secp256k1 and P-256, Tonelli–Shanks elsewhere;
* `pkg/core/curves/native/pasta/fp/fp.go`, `.../fq/fq.go`: comparison and decoding.
-/

namespace Verif.Native

/-! ## Inversion -/

/-- the addition chain of `Invert` (`native/k256/fp/fp.go:104-157`) -/
def k256FpChain {α : Type} (mul : α → α → α) (arg : α) : α :=
  let x2 := pow2k mul arg 1
  let x2 := mul x2 arg
  let x3 := pow2k mul x2 1
  let x3 := mul x3 arg
  let x6 := pow2k mul x3 3
  let x6 := mul x6 x3
  let x9 := pow2k mul x6 3
  let x9 := mul x9 x3
  let x11 := pow2k mul x9 2
  let x11 := mul x11 x2
  let x22 := pow2k mul x11 11
  let x22 := mul x22 x11
  let x44 := pow2k mul x22 22
  let x44 := mul x44 x22
  let x88 := pow2k mul x44 44
  let x88 := mul x88 x44
  let x176 := pow2k mul x88 88
  let x176 := mul x176 x88
  let x220 := pow2k mul x176 44
  let x220 := mul x220 x44
  let x223 := pow2k mul x220 3
  let x223 := mul x223 x3
  let s := pow2k mul x223 23
  let s := mul s x22
  let s := pow2k mul s 5
  let s := mul s arg
  let s := pow2k mul s 3
  let s := mul s x2
  let s := pow2k mul s 2
  let s := mul s arg
  s

/-- the addition chain of `Invert` (`native/k256/fq/fq.go:146-260`) -/
def k256FqChain {α : Type} (mul : α → α → α) (arg : α) : α :=
  let x1 := arg
  let x10 := pow2k mul arg 1
  let x11 := mul x10 x1
  let x101 := mul x10 x11
  let x111 := mul x10 x101
  let x1001 := mul x10 x111
  let x1011 := mul x10 x1001
  let x1101 := mul x10 x1011
  let x6 := pow2k mul x1101 2
  let x6 := mul x6 x1011
  let x8 := pow2k mul x6 2
  let x8 := mul x8 x11
  let x14 := pow2k mul x8 6
  let x14 := mul x14 x6
  let x28 := pow2k mul x14 14
  let x28 := mul x28 x14
  let x56 := pow2k mul x28 28
  let x56 := mul x56 x28
  let tmp := pow2k mul x56 56
  let tmp := mul tmp x56
  let tmp := pow2k mul tmp 14
  let tmp := mul tmp x14
  let tmp := pow2k mul tmp 3
  let tmp := mul tmp x101
  let tmp := pow2k mul tmp 4
  let tmp := mul tmp x111
  let tmp := pow2k mul tmp 4
  let tmp := mul tmp x101
  let tmp := pow2k mul tmp 5
  let tmp := mul tmp x1011
  let tmp := pow2k mul tmp 4
  let tmp := mul tmp x1011
  let tmp := pow2k mul tmp 4
  let tmp := mul tmp x111
  let tmp := pow2k mul tmp 5
  let tmp := mul tmp x111
  let tmp := pow2k mul tmp 6
  let tmp := mul tmp x1101
  let tmp := pow2k mul tmp 4
  let tmp := mul tmp x101
  let tmp := pow2k mul tmp 3
  let tmp := mul tmp x111
  let tmp := pow2k mul tmp 5
  let tmp := mul tmp x1001
  let tmp := pow2k mul tmp 6
  let tmp := mul tmp x101
  let tmp := pow2k mul tmp 10
  let tmp := mul tmp x111
  let tmp := pow2k mul tmp 4
  let tmp := mul tmp x111
  let tmp := pow2k mul tmp 9
  let tmp := mul tmp x8
  let tmp := pow2k mul tmp 5
  let tmp := mul tmp x1001
  let tmp := pow2k mul tmp 6
  let tmp := mul tmp x1011
  let tmp := pow2k mul tmp 4
  let tmp := mul tmp x1101
  let tmp := pow2k mul tmp 5
  let tmp := mul tmp x11
  let tmp := pow2k mul tmp 6
  let tmp := mul tmp x1101
  let tmp := pow2k mul tmp 10
  let tmp := mul tmp x1101
  let tmp := pow2k mul tmp 4
  let tmp := mul tmp x1001
  let tmp := pow2k mul tmp 6
  let tmp := mul tmp x1
  let tmp := pow2k mul tmp 8
  let tmp := mul tmp x6
  tmp

/-- the addition chain of `Invert` (`native/p256/fq/fq.go:147-266`) -/
def p256FqChain {α : Type} (mul : α → α → α) (arg : α) : α :=
  let x1 := arg
  let x10 := pow2k mul arg 1
  let x11 := mul x10 x1
  let x101 := mul x10 x11
  let x111 := mul x10 x101
  let x1010 := pow2k mul x101 1
  let x1111 := mul x101 x1010
  let x10101 := pow2k mul x1010 1
  let x10101 := mul x10101 x1
  let x101010 := pow2k mul x10101 1
  let x101111 := mul x101 x101010
  let x6 := mul x10101 x101010
  let x8 := pow2k mul x6 2
  let x8 := mul x8 x11
  let x16 := pow2k mul x8 8
  let x16 := mul x16 x8
  let x32 := pow2k mul x16 16
  let x32 := mul x32 x16
  let tmp := pow2k mul x32 64
  let tmp := mul tmp x32
  let tmp := pow2k mul tmp 32
  let tmp := mul tmp x32
  let tmp := pow2k mul tmp 6
  let tmp := mul tmp x101111
  let tmp := pow2k mul tmp 5
  let tmp := mul tmp x111
  let tmp := pow2k mul tmp 4
  let tmp := mul tmp x11
  let tmp := pow2k mul tmp 5
  let tmp := mul tmp x1111
  let tmp := pow2k mul tmp 5
  let tmp := mul tmp x10101
  let tmp := pow2k mul tmp 4
  let tmp := mul tmp x101
  let tmp := pow2k mul tmp 3
  let tmp := mul tmp x101
  let tmp := pow2k mul tmp 3
  let tmp := mul tmp x101
  let tmp := pow2k mul tmp 5
  let tmp := mul tmp x111
  let tmp := pow2k mul tmp 9
  let tmp := mul tmp x101111
  let tmp := pow2k mul tmp 6
  let tmp := mul tmp x1111
  let tmp := pow2k mul tmp 2
  let tmp := mul tmp x1
  let tmp := pow2k mul tmp 5
  let tmp := mul tmp x1
  let tmp := pow2k mul tmp 6
  let tmp := mul tmp x1111
  let tmp := pow2k mul tmp 5
  let tmp := mul tmp x111
  let tmp := pow2k mul tmp 4
  let tmp := mul tmp x111
  let tmp := pow2k mul tmp 5
  let tmp := mul tmp x111
  let tmp := pow2k mul tmp 5
  let tmp := mul tmp x101
  let tmp := pow2k mul tmp 3
  let tmp := mul tmp x11
  let tmp := pow2k mul tmp 10
  let tmp := mul tmp x101111
  let tmp := pow2k mul tmp 2
  let tmp := mul tmp x11
  let tmp := pow2k mul tmp 5
  let tmp := mul tmp x11
  let tmp := pow2k mul tmp 5
  let tmp := mul tmp x11
  let tmp := pow2k mul tmp 3
  let tmp := mul tmp x1
  let tmp := pow2k mul tmp 7
  let tmp := mul tmp x10101
  let tmp := pow2k mul tmp 6
  let tmp := mul tmp x1111
  tmp

/-- the addition chain of `Invert` (`native/bls12381/fq.go:253-351`) -/
def blsFqChain {α : Type} (mul : α → α → α) (arg : α) : α :=
  let t0 := mul arg arg
  let t1 := mul t0 arg
  let t16 := mul t0 t0
  let t6 := mul t16 t16
  let t5 := mul t6 t0
  let t0 := mul t6 t16
  let t12 := mul t5 t16
  let t2 := mul t6 t6
  let t7 := mul t5 t6
  let t15 := mul t0 t5
  let t17 := mul t12 t12
  let t1 := mul t1 t17
  let t3 := mul t7 t2
  let t8 := mul t1 t17
  let t4 := mul t8 t2
  let t9 := mul t8 t7
  let t7 := mul t4 t5
  let t11 := mul t4 t17
  let t5 := mul t9 t17
  let t14 := mul t7 t15
  let t13 := mul t11 t12
  let t12 := mul t11 t17
  let t15 := mul t15 t12
  let t16 := mul t16 t15
  let t3 := mul t3 t16
  let t17 := mul t17 t3
  let t0 := mul t0 t17
  let t6 := mul t6 t0
  let t2 := mul t2 t6
  let t0 := pow2k mul t0 8
  let t0 := mul t0 t17
  let t0 := pow2k mul t0 9
  let t0 := mul t0 t16
  let t0 := pow2k mul t0 9
  let t0 := mul t0 t15
  let t0 := pow2k mul t0 9
  let t0 := mul t0 t15
  let t0 := pow2k mul t0 7
  let t0 := mul t0 t14
  let t0 := pow2k mul t0 7
  let t0 := mul t0 t13
  let t0 := pow2k mul t0 10
  let t0 := mul t0 t12
  let t0 := pow2k mul t0 9
  let t0 := mul t0 t11
  let t0 := pow2k mul t0 8
  let t0 := mul t0 t8
  let t0 := pow2k mul t0 8
  let t0 := mul t0 arg
  let t0 := pow2k mul t0 14
  let t0 := mul t0 t9
  let t0 := pow2k mul t0 10
  let t0 := mul t0 t8
  let t0 := pow2k mul t0 15
  let t0 := mul t0 t7
  let t0 := pow2k mul t0 10
  let t0 := mul t0 t6
  let t0 := pow2k mul t0 8
  let t0 := mul t0 t5
  let t0 := pow2k mul t0 16
  let t0 := mul t0 t3
  let t0 := pow2k mul t0 8
  let t0 := mul t0 t2
  let t0 := pow2k mul t0 7
  let t0 := mul t0 t4
  let t0 := pow2k mul t0 9
  let t0 := mul t0 t2
  let t0 := pow2k mul t0 8
  let t0 := mul t0 t3
  let t0 := pow2k mul t0 8
  let t0 := mul t0 t2
  let t0 := pow2k mul t0 8
  let t0 := mul t0 t2
  let t0 := pow2k mul t0 8
  let t0 := mul t0 t2
  let t0 := pow2k mul t0 8
  let t0 := mul t0 t3
  let t0 := pow2k mul t0 8
  let t0 := mul t0 t2
  let t0 := pow2k mul t0 8
  let t0 := mul t0 t2
  let t0 := pow2k mul t0 5
  let t0 := mul t0 t1
  let t0 := pow2k mul t0 5
  let t0 := mul t0 t1
  t0

/-- `n`-fold iteration of a loop body -/
def loopN {α : Type} (f : α → α) : ℕ → α → α
  | 0, x => x
  | n + 1, x => loopN f n (f x)

/-- one turn of the second loop of the P-256 `Invert` (`native/p256/fp/fp.go:127-145`) for index `i` -/
def p256FpStep {α : Type} (mul : α → α → α) (arg t r : α) (i : ℕ) : α :=
  let r := mul r r
  if i = 0 ∨ i = 2 ∨ i = 192 ∨ i = 224 then mul r arg
  else if i = 3 ∨ i = 34 ∨ i = 65 then mul r t
  else r

/-- the second loop, for the indices `n-1, …, 0` -/
def p256FpLoop {α : Type} (mul : α → α → α) (arg t : α) : ℕ → α → α
  | 0, r => r
  | n + 1, r => p256FpLoop mul arg t n (p256FpStep mul arg t r n)

/-- the exponentiation of the P-256 `Invert` (`native/p256/fp/fp.go:119-145`) -/
def p256FpChain {α : Type} (mul : α → α → α) (arg : α) : α :=
  let t := loopN (fun t => mul (mul t t) arg) 30 arg
  p256FpLoop mul arg t 225 t

/-- the end of every `FieldArithmetic.Invert` (e.g. `native/k256/fp/fp.go:153-157`): the flag
`wasInverted` and the new value of `out`; `s` is the power computed by the chain -/
def invertWith (s out arg : Limbs) : ℤ × Limbs :=
  let wasInverted := isNonZero arg
  (wasInverted, if wasInverted = 1 then s else out)

/-- `k256FpArithmetic.Invert` (`native/k256/fp/fp.go:104-157`) -/
def k256FpInvert (out arg : Limbs) : ℤ × Limbs := invertWith (k256FpChain (montMul k256Fp) arg) out arg
/-- `k256FqArithmetic.Invert` (`native/k256/fq/fq.go:146-260`) -/
def k256FqInvert (out arg : Limbs) : ℤ × Limbs := invertWith (k256FqChain (montMul k256Fq) arg) out arg
/-- `p256FpArithmetic.Invert` (`native/p256/fp/fp.go:103-153`) -/
def p256FpInvert (out arg : Limbs) : ℤ × Limbs := invertWith (p256FpChain (montMul p256Fp) arg) out arg
/-- `p256FqArithmetic.Invert` (`native/p256/fq/fq.go:147-266`) -/
def p256FqInvert (out arg : Limbs) : ℤ × Limbs := invertWith (p256FqChain (montMul p256Fq) arg) out arg

/-- `bls12381FqParamsInit` (`native/bls12381/fq.go:36-45`) -/
def blsFq : FieldParams where
  R := ⟨0x00000001fffffffe, 0x5884b7fa00034802, 0x998c4fefecbc4ff5, 0x1824b159acc5056f⟩
  R2 := ⟨0xc999e990f3f29c6d, 0x2b6cedcb87925c23, 0x05d314967254398f, 0x0748d9d99f59ff11⟩
  R3 := ⟨0xc62c1807439b73af, 0x1b3e0d188cf06990, 0x73d13c71c7b5f418, 0x6e2a5bb9c8db33e9⟩
  modulus := ⟨0xffffffff00000001, 0x53bda402fffe5bfe, 0x3339d80809a1d805, 0x73eda753299d7d48⟩
  biModulus := 0x73eda753299d7d483339d80809a1d80553bda402fffe5bfeffffffff00000001

/-- `bls12381FqArithmetic.Invert` (`native/bls12381/fq.go:278-375`) -/
def blsFqInvert (out arg : Limbs) : ℤ × Limbs := invertWith (blsFqChain (montMul blsFq) arg) out arg

/-! ## Square roots -/

section Sqrt
variable (P : FieldParams)

/-- the end of every `FieldArithmetic.Sqrt` (e.g. `native/k256/fp/fp.go:96-100`): the flag `wasSquare` and
the new value of `out` -/
def sqrtWith (z out arg : Limbs) : ℤ × Limbs :=
  let wasSquare := equalHelper (montMul P z z) arg
  (wasSquare, if wasSquare = 1 then z else out)

/-- `Sqrt` for `p ≡ 3 (mod 4)` (`native/k256/fp/fp.go:84-101`, `native/p256/fp/fp.go:84-100`) with the
exponent given as limbs -/
def sqrtPow (e out arg : Limbs) : ℤ × Limbs := sqrtWith P (pow (montMul P) P.R arg e) out arg

/-- one turn of the loop of Tonelli–Shanks for index `i` (`native/k256/fq/fq.go:116-131`) on `(z, t, c)`;
`b` is `t` at the start of every turn -/
def tsStep {α : Type} (mul : α → α → α) (isOne : α → Bool) (i : ℕ) (st : α × α × α) : α × α × α :=
  let b := pow2k mul st.2.1 (i - 2)
  let z := if isOne b then st.1 else mul st.1 st.2.2
  let c := mul st.2.2 st.2.2
  let t := if isOne b then st.2.1 else mul st.2.1 c
  (z, t, c)

/-- the loop `for i := s; i >= 2; i--`, here with `n = i - 1` turns left -/
def tsLoop {α : Type} (mul : α → α → α) (isOne : α → Bool) : ℕ → α × α × α → α × α × α
  | 0, st => st
  | n + 1, st => tsLoop mul isOne n (tsStep mul isOne (n + 2) st)

/-- the candidate root computed by Tonelli–Shanks (`native/k256/fq/fq.go:106-131`) -/
def tsRoot {α : Type} (mul : α → α → α) (isOne : α → Bool) (one c5 : α) (c3 : Limbs) (s : ℕ) (arg : α) :
    α :=
  let z := pow mul one arg c3
  let t := mul (mul z z) arg
  let z := mul z arg
  (tsLoop mul isOne (s - 1) (z, t, c5)).1

/-- `Sqrt` by Tonelli–Shanks (`native/k256/fq/fq.go:84-143`, `native/p256/fq/fq.go:85-144`,
`native/bls12381/fq.go:207-275`) -/
def sqrtTS (c5 c3 : Limbs) (s : ℕ) (out arg : Limbs) : ℤ × Limbs :=
  sqrtWith P (tsRoot (montMul P) (fun b => isOne P b = 1) P.R c5 c3 s arg) out arg

end Sqrt

/-- `k256FpArithmetic.Sqrt` (`native/k256/fp/fp.go:84-101`) -/
def k256FpSqrt : Limbs → Limbs → ℤ × Limbs :=
  sqrtPow k256Fp ⟨0xffffffffbfffff0c, 0xffffffffffffffff, 0xffffffffffffffff, 0x3fffffffffffffff⟩
/-- `p256FpArithmetic.Sqrt` (`native/p256/fp/fp.go:84-100`) -/
def p256FpSqrt : Limbs → Limbs → ℤ × Limbs :=
  sqrtPow p256Fp ⟨0x0000000000000000, 0x0000000040000000, 0x4000000000000000, 0x3fffffffc0000000⟩
/-- `k256FqArithmetic.Sqrt` (`native/k256/fq/fq.go:84-143`) -/
def k256FqSqrt : Limbs → Limbs → ℤ × Limbs :=
  sqrtTS k256Fq ⟨0x944cf2a220910e04, 0x815c829c780589f4, 0x55980b07bc222113, 0xc702b0d248825b36⟩
    ⟨0x777fa4bd19a06c82, 0xfd755db9cd5e9140, 0xffffffffffffffff, 0x01ffffffffffffff⟩ 6
/-- `p256FqArithmetic.Sqrt` (`native/p256/fq/fq.go:85-144`) -/
def p256FqSqrt : Limbs → Limbs → ℤ × Limbs :=
  sqrtTS p256Fq ⟨0x1015708f7e368fe1, 0x31c6c5456ecc4511, 0x5281fe8998a19ea1, 0x0279089e10c63fe8⟩
    ⟨0x279dce5617e3192a, 0xfde737d56d38bcf4, 0x07ffffffffffffff, 0x07fffffff8000000⟩ 4
/-- `fqGenerator` (`native/bls12381/fq.go:23`) -/
def blsFqGenerator : Limbs := ⟨0x0000000efffffff1, 0x17e363d300189c0f, 0xff9c57876f8457b0, 0x351332208fc5a8c4⟩
/-- `bls12381FqArithmetic.Sqrt` (`native/bls12381/fq.go:207-275`); `c5` is recomputed on every call -/
def blsFqSqrt : Limbs → Limbs → ℤ × Limbs :=
  sqrtTS blsFq (pow (montMul blsFq) blsFq.R blsFqGenerator
      ⟨0xfffe5bfeffffffff, 0x09a1d80553bda402, 0x299d7d483339d808, 0x0000000073eda753⟩)
    ⟨0x7fff2dff7fffffff, 0x04d0ec02a9ded201, 0x94cebea4199cec04, 0x0000000039f6d3a9⟩ 32

/-! ## The Pasta fields -/

/-- the constants of `native/pasta/fp/fp.go:19-47` -/
def pastaFp : FieldParams where
  R := ⟨0x34786d38fffffffd, 0x992c350be41914ad, 0xffffffffffffffff, 0x3fffffffffffffff⟩
  R2 := ⟨0x8c78ecb30000000f, 0xd7d30dbd8b0de0e7, 0x7797a99bc3c95d18, 0x096d41af7b9cb714⟩
  R3 := ⟨0xf185a5993a9e10f9, 0xf6a68f3b6ac5b1d1, 0xdf8d1014353fd42c, 0x2ae309222d2d9910⟩
  modulus := ⟨0x992d30ed00000001, 0x224698fc094cf91b, 0x0000000000000000, 0x4000000000000000⟩
  biModulus := 0x40000000000000000000000000000000224698fc094cf91b992d30ed00000001

/-- the constants of `native/pasta/fq/fq.go:19-43` -/
def pastaFq : FieldParams where
  R := ⟨0x5b2b3e9cfffffffd, 0x992c350be3420567, 0xffffffffffffffff, 0x3fffffffffffffff⟩
  R2 := ⟨0xfc9678ff0000000f, 0x67bb433d891a16e3, 0x7fae231004ccf590, 0x096d41af7ccfdaa9⟩
  R3 := ⟨0x008b421c249dae4c, 0xe13bda50dba41326, 0x88fececb8e15cb63, 0x07dd97a06e6792c8⟩
  modulus := ⟨0x8c46eb2100000001, 0x224698fc0994a8dd, 0x0000000000000000, 0x4000000000000000⟩
  biModulus := 0x40000000000000000000000000000000224698fc0994a8dd8c46eb2100000001

/-- one turn of the loop of `Cmp` (`native/pasta/fp/fp.go:51-54`, `fq/fq.go:51-54`) on `(gt, lt)`: the shift
leaves the sign bit of the 64-bit difference -/
def pastaCmpStep (st : UInt64 × UInt64) (lhs rhs : UInt64) : UInt64 × UInt64 :=
  let gt := st.1 ||| ((rhs - lhs) >>> 63 &&& ~~~st.2)
  let lt := st.2 ||| ((lhs - rhs) >>> 63 &&& ~~~gt)
  (gt, lt)

/-- `Fp.Cmp`, `Fq.Cmp` (`native/pasta/fp/fp.go:48-56`, `fq/fq.go:48-56`) -/
def pastaCmp (lhs rhs : Limbs) : ℤ :=
  let st := pastaCmpStep (0, 0) lhs.l3 rhs.l3
  let st := pastaCmpStep st lhs.l2 rhs.l2
  let st := pastaCmpStep st lhs.l1 rhs.l1
  let st := pastaCmpStep st lhs.l0 rhs.l0
  (st.1.toNat : ℤ) - st.2.toNat

section Pasta
variable (P : FieldParams)

/-- `SetBytes` (`native/pasta/fp/fp.go:166-179`, `fq/fq.go:160-173`) -/
def pastaSetBytes (b : List UInt8) : Go Limbs := do
  let d0 := fromBytes b
  Go.guard (¬ (pastaCmp d0 P.modulus ≠ -1))
  .ok (toMont P (fromBytes b))

/-- `SetBigInt` (`native/pasta/fp/fp.go:183-191`, `fq/fq.go:177-185`): the error of `SetBytes` is dropped,
leaving the old value `f` -/
def pastaSetBigInt (f : Limbs) (bi : ℤ) : Limbs :=
  let r := bi % P.biModulus
  match pastaSetBytes P (beBytes 32 r.toNat).reverse with
  | .ok v => v
  | .error _ => f

/-- `ScalarPallas.New(value int)` (`pallas_curve.go:269-274`) on a 64-bit platform -/
def pallasScalarNew (value : Int64) : Limbs := pastaSetBigInt pastaFq ⟨0, 0, 0, 0⟩ value.toInt

/-- `Invert` (`native/pasta/fp/fp.go:290-298`, `fq/fq.go:284-292`) -/
def pastaInvert (e : Limbs) (elem : Limbs) : Limbs × Bool :=
  (pow (montMul P) P.R elem e, !(elem.l0 ||| elem.l1 ||| elem.l2 ||| elem.l3 == 0))

/-- `Sqrt` (`native/pasta/fp/fp.go:231-286`, `fq/fq.go:225-280`) -/
def pastaSqrt (c5 c3 : Limbs) (s : ℕ) (elem : Limbs) : Limbs × Bool :=
  let z := tsRoot (montMul P) (fun b => b = P.R) P.R c5 c3 s elem
  (z, montMul P z z = elem)

end Pasta

/-- `Fp.Invert` (`native/pasta/fp/fp.go:290-298`) -/
def pastaFpInvert : Limbs → Limbs × Bool :=
  pastaInvert pastaFp ⟨0x992d30ecffffffff, 0x224698fc094cf91b, 0x0000000000000000, 0x4000000000000000⟩
/-- `Fq.Invert` (`native/pasta/fq/fq.go:284-292`) -/
def pastaFqInvert : Limbs → Limbs × Bool :=
  pastaInvert pastaFq ⟨0x8c46eb20ffffffff, 0x224698fc0994a8dd, 0x0000000000000000, 0x4000000000000000⟩
/-- `Fp.Sqrt` (`native/pasta/fp/fp.go:231-286`) -/
def pastaFpSqrt : Limbs → Limbs × Bool :=
  pastaSqrt pastaFp ⟨0xa28db849bad6dbf0, 0x9083cd03d3b539df, 0xfba6b9ca9dc8448e, 0x3ec928747b89c6da⟩
    ⟨0x04a67c8dcc969876, 0x0000000011234c7e, 0x0000000000000000, 0x0000000020000000⟩ 32
/-- `Fq.Sqrt` (`native/pasta/fq/fq.go:225-280`) -/
def pastaFqSqrt : Limbs → Limbs × Bool :=
  pastaSqrt pastaFq ⟨0x218077428c9942de, 0xcc49578921b60494, 0xac2e5d27b2efbee2, 0x0b79fa897f2db056⟩
    ⟨0x04ca546ec6237590, 0x0000000011234c7e, 0x0000000000000000, 0x0000000020000000⟩ 32

end Verif.Native
