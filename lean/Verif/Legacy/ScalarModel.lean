import Verif.Legacy.EdCurveModel
import Verif.Common.BigInt

/-!
# Model of `EcScalar` (`pkg/core/curves/ec_scalar.go`, `pallas_curve.go:161-215`)

Scalars of the older interface are integers.  `Hash` and the `Random` of the curves that use a scalar of the newer interface are left out
(C175, C178).
-/

namespace Verif.Legacy
open Verif.Primes Verif.Curves.Ed

/-- `EcScalar` (ec_scalar.go:25-35) on integers that are not nil -/
structure EcScalar where
  add : ℤ → ℤ → Go ℤ
  sub : ℤ → ℤ → Go ℤ
  neg : ℤ → Go ℤ
  mul : ℤ → ℤ → Go ℤ
  div : ℤ → ℤ → Go ℤ
  isValid : ℤ → Bool
  bytes : ℤ → Go (List UInt8)

/-- `K256Scalar` (ec_scalar.go:37-107) and `P256Scalar` (ec_scalar.go:109-177), which differ in the order only.  `Div` hands the result of
`ModInverse` on without looking at it: a nil pointer panics in `Mul`. -/
def modScalar (q : ℕ) : EcScalar where
  add x y := Big.mod (x + y) q
  sub x y := Big.mod (x - y) q
  neg x := Big.mod (q - x) q
  mul x y := Big.mod (x * y) q
  div x y := match Big.modInverse y q with
    | none => Go.crash
    | some t => Big.mod (x * t) q
  isValid x := decide (0 ≤ x) && decide (x < q)
  bytes x := fillBytes 32 (some x)

/-- `K256Scalar.Random` and `P256Scalar.Random` (ec_scalar.go:82-94, 152-164); `none` is an error of the reader -/
def modRandom (q : ℕ) (read : Option (List UInt8)) : Go ℤ :=
  match read with
  | none => Go.err
  | some b => do
    Go.guard (b.length = 48)
    Big.mod (beNat b) q

/-- `PallasScalar` (pallas_curve.go:161-215) -/
def pallasScalar : EcScalar where
  add x y := Big.mod (x + y) pallasq
  sub x y := Big.mod (x - y) pallasq
  neg x := Big.mod (-x) pallasq
  mul x y := Big.mod (x * y) pallasq
  div x y := match Big.modInverse y pallasq with
    | none => Go.crash
    | some r => Big.mod (r * x) pallasq
  isValid x := decide (x < pallasq)
  bytes x := .ok (intBytes x)

/-- `Bls12381Scalar` (ec_scalar.go:179-246).  `SetBigInt` reduces and `BigInt` gives the representative below the order, also of the
negation of zero (C57, C147).  `Div` selects the dividend when the divisor has no inverse. -/
def blsScalar : EcScalar where
  add x y := .ok (((x : ZMod blsr) + (y : ZMod blsr)).val : ℤ)
  sub x y := .ok (((x : ZMod blsr) - (y : ZMod blsr)).val : ℤ)
  neg x := .ok ((-(x : ZMod blsr)).val : ℤ)
  mul x y := .ok (((x : ZMod blsr) * (y : ZMod blsr)).val : ℤ)
  div x y :=
    let a := (x : ZMod blsr)
    let b := (y : ZMod blsr)
    .ok ((if b = 0 then a else a * b⁻¹).val : ℤ)
  isValid x := decide (((x : ZMod blsr).val : ℤ) = x)
  bytes x := fillBytes 32 (some x)

/-- `new(big.Int).SetBytes(internal.ReverseScalarBytes(a.Bytes()))` -/
def edOut (s : Fl) : ℤ := beNat (libBytes s).reverse

/-- `Ed25519Scalar` (ec_scalar.go:241-351) -/
def edScalarOps : EcScalar where
  add x y := do
    let a ← orPanic (edBigScalar x)
    let b ← orPanic (edBigScalar y)
    .ok (edOut (a + b))
  sub x y := do
    let a ← orPanic (edBigScalar x)
    let b ← orPanic (edBigScalar y)
    .ok (edOut (a - b))
  neg x := do
    let a ← orPanic (edBigScalar x)
    .ok (edOut (-a))
  mul x y := do
    let a ← orPanic (edBigScalar x)
    let b ← orPanic (edBigScalar y)
    .ok (edOut (a * b))
  div x y := do
    let b ← orPanic (edBigScalar y)
    let a ← orPanic (edBigScalar x)
    .ok (edOut (a * libInvert b))
  isValid x := decide (x < edl)
  bytes x := do
    let a ← orPanic (edBigScalar x)
    .ok (libBytes a).reverse

/-- `Ed25519Scalar.RandomWithReader` (ec_scalar.go:330-347); `sha512` is the hash function -/
def edRandom (sha512 : List UInt8 → List UInt8) (read : Option (List UInt8)) : Go ℤ :=
  match read with
  | none => Go.err
  | some b => do
    Go.guard (b.length = 64)
    let s ← libSetClamped ((sha512 b).take 32)
    .ok (edOut s)

end Verif.Legacy
