import Verif.Common.BigInt
import Verif.Common.Pocklington
import Verif.Native.MapModel

/-!
# Model of the scalars of BLS12-377 (`pkg/core/curves/bls12377_curve.go:25-285`)

A scalar holds a pointer to a `big.Int`, which is nil when `ModInverse` or `ModSqrt` found nothing; every method dereferences it.  The field
`point` only says which of the two groups a scalar belongs to and is left out.  `big.Int.ModSqrt` is a parameter.
-/

namespace Verif.Bls377
open Verif.Native

/-- `bls12377modulus` (bls12377_curve.go:26) -/
def q : ℕ := 0x12ab655e9a2ca55660b44d1e5c37b00159aa76fed00000010a11800000000001

/-- `expandMsgXmd` of the package `curves` (curve.go:718-764) for `outLen > 0`.  The length of the domain is converted to a byte before it
is compared with 255, so the error is never returned. -/
def expandMsgXmd (H : List UInt8 → List UInt8) (size block : ℕ) (msg domain : List UInt8) (outLen : ℕ) : List UInt8 :=
  let domainLen := UInt8.ofNat domain.length
  let b0 := H (List.replicate block (0 : UInt8) ++ msg ++ [UInt8.ofNat (outLen >>> 8), UInt8.ofNat outLen] ++ [0] ++ domain ++ [domainLen])
  let b1 := H (b0 ++ [1] ++ domain ++ [domainLen])
  let ell := (outLen + size - 1) / size
  ((xmdLoop H b0 (domain ++ [domainLen]) (ell - 1) 1 b1).flatten).take outLen

/-- `ScalarBls12377` -/
structure Sc where
  value : Option ℤ
deriving DecidableEq

/-- a value of the interface `Scalar`: nil and the other implementations fail the type assertion -/
inductive Iface
  | other
  | own (s : Sc)

/-- use of `s.value` -/
def Sc.get (s : Sc) : Go ℤ := match s.value with
  | some v => .ok v
  | none => Go.crash

/-- a scalar with a value -/
def Sc.of (v : ℤ) : Sc := ⟨some v⟩

/-- the domain of `Hash` -/
def hashDst : List UInt8 := "BLS12377_XMD:SHA-256_SSWU_RO_".toUTF8.toList

/-- `Hash` (bls12377_curve.go:59-69) -/
def hash (H : List UInt8 → List UInt8) (bytes : List UInt8) : Sc :=
  .of ((beNat (expandMsgXmd H 32 64 bytes hashDst 48) : ℤ) % q)

/-- `Random` (bls12377_curve.go:50-57): `none` is a nil reader, `some bytes` what `Read` put at the beginning of the buffer; its count and its
error are dropped -/
def random (H : List UInt8 → List UInt8) : Option (List UInt8) → Option Sc
  | none => none
  | some read => some (hash H ((read ++ List.replicate 64 0).take 64))

/-- `Zero` (bls12377_curve.go:71-76) -/
def zero : Sc := .of 0
/-- `One` (bls12377_curve.go:78-83) -/
def one : Sc := .of 1

/-- `IsZero` (bls12377_curve.go:85-87): no bytes -/
def isZero (s : Sc) : Go Bool := do
  let v ← s.get
  .ok (decide (v.natAbs = 0))

/-- `IsOne` (bls12377_curve.go:89-91): the single byte 1 -/
def isOne (s : Sc) : Go Bool := do
  let v ← s.get
  .ok (decide (v.natAbs = 1))

/-- `IsOdd` (bls12377_curve.go:93-95) -/
def isOdd (s : Sc) : Go Bool := do
  let v ← s.get
  .ok (decide (v % 2 = 1))

/-- `IsEven` (bls12377_curve.go:97-99) -/
def isEven (s : Sc) : Go Bool := do
  let v ← s.get
  .ok (decide (v % 2 = 0))

/-- `New` (bls12377_curve.go:101-110) -/
def new (value : ℤ) : Sc := .of (if value < 0 then value % q else value)

/-- `Cmp` (bls12377_curve.go:112-119) -/
def cmp (s : Sc) : Iface → Go ℤ
  | .other => .ok (-2)
  | .own r => do
    let a ← s.get
    let b ← r.get
    .ok (if a < b then -1 else if a = b then 0 else 1)

/-- `Square` (bls12377_curve.go:121-126) -/
def square (s : Sc) : Go Sc := do
  let v ← s.get
  .ok ⟨Big.exp v 2 q⟩

/-- `Double` (bls12377_curve.go:128-134) -/
def double (s : Sc) : Go Sc := do
  let v ← s.get
  .ok (.of ((v + v) % q))

/-- `Invert` (bls12377_curve.go:136-141): the error is always nil -/
def invert (s : Sc) : Go Sc := do
  let v ← s.get
  .ok ⟨Big.modInverse v q⟩

/-- `Sqrt` (bls12377_curve.go:143-148): the error is always nil -/
def sqrt (modSqrt : ℤ → ℤ → Option ℤ) (s : Sc) : Go Sc := do
  let v ← s.get
  .ok ⟨modSqrt v q⟩

/-- `Cube` (bls12377_curve.go:150-155) -/
def cube (s : Sc) : Go Sc := do
  let v ← s.get
  .ok ⟨Big.exp v 3 q⟩

/-- `Add` (bls12377_curve.go:157-168); `none` is the returned nil -/
def add (s : Sc) : Iface → Go (Option Sc)
  | .other => .ok none
  | .own r => do
    let a ← s.get
    let b ← r.get
    .ok (some (.of ((a + b) % q)))

/-- `Sub` (bls12377_curve.go:170-181) -/
def sub (s : Sc) : Iface → Go (Option Sc)
  | .other => .ok none
  | .own r => do
    let a ← s.get
    let b ← r.get
    .ok (some (.of ((a - b) % q)))

/-- `Mul` (bls12377_curve.go:183-194) -/
def mul (s : Sc) : Iface → Go (Option Sc)
  | .other => .ok none
  | .own r => do
    let a ← s.get
    let b ← r.get
    .ok (some (.of ((a * b) % q)))

/-- `MulAdd` (bls12377_curve.go:196-198): a method of nil panics -/
def mulAdd (s : Sc) (y z : Iface) : Go (Option Sc) := do
  let m ← mul s y
  match m with
  | none => Go.crash
  | some m => add m z

/-- `Div` (bls12377_curve.go:200-212): `v.Mul` on the nil that `ModInverse` returned panics -/
def div (s : Sc) : Iface → Go (Option Sc)
  | .other => .ok none
  | .own r => do
    let b ← r.get
    match Big.modInverse b q with
    | none => Go.crash
    | some v => do
      let a ← s.get
      .ok (some (.of ((v * a) % q)))

/-- `Neg` (bls12377_curve.go:214-220) -/
def neg (s : Sc) : Go Sc := do
  let v ← s.get
  .ok (.of ((-v) % q))

/-- `SetBigInt` (bls12377_curve.go:222-234) -/
def setBigInt : Option ℤ → Go Sc
  | none => Go.err
  | some v => do
    Go.guard (v % (q : ℤ) = v)
    .ok (.of (v % q))

/-- `BigInt` (bls12377_curve.go:236-238) -/
def bigInt (s : Sc) : Go ℤ := s.get

/-- `Bytes` (bls12377_curve.go:240-243): `FillBytes` writes the absolute value and panics when it does not fit -/
def bytes (s : Sc) : Go (List UInt8) := do
  let v ← s.get
  if v.natAbs < 256 ^ 32 then .ok (beBytes 32 v.natAbs) else Go.crash

/-- `SetBytes` (bls12377_curve.go:245-255) -/
def setBytes (b : List UInt8) : Go Sc := do
  Go.guard ((beNat b : ℤ) % (q : ℤ) = (beNat b : ℤ))
  .ok (.of ((beNat b : ℤ) % q))

/-- `SetBytesWide` (bls12377_curve.go:257-267) -/
def setBytesWide (b : List UInt8) : Go Sc := do
  Go.guard (¬ (b.length < 32 ∨ b.length > 128))
  .ok (.of ((beNat b : ℤ) % q))

/-- `Clone` (bls12377_curve.go:273-278) and `SetPoint` (bls12377_curve.go:280-285): `Set(nil)` panics -/
def clone (s : Sc) : Go Sc := do
  let v ← s.get
  .ok (.of v)

end Verif.Bls377
