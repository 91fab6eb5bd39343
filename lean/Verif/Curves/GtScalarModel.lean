import Verif.Bls381.MapModel

/-!
# The target group behind the `Scalar` interface

`ScalarBls12381Gt` (`pkg/core/curves/bls12381_curve.go:866-1129`).  As in `Curves/ScalarModel.lean`, an argument of interface
type is `none` when it is nil or of another Go type, and a result `none` is a nil interface.
-/

namespace Verif.Curves.GtS

open Verif.Bls381 Verif.Native

/-- `Zero` (`bls12381_curve.go:886-888`): the zero value of the type -/
def zero : Fp12 Fq := Fp12.zero
/-- `One` (`bls12381_curve.go:890-892`) -/
def one : Fp12 Fq := Fp12.one
/-- `IsZero` (`bls12381_curve.go:894-896`) -/
def isZero (s : Fp12 Fq) : Bool := s.isZero
/-- `IsOne` (`bls12381_curve.go:898-900`) -/
def isOne (s : Fp12 Fq) : Bool := s.isOne
/-- `IsOdd` (`bls12381_curve.go:952-955`) -/
def isOdd (s : Fp12 Fq) : Bool := (gtBytes s).headD 0 &&& 1 = 1
/-- `IsEven` (`bls12381_curve.go:957-960`) -/
def isEven (s : Fp12 Fq) : Bool := (gtBytes s).headD 0 &&& 1 = 0

/-- `New` (`bls12381_curve.go:962-974`): the conversion to `byte` keeps eight bits -/
def new (input : Int64) : Option (Fp12 Fq) :=
  let byte (k : ℕ) : UInt8 := UInt8.ofNat ((input.toInt / 2 ^ k) % 256).toNat
  let data := [byte 0, byte 8, byte 16, byte 24] ++ List.replicate 572 0
  let r := gtSetBytes Fp12.zero data
  if r.2 then some r.1 else none

/-- `Cmp` (`bls12381_curve.go:976-983`) -/
def cmp (s : Fp12 Fq) : Option (Fp12 Fq) → ℤ
  | some r => if s.equal r then 0 else -2
  | none => -2
/-- `Square` (`bls12381_curve.go:985-989`) -/
def square (s : Fp12 Fq) : Fp12 Fq := gtSquare s
/-- `Double` (`bls12381_curve.go:991-995`) -/
def double (s : Fp12 Fq) : Fp12 Fq := gtDouble s
/-- `Invert` (`bls12381_curve.go:997-1005`) -/
def invert (s : Fp12 Fq) : Go (Fp12 Fq) :=
  let r := Fp12.invert Fp12.zero s
  if r.2 then .ok r.1 else Go.err
/-- `Sqrt` (`bls12381_curve.go:1007-1010`): a nil scalar and a nil error -/
def sqrt (_ : Fp12 Fq) : Go (Option (Fp12 Fq)) := .ok none
/-- `Cube` (`bls12381_curve.go:1012-1018`) -/
def cube (s : Fp12 Fq) : Fp12 Fq := gtAdd (gtSquare s) s
/-- `Add` (`bls12381_curve.go:1020-1029`) -/
def add (s : Fp12 Fq) (rhs : Option (Fp12 Fq)) : Option (Fp12 Fq) := rhs.map (gtAdd s)
/-- `Sub` (`bls12381_curve.go:1031-1040`) -/
def sub (s : Fp12 Fq) (rhs : Option (Fp12 Fq)) : Option (Fp12 Fq) := rhs.map (gtSub s)
/-- `Mul` (`bls12381_curve.go:1042-1051`): the body of `Add` -/
def mul (s : Fp12 Fq) (rhs : Option (Fp12 Fq)) : Option (Fp12 Fq) := rhs.map (gtAdd s)
/-- `MulAdd` (`bls12381_curve.go:1053-1055`): a method call on a nil interface panics -/
def mulAdd (s : Fp12 Fq) (y z : Option (Fp12 Fq)) : Go (Option (Fp12 Fq)) :=
  match mul s y with
  | none => Go.crash
  | some m => .ok (add m z)
/-- `Div` (`bls12381_curve.go:1057-1066`): the body of `Sub` -/
def div (s : Fp12 Fq) (rhs : Option (Fp12 Fq)) : Option (Fp12 Fq) := rhs.map (gtSub s)
/-- `Neg` (`bls12381_curve.go:1068-1072`) -/
def neg (s : Fp12 Fq) : Fp12 Fq := gtNeg s
/-- `Bytes` (`bls12381_curve.go:1089-1092`) -/
def bytes (s : Fp12 Fq) : List UInt8 := gtBytes s
/-- `SetBytes` (`bls12381_curve.go:1094-1102`): `copy` cuts and pads to 576 bytes -/
def setBytes (b : List UInt8) : Go (Fp12 Fq) :=
  let r := gtSetBytes Fp12.zero (b.take 576 ++ List.replicate (576 - b.length) 0)
  if r.2 then .ok r.1 else Go.err
/-- `SetBigInt` (`bls12381_curve.go:1074-1078`): `FillBytes` drops the sign and panics when the number does not fit; so does
the method on a nil pointer -/
def setBigInt : Option ℤ → Go (Fp12 Fq)
  | none => Go.crash
  | some v => if v.natAbs < 256 ^ 576 then setBytes (beBytes 576 v.natAbs) else Go.crash
/-- `BigInt` (`bls12381_curve.go:1080-1083`) -/
def bigInt (s : Fp12 Fq) : ℤ := beNat (gtBytes s)
/-- `SetBytesWide` (`bls12381_curve.go:1104-1123`) -/
def setBytesWide (b : List UInt8) : Go (Fp12 Fq) := do
  Go.guard (b.length = 1152)
  let r := gtSetBytes Fp12.zero (b.take 576)
  Go.guard r.2
  let r2 := gtSetBytes Fp12.zero (b.drop 576)
  Go.guard r2.2
  .ok (gtAdd r.1 r2.1)

/-- `fp.Random` and `fp.Hash` (`native/bls12381/fp.go:192-212`): what one `Read` of 96 bytes delivers, or `none` if it fails -/
def fpRandom (sha256 : Hasher) (read : Option (List UInt8)) : Go Fq := do
  let t ← Go.ofOption read
  Go.guard (t.length = 96)
  .ok (elem64 (sha256.expand t "BLS12381_XMD:SHA-256_SSWU_RO_".toUTF8.toList 64))

/-- `fp2.Random` (`native/bls12381/fp2.go:41-53`); `k` reads have been made -/
def fp2Random (sha256 : Hasher) (reads : ℕ → Option (List UInt8)) (k : ℕ) : Go (Fp2 Fq) := do
  let a ← fpRandom sha256 (reads k)
  let b ← fpRandom sha256 (reads (k + 1))
  .ok ⟨a, b⟩

/-- `fp6.Random` (`native/bls12381/fp6.go:52-69`) -/
def fp6Random (sha256 : Hasher) (reads : ℕ → Option (List UInt8)) (k : ℕ) : Go (Fp6 Fq) := do
  let a ← fp2Random sha256 reads k
  let b ← fp2Random sha256 reads (k + 2)
  let c ← fp2Random sha256 reads (k + 4)
  .ok ⟨a, b, c⟩

/-- `fp12.Random` (`native/bls12381/fp12.go:53-65`) -/
def fp12Random (sha256 : Hasher) (reads : ℕ → Option (List UInt8)) (k : ℕ) : Go (Fp12 Fq) := do
  let a ← fp6Random sha256 reads k
  let b ← fp6Random sha256 reads (k + 6)
  .ok ⟨a, b⟩

/-- `Random` (`bls12381_curve.go:866-872`): an error gives nil -/
def random (sha256 : Hasher) (reads : ℕ → Option (List UInt8)) : Option (Fp12 Fq) :=
  match fp12Random sha256 reads 0 with
  | .ok v => some v
  | .error _ => none

/-- `Hash` (`bls12381_curve.go:874-884`): `shake m i` is the block `i` of 96 bytes of the output stream; writing to it does
not fail -/
def hash (sha256 : Hasher) (shake : List UInt8 → ℕ → List UInt8) (m : List UInt8) : Option (Fp12 Fq) :=
  random sha256 fun i => some (shake m i)

end Verif.Curves.GtS
