import Verif.Pallas.EpModel
import Verif.Curves.ScalarModel
import Verif.Bls377.ScalarModel
import Verif.Legacy.PointModel

/-!
# Pallas behind the interfaces `Scalar`, `Point` and `elliptic.Curve` (`pkg/core/curves/pallas_curve.go`)

A `ScalarPallas` is given by the limbs of its `fq.Fq`.  An argument of interface type is `none` when it is nil or of another Go type: the type
assertions treat both alike.  A result `none` is a nil interface.
-/

namespace Verif.Pallas.Iface
open Native Curves

/-! ## Scalars -/

/-- `Hash` (`pallas_curve.go:228-239`): BLAKE2b with 64 bytes of output and blocks of 128 bytes; the 64 bytes are read in little-endian order -/
def hash (H : List UInt8 → List UInt8) (bytes : List UInt8) : Limbs :=
  let xmd := Bls377.expandMsgXmd H 64 128 bytes (ascii "pallas_XMD:BLAKE2b_SSWU_RO_") 64
  setBytesWide pastaFq xmd
/-- `Random` (`pallas_curve.go:219-226`): `none` is a nil reader, otherwise what `Read` put at the beginning of the buffer -/
def random (H : List UInt8 → List UInt8) (read : Option (List UInt8)) : Option Limbs :=
  read.map fun r => hash H (r.take 64 ++ List.replicate (64 - r.length) 0)
/-- `Zero` (`pallas_curve.go:241-245`) -/
def zero : Limbs := ⟨0, 0, 0, 0⟩
/-- `One` (`pallas_curve.go:247-251`) -/
def one : Limbs := pastaFq.R
/-- `IsZero` (`pallas_curve.go:253-255`, `native/pasta/fq/fq.go:68-74`) -/
def isZero (s : Limbs) : Bool := s.l0 ||| s.l1 ||| s.l2 ||| s.l3 = 0
/-- `IsOne` (`pallas_curve.go:257-259`, `native/pasta/fq/fq.go:59-65,77-79`) -/
def isOne (s : Limbs) : Bool :=
  (s.l0 ^^^ pastaFq.R.l0) ||| (s.l1 ^^^ pastaFq.R.l1) ||| (s.l2 ^^^ pastaFq.R.l2) ||| (s.l3 ^^^ pastaFq.R.l3) = 0
/-- `IsOdd` (`pallas_curve.go:261-263`) -/
def isOdd (s : Limbs) : Bool := s.l0 &&& 1 = 1
/-- `IsEven` (`pallas_curve.go:265-267`) -/
def isEven (s : Limbs) : Bool := s.l0 &&& 1 = 0
/-- `Cmp` (`pallas_curve.go:276-283`) -/
def cmp (s : Limbs) : Option Limbs → ℤ
  | some r => pastaCmp s r
  | none => -2
/-- `Square` (`pallas_curve.go:285-289`) -/
def square (s : Limbs) : Limbs := montMul pastaFq s s
/-- `Double` (`pallas_curve.go:291-295`) -/
def double (s : Limbs) : Limbs := montAdd pastaFq s s
/-- `Invert` (`pallas_curve.go:297-305`) -/
def invert (s : Limbs) : Go Limbs :=
  let r := pastaFqInvert s
  if r.2 then .ok r.1 else Go.err
/-- `Sqrt` (`pallas_curve.go:307-315`) -/
def sqrt (s : Limbs) : Go Limbs :=
  let r := pastaFqSqrt s
  if r.2 then .ok r.1 else Go.err
/-- `Cube` (`pallas_curve.go:317-323`) -/
def cube (s : Limbs) : Limbs :=
  let value := montMul pastaFq s s
  montMul pastaFq value s
/-- `Add` (`pallas_curve.go:325-334`) -/
def add (s : Limbs) (rhs : Option Limbs) : Option Limbs := rhs.map fun r => montAdd pastaFq s r
/-- `Sub` (`pallas_curve.go:336-345`) -/
def sub (s : Limbs) (rhs : Option Limbs) : Option Limbs := rhs.map fun r => montSub pastaFq s r
/-- `Mul` (`pallas_curve.go:347-356`) -/
def mul (s : Limbs) (rhs : Option Limbs) : Option Limbs := rhs.map fun r => montMul pastaFq s r
/-- `MulAdd` (`pallas_curve.go:358-360`): the method call on a nil interface panics -/
def mulAdd (s : Limbs) (y z : Option Limbs) : Go (Option Limbs) :=
  match mul s y with
  | none => Go.crash
  | some m => .ok (add m z)
/-- `Div` (`pallas_curve.go:362-374`) -/
def div (s : Limbs) : Option Limbs → Option Limbs
  | none => none
  | some r =>
    let v := pastaFqInvert r
    if v.2 then some (montMul pastaFq v.1 s) else none
/-- `Neg` (`pallas_curve.go:376-380`) -/
def neg (s : Limbs) : Limbs := fiatNeg pastaFq s
/-- `SetBigInt` (`pallas_curve.go:382-386`): copying nil panics -/
def setBigInt : Option ℤ → Go Limbs
  | none => Go.crash
  | some v => .ok (pastaSetBigInt pastaFq ⟨0, 0, 0, 0⟩ v)
/-- `BigInt` (`pallas_curve.go:388-390`) -/
def bigInt (s : Limbs) : ℤ := beNat (bytesOf pastaFq s).reverse
/-- `Bytes` (`pallas_curve.go:392-395`): in little-endian order -/
def bytes (s : Limbs) : List UInt8 := bytesOf pastaFq s
/-- `SetBytes` (`pallas_curve.go:397-410`) -/
def setBytes (b : List UInt8) : Go Limbs := do
  Go.guard (b.length = 32)
  pastaSetBytes pastaFq b
/-- `SetBytesWide` (`pallas_curve.go:412-421`) -/
def setBytesWide (b : List UInt8) : Go Limbs := do
  Go.guard (b.length = 64)
  .ok (Native.setBytesWide pastaFq b)

/-! ## Points: `Identity`, `Generator`, `IsIdentity`, `IsOnCurve`, `Double`, `Neg` and the encodings (`pallas_curve.go:497-535,589-611`) are
those of `Ep` -/

/-- `Add` (`pallas_curve.go:537-543`) -/
def pointAdd (p : Ep) (rhs : Option Ep) : Option Ep := rhs.map fun r => epAdd p r
/-- `Sub` (`pallas_curve.go:545-551`) -/
def pointSub (p : Ep) (rhs : Option Ep) : Option Ep := rhs.map fun r => epSub p r
/-- `Mul` (`pallas_curve.go:553-559`) -/
def pointMul (p : Ep) (rhs : Option Fq) : Option Ep := rhs.map fun s => epMul p s
/-- `Equal` (`pallas_curve.go:561-567`) -/
def pointEqual (p : Ep) : Option Ep → Bool
  | none => false
  | some r => epEqual p r
/-- `Ep.SumOfProducts` (`pallas_curve.go:964-974`) for scalars behind the interface: `none` is a nil pointer -/
def epSum (points : List Ep) (scalars : List (Option Fq)) : Option Ep :=
  match scalars.mapM id with
  | none => none
  | some sc => epSumOfProducts points sc
/-- `PointPallas.SumOfProducts` (`pallas_curve.go:617-628`): the outer `none` is a nil interface, the inner one a point whose `Ep` is nil -/
def pointSum (points : List (Option Ep)) (scalars : List (Option Fq)) : Option (Option Ep) :=
  match points.mapM id with
  | none => none
  | some eps => some (epSum eps scalars)
/-- `IsIdentity` (`pallas_curve.go:513-515`) of a point returned by `SumOfProducts`: it reads the `Ep` -/
def useIsIdentity : Option Ep → Go Bool
  | none => Go.crash
  | some p => .ok (epIsIdentity p)

/-! ## The old curve -/

/-- the fields of the two global variables that `oldPallasInitAll` writes -/
structure Globals where
  /-- `oldPallas.CurveParams` -/
  P : ℕ
  N : ℕ
  Gx : ℕ
  Gy : ℕ
  B : ℕ
  bitSize : ℕ
  name : String
  /-- `pallas.Name` -/
  newName : String

/-- `oldPallasInitAll` (`pallas_curve.go:59-79`), from the value of `pallas.Name`; `new(elliptic.CurveParams)` has an empty name -/
def oldPallasInitAll (_newName : String) : Globals :=
  let g := toInts epGenerator
  ⟨0x40000000000000000000000000000000224698fc094cf91b992d30ed00000001, 0x40000000000000000000000000000000224698fc0994a8dd8c46eb2100000001,
    g.1, g.2, 5, 255, "", "pallas"⟩

end Verif.Pallas.Iface
