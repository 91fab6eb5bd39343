import Verif.Bls377.PointModel

/-!
# Model of the target-group scalars of BLS12-377 (`ScalarBls12377Gt`, `pkg/core/curves/bls12377_curve.go:924-1225`)

An element of the field is given by twelve coordinates modulo the prime `p` of the curve, in the order in which gnark-crypto writes them: each
takes 48 bytes, big-endian, and the last is the constant coordinate.  `GT.SetBytes` wants 576 bytes and reduces every coordinate.
-/

namespace Verif.Bls377.Gt

/-- the prime of the field of definition -/
def p : ℕ := 0x01ae3a4617c510eac63b05c06ca1493b1a22d9f300f5138f1ef3622fba094800170b5d44300000008508c00000000001

instance : NeZero p := ⟨by decide +kernel⟩

/-- the coordinates of the elements of the field -/
structure Rep (T : Type) [CommRing T] where
  coords : T ≃+ (Fin 12 → ZMod p)
  one : coords 1 = Pi.single 11 1

/-- a value of the interface `Scalar` -/
inductive Iface (T : Type)
  | other
  | own (s : T)

variable {T : Type} [CommRing T] (R : Rep T)

/-- `GT.Bytes`, also the method `Bytes` (bls12377_curve.go:1186-1189) -/
def bytes (s : T) : List UInt8 := (List.ofFn fun i => beBytes 48 (R.coords s i).val).flatten

/-- `GT.SetBytes` and the method `SetBytes` (bls12377_curve.go:1191-1198) -/
def setBytes (b : List UInt8) : Go T := do
  Go.guard (b.length = 576)
  .ok (R.coords.symm fun i => ((beNat ((b.drop (48 * i)).take 48) : ℕ) : ZMod p))

/-- `Random` (bls12377_curve.go:924-942): `draws` are the results of `rand.Int`, `none` an error; at most twelve are taken -/
def random (draws : List (Option ℕ)) : Option T :=
  match (draws.take 12).mapM id with
  | none => none
  | some vs => match setBytes R ((vs.map fun v => beBytes 48 v).flatten) with
    | .ok t => some t
    | .error _ => none

/-- `Zero` (bls12377_curve.go:956-964) -/
def zero : Option T := match setBytes R (List.replicate 576 0) with
  | .ok t => some t
  | .error _ => none

/-- `One` (bls12377_curve.go:966-969) -/
def one : T := 1

/-- `IsZero` (bls12377_curve.go:971-978) -/
def isZero (s : T) : Bool := decide ((bytes R s).foldl (fun r i => r ||| i) 0 = 0)

/-- `IsOne` (bls12377_curve.go:980-983) -/
def isOne [DecidableEq T] (s : T) : Bool := decide (s = 1)

/-- `IsOdd` (bls12377_curve.go:1036-1039) -/
def isOdd (s : T) : Bool := decide ((bytes R s).getLastD 0 &&& 1 = 1)

/-- `IsEven` (bls12377_curve.go:1041-1044) -/
def isEven (s : T) : Bool := decide ((bytes R s).getLastD 0 &&& 1 = 0)

/-- `byte(input >> k & 0xFF)` -/
def byteAt (input : ℤ) (k : ℕ) : UInt8 := UInt8.ofNat ((input / 2 ^ k) % 256).toNat

/-- `New` (bls12377_curve.go:1046-1059) -/
def new (input : ℤ) : Option T :=
  match setBytes R ([byteAt input 0, byteAt input 8, byteAt input 16, byteAt input 24] ++ List.replicate 572 0) with
  | .ok t => some t
  | .error _ => none

/-- `Cmp` (bls12377_curve.go:1061-1068) -/
def cmp [DecidableEq T] (s : T) : Iface T → ℤ
  | .own r => if s = r then 0 else -2
  | .other => -2

/-- `Square` (bls12377_curve.go:1070-1075) -/
def square (s : T) : T := s * s
/-- `Double` (bls12377_curve.go:1077-1082) -/
def double (s : T) : T := s + s
/-- `Invert` (bls12377_curve.go:1084-1089): the library maps zero to zero; the error is always nil -/
def invert [Inv T] (s : T) : Go T := .ok s⁻¹
/-- `Sqrt` (bls12377_curve.go:1091-1094): a nil scalar and a nil error -/
def sqrt (_ : T) : Go (Option T) := .ok none
/-- `Cube` (bls12377_curve.go:1096-1103) -/
def cube (s : T) : T := square s * s
/-- `Add` (bls12377_curve.go:1105-1115) -/
def add (s : T) : Iface T → Option T
  | .own r => some (s + r)
  | .other => none
/-- `Sub` (bls12377_curve.go:1117-1127) -/
def sub (s : T) : Iface T → Option T
  | .own r => some (s - r)
  | .other => none
/-- `Mul` (bls12377_curve.go:1129-1139) -/
def mul (s : T) : Iface T → Option T
  | .own r => some (s * r)
  | .other => none
/-- `MulAdd` (bls12377_curve.go:1141-1143): a method of nil panics -/
def mulAdd (s : T) (y z : Iface T) : Go (Option T) := match mul s y with
  | none => Go.crash
  | some m => .ok (add m z)
/-- `Div` (bls12377_curve.go:1145-1157) -/
def div [Inv T] (s : T) : Iface T → Option T
  | .own r => some (r⁻¹ * s)
  | .other => none
/-- `Neg` (bls12377_curve.go:1159-1168): one minus one minus the element -/
def neg (s : T) : T := (1 - 1) - s

/-- `SetBigInt` (bls12377_curve.go:1170-1174) -/
def setBigInt (v : ℤ) : Go T := do
  let b ← fillBytes 576 v
  setBytes R b

/-- `BigInt` (bls12377_curve.go:1176-1179) -/
def bigInt (s : T) : ℕ := beNat (bytes R s)

/-- `SetBytesWide` (bls12377_curve.go:1200-1217): the sum of the two halves -/
def setBytesWide (b : List UInt8) : Go T := do
  Go.guard (b.length = 1152)
  let v ← setBytes R (b.take 576)
  let v2 ← setBytes R (b.drop 576)
  .ok (v + v2)

end Verif.Bls377.Gt
