import Mathlib.Algebra.Field.Basic

/-!
# The extension fields of BLS12-381 (`fp2.go`, `fp6.go`, `fp12.go`, `fp4Square` … of `gt.go`)

From here on an `fp` is the residue its limbs stand for (properties C143 to C146 justify this); the
functions that use no constant are written over an arbitrary field `F`. The flags of the constant-time code
are `int`s that are 0 or 1; they are `Bool`s here, `&` is `&&`, `|` is `||`, `-a + 1` is `!a`. A method takes
the old value of its receiver only where the result depends on it.
-/

namespace Verif.Bls381

/-- `fp2` (`fp2.go:8-10`): `A + B u` -/
@[ext] structure Fp2 (F : Type) where
  A : F
  B : F
deriving DecidableEq

/-- `fp6` (`fp6.go:7-9`): `A + B v + C v²` -/
@[ext] structure Fp6 (F : Type) where
  A : Fp2 F
  B : Fp2 F
  C : Fp2 F
deriving DecidableEq

/-- `fp12` (`fp12.go:6-8`): `A + B w` -/
@[ext] structure Fp12 (F : Type) where
  A : Fp6 F
  B : Fp6 F
deriving DecidableEq

/-- `CMove` at any level (`fp.go:588-597`, `fp2.go:319-323`, `fp6.go:335-340`, `fp12.go:227-231`) -/
def sel {α : Type} (arg1 arg2 : α) (choice : Bool) : α := if choice then arg2 else arg1

section
variable {F : Type} [Field F]

/-! ## `fp2.go` -/

namespace Fp2

/-- `SetZero` (`fp2.go:20-24`) -/
def zero : Fp2 F := ⟨0, 0⟩

/-- `SetOne` (`fp2.go:27-31`) -/
def one : Fp2 F := ⟨1, 0⟩

/-- `SetFp` (`fp2.go:34-38`) -/
def ofFp (a : F) : Fp2 F := ⟨a, 0⟩

/-- `Conjugate`, `FrobeniusMap` (`fp2.go:95-106`) -/
def conj (a : Fp2 F) : Fp2 F := ⟨a.A, -a.B⟩

/-- `MulByNonResidue` (`fp2.go:113-120`) -/
def mulByNonResidue (a : Fp2 F) : Fp2 F :=
  let aa := a.A - a.B
  let bb := a.A + a.B
  ⟨aa, bb⟩

/-- `Square` (`fp2.go:123-144`) -/
def square (arg : Fp2 F) : Fp2 F :=
  let a := arg.A + arg.B
  let b := arg.A - arg.B
  let c := arg.A + arg.A
  ⟨a * b, c * arg.B⟩

/-- `Add` (`fp2.go:147-151`) -/
def add (x y : Fp2 F) : Fp2 F := ⟨x.A + y.A, x.B + y.B⟩

/-- `Double` (`fp2.go:154-158`) -/
def double (x : Fp2 F) : Fp2 F := ⟨x.A + x.A, x.B + x.B⟩

/-- `Sub` (`fp2.go:161-165`) -/
def sub (x y : Fp2 F) : Fp2 F := ⟨x.A - y.A, x.B - y.B⟩

/-- `Mul` (`fp2.go:168-198`) -/
def mul (arg1 arg2 : Fp2 F) : Fp2 F :=
  let v0 := arg1.A * arg2.A
  let v1 := -arg1.B * arg2.B
  let a := v0 + v1
  let b := arg1.A + arg1.B
  let t := arg2.A + arg2.B
  let b := b * t
  let b := b - v0
  let b := b + v1
  ⟨a, b⟩

/-- `Mul0` (`fp2.go:200-204`) -/
def mul0 (arg1 : Fp2 F) (arg2 : F) : Fp2 F := ⟨arg1.A * arg2, arg1.B * arg2⟩

/-- `Neg` (`fp2.go:212-216`) -/
def neg (a : Fp2 F) : Fp2 F := ⟨-a.A, -a.B⟩

variable [DecidableEq F]

/-- `IsZero` (`fp2.go:56-58`) -/
def isZero (f : Fp2 F) : Bool := decide (f.A = 0) && decide (f.B = 0)

/-- `IsOne` (`fp2.go:61-63`) -/
def isOne (f : Fp2 F) : Bool := decide (f.A = 1) && decide (f.B = 0)

/-- `Equal` (`fp2.go:66-68`) -/
def equal (f rhs : Fp2 F) : Bool := decide (f.A = rhs.A) && decide (f.B = rhs.B)

/-- `Invert` (`fp2.go:288-315`) on a receiver holding `f`; `fp.Invert` returns the inverse, for zero the
argument, and whether the argument was non-zero (C144) -/
def invert (f arg : Fp2 F) : Fp2 F × Bool :=
  let a := arg.A * arg.A
  let b := arg.B * arg.B
  let a := a + b
  let t := a⁻¹
  let wasInverted := decide (a ≠ 0)
  let a := arg.A * t
  let b := -t
  let b := b * arg.B
  (⟨sel f.A a wasInverted, sel f.B b wasInverted⟩, wasInverted)

/-- `CNeg` (`fp2.go:326-330`) on a receiver holding `f` -/
def cneg (f a : Fp2 F) (choice : Bool) : Fp2 F := sel f (neg a) choice

/-- the inner loop of `pow` over the bits `n-1, …, 0` of a limb (`fp2.go:337-341`) -/
def powLimb (base : Fp2 F) (e : UInt64) : ℕ → Fp2 F → Fp2 F
  | 0, res => res
  | n + 1, res =>
    let res := square res
    let tmp := mul res base
    powLimb base e n (sel res tmp (((e >>> UInt64.ofNat n) &&& 1) == 1))

/-- `pow` (`fp2.go:332-344`): from the most significant limb down -/
def pow (base : Fp2 F) (e : List UInt64) : Fp2 F := e.foldr (fun w res => powLimb base w 64 res) one

/-- first exponent of `Sqrt` (`fp2.go:225-232`) -/
def sqrtExp1 : List UInt64 :=
  [0xee7fbfffffffeaaa, 0x07aaffffac54ffff, 0xd9cc34a83dac3d89, 0xd91dd2e13ce144af, 0x92c6e9ed90d2eb35,
    0x0680447a8e5ff9a6]

/-- second exponent of `Sqrt` (`fp2.go:265-272`) -/
def sqrtExp2 : List UInt64 :=
  [0xdcff7fffffffd555, 0x0f55ffff58a9ffff, 0xb39869507b587b12, 0xb23ba5c279c2895f, 0x258dd3db21a5d66b,
    0x0d0088f51cbff34d]

/-- `Sqrt` (`fp2.go:219-283`) on a receiver holding `f`; `m1` is the constant compared with `alpha`
(`fp2.go:250-257`) -/
def sqrt (m1 : F) (f a : Fp2 F) : Fp2 F × Bool :=
  let e1 := isZero a
  let a1 := pow a sqrtExp1
  let alpha := square a1
  let alpha := mul alpha a
  let x0 := mul a1 a
  let res2 : Fp2 F := ⟨-x0.B, x0.A⟩
  let e2 := equal alpha ⟨m1, 0⟩
  let t := one
  let t := add t alpha
  let t := pow t sqrtExp2
  let t := mul t x0
  let res := sel res2 zero e1
  let res := sel t res e2
  let t := square res
  let e3 := equal t a
  (sel f res e3, e3)

end Fp2

/-! ## `fp6.go` -/

namespace Fp6

/-- `SetFp2` (`fp6.go:28-33`) -/
def ofFp2 (a : Fp2 F) : Fp6 F := ⟨a, Fp2.zero, Fp2.zero⟩

/-- `SetZero` (`fp6.go:36-41`) -/
def zero : Fp6 F := ⟨Fp2.zero, Fp2.zero, Fp2.zero⟩

/-- `SetOne` (`fp6.go:44-49`) -/
def one : Fp6 F := ⟨Fp2.one, Fp2.zero, Fp2.zero⟩

/-- `Add` (`fp6.go:72-77`) -/
def add (x y : Fp6 F) : Fp6 F := ⟨x.A.add y.A, x.B.add y.B, x.C.add y.C⟩

/-- `Double` (`fp6.go:80-82`) -/
def double (x : Fp6 F) : Fp6 F := add x x

/-- `Sub` (`fp6.go:85-90`) -/
def sub (x y : Fp6 F) : Fp6 F := ⟨x.A.sub y.A, x.B.sub y.B, x.C.sub y.C⟩

/-- `Mul` (`fp6.go:93-127`) -/
def mul (arg1 arg2 : Fp6 F) : Fp6 F :=
  let aa := arg1.A.mul arg2.A
  let bb := arg1.B.mul arg2.B
  let cc := arg1.C.mul arg2.C
  let t1 := arg2.B.add arg2.C
  let s := arg1.B.add arg1.C
  let t1 := t1.mul s
  let t1 := t1.sub bb
  let t1 := t1.sub cc
  let t1 := t1.mulByNonResidue
  let t1 := t1.add aa
  let t3 := arg2.A.add arg2.C
  let s := arg1.A.add arg1.C
  let t3 := t3.mul s
  let t3 := t3.sub aa
  let t3 := t3.add bb
  let t3 := t3.sub cc
  let t2 := arg2.A.add arg2.B
  let s := arg1.A.add arg1.B
  let t2 := t2.mul s
  let t2 := t2.sub aa
  let t2 := t2.sub bb
  let cc := cc.mulByNonResidue
  let t2 := t2.add cc
  ⟨t1, t2, t3⟩

/-- `MulByB` (`fp6.go:130-147`) -/
def mulByB (arg : Fp6 F) (b : Fp2 F) : Fp6 F :=
  let bB := arg.B.mul b
  let t1 := arg.B.add arg.C
  let t1 := t1.mul b
  let t1 := t1.sub bB
  let t1 := t1.mulByNonResidue
  let t2 := arg.A.add arg.B
  let t2 := t2.mul b
  let t2 := t2.sub bB
  ⟨t1, t2, bB⟩

/-- `MulByAB` (`fp6.go:150-178`) -/
def mulByAB (arg : Fp6 F) (a b : Fp2 F) : Fp6 F :=
  let aA := arg.A.mul a
  let bB := arg.B.mul b
  let t1 := arg.B.add arg.C
  let t1 := t1.mul b
  let t1 := t1.sub bB
  let t1 := t1.mulByNonResidue
  let t1 := t1.add aA
  let t2 := a.add b
  let t3 := arg.A.add arg.B
  let t2 := t2.mul t3
  let t2 := t2.sub aA
  let t2 := t2.sub bB
  let t3 := arg.A.add arg.C
  let t3 := t3.mul a
  let t3 := t3.sub aA
  let t3 := t3.add bB
  ⟨t1, t2, t3⟩

/-- `MulByNonResidue` (`fp6.go:181-194`) -/
def mulByNonResidue (arg : Fp6 F) : Fp6 F := ⟨arg.C.mulByNonResidue, arg.A, arg.B⟩

/-- `Square` (`fp6.go:238-264`) -/
def square (arg : Fp6 F) : Fp6 F :=
  let s0 := arg.A.square
  let ab := arg.A.mul arg.B
  let s1 := ab.double
  let s2 := arg.A.sub arg.B
  let s2 := s2.add arg.C
  let s2 := s2.square
  let bc := arg.B.mul arg.C
  let s3 := bc.double
  let s4 := arg.C.square
  let fA := s3.mulByNonResidue
  let fA := fA.add s0
  let fB := s4.mulByNonResidue
  let fB := fB.add s1
  let fC := s1.add s2
  let fC := fC.add s3
  let fC := fC.sub s0
  let fC := fC.sub s4
  ⟨fA, fB, fC⟩

/-- `Neg` (`fp6.go:311-316`) -/
def neg (a : Fp6 F) : Fp6 F := ⟨a.A.neg, a.B.neg, a.C.neg⟩

variable [DecidableEq F]

/-- `Invert` (`fp6.go:267-308`) on a receiver holding `f`. The receiver of the inner `Invert` is the
temporary `t`, which holds `arg.A * a'`; on failure it is not used. -/
def invert (f arg : Fp6 F) : Fp6 F × Bool :=
  let a := arg.B.mul arg.C
  let a := a.mulByNonResidue
  let t := arg.A.square
  let a := t.sub a
  let b := arg.C.square
  let b := b.mulByNonResidue
  let t := arg.A.mul arg.B
  let b := b.sub t
  let c := arg.B.square
  let t := arg.A.mul arg.C
  let c := c.sub t
  let s := arg.B.mul c
  let t := arg.C.mul b
  let s := s.add t
  let s := s.mulByNonResidue
  let t := arg.A.mul a
  let s := s.add t
  let ti := Fp2.invert t s
  let wasInverted := ti.2
  let t := ti.1
  (⟨sel f.A (a.mul t) wasInverted, sel f.B (b.mul t) wasInverted, sel f.C (c.mul t) wasInverted⟩,
    wasInverted)

/-- `IsZero` (`fp6.go:319-321`) -/
def isZero (f : Fp6 F) : Bool := f.A.isZero && f.B.isZero && f.C.isZero

/-- `IsOne` (`fp6.go:324-326`): tests `B` twice and `C` never -/
def isOne (f : Fp6 F) : Bool := f.A.isOne && f.B.isZero && f.B.isZero

/-- `Equal` (`fp6.go:329-331`) -/
def equal (f rhs : Fp6 F) : Bool := f.A.equal rhs.A && f.B.equal rhs.B && f.C.equal rhs.C

end Fp6

/-! ## `fp12.go` -/

namespace Fp12

/-- the zero value of Go, `SetZero` (`fp12.go:39-43`) -/
def zero : Fp12 F := ⟨Fp6.zero, Fp6.zero⟩

/-- `SetOne` (`fp12.go:46-50`) -/
def one : Fp12 F := ⟨Fp6.one, Fp6.zero⟩

/-- `Square` (`fp12.go:68-86`) -/
def square (arg : Fp12 F) : Fp12 F :=
  let ab := arg.A.mul arg.B
  let apb := arg.A.add arg.B
  let aTick := arg.B.mulByNonResidue
  let aTick := aTick.add arg.A
  let aTick := aTick.mul apb
  let aTick := aTick.sub ab
  let t := ab.mulByNonResidue
  let aTick := aTick.sub t
  let bTick := ab.double
  ⟨aTick, bTick⟩

/-- `Add` (`fp12.go:106-110`) -/
def add (x y : Fp12 F) : Fp12 F := ⟨x.A.add y.A, x.B.add y.B⟩

/-- `Sub` (`fp12.go:113-117`) -/
def sub (x y : Fp12 F) : Fp12 F := ⟨x.A.sub y.A, x.B.sub y.B⟩

/-- `Mul` (`fp12.go:120-136`) -/
def mul (arg1 arg2 : Fp12 F) : Fp12 F :=
  let aa := arg1.A.mul arg2.A
  let bb := arg1.B.mul arg2.B
  let a2b2 := arg2.A.add arg2.B
  let b := arg1.A.add arg1.B
  let b := b.mul a2b2
  let b := b.sub aa
  let b := b.sub bb
  let a := bb.mulByNonResidue
  let a := a.add aa
  ⟨a, b⟩

/-- `Neg` (`fp12.go:139-143`) -/
def neg (a : Fp12 F) : Fp12 F := ⟨a.A.neg, a.B.neg⟩

/-- `MulByABD` (`fp12.go:146-166`) -/
def mulByABD (arg : Fp12 F) (a b d : Fp2 F) : Fp12 F :=
  let aa := arg.A.mulByAB a b
  let bb := arg.B.mulByB d
  let bd := b.add d
  let bTick := arg.A.add arg.B
  let bTick := bTick.mulByAB a bd
  let bTick := bTick.sub aa
  let bTick := bTick.sub bb
  let aTick := bb.mulByNonResidue
  let aTick := aTick.add aa
  ⟨aTick, bTick⟩

/-- `Conjugate` (`fp12.go:169-173`) -/
def conj (a : Fp12 F) : Fp12 F := ⟨a.A, a.B.neg⟩

variable [DecidableEq F]

/-- `Invert` (`fp12.go:89-103`) on a receiver holding `f`; the inner receiver `t` is a fresh zero -/
def invert (f arg : Fp12 F) : Fp12 F × Bool :=
  let a := arg.A.square
  let b := arg.B.square
  let b := b.mulByNonResidue
  let a := a.sub b
  let ti := Fp6.invert Fp6.zero a
  let wasInverted := ti.2
  let t := ti.1
  let a := arg.A.mul t
  let t := t.neg
  let b := arg.B.mul t
  (⟨sel f.A a wasInverted, sel f.B b wasInverted⟩, wasInverted)

/-- `Equal` (`fp12.go:211-213`) -/
def equal (f rhs : Fp12 F) : Bool := f.A.equal rhs.A && f.B.equal rhs.B

/-- `IsZero` (`fp12.go:216-218`) -/
def isZero (f : Fp12 F) : Bool := f.A.isZero && f.B.isZero

/-- `IsOne` (`fp12.go:221-223`) -/
def isOne (f : Fp12 F) : Bool := f.A.isOne && f.B.isZero

end Fp12

/-! ## Squaring in the cyclotomic subgroup (`gt.go`) -/

/-- `fp4Square` (`gt.go:352-363`) -/
def fp4Square (arg1 arg2 : Fp2 F) : Fp2 F × Fp2 F :=
  let t0 := arg1.square
  let t1 := arg2.square
  let t2 := t1.mulByNonResidue
  let a := t2.add t0
  let t2 := arg1.add arg2
  let t2 := t2.square
  let t2 := t2.sub t0
  let b := t2.sub t1
  (a, b)

/-- `cyclotomicSquare` (`gt.go:365-414`) -/
def cyclotomicSquare (a : Fp12 F) : Fp12 F :=
  let z0 := a.A.A
  let z4 := a.A.B
  let z3 := a.A.C
  let z2 := a.B.A
  let z1 := a.B.B
  let z5 := a.B.C
  let t01 := fp4Square z0 z1
  let t0 := t01.1
  let t1 := t01.2
  let z0 := t0.sub z0
  let z0 := z0.double
  let z0 := z0.add t0
  let z1 := t1.add z1
  let z1 := z1.double
  let z1 := z1.add t1
  let t01 := fp4Square z2 z3
  let t0 := t01.1
  let t1 := t01.2
  let t23 := fp4Square z4 z5
  let t2 := t23.1
  let t3 := t23.2
  let z4 := t0.sub z4
  let z4 := z4.double
  let z4 := z4.add t0
  let z5 := z5.add t1
  let z5 := z5.double
  let z5 := z5.add t1
  let t0 := t3.mulByNonResidue
  let z2 := z2.add t0
  let z2 := z2.double
  let z2 := z2.add t0
  let z3 := t2.sub z3
  let z3 := z3.double
  let z3 := z3.add t2
  ⟨⟨z0, z4, z3⟩, ⟨z2, z1, z5⟩⟩

/-- `paramX` (`bls12381.go:13`): the absolute value of the curve parameter -/
def paramX : UInt64 := 0xd201000000010000

/-- the loop of `cyclotomicExp` over the bits `n-1, …, 0` (`gt.go:421-431`): state `t`, `foundOne` -/
def cyclotomicLoop (a : Fp12 F) : ℕ → Fp12 F → Bool → Fp12 F
  | 0, t, _ => t
  | n + 1, t, foundOne =>
    let b := ((paramX >>> UInt64.ofNat n) &&& 1) == 1
    let t := if foundOne then cyclotomicSquare t else t
    let foundOne := if foundOne then foundOne else b
    let t := if b then t.mul a else t
    cyclotomicLoop a n t foundOne

/-- `cyclotomicExp` (`gt.go:416-434`) -/
def cyclotomicExp (a : Fp12 F) : Fp12 F := (cyclotomicLoop a 64 Fp12.one false).conj

end

end Verif.Bls381
