import Verif.Common.Go
import Verif.Common.Bytes

/-!
# Multi-precision arithmetic of `pkg/core/curves/native/bls12381` (bls12381.go, fp.go, fq.go)

Everything works on 64-bit words. The Go code is unrolled, once for six limbs (fp.go) and once for four
(fq.go); here the rows of the unrolled code are loops over lists of limbs, least significant limb first,
with the same operations in the same order. The order of the first two arguments of `adc` in `montReduce`
differs between the two files; `adc` does not depend on it (`adc_comm`).
-/

namespace Verif.Bls381

/-- `bits.Mul64`: high and low word of the product -/
def mul64 (x y : UInt64) : UInt64 × UInt64 :=
  (UInt64.ofNat (x.toNat * y.toNat / 2 ^ 64), UInt64.ofNat (x.toNat * y.toNat))

/-- `bits.Add64`: sum and carry, for a carry of 0 or 1 -/
def add64 (x y carry : UInt64) : UInt64 × UInt64 :=
  (UInt64.ofNat (x.toNat + y.toNat + carry.toNat),
    UInt64.ofNat ((x.toNat + y.toNat + carry.toNat) / 2 ^ 64))

/-- `mac` (`bls12381.go:21-29`) -/
def mac (a b c d : UInt64) : UInt64 × UInt64 :=
  let m := mul64 b c
  let s := add64 a d 0
  let hi := (add64 m.1 0 s.2).1
  let t := add64 m.2 s.1 0
  let hi := (add64 hi 0 t.2).1
  (t.1, hi)

/-- `adc` (`bls12381.go:32-41`) -/
def adc (x y carry : UInt64) : UInt64 × UInt64 :=
  let sum := x + y + carry
  let carryOut := ((x &&& y) ||| ((x ||| y) &&& ~~~sum)) >>> 63
  let carryOut := carryOut ||| (((x &&& carry) ||| ((x ||| carry) &&& ~~~sum)) >>> 63)
  let carryOut := carryOut ||| (((y &&& carry) ||| ((y ||| carry) &&& ~~~sum)) >>> 63)
  (sum, carryOut)

/-- `sbb` (`bls12381.go:44-48`) -/
def sbb (x y borrow : UInt64) : UInt64 × UInt64 :=
  let diff := x - (y + borrow)
  let borrowOut := ((~~~x &&& y) ||| (~~~(x ^^^ y) &&& diff)) >>> 63
  (diff, borrowOut)

/-- the integer a list of limbs stands for -/
def limbVal (l : List UInt64) : ℕ := l.foldr (fun w a => w.toNat + 2 ^ 64 * a) 0

/-- one row of `mac`s with a running carry: `r + k * b + carry` -/
def macRow (k : UInt64) : List UInt64 → List UInt64 → UInt64 → List UInt64 × UInt64
  | r :: rs, b :: bs, c =>
    let m := mac r k b c
    let t := macRow k rs bs m.2
    (m.1 :: t.1, t.2)
  | _, _, c => ([], c)

/-- a row of `adc`s -/
def adcRow : List UInt64 → List UInt64 → UInt64 → List UInt64 × UInt64
  | x :: xs, y :: ys, c =>
    let m := adc x y c
    let t := adcRow xs ys m.2
    (m.1 :: t.1, t.2)
  | _, _, c => ([], c)

/-- a row of `sbb`s -/
def sbbRow : List UInt64 → List UInt64 → UInt64 → List UInt64 × UInt64
  | x :: xs, y :: ys, c =>
    let m := sbb x y c
    let t := sbbRow xs ys m.2
    (m.1 :: t.1, t.2)
  | _, _, c => ([], c)

/-- `Sub` (`fp.go:389-414`, `fq.go:169-187`) for the modulus `m` -/
def subMod (m x y : List UInt64) : List UInt64 :=
  let d := sbbRow x y 0
  let borrow := 0 - d.2
  (adcRow d.1 (m.map (· &&& borrow)) 0).1

/-- `Add` (`fp.go:372-386`, `fq.go:154-166`) -/
def addMod (m x y : List UInt64) : List UInt64 := subMod m (adcRow x y 0).1 m

/-- the rows of schoolbook multiplication (`fp.go:311-356`, `fq.go:125-148`): `acc` are the limbs already
computed from the current position on -/
def mulRows (b : List UInt64) : List UInt64 → List UInt64 → List UInt64
  | [], acc => acc
  | x :: xs, acc =>
    let m := macRow x acc b 0
    match m.1 ++ [m.2] with
    | [] => []
    | low :: rest => low :: mulRows b xs rest

/-- the double-length product -/
def mulWide (x y : List UInt64) : List UInt64 := mulRows y x (y.map fun _ => 0)

/-- the products of different limbs (`fp.go:257-275`, `fq.go:95-102`), from limb 1 on; `acc` are the limbs
already computed from the current position on -/
def offDiag : List UInt64 → List UInt64 → List UInt64
  | [], _ => []
  | [_], _ => []
  | x :: xs, acc =>
    let m := macRow x acc xs 0
    match m.1 ++ [m.2] with
    | u :: v :: rest => u :: v :: offDiag xs rest
    | short => short

/-- the shift by one bit (`fp.go:277-287`, `fq.go:104-110`) with the bits coming in and going out -/
def shl1 : UInt64 → List UInt64 → List UInt64
  | below, [] => [below >>> 63]
  | below, r :: rs => ((r <<< 1) ||| (below >>> 63)) :: shl1 r rs

/-- adding the squares of the limbs (`fp.go:289-300`, `fq.go:112-119`); the last carry is dropped -/
def addSquares : List UInt64 → List UInt64 → UInt64 → List UInt64
  | x :: xs, r0 :: r1 :: rs, c =>
    let m := mac r0 x x c
    let a := adc 0 r1 m.2
    m.1 :: a.1 :: addSquares xs rs a.2
  | _, _, _ => []

/-- the double-length square; `r[0]` is computed with the accumulator 0 and nothing is shifted into
`r[1]` -/
def squareWide (x : List UInt64) : List UInt64 :=
  addSquares x (0 :: shl1 0 (offDiag x (x.drop 1 |>.map fun _ => 0))) 0

/-- the rounds of `montReduce` (`fp.go:639-691`, `fq.go:384-410`): `w` are the limbs from the current
position on, `hi` the limbs above them, `c2` the carry of the last `adc` -/
def montRounds (inv : UInt64) (m : List UInt64) : List UInt64 → List UInt64 → UInt64 → List UInt64
  | w, [], _ => w
  | w, h :: hs, c2 =>
    let k := w.headD 0 * inv
    let row := macRow k w m 0
    let s := adc h c2 row.2
    montRounds inv m (row.1.drop 1 ++ [s.1]) hs s.2

/-- `montReduce` (`fp.go:634-694`, `fq.go:379-413`) for a modulus of `n` limbs -/
def montReduce (inv : UInt64) (m r : List UInt64) : List UInt64 :=
  subMod m (montRounds inv m (r.take m.length) (r.drop m.length) 0) m

/-- `Mul` (`fp.go:311-359`, `fq.go:125-151`) -/
def mulMod (inv : UInt64) (m x y : List UInt64) : List UInt64 := montReduce inv m (mulWide x y)

/-- `Square` (`fp.go:253-303`, `fq.go:91-122`) -/
def squareMod (inv : UInt64) (m x : List UInt64) : List UInt64 := montReduce inv m (squareWide x)

/-- `fromMontgomery` (`fp.go:220-224`, `fq.go:63-67`) -/
def fromMontgomery (inv : UInt64) (m a : List UInt64) : List UInt64 :=
  montReduce inv m (a ++ m.map fun _ => 0)

/-- `-((mask | -mask) >> 63)` (`fp.go:242`, `fq.go:83`) -/
def fullMask (t : UInt64) : UInt64 := (0 : UInt64) - ((t ||| (0 - t)) >>> 63)

/-- `CMove` (`fp.go:589-598`), `Selectznz` (`fq.go:371-377`) -/
def cmove (x y : List UInt64) (choice : ℤ) : List UInt64 :=
  let mask : UInt64 := UInt64.ofInt (-choice)
  List.zipWith (fun a b => a ^^^ ((a ^^^ b) &&& mask)) x y

/-- `or` of all limbs -/
def orAll (l : List UInt64) : UInt64 := l.foldl (· ||| ·) 0

/-- `int(((int64(t) | int64(-t)) >> 63) + 1)` (`fp.go:77`, `:132`) -/
def zeroFlag (t : UInt64) : ℤ := (if (t ||| (0 - t)) >>> 63 = 1 then -1 else 0) + 1

/-- `IsZero` (`fp.go:70-78`) -/
def isZero (f : List UInt64) : ℤ := zeroFlag (orAll f)

/-- `IsNonZero` (`fp.go:81-89`) -/
def isNonZero (f : List UInt64) : ℤ := -(zeroFlag (orAll f) - 1)

/-- `Equal` (`fp.go:125-133`) -/
def equal (x y : List UInt64) : ℤ := zeroFlag (orAll (List.zipWith (· ^^^ ·) x y))

end Verif.Bls381
