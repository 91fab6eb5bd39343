import Mathlib.Data.Nat.Notation
import Mathlib.Logic.Function.Basic

/-!
# Bit vectors of the oblivious transfer code

Go arrays `[n]byte` are `Vector UInt8 n`; `uint64` words are `BitVec 64`, whose shifts by a natural
number agree with Go's.  Local word arrays of constant length (`a`, `b`, `c` of `binaryFieldMul`, the
output of `transposeBooleanMatrix`) are total functions updated in place; all the indices which occur
are in range.
-/

namespace Verif.Ot

/-- `[simplest.DigestSize]byte` (pkg/ot/base/simplest/ot.go:40) -/
abbrev Digest := Vector UInt8 32

/-- `ExtractBitFromByteVector` (pkg/ot/base/simplest/util.go:26-29) on a vector which is long enough;
the Go code panics for an index outside of the vector. -/
def extractBit (v : List UInt8) (index : ℕ) : UInt8 :=
  (v.getD (index >>> 3) 0 >>> UInt8.ofNat (index &&& 0x07)) &&& 0x01

/-- `xorBytes` (pkg/ot/base/simplest/util.go:8-13), and the byte-wise exclusive or of other arrays
(pkg/ot/extension/kos/kos.go:233-236, 312-314, 340-342) -/
def xorBytes {n : ℕ} (a b : Vector UInt8 n) : Vector UInt8 n := Vector.zipWith (· ^^^ ·) a b

/-- `convertBitToBitmask` (pkg/ot/extension/kos/kos.go:167-169) -/
def convertBitToBitmask (bit : UInt8) : UInt8 := ~~~(bit - 0x01)

/-- byte-wise `mask & row` -/
def maskBytes {n : ℕ} (mask : UInt8) (a : Vector UInt8 n) : Vector UInt8 n := a.map (mask &&& ·)

/-! ## `binaryFieldMul` -/

/-- "condense" a byte vector into words (pkg/ot/extension/kos/kos.go:91-94) -/
def condense (A : Digest) : ℕ → BitVec 64 :=
  (List.range 32).foldl (fun a i => Function.update a (i >>> 3)
    (a (i >>> 3) ||| ((A.toList.getD i 0).toBitVec.setWidth 64 <<< ((i &&& 0x07) <<< 3)))) (fun _ => 0#64)

/-- lines 102-105 for one `k` and one `j` -/
def mulRow (a b : ℕ → BitVec 64) (k : ℕ) (c : ℕ → BitVec 64) (j : ℕ) : ℕ → BitVec 64 :=
  (List.range 5).foldl (fun c i => Function.update c (j + i)
    (c (j + i) ^^^ (b i &&& -((a j >>> k) &&& 0x01#64)))) c

/-- the in-place shift of `b` by one bit (lines 107-110) -/
def shiftWords (b : ℕ → BitVec 64) : ℕ → BitVec 64 :=
  let b := [4, 3, 2, 1].foldl (fun (b : ℕ → BitVec 64) i => Function.update b i ((b i <<< 1) ||| (b (i - 1) >>> 63))) b
  Function.update b 0 (b 0 <<< 1)

/-- lines 95-111: the state is `(b, c)` -/
def mulLoop (a b : ℕ → BitVec 64) : ℕ → (ℕ → BitVec 64) × (ℕ → BitVec 64) :=
  fun n => (List.range n).foldl (fun s k =>
    (shiftWords s.1, (List.range 4).foldl (mulRow a s.1 k) s.2)) (b, fun _ => 0#64)

/-- one step of the reduction (lines 118-124) -/
def reduceStep (c : ℕ → BitVec 64) (i : ℕ) : ℕ → BitVec 64 :=
  let c := Function.update c (i - 4) (c (i - 4) ^^^ (c i <<< 10))
  let c := Function.update c (i - 3) (c (i - 3) ^^^ (c i >>> 54))
  let c := Function.update c (i - 4) (c (i - 4) ^^^ (c i <<< 5))
  let c := Function.update c (i - 3) (c (i - 3) ^^^ (c i >>> 59))
  let c := Function.update c (i - 4) (c (i - 4) ^^^ (c i <<< 2))
  let c := Function.update c (i - 3) (c (i - 3) ^^^ (c i >>> 62))
  Function.update c (i - 4) (c (i - 4) ^^^ c i)

/-- `binaryFieldMul` (pkg/ot/extension/kos/kos.go:78-131) on 32-byte slices -/
def binaryFieldMul (A B : Digest) : Digest :=
  let c := (mulLoop (condense A) (condense B) 64).2
  let c := [7, 6, 5, 4].foldl reduceStep c
  Vector.ofFn fun i => UInt8.ofBitVec ((c (i.val >>> 3) >>> ((i.val &&& 0x07) <<< 3)).setWidth 8)

/-! ## `transposeBooleanMatrix` -/

/-- `Kappa`, `KappaBytes`, `L`, `COtBlockSizeBytes`, `lPrime`, `cOtExtendedBlockSizeBytes`
(pkg/ot/extension/kos/kos.go:25-51) -/
abbrev kappa : ℕ := 256
@[inherit_doc kappa] abbrev kappaBytes : ℕ := 32
@[inherit_doc kappa] abbrev cotL : ℕ := 672
@[inherit_doc kappa] abbrev cotBytes : ℕ := 84
@[inherit_doc kappa] abbrev lPrime : ℕ := 1008
@[inherit_doc kappa] abbrev extBytes : ℕ := 126

/-- the indices `(rowByte, rowBitWithinByte, columnByte, columnBitWithinByte)` in loop order
(kos.go:179-182) -/
def transposeIdx (nRowBytes nColBytes : ℕ) : List (ℕ × ℕ × ℕ × ℕ) :=
  (List.range nRowBytes).flatMap fun rowByte => (List.range 8).flatMap fun rowBit =>
    (List.range nColBytes).flatMap fun colByte => (List.range 8).map fun colBit =>
      (rowByte, rowBit, colByte, colBit)

/-- `transposeBooleanMatrix` (pkg/ot/extension/kos/kos.go:177-199), for matrices of
`8 * nr` by `8 * nc` bits; the Go code has `nr = 32`, `nc = 126` -/
def transposeBooleanMatrix {nr nc : ℕ} (input : Vector (Vector UInt8 nc) (8 * nr)) :
    Vector (Vector UInt8 nr) (8 * nc) :=
  let out := (transposeIdx nr nc).foldl (fun (out : ℕ × ℕ → UInt8) ix =>
    let rowBit := (ix.1 <<< 3) + ix.2.1
    let colBit := (ix.2.2.1 <<< 3) + ix.2.2.2
    let bit := ((((input.toList.map Vector.toList).getD rowBit []).getD ix.2.2.1 0) >>>
      UInt8.ofNat ix.2.2.2) &&& 0x01
    Function.update out (colBit, ix.1) (out (colBit, ix.1) ||| (bit <<< UInt8.ofNat ix.2.1)))
    (fun _ => 0)
  Vector.ofFn fun c => Vector.ofFn fun r => out (c.val, r.val)

end Verif.Ot
