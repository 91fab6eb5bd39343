import Mathlib.Data.List.Basic
import Mathlib.Data.Int.Basic
import Verif.Common.Go

/-!
# Bit vectors of the Mina package (`pkg/signatures/schnorr/mina/bitvector.go`)

Bit `i` of a vector is bit `i % 8` of byte `i / 8` of its data. The data may be longer than the length
needs. `length` is a natural number (`NewBitVector` with a negative length is not modelled); the
conversions of bit and byte indices to `uint32` are kept. Every method that changes the vector returns
the new vector.
-/

namespace Verif.Mina

/-- `BitVector` (`bitvector.go:35-38`) -/
structure BitVector where
  data : List UInt8
  length : ℕ
  deriving DecidableEq, Repr

/-- `NewBitVector` (`bitvector.go:42-47`) -/
def newBitVector (data : List UInt8) (length : ℕ) : BitVector := ⟨data, length⟩

/-- an element of a slice (run-time panic when the index is out of range) -/
def byteAt (data : List UInt8) (i : ℕ) : Go UInt8 :=
  match data[i]? with
  | some b => .ok b
  | none => Go.crash

/-- the loop of `shiftLower` (`bitvector.go:66-71`), from the last byte to the first; `bit` is the bit
already in the top position -/
def shiftLowerLoop (bit : UInt8) : List UInt8 → List UInt8 × UInt8
  | [] => ([], bit)
  | b :: bs =>
    let r := shiftLowerLoop bit bs
    (((b >>> 1) ||| r.2) :: r.1, (b &&& 1) <<< 7)

/-- `shiftLower` (`bitvector.go:64-73`): the shifted bytes and the bit that falls off -/
def shiftLower (bit : UInt8) (b : List UInt8) : List UInt8 × UInt8 :=
  let r := shiftLowerLoop (bit <<< 7) b
  (r.1, r.2 >>> 7)

/-- `shiftHigher` (`bitvector.go:79-87`); its only caller ignores the bit that falls off -/
def shiftHigher (bit : UInt8) : List UInt8 → List UInt8
  | [] => []
  | b :: bs => ((b <<< 1) ||| bit) :: shiftHigher ((b &&& 0x80) >>> 7) bs

/-- `bytesLength` (`bitvector.go:90-94`); the shift of `-1` is arithmetic -/
def bytesLength (length : ℕ) : ℕ := ((((length : ℤ) - 1) >>> 3) + 1).toNat

/-- `indexAssert` (`bitvector.go:97-101`) -/
def indexAssert (v : BitVector) (i : ℤ) : Go Unit :=
  if i < 0 ∨ i ≥ v.length then Go.crash else .ok ()

/-- `byte(1 << byteOffset)` -/
def oneAt (off : ℕ) : UInt8 := 1 <<< UInt8.ofNat off

/-- the byte with the bit at an offset replaced (`bitvector.go:114-122`, `:147-155`) -/
def writeBit (oldByte bit : UInt8) (off : ℕ) : UInt8 :=
  if bit == 1 then oldByte ||| oneAt off else oldByte &&& ~~~(oneAt off)

/-- the data with one more byte when the length needs it (`bitvector.go:108-110`, `:166-169`) -/
def growData (data : List UInt8) (length : ℕ) : List UInt8 :=
  if bytesLength length > data.length then data ++ [0] else data

/-- `Append` (`bitvector.go:104-125`) -/
def append (v : BitVector) (bit : UInt8) : Go BitVector := do
  let index := v.length % 2 ^ 32
  let length := v.length + 1
  let data := growData v.data length
  let oldByte ← byteAt data (index / 8)
  pure ⟨data.set (index / 8) (writeBit oldByte bit (index % 8)), length⟩

/-- `Element` (`bitvector.go:129-136`) -/
def element (v : BitVector) (i : ℤ) : Go UInt8 := do
  indexAssert v i
  let b ← byteAt v.data (i.toNat / 8)
  pure ((b >>> UInt8.ofNat (i.toNat % 8)) &&& 1)

/-- `Set` (`bitvector.go:140-157`) -/
def set (v : BitVector) (bit : UInt8) (index : ℤ) : Go BitVector := do
  indexAssert v index
  let byteIndex := index.toNat / 8 % 2 ^ 32
  let oldByte ← byteAt v.data byteIndex
  pure ⟨v.data.set byteIndex (writeBit oldByte bit (index.toNat % 8)), v.length⟩

/-- `Insert` (`bitvector.go:162-193`) -/
def insert (v : BitVector) (bit : UInt8) (index : ℤ) : Go BitVector := do
  indexAssert v index
  let length := v.length + 1
  let data := growData v.data length
  let byteIndex := index.toNat / 8 % 2 ^ 32
  let off := index.toNat % 8
  let bitToInsert := if bit == 1 then oneAt off else 0
  let oldByte ← byteAt data byteIndex
  let leftoverBit := (oldByte &&& 0x80) >>> 7
  let bottomMask := oneAt off - 1
  let topMask := ~~~bottomMask
  let top := (oldByte &&& topMask) <<< 1
  let newByte := bitToInsert ||| (oldByte &&& bottomMask) ||| top
  let data := data.set byteIndex newByte
  let rest := (byteIndex + 1) % 2 ^ 32
  pure ⟨data.take rest ++ shiftHigher leftoverBit (data.drop rest), length⟩

/-- `byte(1 << (byteOffset+1))`, zero at offset 7 -/
def oneAfter (off : ℕ) : UInt8 := oneAt off <<< 1

/-- `Delete` (`bitvector.go:198-232`) -/
def delete (v : BitVector) (index : ℤ) : Go BitVector := do
  indexAssert v index
  let length := v.length - 1
  let byteIndex := index.toNat / 8 % 2 ^ 32
  let off := index.toNat % 8
  let oldByte ← byteAt v.data byteIndex
  let rest := (byteIndex + 1) % 2 ^ 32
  let sh := shiftLower 0 (v.data.drop rest)
  let data := v.data.take rest ++ sh.1
  let bottomMask := oneAt off - 1
  let topMask := ~~~(oneAfter off - 1)
  let newTop := ((oldByte &&& topMask) >>> 1) ||| (sh.2 <<< 7)
  let newByte := (bottomMask &&& oldByte) ||| newTop
  let data := data.set byteIndex newByte
  let byteLength := bytesLength length
  pure ⟨if byteLength < data.length then data.take byteLength else data, length⟩

end Verif.Mina
