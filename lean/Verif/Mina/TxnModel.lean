import Verif.Mina.KeysModel

/-!
# Mina addresses, transactions and threshold challenges (`keys.go`, `txn.go`, `challenge_derive.go`)

A slice expression whose upper bound lies beyond the length of the input is a panic here; in Go it is one
when the bound also exceeds the capacity of the slice, otherwise bytes after the end of the input are read.
-/

namespace Verif.Mina

open Primes

/-- SHA-256, base 58, and the point with a given x-coordinate and parity of the y-coordinate, which is
what is left of `FromAffineCompressed` after the x-coordinate is read (`pallas_curve.go:925-940`) -/
structure Codec (G : Type) where
  sha256 : List UInt8 → List UInt8
  b58enc : List UInt8 → String
  b58dec : String → List UInt8
  lift : ZMod pallasp → Bool → Option G

section Model
variable {G : Type} [AddCommGroup G] [Module (ZMod pallasq) G] [DecidableEq G]
  (E : Env pallasp pallasq G) (C : Codec G)

/-- `Ep.ToAffineCompressed` (`pallas_curve.go:891-902`): the copy of `inf` never happens because
`toAffine` has already replaced the identity by `(0, 0, 1)`, whose bytes are zero -/
def compress (P : G) : List UInt8 :=
  let x := fieldBytes (E.x P)
  x.set 31 (x.getD 31 0 ||| (((fieldBytes (E.y P)).getD 0 0 &&& 1) <<< 7))

/-- `Ep.FromAffineCompressed` (`pallas_curve.go:912-940`) -/
def decompress (bytes : List UInt8) : Go G := do
  Go.guard (bytes.length = 32)
  let sign := (bytes.getD 31 0 >>> 7) &&& 1
  let x ← fieldOfBytes Native.pastaFp pallasp (bytes.set 31 (bytes.getD 31 0 &&& 0x7f))
  Go.ofOption (C.lift x (sign == 1))

/-- `GenerateAddress` (`keys.go:35-49`) up to the base 58 encoding -/
def addressPayload (pk : G) : List UInt8 :=
  let payload := [0xcb, 0x01, 0x01] ++ fieldBytes (E.x pk) ++ [(fieldBytes (E.y pk)).getD 0 0 &&& 1]
  payload ++ (C.sha256 (C.sha256 payload)).take 4

/-- `GenerateAddress` (`keys.go:35-49`) -/
def generateAddress (pk : G) : String := C.b58enc (addressPayload E C pk)

/-- `ParseAddress` (`keys.go:52-79`) -/
def parseAddress (b58 : String) : Go G := do
  let buffer := C.b58dec b58
  Go.guard (buffer.length = 40)
  Go.guard (buffer.getD 0 0 = 0xcb)
  Go.guard (buffer.getD 1 0 = 0x01)
  Go.guard (buffer.getD 2 0 = 0x01)
  Go.guard ((C.sha256 (C.sha256 (buffer.take 36))).take 4 = buffer.drop 36)
  let x := (buffer.drop 3).take 32
  decompress C (x.set 31 (x.getD 31 0 ||| (buffer.getD 35 0 <<< 7)))

/-- `Transaction` (`txn.go:20-30`); a Go string is its bytes -/
structure Txn (G : Type) where
  fee : UInt64
  feeToken : UInt64
  feePayerPk : G
  nonce : UInt32
  validUntil : UInt32
  memo : List UInt8
  tag0 : Bool
  tag1 : Bool
  tag2 : Bool
  sourcePk : G
  receiverPk : G
  tokenId : UInt64
  amount : UInt64
  locked : Bool
  networkId : ℤ
  deriving DecidableEq

/-- `copy(dst[0:n], src)` into zero bytes -/
def copyInto (n : ℕ) (src : List UInt8) : List UInt8 :=
  src.take n ++ List.replicate (n - src.length) 0

/-- the maps from booleans to bytes (`txn.go:60-63`) -/
def boolByte (b : Bool) : UInt8 := if b then 1 else 0

/-- `MarshalBinary` (`txn.go:59-84`) -/
def Txn.marshal (t : Txn G) : List UInt8 :=
  leBytes 8 t.fee.toNat ++ leBytes 8 t.feeToken.toNat ++ compress E t.feePayerPk ++
  leBytes 4 t.nonce.toNat ++ leBytes 4 t.validUntil.toNat ++
  [0x01, UInt8.ofNat t.memo.length] ++ copyInto 32 t.memo ++
  [boolByte t.tag0, boolByte t.tag1, boolByte t.tag2] ++
  compress E t.sourcePk ++ compress E t.receiverPk ++
  leBytes 8 t.tokenId.toNat ++ leBytes 8 t.amount.toNat ++
  [boolByte t.locked, UInt8.ofInt t.networkId]

/-- `input[a:b]` -/
def slice (input : List UInt8) (a b : ℕ) : List UInt8 := (input.take b).drop a

/-- `input[58 : 58+input[57]]` (`txn.go:113`): the upper bound is computed in 8 bits -/
def memoSlice (input : List UInt8) : Go (List UInt8) :=
  let hi : UInt8 := 58 + input.getD 57 0
  if 58 ≤ hi.toNat ∧ hi.toNat ≤ input.length then .ok (slice input 58 hi.toNat) else Go.crash

/-- the map from bytes to booleans (`txn.go:87-90`): absent keys give `false` -/
def byteBool (b : UInt8) : Bool := b == 1

/-- `UnmarshalBinary` (`txn.go:86-125`) -/
def Txn.unmarshal (input : List UInt8) : Go (Txn G) := do
  Go.guard (175 ≤ input.length)
  let feePayerPk ← decompress C (slice input 16 48)
  let sourcePk ← decompress C (slice input 93 125)
  let receiverPk ← decompress C (slice input 125 157)
  let memo ← memoSlice input
  pure
    { fee := UInt64.ofNat (leNat (slice input 0 8))
      feeToken := UInt64.ofNat (leNat (slice input 8 16))
      feePayerPk := feePayerPk
      nonce := UInt32.ofNat (leNat (slice input 48 52))
      validUntil := UInt32.ofNat (leNat (slice input 52 56))
      memo := memo
      tag0 := byteBool (input.getD 90 0)
      tag1 := byteBool (input.getD 91 0)
      tag2 := byteBool (input.getD 92 0)
      sourcePk := sourcePk
      receiverPk := receiverPk
      tokenId := UInt64.ofNat (leNat (slice input 157 165))
      amount := UInt64.ofNat (leNat (slice input 165 173))
      locked := byteBool (input.getD 173 0)
      networkId := (input.getD 174 0).toNat }

/-- the memo field of `addRoInput` (`txn.go:211-212`) -/
def memoField (memo : List UInt8) : List UInt8 :=
  [0x01, UInt8.ofNat memo.length] ++ copyInto 32 memo

/-- `addRoInput` (`txn.go:201-223`) on a new input -/
def Txn.roInput (t : Txn G) : RoInput pallasp :=
  let i : RoInput pallasp := RoInput.init
  let i := ((i.addFp (E.x t.feePayerPk)).addFp (E.x t.sourcePk)).addFp (E.x t.receiverPk)
  let i := (i.addUint64 t.fee).addUint64 t.feeToken
  let i := i.addBit (isOdd (E.y t.feePayerPk))
  let i := (i.addUint32 t.nonce).addUint32 t.validUntil
  let i := i.addBytes (memoField t.memo)
  let i := ((i.addBit t.tag0).addBit t.tag1).addBit t.tag2
  let i := (i.addBit (isOdd (E.y t.sourcePk))).addBit (isOdd (E.y t.receiverPk))
  let i := (i.addUint64 t.tokenId).addUint64 t.amount
  i.addBit t.locked

/-- `SignTransaction` (`keys.go:155-159`) -/
def signTransaction (sk : ZMod pallasq) (t : Txn G) : Go (Sig pallasp pallasq) :=
  finishSign E sk (t.roInput E) t.networkId

/-- `VerifyTransaction` (`keys.go:201-205`) -/
def verifyTransaction (pk : G) (sig : Sig pallasp pallasq) (t : Txn G) : Go Unit :=
  finishVerify E pk sig (t.roInput E) t.networkId

/-- `MinaTSchnorrHandler.DeriveChallenge` (`challenge_derive.go:17-42`) on Pallas points -/
def deriveChallenge (msg : List UInt8) (pubKey r : G) : Go (ZMod pallasq) := do
  let t ← Txn.unmarshal C msg
  msgHash E pubKey (E.x r) (t.roInput E) mainNet

end Model

/-! ### JSON -/

/-- what `json.Unmarshal` stores in an `interface{}` -/
inductive Json
  | null
  | bool (b : Bool)
  | number
  | string (s : String)
  | array (l : List Json)
  | object (l : List (String × Json))

/-- the dynamic types of the type assertions of `UnmarshalJSON` (`txn.go:133-175`) -/
inductive GoType
  | string
  | payment
  | pair
  | delegation
  deriving DecidableEq

/-- the dynamic type of a decoded value among these: objects are `map[string]interface{}` and arrays are
`[]interface{}`, neither a struct nor an array of two -/
def Json.hasType : Json → GoType → Bool
  | .string _, .string => true
  | _, _ => false

/-- `UnmarshalJSON` (`txn.go:127-199`) after `json.Unmarshal` and `CheckDecode` of the memo (`none` for an
error); the continuations after the assertions are the argument `cont` -/
def unmarshalJSON {T : Type} (body0 body1 : Json) (memo : Option (List UInt8)) (second : Json → Json)
    (cont : Json → Go T) : Go T := do
  let strType ← match body0 with
    | .string s => Except.ok s
    | _ => Go.err
  let _ ← Go.ofOption memo
  if strType = "Payment" then
    Go.guard (body1.hasType .payment = true)
    cont body1
  else if strType = "Stake_delegation" then do
    Go.guard (body1.hasType .pair = true)
    Go.guard ((second body1).hasType .delegation = true)
    cont (second body1)
  else Go.err

end Verif.Mina
