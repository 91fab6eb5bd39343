import Mathlib.Algebra.Module.Basic
import Verif.Common.Bytes
import Verif.Mina.PoseidonModel
import Verif.Native.FieldModel

/-!
# Mina signatures (`pkg/signatures/schnorr/mina/roinput.go`, `keys.go`, `signature.go`)

The group is an arbitrary module over the integers modulo the order, with two coordinate functions into
the base field. The bits of a `roinput` are a list: `C79_append` and `C79_element` justify this for
inputs of fewer than `2^32` bits, and `C79_append_wrap` says what happens beyond. Keys and signatures
whose pointers are nil are not modelled.
-/

namespace Verif.Mina

open Primes

/-- `roinput` (`roinput.go:15-18`) -/
structure RoInput (p : ℕ) where
  fields : List (ZMod p)
  bits : List Bool
  deriving DecidableEq

/-- the `k` low bits of a number, the lowest first -/
def bitsOf (n k : ℕ) : List Bool := (List.range k).map n.testBit

/-- the number with the given bits, the lowest first -/
def bitsNat (bs : List Bool) : ℕ := bs.foldr (fun b a => b.toNat + 2 * a) 0

section Input
variable {p q : ℕ}

/-- `Init` (`roinput.go:25-29`); the arguments only reserve memory -/
def RoInput.init : RoInput p := ⟨[], []⟩

/-- `AddFp` (`roinput.go:44-46`) -/
def RoInput.addFp (r : RoInput p) (f : ZMod p) : RoInput p := ⟨r.fields ++ [f], r.bits⟩

/-- `AddFq` (`roinput.go:48-58`) -/
def RoInput.addFq (r : RoInput p) (f : ZMod q) : RoInput p := ⟨r.fields, r.bits ++ bitsOf f.val 255⟩

/-- `AddBit` (`roinput.go:60-62`) -/
def RoInput.addBit (r : RoInput p) (b : Bool) : RoInput p := ⟨r.fields, r.bits ++ [b]⟩

/-- the bits `AddBytes` appends -/
def byteBits (bs : List UInt8) : List Bool := bs.flatMap (fun b => bitsOf b.toNat 8)

/-- `AddBytes` (`roinput.go:64-70`) -/
def RoInput.addBytes (r : RoInput p) (bs : List UInt8) : RoInput p := ⟨r.fields, r.bits ++ byteBits bs⟩

/-- `AddUint32` (`roinput.go:72-76`) -/
def RoInput.addUint32 (r : RoInput p) (x : UInt32) : RoInput p :=
  ⟨r.fields, r.bits ++ bitsOf x.toNat 32⟩

/-- `AddUint64` (`roinput.go:78-82`) -/
def RoInput.addUint64 (r : RoInput p) (x : UInt64) : RoInput p :=
  ⟨r.fields, r.bits ++ bitsOf x.toNat 64⟩

/-- bits written into `n` zero bytes, the lowest bit of each byte first -/
def packBytes (n : ℕ) (bits : List Bool) : List UInt8 :=
  (List.range n).map (fun i => UInt8.ofNat (bitsNat ((bits.drop (8 * i)).take 8)))

/-- `Bytes` (`roinput.go:84-102`) -/
def RoInput.bytes (r : RoInput p) : List UInt8 :=
  packBytes ((r.bits.length + 7) / 8 + 32 * r.fields.length)
    (r.fields.flatMap (fun f => bitsOf f.val 255) ++ r.bits)

/-- the chunks of 254 bits of `Fields` (`roinput.go:113-133`), as numbers; the first argument bounds the
number of turns -/
def chunks : ℕ → List Bool → List ℕ
  | 0, _ => []
  | _ + 1, [] => []
  | n + 1, b :: bs => bitsNat ((b :: bs).take 254) :: chunks n ((b :: bs).drop 254)

/-- `Fields` (`roinput.go:104-136`) -/
def RoInput.toFields (r : RoInput p) : List (ZMod p) :=
  r.fields ++ (chunks r.bits.length r.bits).map (fun n : ℕ => (n : ZMod p))

end Input

/-- the curve and the hash functions -/
structure Env (p q : ℕ) (G : Type) where
  /-- the generator -/
  gen : G
  /-- the affine coordinates `Ep.X`, `Ep.Y`, both zero for the identity (`pallas_curve.go:873-997`) -/
  x : G → ZMod p
  /-- see `x` -/
  y : G → ZMod p
  /-- the entry `contexts[ThreeW]` -/
  params : Params (ZMod p)
  /-- Blake2b with 32 bytes of output -/
  blake : List UInt8 → List UInt8

/-- `Signature` (`signature.go:17-20`) -/
structure Sig (p q : ℕ) where
  R : ZMod p
  S : ZMod q
  deriving DecidableEq

section Keys
variable {p q : ℕ} [Fact p.Prime] [Fact q.Prime] {G : Type} [AddCommGroup G] [Module (ZMod q) G]
  [DecidableEq G] (E : Env p q G)

/-- `Fp.IsOdd` (`native/pasta/fp/fp.go:81-85`) -/
def isOdd (f : ZMod p) : Bool := f.val % 2 == 1

/-- `GetPublicKey` (`keys.go:104-107`) -/
def publicKey (sk : ZMod q) : G := sk • E.gen

/-- the input `msgHash` hashes (`keys.go:237-239`) -/
def hashInput (pk : G) (rx : ZMod p) (input : RoInput p) : RoInput p :=
  ((input.addFp (E.x pk)).addFp (E.y pk)).addFp rx

/-- `msgHash` (`keys.go:236-245`), always called with `ThreeW` -/
def msgHash (pk : G) (rx : ZMod p) (input : RoInput p) (networkId : ℤ) : Go (ZMod q) :=
  spongeHash q E.params .threeW networkId (hashInput E pk rx input).toFields

/-- the input of the nonce (`keys.go:248-252`) -/
def deriveInput (sk : ZMod q) (msg : RoInput p) (pk : G) (networkId : ℤ) : RoInput p :=
  ((((msg.addFp (E.x pk)).addFp (E.y pk)).addFq sk).addBytes [UInt8.ofInt networkId])

/-- the hash with its two top bits cleared, as a number (`keys.go:260-267`) -/
def clearTop (hash : List UInt8) : ℕ := leNat (hash.set 31 (hash.getD 31 0 &&& 0x3f))

/-- `msgDerive` (`keys.go:247-268`) -/
def msgDerive (sk : ZMod q) (msg : RoInput p) (pk : G) (networkId : ℤ) : ZMod q :=
  (clearTop (E.blake (deriveInput E sk msg pk networkId).bytes) : ZMod q)

/-- `finishSchnorrSign` (`keys.go:169-198`) -/
def finishSign (sk : ZMod q) (input : RoInput p) (networkId : ℤ) : Go (Sig p q) := do
  Go.guard (sk ≠ 0)
  let pk := publicKey E sk
  let k := msgDerive E sk input pk networkId
  Go.guard (k ≠ 0)
  let r := k • E.gen
  let k := if isOdd (E.y r) then -k else k
  let rx := E.x r
  let e ← msgHash E pk rx input networkId
  let s := k + e * sk
  Go.guard (¬ (rx = 0 ∨ s = 0))
  pure ⟨rx, s⟩

/-- `finishSchnorrVerify` (`keys.go:214-234`) -/
def finishVerify (pk : G) (sig : Sig p q) (input : RoInput p) (networkId : ℤ) : Go Unit := do
  Go.guard (pk ≠ 0)
  Go.guard (¬ (sig.R = 0 ∨ sig.S = 0))
  let e ← msgHash E pk sig.R input networkId
  let r := sig.S • E.gen + -(e • pk)
  Go.guard (isOdd (E.y r) = false ∧ E.x r = sig.R)

/-- the input of a message (`keys.go:164-165`, `:209-210`) -/
def messageInput (message : List UInt8) : RoInput p := RoInput.init.addBytes message

/-- `SignMessage` (`keys.go:163-167`) -/
def signMessage (sk : ZMod q) (message : List UInt8) : Go (Sig p q) :=
  finishSign E sk (messageInput message) mainNet

/-- `VerifyMessage` (`keys.go:208-212`) -/
def verifyMessage (pk : G) (sig : Sig p q) (message : List UInt8) : Go Unit :=
  finishVerify E pk sig (messageInput message) mainNet

/-- `NewKeysFromReader` (`keys.go:138-151`) on the scalar read -/
def newKeys (t : ZMod q) : Go (G × ZMod q) := do
  Go.guard (t ≠ 0)
  let pk := t • E.gen
  Go.guard (pk ≠ 0)
  pure (pk, t)

end Keys

/-- little-endian bytes of a field element (`Fp.Bytes`, `Fq.Bytes`) -/
def fieldBytes {p : ℕ} (f : ZMod p) : List UInt8 := leBytes 32 f.val

/-- `SetBytes` of the two fields (`native/pasta/fp/fp.go:166-179`, `fq/fq.go:160-173`): the word-level
`pastaSetBytes` and the value of the element it makes -/
def fieldOfBytes (P : Native.FieldParams) (p : ℕ) (bs : List UInt8) : Go (ZMod p) := do
  let v ← Native.pastaSetBytes P bs
  pure (((Native.fromMont P v).val : ℕ) : ZMod p)

/-- `Signature.MarshalBinary` (`signature.go:22-29`) -/
def Sig.marshal {p q : ℕ} (s : Sig p q) : List UInt8 := fieldBytes s.R ++ fieldBytes s.S

/-- `Signature.UnmarshalBinary` (`signature.go:31-49`) -/
def Sig.unmarshal (input : List UInt8) : Go (Sig pallasp pallasq) := do
  Go.guard (input.length = 64)
  let r ← fieldOfBytes Native.pastaFp pallasp (input.take 32)
  let s ← fieldOfBytes Native.pastaFq pallasq (input.drop 32)
  pure ⟨r, s⟩

/-- `SecretKey.MarshalBinary` (`keys.go:109-112`) -/
def secretMarshal {q : ℕ} (sk : ZMod q) : List UInt8 := fieldBytes sk

/-- `SecretKey.UnmarshalBinary` (`keys.go:114-126`) -/
def secretUnmarshal (input : List UInt8) : Go (ZMod pallasq) := do
  Go.guard (input.length = 32)
  fieldOfBytes Native.pastaFq pallasq input

end Verif.Mina
