import Verif.Legacy.PointModel
import Verif.Common.BigInt

/-!
# Model of `VerifyEcdsa` (`pkg/core/curves/ecdsa.go`)

The function hands its arguments to `crypto/ecdsa.Verify` of the standard library.  That is modelled as it is for curves that are not of the
standard library (`verifyGeneric`, since Go 1.20 `verifyLegacy`), which is the path of `Koblitz256` and of the older `btcec` curve; it calls
back the methods of the curve, which are of this repository.
-/

namespace Verif.Legacy

/-- `EcdsaSignature` (ecdsa.go:21-24) -/
structure EcdsaSig where
  V : ℤ
  R : Option ℤ
  S : Option ℤ
  deriving DecidableEq

/-- `hashToInt` (Go, crypto/ecdsa): the digest is cut to the bytes of the order, and the excess bits are shifted out -/
def hashToInt (N : ℤ) (hash : List UInt8) : ℕ :=
  let orderBits := N.natAbs.size
  let orderBytes := (orderBits + 7) / 8
  let h := if hash.length > orderBytes then hash.take orderBytes else hash
  if h.length * 8 > orderBits then beNat h >>> (h.length * 8 - orderBits) else beNat h

/-- `verifyGeneric` (Go, crypto/ecdsa): a missing inverse is nil, and `Mul` and `Sign` panic on nil -/
def verifyGeneric (c : ECurve) (X Y : Option ℤ) (hash : List UInt8) (r s : ℤ) : Go Bool := do
  let N := c.params.N
  let e := hashToInt N hash
  match Big.modInverse s N with
  | none => Go.crash
  | some w =>
    let u1 ← Big.mod (e * w) N
    let u2 ← Big.mod (r * w) N
    let p1 ← c.scalarBaseMult (intBytes u1)
    let p2 ← c.scalarMult X Y (intBytes u2)
    let p ← c.add p1.1 p1.2 p2.1 p2.2
    match p with
    | (some x, some y) =>
      if x = 0 ∧ y = 0 then .ok false
      else do
        let v ← Big.mod x N
        .ok (decide (v = r))
    | _ => Go.crash

/-- `ecdsa.Verify` (Go, crypto/ecdsa): the range of `r` and `s` first, in this order -/
def stdVerify (c : ECurve) (X Y : Option ℤ) (hash : List UInt8) (r s : Option ℤ) : Go Bool :=
  match r with
  | none => Go.crash
  | some r =>
    if r ≤ 0 then .ok false
    else match s with
      | none => Go.crash
      | some s =>
        if s ≤ 0 then .ok false
        else if r ≥ c.params.N ∨ s ≥ c.params.N then .ok false
        else verifyGeneric c X Y hash r s

/-- `VerifyEcdsa` (ecdsa.go:30-38): the fields of the key and of the signature are read, so nil panics; `V` is not read -/
def verifyEcdsa (pk : Option EcPoint) (hash : List UInt8) (sig : Option EcdsaSig) : Go Bool :=
  match pk, sig with
  | some pk, some sig => stdVerify pk.curve pk.X pk.Y hash sig.R sig.S
  | _, _ => Go.crash

end Verif.Legacy
