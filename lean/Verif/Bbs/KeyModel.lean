import Verif.Bbs.Model
import Verif.Bls381.SigModel
import Verif.Curves.PointModel
import Verif.Common.Primes

/-!
# Keys of BBS+ and `Verify` on the coordinates of BLS12-381

`pkg/signatures/bbs/public_key.go`, `secret_key.go` with the types of `pkg/core/curves/bls12381_curve.go`. A scalar carries a
point, of which only the group matters; a `PairingPoint` is a point of one of the groups. `sha` is SHA-256.
-/

namespace Verif.Bbs.Key

open Verif.Native Verif.Bls381 Verif.Primes Verif.Curves

/-- the two types of points -/
inductive Grp where
  | g1
  | g2
  deriving DecidableEq

/-- `ScalarBls12381` (`bls12381_curve.go:22-25`): the value and the type of the field `point`, `none` if it is nil -/
structure Scal where
  value : ZMod blsr
  point : Option Grp
  deriving DecidableEq

/-- `BLS12381` (`curve.go:533-550`): the group of the argument `preferredPoint`, which goes to the scalars of the curve -/
structure PCurve where
  preferred : Option Grp

/-- `GetPairingCurveByName` (`curve.go:486-497`) -/
def byName (n : List UInt8) : Option PCurve :=
  if n = ascii "BLS12381G1" then some ⟨some .g1⟩
  else if n = ascii "BLS12381G2" then some ⟨some .g2⟩
  else if n = ascii "BLS12831" then some ⟨some .g1⟩
  else none

/-- `PairingCurve.NewScalar` (`curve.go:454-456`) -/
def newScalar (c : PCurve) : Scal := ⟨0, c.preferred⟩

/-- `NewSecretKey` (`secret_key.go:27-73`); `okm` are the 48 bytes of HKDF, `SetBytesWide` reads 64 bytes, least significant
first, and `SetPoint` puts the point of `G2` -/
def newSecretKey (okm : List UInt8) : Scal := ⟨((leNat (okm ++ List.replicate 16 0) : ℕ) : ZMod blsr), some .g2⟩

/-- `SecretKey.Init` (`secret_key.go:84-87`) -/
def initSecret (c : PCurve) : Scal := newScalar c

/-- `SecretKey.MarshalBinary` (`secret_key.go:89-91`) with `Bytes` (`bls12381_curve.go:238-241`) -/
def marshalSecret (sk : Scal) : List UInt8 := beBytes 32 sk.value.val

/-- `SecretKey.UnmarshalBinary` (`secret_key.go:93-104`) with `SetBytes` (`bls12381_curve.go:243-256`), which keeps the point
of the receiver -/
def unmarshalSecret (sk : Scal) (data : List UInt8) : Go Scal := do
  Go.guard (data.length = 32)
  Go.guard (beNat data < blsr)
  .ok ⟨((beNat data : ℕ) : ZMod blsr), sk.point⟩

/-- `SecretKey.PublicKey` (`secret_key.go:137-141`) with `Point` (`bls12381_curve.go:269-271`), which panics for a nil point -/
def publicKey (sk : Scal) : Go AnyPoint :=
  match sk.point with
  | none => Go.crash
  | some .g1 => .ok (.g1 (gMultiply mulBy3b1 g1Generator (leBytes 32 sk.value.val)))
  | some .g2 => .ok (.g2 (gMultiply mulBy3b2 g2Generator (leBytes 32 sk.value.val)))

/-- `PublicKey.Init` (`public_key.go:21-24`) -/
def initPublic : AnyPoint := .g2 gIdentity

/-- `PublicKey.MarshalBinary` (`public_key.go:26-28`) -/
def marshalPublic : AnyPoint → Go (List UInt8)
  | .g1 p => .ok (g1ToCompressed p)
  | .g2 p => .ok (g2ToCompressed p)
  | .other => Go.crash

/-- `PublicKey.UnmarshalBinary` (`public_key.go:30-41`): the receiver decides about the group -/
def unmarshalPublic (pk : AnyPoint) (data : List UInt8) : Go AnyPoint :=
  match pk with
  | .g1 _ => do .ok (.g1 (← Pt.g1Dec data))
  | .g2 _ => do .ok (.g2 (← Pt.g2Dec data))
  | .other => Go.crash

/-! ## Operations on points of either group -/

/-- `IsIdentity`; a nil point panics -/
def isIdentity : AnyPoint → Go Bool
  | .g1 p => .ok (decide (p.z = 0))
  | .g2 p => .ok (decide (p.z = 0))
  | .other => Go.crash

/-- `Generator` -/
def generator : AnyPoint → AnyPoint
  | .g1 _ => .g1 g1Generator
  | .g2 _ => .g2 g2Generator
  | .other => .other

/-- `Generator().Mul(e).Add(pk)` (`public_key.go:58`) -/
def mulAdd (pk : AnyPoint) (e : ZMod blsr) : AnyPoint :=
  match pk with
  | .g1 p => .g1 (gAdd mulBy3b1 (gMultiply mulBy3b1 g1Generator (leBytes 32 e.val)) p)
  | .g2 p => .g2 (gAdd mulBy3b2 (gMultiply mulBy3b2 g2Generator (leBytes 32 e.val)) p)
  | .other => .other

/-- `Neg` -/
def neg : AnyPoint → AnyPoint
  | .g1 p => .g1 (gNeg p)
  | .g2 p => .g2 (gNeg p)
  | .other => .other

/-- `Hash` (`bls12381_curve.go:350-354,598-602`) -/
def hash (sha : Hasher) (p : AnyPoint) (b : List UInt8) : AnyPoint :=
  match p with
  | .g1 _ => .g1 (g1Hash sha b (ascii "BLS12381G1_XMD:SHA-256_SSWU_RO_"))
  | .g2 _ => .g2 (g2Hash sha b (ascii "BLS12381G2_XMD:SHA-256_SSWU_RO_"))
  | .other => .other

/-- the type assertion of `PointBls12381G1.SumOfProducts` -/
def as1 : Option AnyPoint → Pt.Arg (Proj Fq)
  | some (.g1 p) => .mine p
  | some _ => .foreign
  | none => .nil

/-- the type assertion of `PointBls12381G2.SumOfProducts` -/
def as2 : Option AnyPoint → Pt.Arg (Proj (Fp2 Fq))
  | some (.g2 p) => .mine p
  | some _ => .foreign
  | none => .nil

/-- `computeB` (`secret_key.go:144-159`): the group is that of the generators; a nil sum makes the type assertion panic -/
def computeB (sha : Hasher) (s : ZMod blsr) (msgs : List (ZMod blsr)) (gens : Gens AnyPoint) : Go AnyPoint :=
  let points := some (generator gens.h0) :: gens.get (hash sha gens.h0) 0 ::
    (List.range msgs.length).map fun i : ℕ => gens.get (hash sha gens.h0) ((i : ℤ) + 1)
  let scalars := 1 :: s :: msgs
  match msgs with
  | [] => Go.crash
  | _ :: _ =>
    match gens.h0 with
    | .g1 _ =>
      match Pt.sum Pt.g1 (points.map as1) (scalars.map .mine) with
      | none => Go.crash
      | some b => .ok (.g1 b)
    | .g2 _ =>
      match Pt.sum Pt.g2 (points.map as2) (scalars.map .mine) with
      | none => Go.crash
      | some b => .ok (.g2 b)
    | .other => Go.crash

/-- `PublicKey.Verify` (`public_key.go:44-73`): a nil result of `MultiPairing` makes `IsOne` panic -/
def verify (sha : Hasher) (pk : AnyPoint) (sig : Signature (ZMod blsr) AnyPoint) (gens : Gens AnyPoint)
    (msgs : List (ZMod blsr)) : Go Unit := do
  Go.guard (¬ gens.length < msgs.length)
  Go.guard (¬ msgs.length < 1)
  let i ← isIdentity pk
  Go.guard (i = false)
  let i ← isIdentity sig.a
  Go.guard (i = false)
  let a := mulAdd pk sig.e
  let b ← computeB sha sig.s msgs gens
  let b := neg b
  match ← multiPairing [sig.a, a, b, generator pk] with
  | none => Go.crash
  | some g => Go.guard (g.isOne = true)

/-- `SecretKey.Sign` (`secret_key.go:107-134`) with the scalars `e`, `s` drawn; `Mul` is that of the group of the generators -/
def sign (sha : Hasher) (sk : Scal) (e s : ZMod blsr) (gens : Gens AnyPoint) (msgs : List (ZMod blsr)) :
    Go (Signature (ZMod blsr) AnyPoint) := do
  Go.guard (¬ gens.length < msgs.length)
  Go.guard (¬ msgs.length < 1)
  Go.guard (sk.value ≠ 0)
  let b ← computeB sha s msgs gens
  Go.guard (e + sk.value ≠ 0)
  match b with
  | .g1 b => .ok ⟨.g1 (gMultiply mulBy3b1 b (leBytes 32 (e + sk.value)⁻¹.val)), e, s⟩
  | .g2 b => .ok ⟨.g2 (gMultiply mulBy3b2 b (leBytes 32 (e + sk.value)⁻¹.val)), e, s⟩
  | .other => Go.crash

end Verif.Bbs.Key
