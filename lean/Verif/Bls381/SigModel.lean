import Verif.Bls381.PairModel
import Verif.Bls381.MapModel

/-!
# Model of the users of the pairing engine, on coordinates

`pkg/signatures/bls/bls_sig` and `pkg/core/curves/bls12381_curve.go`. `Verif.Bls.Model` has the same functions over abstract
groups; here they act on the coordinates of the points, with all their checks, the hash to the curve and the pairing engine.
Nil pointers and the nil message are `none`.
-/

namespace Verif.Bls381

open Verif.Native

/-- `PublicKey.verifySignature` (`usual_bls_sig.go:191-208`); `sha` is SHA-256 -/
def usualVerify (sha : Hasher) (pk : Proj Fq) (msg : Option (List UInt8)) (sig : Option (Proj (Fp2 Fq)))
    (dst : List UInt8) : Go Bool := do
  let s ← Go.ofOption sig
  let m ← Go.ofOption msg
  Go.guard (pk.z ≠ 0)
  Go.guard (¬ (s.z = 0 ∨ gInSubgroup mulBy3b2 s = false))
  let p2 := g2Hash sha m dst
  let e := addPair [] pk p2
  let e := addPairInvG1 e g1Generator s
  engineCheck e

/-- the loop of `Signature.coreAggregateVerify` (`usual_bls_sig.go:118-127`) -/
def usualLoop (sha : Hasher) (dst : List UInt8) : Engine → List (Option (Proj Fq) × List UInt8) → Go Engine
  | e, [] => .ok e
  | _, (none, _) :: _ => Go.err
  | e, (some pk, m) :: rest => do
    Go.guard (¬ (pk.z = 0 ∨ gInSubgroup mulBy3b1 pk = false))
    usualLoop sha dst (addPair e pk (g2Hash sha m dst)) rest

/-- `Signature.coreAggregateVerify` (`usual_bls_sig.go:98-130`) -/
def usualAggregateVerify (sha : Hasher) (sig : Proj (Fp2 Fq)) (pks : List (Option (Proj Fq)))
    (msgs : List (List UInt8)) (dst : List UInt8) : Go Bool := do
  Go.guard (¬ pks.length < 1)
  Go.guard (¬ msgs.length < 1)
  Go.guard (pks.length = msgs.length)
  Go.guard (gInSubgroup mulBy3b2 sig = true)
  let e ← usualLoop sha dst [] (pks.zip msgs)
  engineCheck (addPairInvG1 e g1Generator sig)

/-- `PublicKeyVt.verifySignatureVt` (`tiny_bls_sig.go:190-207`) -/
def tinyVerify (sha : Hasher) (pk : Proj (Fp2 Fq)) (msg : Option (List UInt8)) (sig : Option (Proj Fq))
    (dst : List UInt8) : Go Bool := do
  let s ← Go.ofOption sig
  let m ← Go.ofOption msg
  Go.guard (pk.z ≠ 0)
  Go.guard (¬ (s.z = 0 ∨ gInSubgroup mulBy3b1 s = false))
  let p1 := g1Hash sha m dst
  let e := addPairInvG1 [] p1 pk
  let e := addPair e s g2Generator
  engineCheck e

/-- the loop of `SignatureVt.coreAggregateVerify` (`tiny_bls_sig.go:118-127`) -/
def tinyLoop (sha : Hasher) (dst : List UInt8) : Engine → List (Option (Proj (Fp2 Fq)) × List UInt8) → Go Engine
  | e, [] => .ok e
  | _, (none, _) :: _ => Go.err
  | e, (some pk, m) :: rest => do
    Go.guard (¬ (pk.z = 0 ∨ gInSubgroup mulBy3b2 pk = false))
    tinyLoop sha dst (addPair e (g1Hash sha m dst) pk) rest

/-- `SignatureVt.coreAggregateVerify` (`tiny_bls_sig.go:98-130`) -/
def tinyAggregateVerify (sha : Hasher) (sig : Proj Fq) (pks : List (Option (Proj (Fp2 Fq))))
    (msgs : List (List UInt8)) (dst : List UInt8) : Go Bool := do
  Go.guard (¬ pks.length < 1)
  Go.guard (¬ msgs.length < 1)
  Go.guard (pks.length = msgs.length)
  Go.guard (gInSubgroup mulBy3b1 sig = true)
  let e ← tinyLoop sha dst [] (pks.zip msgs)
  engineCheck (addPairInvG2 e sig g2Generator)

/-- a `PairingPoint`: `*PointBls12381G1`, `*PointBls12381G2`, or a value of another type, nil included -/
inductive AnyPoint where
  | g1 (p : Proj Fq)
  | g2 (p : Proj (Fp2 Fq))
  | other

/-- the loop of `multiPairing` (`bls12381_curve.go:848-856`); an odd number of points has been excluded -/
def multiLoop : Bool → Engine → List AnyPoint → Bool × Engine
  | valid, e, a :: b :: rest =>
    match a, b with
    | .g1 p, .g2 q => if valid then multiLoop true (addPair e p q) rest else multiLoop false e rest
    | _, _ => multiLoop false e rest
  | valid, e, _ => (valid, e)

/-- `multiPairing` (`bls12381_curve.go:842-863`); a nil result is `none` -/
def multiPairing (points : List AnyPoint) : Go (Option (Fp12 Fq)) :=
  if points.length % 2 ≠ 0 then .ok none
  else
    let (valid, e) := multiLoop true [] points
    if !valid then .ok none else (enginePairing e).map some

/-- `PointBls12381G1.Pairing` (`bls12381_curve.go:512-523`) -/
def g1Pairing (p : Proj Fq) : AnyPoint → Go (Option (Fp12 Fq))
  | .g2 q => (enginePairing (addPair [] p q)).map some
  | _ => .ok none

/-- `PointBls12381G2.Pairing` (`bls12381_curve.go:760-771`) -/
def g2Pairing (q : Proj (Fp2 Fq)) : AnyPoint → Go (Option (Fp12 Fq))
  | .g1 p => (enginePairing (addPair [] p q)).map some
  | _ => .ok none

end Verif.Bls381
