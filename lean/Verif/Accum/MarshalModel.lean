import Verif.Curves.MarshalModel

/-!
# Serialization of the accumulator (`pkg/accumulator`)

The package `bare` is a parameter: it packs the fields of a struct, here the list of their bytes, and unpacks a given number of them.  A nil
value is `none`; a nil `data` is the empty list.  Points and scalars of all curves are those of `Verif/Curves/MarshalModel.lean`.
-/

namespace Verif.Accum.Marshal
open Verif.Curves

/-- `bare.Marshal` and `bare.Unmarshal` on a struct of byte strings -/
structure Bare where
  enc : List (List UInt8) → List UInt8
  dec : ℕ → List UInt8 → Go (List (List UInt8))

variable {K : Codec} (B : Bare)

/-- `GetPairingCurveByName` (`curve.go:486-497`): the group of the scalars of the result -/
def getPairingCurveByName (n : List UInt8) : Option CurveId :=
  if n = ascii "BLS12381G1" then some .bls381g1
  else if n = ascii "BLS12381G2" then some .bls381g2
  else if n = ascii "BLS12831" then some .bls381g1
  else none

/-- the name in the result of `BLS12381` (`curve.go:52,533-550`), whatever the group of its scalars -/
def pairingCurveName (_ : CurveId) : List UInt8 := ascii "BLS12831"

/-- the types that implement `PairingPoint` (`bls12381_curve.go:508-527,756-775`, `bls12377_curve.go:524-551,797-824`) -/
def pairing : CurveId → Bool
  | .bls381g1 | .bls381g2 | .bls377g1 | .bls377g2 => true
  | _ => false

/-- `Accumulator.MarshalBinary` (`accumulator.go:142-151`) and `PublicKey.MarshalBinary` (`key.go:212-221`) -/
def marshalPoint (p : Option (PointV K)) : Go (List UInt8) := do
  let p ← Go.ofOption p
  .ok (B.enc [K.compress p.curve p.val, p.curve.name])

/-- the two fields of `structMarshal` (`accumulator.go:22-25`) -/
def unpack (data : List UInt8) : Go (List UInt8 × List UInt8) := do
  match (← B.dec 2 data) with
  | [v, n] => .ok (v, n)
  | _ => Go.err

/-- `Accumulator.UnmarshalBinary` (`accumulator.go:154-173`) -/
def unmarshalAccumulator (K : Codec) (data : List UInt8) : Go (PointV K) := do
  let (v, n) ← unpack B data
  let c ← Go.ofOption (getCurveByName n)
  curveDecompress K c v

/-- `PublicKey.UnmarshalBinary` (`key.go:224-247`) -/
def unmarshalPublicKey (K : Codec) (data : List UInt8) : Go (PointV K) := do
  let (v, n) ← unpack B data
  let c ← Go.ofOption (getPairingCurveByName n)
  let p ← curveDecompress K c v
  Go.guard (pairing p.curve = true)
  .ok p

/-- `SecretKey.MarshalBinary` (`key.go:39-48`) -/
def marshalSecretKey (s : Option (ScalarV K)) : Go (List UInt8) := do
  let s ← Go.ofOption s
  let c ← s.curve
  .ok (B.enc [K.bytes s.ty s.val, c.name])

/-- `SecretKey.UnmarshalBinary` (`key.go:51-70`) -/
def unmarshalSecretKey (K : Codec) (data : List UInt8) : Go (ScalarV K) := do
  let (v, n) ← unpack B data
  let c ← Go.ofOption (getCurveByName n)
  curveSetBytes K c v

/-- `MembershipWitness.MarshalBinary` and `Delta.MarshalBinary` (`witness.go:130-141,185-197`) -/
def marshalWitness (c : Option (PointV K)) (y : Option (ScalarV K)) : Go (List UInt8) := do
  let c ← Go.ofOption c
  let y ← Go.ofOption y
  .ok (B.enc [K.compress c.curve c.val ++ K.bytes y.ty y.val, c.curve.name])

/-- `len(curve.Point.ToAffineCompressed())` (`witness.go:158`) for the identity of the curve -/
def ptLength : CurveId → ℕ
  | .k256 | .p256 => 33
  | .ed25519 | .pallas => 32
  | .bls381g1 | .bls377g1 => 48
  | .bls381g2 | .bls377g2 => 96

/-- `MembershipWitness.UnmarshalBinary` and `Delta.UnmarshalBinary` (`witness.go:144-176,200-237`); `len(curve.Scalar.Bytes())` is 32 for
all curves -/
def unmarshalWitness (K : Codec) (data : List UInt8) : Go (PointV K × ScalarV K) := do
  let (v, n) ← unpack B data
  let c ← Go.ofOption (getCurveByName n)
  Go.guard (v.length = ptLength c + 32)
  let p ← curveDecompress K c (v.take (ptLength c))
  let y ← curveSetBytes K c (v.drop (ptLength c))
  .ok (p, y)

/-- `ProofParams.MarshalBinary` (`proof.go:53-64`): the curve is that of `x` -/
def marshalParams (x y z : Option (PointV K)) : Go (List UInt8) := do
  let x ← Go.ofOption x
  let y ← Go.ofOption y
  let z ← Go.ofOption z
  .ok (B.enc [K.compress x.curve x.val, K.compress y.curve y.val, K.compress z.curve z.val, x.curve.name])

/-- `ProofParams.UnmarshalBinary` (`proof.go:67-95`) -/
def unmarshalParams (K : Codec) (data : List UInt8) : Go (PointV K × PointV K × PointV K) := do
  match (← B.dec 4 data) with
  | [bx, by', bz, n] => do
    let c ← Go.ofOption (getCurveByName n)
    let x ← curveDecompress K c bx
    let y ← curveDecompress K c by'
    let z ← curveDecompress K c bz
    .ok (x, y, z)
  | _ => Go.err

/-- `MembershipProof` (`proof.go:317-326`) -/
structure Proof (K : Codec) where
  eC : PointV K
  tSigma : PointV K
  tRho : PointV K
  sSigma : ScalarV K
  sRho : ScalarV K
  sDeltaSigma : ScalarV K
  sDeltaRho : ScalarV K
  sY : ScalarV K

/-- `MembershipProof.MarshalBinary` (`proof.go:418-431`) -/
def marshalProof (p : Proof K) : List UInt8 :=
  B.enc [K.compress p.eC.curve p.eC.val, K.compress p.tSigma.curve p.tSigma.val, K.compress p.tRho.curve p.tRho.val,
    K.bytes p.sSigma.ty p.sSigma.val, K.bytes p.sRho.ty p.sRho.val, K.bytes p.sDeltaSigma.ty p.sDeltaSigma.val,
    K.bytes p.sDeltaRho.ty p.sDeltaRho.val, K.bytes p.sY.ty p.sY.val, p.eC.curve.name]

/-- `MembershipProof.UnmarshalBinary` (`proof.go:434-491`) -/
def unmarshalProof (K : Codec) (data : List UInt8) : Go (Proof K) := do
  match (← B.dec 9 data) with
  | [b1, b2, b3, b4, b5, b6, b7, b8, n] => do
    let c ← Go.ofOption (getCurveByName n)
    let eC ← curveDecompress K c b1
    let tSigma ← curveDecompress K c b2
    let tRho ← curveDecompress K c b3
    let sSigma ← curveSetBytes K c b4
    let sRho ← curveSetBytes K c b5
    let sDeltaSigma ← curveSetBytes K c b6
    let sDeltaRho ← curveSetBytes K c b7
    let sY ← curveSetBytes K c b8
    .ok ⟨eC, tSigma, tRho, sSigma, sRho, sDeltaSigma, sDeltaRho, sY⟩
  | _ => Go.err

/-- `MultiPairing` of two pairs, as the types of the points decide it: the receiver selects the package (`bls12381_curve.go:525-527,773-775`,
`bls12377_curve.go:549-551,822-824`), which returns nil unless the types alternate (`bls12381_curve.go:842-863`) -/
def multiPairingTypes (recv a b c d : CurveId) : Bool :=
  match recv with
  | .bls381g1 | .bls381g2 => a == .bls381g1 && b == .bls381g2 && c == .bls381g1 && d == .bls381g2
  | .bls377g1 | .bls377g2 => a == .bls377g1 && b == .bls377g2 && c == .bls377g1 && d == .bls377g2
  | _ => false

/-- the type conversions of `MembershipWitness.Verify` (`witness.go:59-87`) for values that are neither nil, nor zero, nor the identity; `ok`
means that the equation is evaluated.  `Mul` by a scalar of another type is nil and `Add` on it panics; so does `IsOne` on a nil result -/
def verifyTypes (pk c : CurveId) (y : ScalarTy) (acc : CurveId) : Go Unit := do
  if y ≠ pk.scalarTy then Go.crash else do
  Go.guard (pairing c = true)
  Go.guard (pairing acc = true)
  if multiPairingTypes pk c pk acc pk then .ok () else Go.crash

end Verif.Accum.Marshal
