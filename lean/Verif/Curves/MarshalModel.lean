import Verif.Curves.ScalarModel

/-!
# Serialization of scalars and points

`pkg/core/curves/curve.go:131-364` and the `Marshal…`/`Unmarshal…` methods of the eight curves.  A text is a list of bytes.
The field and group encodings `Bytes`, `SetBytes`, `ToAffineCompressed`, `FromAffineCompressed` of the Go types are
parameters (`Codec`), which the theorems instantiate with the models of this development.  `encoding/hex` is modelled from
its documentation; `encoding/json` is a parameter for decoding and concrete for the two-entry maps that are encoded.
-/

namespace Verif.Curves

open Native

/-- the curves of `GetCurveByName`, each with its Go type of points -/
inductive CurveId
  | k256 | bls381g1 | bls381g2 | p256 | ed25519 | pallas | bls377g1 | bls377g2
  deriving DecidableEq, Repr

/-- the Go types that implement `Scalar` -/
inductive ScalarTy
  | k256 | bls381 | p256 | ed25519 | pallas | bls377 | bls381gt | bls377gt
  deriving DecidableEq, Repr

/-- `CurveName` of the points (`k256_curve.go:579-581`, `native/k256/point.go:47`, `p256_curve.go:577-579`,
`ed25519_curve.go:608-610`, `pallas_curve.go:613-615`, `bls12381_curve.go:480-482,728-730`,
`bls12377_curve.go:508-510,781-783`) -/
def CurveId.name : CurveId → List UInt8
  | .k256 => ascii "secp256k1"
  | .bls381g1 => ascii "BLS12381G1"
  | .bls381g2 => ascii "BLS12381G2"
  | .p256 => ascii "P-256"
  | .ed25519 => ascii "ed25519"
  | .pallas => ascii "pallas"
  | .bls377g1 => ascii "BLS12377G1"
  | .bls377g2 => ascii "BLS12377G2"

/-- `GetCurveByName` (`curve.go:457-484`) -/
def getCurveByName (n : List UInt8) : Option CurveId :=
  if n = ascii "secp256k1" then some .k256
  else if n = ascii "BLS12381G1" then some .bls381g1
  else if n = ascii "BLS12381G2" then some .bls381g2
  else if n = ascii "BLS12831" then some .bls381g1
  else if n = ascii "P-256" then some .p256
  else if n = ascii "ed25519" then some .ed25519
  else if n = ascii "pallas" then some .pallas
  else if n = ascii "BLS12377G1" then some .bls377g1
  else if n = ascii "BLS12377G2" then some .bls377g2
  else if n = ascii "BLS12377" then some .bls377g1
  else none

/-- the type of `Curve.Scalar` (`curve.go:500-640`) -/
def CurveId.scalarTy : CurveId → ScalarTy
  | .k256 => .k256
  | .bls381g1 => .bls381
  | .bls381g2 => .bls381
  | .p256 => .p256
  | .ed25519 => .ed25519
  | .pallas => .pallas
  | .bls377g1 => .bls377
  | .bls377g2 => .bls377

/-- the `point` field of `Curve.Scalar`, which only the BLS types have (`curve.go:502-560`) -/
def CurveId.proto : CurveId → Option CurveId
  | .bls381g1 => some .bls381g1
  | .bls381g2 => some .bls381g2
  | .bls377g1 => some .bls377g1
  | .bls377g2 => some .bls377g2
  | _ => none

/-- the encodings of the underlying fields and groups -/
structure Codec where
  /-- values of a scalar type -/
  S : ScalarTy → Type
  /-- `Bytes` -/
  bytes : (t : ScalarTy) → S t → List UInt8
  /-- `SetBytes` -/
  setBytes : (t : ScalarTy) → List UInt8 → Go (S t)
  /-- values of a point type -/
  Pt : CurveId → Type
  /-- `ToAffineCompressed` -/
  compress : (c : CurveId) → Pt c → List UInt8
  /-- `FromAffineCompressed` -/
  decompress : (c : CurveId) → List UInt8 → Go (Pt c)
  /-- `json.Unmarshal` into `map[string]string`, then the entries `type` and `value`, empty when absent -/
  json : List UInt8 → Go (List UInt8 × List UInt8)

variable (K : Codec)

/-- a scalar behind the interface; `point` is the field of the BLS types, `none` for a nil pointer and for the others -/
structure ScalarV where
  ty : ScalarTy
  val : K.S ty
  point : Option CurveId

/-- a point behind the interface -/
structure PointV where
  curve : CurveId
  val : K.Pt curve

variable {K}

/-- `Point().CurveName()`: a nil `point` panics (`bls12381_curve.go:269-271,1085-1087`, `k256_curve.go:321-323`) -/
def ScalarV.curve (s : ScalarV K) : Go CurveId :=
  match s.ty with
  | .k256 => .ok .k256
  | .p256 => .ok .p256
  | .ed25519 => .ok .ed25519
  | .pallas => .ok .pallas
  | .bls381gt => .ok .bls381g1
  | .bls377gt => .ok .bls377g1
  | .bls381 => match s.point with
    | some c => .ok c
    | none => Go.crash
  | .bls377 => match s.point with
    | some c => .ok c
    | none => Go.crash

/-- `copy` into a zeroed buffer of `n` bytes -/
def fitTo (n : ℕ) (b : List UInt8) : List UInt8 := b.take n ++ List.replicate (n - b.length) 0

/-- a hexadecimal digit of `encoding/hex` -/
def hexDigit (n : ℕ) : UInt8 := UInt8.ofNat (if n < 10 then 48 + n else 87 + n)
/-- `hex.Encode` -/
def hexEncode : List UInt8 → List UInt8
  | [] => []
  | b :: t => hexDigit (b.toNat / 16) :: hexDigit (b.toNat % 16) :: hexEncode t
/-- `fromHexChar` of `encoding/hex`: both cases are read -/
def hexVal (c : UInt8) : Option ℕ :=
  if 48 ≤ c.toNat ∧ c.toNat ≤ 57 then some (c.toNat - 48)
  else if 97 ≤ c.toNat ∧ c.toNat ≤ 102 then some (c.toNat - 87)
  else if 65 ≤ c.toNat ∧ c.toNat ≤ 70 then some (c.toNat - 55)
  else none
/-- `hex.Decode(dst, src)` for a `dst` of `n` bytes: the bytes written; the store past the end panics -/
def hexDecode : ℕ → List UInt8 → Go (List UInt8)
  | _, [] => .ok []
  | _, [_] => Go.err
  | n, a :: b :: t => do
    let x ← Go.ofOption (hexVal a)
    let y ← Go.ofOption (hexVal b)
    match n with
    | 0 => Go.crash
    | n + 1 => do
      let r ← hexDecode n t
      .ok (UInt8.ofNat (16 * x + y) :: r)
/-- `hex.DecodeString`: the buffer is as long as the string -/
def hexDecodeString (s : List UInt8) : Go (List UInt8) := hexDecode s.length s

/-- `unmarshalScalar` (`curve.go:131-146`); the same steps stand in `pointUnmarshalBinary` and `pointUnmarshalText` -/
def unmarshalScalar (input : List UInt8) : Go (CurveId × List UInt8) := do
  let i := (input.takeWhile (· ≠ 58)).length
  let c ← Go.ofOption (getCurveByName (input.take i))
  if input.length < i + 1 then Go.crash else .ok (c, input.drop (i + 1))

/-- `scalarMarshalBinary` (`curve.go:148-159`) -/
def scalarMarshalBinary (s : ScalarV K) : Go (List UInt8) := do
  let c ← s.curve
  .ok (c.name ++ 58 :: fitTo 32 (K.bytes s.ty s.val))

/-- `curve.Scalar.SetBytes` -/
def curveSetBytes (K : Codec) (c : CurveId) (data : List UInt8) : Go (ScalarV K) := do
  let v ← K.setBytes c.scalarTy data
  .ok ⟨c.scalarTy, v, c.proto⟩

/-- `scalarUnmarshalBinary` (`curve.go:161-173`) -/
def scalarUnmarshalBinary (K : Codec) (input : List UInt8) : Go (ScalarV K) := do
  Go.guard (32 + 1 + 5 ≤ input.length)
  let (c, data) ← unmarshalScalar input
  curveSetBytes K c data

/-- `scalarMarshalText` (`curve.go:175-186`): the buffer for the digits has 64 bytes -/
def scalarMarshalText (s : ScalarV K) : Go (List UInt8) := do
  let c ← s.curve
  let h := hexEncode (K.bytes s.ty s.val)
  if 64 < h.length then Go.crash else .ok (c.name ++ 58 :: fitTo 64 h)

/-- `scalarUnmarshalText` (`curve.go:188-203`) -/
def scalarUnmarshalText (K : Codec) (input : List UInt8) : Go (ScalarV K) := do
  Go.guard (32 * 2 + 5 + 1 ≤ input.length)
  let (c, data) ← unmarshalScalar input
  let t ← hexDecode 32 data
  curveSetBytes K c (fitTo 32 t)

/-- `json.Marshal` of the map with the entries `type` and `value`, for texts without characters to escape -/
def jsonEncode (type value : List UInt8) : List UInt8 :=
  ascii "{\"type\":\"" ++ type ++ ascii "\",\"value\":\"" ++ value ++ ascii "\"}"

/-- `scalarMarshalJson` (`curve.go:205-210`) -/
def scalarMarshalJson (s : ScalarV K) : Go (List UInt8) := do
  let c ← s.curve
  .ok (jsonEncode c.name (hexEncode (K.bytes s.ty s.val)))

/-- `scalarUnmarshalJson` (`curve.go:212-232`) -/
def scalarUnmarshalJson (K : Codec) (input : List UInt8) : Go (ScalarV K) := do
  let (ty, value) ← K.json input
  let c ← Go.ofOption (getCurveByName ty)
  let d ← hexDecodeString value
  curveSetBytes K c d

/-- `UnmarshalBinary` of a receiver of type `t` (`k256_curve.go:335-346`, `bls12381_curve.go:295-307`): the type assertion -/
def unmarshalBinary (K : Codec) (t : ScalarTy) (input : List UInt8) : Go (ScalarV K) := do
  let sc ← scalarUnmarshalBinary K input
  Go.guard (sc.ty = t)
  .ok sc
/-- `UnmarshalText` of a receiver of type `t` (`k256_curve.go:352-363`, `bls12381_curve.go:313-325`) -/
def unmarshalText (K : Codec) (t : ScalarTy) (input : List UInt8) : Go (ScalarV K) := do
  let sc ← scalarUnmarshalText K input
  Go.guard (sc.ty = t)
  .ok sc
/-- `UnmarshalJSON` of the receiver `r` (`k256_curve.go:369-380`, `bls12381_curve.go:331-342`): the `point` of the receiver
stays as it is -/
def unmarshalJson (r : ScalarV K) (input : List UInt8) : Go (ScalarV K) := do
  let sc ← scalarUnmarshalJson K input
  Go.guard (sc.ty = r.ty)
  .ok ⟨sc.ty, sc.val, r.point⟩

/-- `pointMarshalBinary` (`curve.go:268-279`) -/
def pointMarshalBinary (p : PointV K) : List UInt8 := p.curve.name ++ 58 :: K.compress p.curve p.val

/-- `curve.Point.FromAffineCompressed` -/
def curveDecompress (K : Codec) (c : CurveId) (data : List UInt8) : Go (PointV K) := do
  let v ← K.decompress c data
  .ok ⟨c, v⟩

/-- `pointUnmarshalBinary` (`curve.go:281-298`) -/
def pointUnmarshalBinary (K : Codec) (input : List UInt8) : Go (PointV K) := do
  Go.guard (32 + 1 + 5 ≤ input.length)
  let (c, data) ← unmarshalScalar input
  curveDecompress K c data

/-- `pointMarshalText` (`curve.go:300-311`) -/
def pointMarshalText (p : PointV K) : List UInt8 := p.curve.name ++ 58 :: hexEncode (K.compress p.curve p.val)

/-- `pointUnmarshalText` (`curve.go:313-336`): the buffer has `(len(input)-i)/2` bytes, which the digits may not fill -/
def pointUnmarshalText (K : Codec) (input : List UInt8) : Go (PointV K) := do
  Go.guard (32 * 2 + 1 + 5 ≤ input.length)
  let (c, data) ← unmarshalScalar input
  let n := (data.length + 1) / 2
  let t ← hexDecode n data
  curveDecompress K c (fitTo n t)

/-- `pointMarshalJson` (`curve.go:338-343`) -/
def pointMarshalJson (p : PointV K) : List UInt8 :=
  jsonEncode p.curve.name (hexEncode (K.compress p.curve p.val))

/-- `pointUnmarshalJson` (`curve.go:345-366`) -/
def pointUnmarshalJson (K : Codec) (input : List UInt8) : Go (PointV K) := do
  let (ty, value) ← K.json input
  let c ← Go.ofOption (getCurveByName ty)
  let d ← hexDecodeString value
  curveDecompress K c d

/-- the type assertion in `UnmarshalBinary`, `UnmarshalText` and `UnmarshalJSON` of the point type of the curve `c`
(`k256_curve.go:624-669`) -/
def pointAssert (c : CurveId) (r : Go (PointV K)) : Go (PointV K) := do
  let p ← r
  Go.guard (p.curve = c)
  .ok p

end Verif.Curves
