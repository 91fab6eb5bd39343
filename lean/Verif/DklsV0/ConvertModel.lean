import Verif.DklsV0.ProtoModel
import Verif.Dkls.ProtocolModel
import Verif.Dkls.DkgModel
import Verif.Legacy.CurveModel

/-!
# Model of the conversion of the results of the older key generation (`pkg/tecdsa/dkls/v1/dkgserializers.go:338-450`)

The target is one of the two curves of the newer package.  A native point stands for an element of the group of the curve (C56), so the
converted outputs have the types of the model of the newer package; a target has `set`, the method `Point.Set`, and `ofInt`, the method
`Scalar.SetBigInt`.
-/

namespace Verif.DklsV0
open Verif.Legacy Verif.Ot Verif.Native Verif.Primes

/-- what the conversion uses of a `curves.Curve` -/
structure Target (F G : Type) where
  /-- `curve.Point.Set` (k256_curve.go:485-491, p256_curve.go:483-489) -/
  set : Option ℤ → Option ℤ → Go G
  /-- `curve.Scalar.SetBigInt` (k256_curve.go:276-284, p256_curve.go:274-282) of an integer that is not nil: the residue -/
  ofInt : ℤ → F

section
variable {F G : Type}

/-- `ConvertAliceDkgOutputToV1` after decoding and choice of the curve (dkgserializers.go:353-391).  `Pk` is a pointer to a structure: nil
panics.  The choice bits are unpacked with `ExtractBitFromByteVector`. -/
def convertAlice (t : Target F G) (s : AliceSaved) : Go (Dkls.AliceOutput F G) := do
  let pk ← deref s.pk
  let publicKey ← t.set pk.X pk.Y
  let packed := s.packed.toList
  .ok ⟨some publicKey, t.ofInt s.sk, ⟨packed, (List.range 256).map fun i => (extractBit packed i).toNat, List.ofFn s.rho⟩⟩

/-- `ConvertBobDkgOutputToV1` after decoding and choice of the curve (dkgserializers.go:422-447) -/
def convertBob (t : Target F G) (s : BobSaved) : Go (Dkls.BobOutput F G) := do
  let pk ← deref s.pk
  let publicKey ← t.set pk.X pk.Y
  .ok ⟨some publicKey, t.ofInt s.sk, List.ofFn s.rho⟩

end

section
variable {α F G F' G' : Type}

/-- the choice of the curve by the name in the parameters (dkgserializers.go:344-351, 413-420), between decoding (`dec`) and the rest; the two
branches end with the encoding, which registers the types in the process -/
def convertWith (name : String) (dec : List UInt8 → Option α) (k256 p256 : α → Bool × Go Dkls.Message) (reg : Bool) (state : List UInt8) :
    Bool × Go Dkls.Message :=
  match dec state with
  | none => (reg, Go.err)
  | some s => if name = "secp256k1" then k256 s else if name = "P-256" then p256 s else (reg, Go.err)

/-- `return Encode…DkgOutput(dkgConvertedResult, protocol.Version1)` (dkgserializers.go:393, 449) with `newDkgProtocolMessage`
(dkgserializers.go:21-28) -/
def encodeOut {β : Type} (c : Dkls.Gob β) (round : String) (reg : Bool) (r : Go β) : Bool × Go Dkls.Message :=
  match r with
  | .ok x => Dkls.encodeWith Dkls.dkgOutputEnc "DKLs18-DKG" round c reg x Dkls.version1
  | .error e => (reg, .error e)

/-- `ConvertAliceDkgOutputToV1` (dkgserializers.go:338-394) -/
def convertAliceToV1 (tk : Target F G) (tp : Target F' G') (name : String) (c : Dkls.Gob AliceSaved) (ck : Dkls.Gob (Dkls.AliceOutput F G))
    (cp : Dkls.Gob (Dkls.AliceOutput F' G')) (reg : Bool) (state : List UInt8) : Bool × Go Dkls.Message :=
  convertWith name c.dec (fun s => encodeOut ck "alice-output" reg (convertAlice tk s))
    (fun s => encodeOut cp "alice-output" reg (convertAlice tp s)) reg state

/-- `ConvertBobDkgOutputToV1` (dkgserializers.go:407-450) -/
def convertBobToV1 (tk : Target F G) (tp : Target F' G') (name : String) (c : Dkls.Gob BobSaved) (ck : Dkls.Gob (Dkls.BobOutput F G))
    (cp : Dkls.Gob (Dkls.BobOutput F' G')) (reg : Bool) (state : List UInt8) : Bool × Go Dkls.Message :=
  convertWith name c.dec (fun s => encodeOut ck "bob-output" reg (convertBob tk s))
    (fun s => encodeOut cp "bob-output" reg (convertBob tp s)) reg state

end

section
variable {p : ℕ} [Fact p.Prime]

/-- the element of the group that a native point stands for -/
noncomputable def groupOf (a b : ZMod p) (r : Proj (ZMod p)) : (curve a b).Point :=
  open Classical in if h : ∃ P : (curve a b).Point, Rep r P then h.choose else 0

/-- `Point.Set` on native points (`native/point.go:358-381`), as an element of the group -/
noncomputable def setGroup (a b : ZMod p) (x y : Option ℤ) : Go (curve a b).Point := do
  let r ← natSet a b x y
  .ok (groupOf a b r)

end

/-- `curves.K256()` -/
noncomputable def k256Target : Target (ZMod k256q) K256.Group := ⟨setGroup 0 K256.b, fun z => (z : ZMod k256q)⟩

/-- `curves.P256()` -/
noncomputable def p256Target : Target (ZMod p256q) P256.Group := ⟨setGroup (-3) P256.b, fun z => (z : ZMod p256q)⟩

end Verif.DklsV0
