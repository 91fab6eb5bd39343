import Verif.Sharing.Model
import Verif.Common.GoList
import Mathlib.LinearAlgebra.BilinearMap

/-!
# Model of `pkg/signatures/bls/bls_sig`

`G` is the group of the public keys with generator `g`, `H` the group of the signatures, `e` the pairing
(`usual_*.go`: keys in G1, signatures in G2; `tiny_*.go`: the other way round, section "Tiny").  All
points are in the subgroups of prime order, so the `InCorrectSubgroup` checks are omitted.
`hash msg dst` is the hash to the curve, `encP` the compressed encoding of a public key.  Nil pointers
and the nil slice where it is tested are `none`.  The results `(bool, error)` are `Go Bool`.
-/

namespace Verif.Bls

variable {F : Type} [Field F] [DecidableEq F]
variable {G H GT : Type} [AddCommGroup G] [Module F G] [DecidableEq G]
  [AddCommGroup H] [Module F H] [DecidableEq H] [AddCommGroup GT] [Module F GT] [DecidableEq GT]

/-- bytes -/
abbrev Bytes := List UInt8

/-! ## Keys (lib.go) -/

/-- `allRowsUnique` (lib.go:41-51): `seen` is the map -/
def allRowsUniqueFrom : List Bytes → List Bytes → Bool
  | _, [] => true
  | seen, m :: rest => if m ∈ seen then false else allRowsUniqueFrom (m :: seen) rest

/-- `allRowsUnique` (lib.go:41-51) -/
def allRowsUnique (data : List Bytes) : Bool := allRowsUniqueFrom [] data

/-- `SecretKey.Generate` (lib.go:68-99); `kdf` is HKDF followed by the wide reduction -/
def generate (kdf : Bytes → F) (ikm : Bytes) : Go F := do
  Go.guard (¬ ikm.length < 32)
  .ok (kdf (ikm ++ [0]))

/-- `SecretKey.MarshalBinary` (lib.go:102-105) -/
def marshalKey (cd : ScalarCodec F) (sk : F) : Bytes := cd.enc sk

/-- `SecretKey.UnmarshalBinary` (lib.go:110-126) -/
def unmarshalKey (cd : ScalarCodec F) (data : Bytes) : Go F := do
  Go.guard (data.length = 32)
  Go.guard (data ≠ List.replicate data.length 0)
  Go.ofOption (cd.dec data)

/-- `SecretKeyShare` (lib.go:129-132) -/
structure KeyShare where
  identifier : UInt8
  value : Bytes
  deriving DecidableEq

/-- `SecretKeyShare.MarshalBinary` (lib.go:135-141): `copy(blob[:l], value)` and `blob[l] = identifier`
in an array of 33 bytes; slicing beyond it and indexing at 33 panic -/
def KeyShare.marshal (s : KeyShare) : Go Bytes :=
  if s.value.length ≥ 33 then Go.crash
  else .ok (s.value ++ [s.identifier] ++ List.replicate (32 - s.value.length) 0)

/-- `SecretKeyShare.UnmarshalBinary` (lib.go:144-158); the panics of `data[l-1]` are excluded by the
length check -/
def KeyShare.unmarshal (data : Bytes) : Go KeyShare := do
  Go.guard (data.length = 33)
  Go.guard (data ≠ List.replicate data.length 0)
  .ok ⟨data.getLastD 0, data.take 32⟩

/-- `thresholdizeSecretKey` (lib.go:162-208); `sk = none` is the nil key -/
def thresholdize (cd : ScalarCodec F) (sk : Option F) (threshold total : ℕ) (rnd : ℕ → F) :
    Go (List KeyShare) := do
  let sk ← Go.ofOption sk
  Go.guard (¬ threshold > total)
  Go.guard (threshold ≠ 0)
  Go.guard (¬ total ≤ 1)
  Go.guard (¬ (total > 255 ∨ threshold > 255))
  let sss ← Sharing.newShamir (UInt32.ofNat threshold) (UInt32.ofNat total) true
  let shares ← Sharing.split cd sss sk rnd
  Go.guard (shares.length = total)
  .ok (shares.map fun s => ⟨UInt8.ofNat s.id.toNat, s.value⟩)

/-! ## Signatures (usual_bls_sig.go) -/

/-- `SecretKey.GetPublicKey` (usual_bls_sig.go:157-164) -/
def getPublicKey (g : G) (sk : F) : Go G := do
  let r := sk • g
  Go.guard (r ≠ 0)
  .ok r

/-- `SecretKey.createSignature` (usual_bls_sig.go:174-187) -/
def createSignature (hash : Bytes → Bytes → H) (sk : F) (msg : Option Bytes) (dst : Bytes) : Go H := do
  let m ← Go.ofOption msg
  Go.guard (sk ≠ 0)
  .ok (sk • hash m dst)

/-- `PublicKey.verifySignature` (usual_bls_sig.go:191-208) -/
def verifySignature (g : G) (e : G →ₗ[F] H →ₗ[F] GT) (hash : Bytes → Bytes → H) (pk : G)
    (msg : Option Bytes) (sig : Option H) (dst : Bytes) : Go Bool := do
  let s ← Go.ofOption sig
  let m ← Go.ofOption msg
  Go.guard (pk ≠ 0)
  Go.guard (s ≠ 0)
  .ok (e pk (hash m dst) + e (-g) s = 0)

/-- the body of the loops of `aggregatePublicKeys` (usual_bls_sig.go:216-224) and `aggregateSignatures`
(lines 234-242): nil pointers are refused -/
def addStep {P : Type} [AddCommGroup P] (acc : P) : Option P → Go P
  | none => Go.err
  | some p => .ok (acc + p)

/-- `aggregatePublicKeys` (usual_bls_sig.go:211-226) and `aggregateSignatures` (lines 229-244): the two
loops are the same -/
def aggregate {P : Type} [AddCommGroup P] (ps : List (Option P)) : Go P := do
  Go.guard (¬ ps.length < 1)
  ps.foldlM addStep 0

/-- the loop over the keys of `coreAggregateVerify` (usual_bls_sig.go:118-127), returning the product of
the pairings -/
def pairLoop (e : G →ₗ[F] H →ₗ[F] GT) (hash : Bytes → Bytes → H) (dst : Bytes) :
    List (Option G × Bytes) → Go GT
  | [] => .ok 0
  | (none, _) :: _ => Go.err
  | (some pk, m) :: rest => do
    Go.guard (pk ≠ 0)
    let t ← pairLoop e hash dst rest
    .ok (e pk (hash m dst) + t)

/-- `Signature.coreAggregateVerify` (usual_bls_sig.go:98-130) -/
def coreAggregateVerify (g : G) (e : G →ₗ[F] H →ₗ[F] GT) (hash : Bytes → Bytes → H) (sig : H)
    (pks : List (Option G)) (msgs : List Bytes) (dst : Bytes) : Go Bool := do
  Go.guard (¬ pks.length < 1)
  Go.guard (¬ msgs.length < 1)
  Go.guard (pks.length = msgs.length)
  let t ← pairLoop e hash dst (pks.zip msgs)
  .ok (t + e (-g) sig = 0)

/-- `SecretKey.createProofOfPossession` (usual_bls_sig.go:257-271) -/
def createPop (g : G) (encP : G → Bytes) (hash : Bytes → Bytes → H) (sk : F) (popDst : Bytes) :
    Go H := do
  let pk ← getPublicKey g sk
  createSignature hash sk (some (encP pk)) popDst

/-- `ProofOfPossession.verify` (usual_bls_sig.go:300-309) -/
def verifyPop (g : G) (encP : G → Bytes) (e : G →ₗ[F] H →ₗ[F] GT) (hash : Bytes → Bytes → H)
    (pk : Option G) (pop : H) (popDst : Bytes) : Go Bool := do
  let pk ← Go.ofOption pk
  verifySignature g e hash pk (some (encP pk)) (some pop) popDst

/-- `PartialSignature` (usual_bls_sig.go:396-399) -/
structure Partial (H : Type) where
  identifier : UInt8
  signature : H
  deriving DecidableEq

/-- `SecretKeyShare.partialSign` (usual_bls_sig.go:403-420).  `cd.dec` is `SetBytes` on the reversed
bytes, for values of 32 bytes. -/
def partialSign (cd : ScalarCodec F) (hash : Bytes → Bytes → H) (sks : KeyShare)
    (msg : Option Bytes) (dst : Bytes) : Go (Partial H) := do
  Go.guard (msg.getD [] ≠ [])
  let s ← Go.ofOption (cd.dec sks.value)
  .ok ⟨sks.identifier, s • hash (msg.getD []) dst⟩

/-- `splitXY` (usual_bls_sig.go:471-492); `seen` is the map `dup` -/
def splitXY : List UInt8 → List (Option (Partial H)) → Go (List (F × H))
  | _, [] => .ok []
  | _, none :: _ => Go.err
  | seen, some sp :: rest => do
    Go.guard (sp.identifier ∉ seen)
    let tl ← splitXY (sp.identifier :: seen) rest
    .ok (((sp.identifier.toNat : F), sp.signature) :: tl)

/-- the inner loop of `combineSigs` (usual_bls_sig.go:444-459) -/
def basis (xs : List F) (i : ℕ) (xi : F) : Go F :=
  xs.zipIdx.foldlM (fun b xj =>
    if i = xj.2 then .ok b
    else if xi - xj.1 = 0 then Go.err
    else .ok (b * (-xj.1 * (xi - xj.1)⁻¹))) 1

/-- the outer loop of `combineSigs` (usual_bls_sig.go:443-462) -/
def combineLoop (pts : List (F × H)) : Go H :=
  pts.zipIdx.foldlM (fun sig p => do
    let b ← basis (pts.map Prod.fst) p.2 p.1.1
    .ok (sig + b • p.1.2)) 0

/-- `combineSigs` (usual_bls_sig.go:423-468) -/
def combineSigs (F : Type) [Field F] [DecidableEq F] [Module F H] (partials : List (Option (Partial H))) :
    Go H := do
  Go.guard (¬ partials.length < 2)
  Go.guard (¬ partials.length > 255)
  let pts ← splitXY (F := F) [] partials
  combineLoop pts

/-! ## Schemes (usual_bls.go) -/

/-- `generateKeysWithSeed` (usual_bls.go:51-61) -/
def generateKeys (g : G) (kdf : Bytes → F) (ikm : Bytes) : Go (G × F) := do
  let sk ← generate kdf ikm
  let pk ← getPublicKey g sk
  .ok (pk, sk)

/-- `SigBasic.AggregateVerify` (usual_bls.go:155-164), also `SigPop.AggregateVerify` (lines 363-372).
The conversion to a string identifies the nil and the empty message. -/
def aggregateVerify (g : G) (e : G →ₗ[F] H →ₗ[F] GT) (hash : Bytes → Bytes → H)
    (pks : List (Option G)) (msgs : List Bytes) (sigs : List (Option H)) (dst : Bytes) : Go Bool := do
  Go.guard (allRowsUnique msgs = true)
  let asig ← aggregate sigs
  coreAggregateVerify g e hash asig pks msgs dst

/-- `SigAug.Sign` (usual_bls.go:209-224) -/
def augSign (g : G) (encP : G → Bytes) (hash : Bytes → Bytes → H) (sk : F) (msg : Option Bytes)
    (dst : Bytes) : Go H := do
  Go.guard (msg.getD [] ≠ [])
  let pk ← getPublicKey g sk
  createSignature hash sk (some (encP pk ++ msg.getD [])) dst

/-- `SigAug.PartialSign` (usual_bls.go:227-238); a nil key panics in `MarshalBinary` -/
def augPartialSign (encP : G → Bytes) (cd : ScalarCodec F) (hash : Bytes → Bytes → H) (sks : KeyShare)
    (pk : Option G) (msg : Option Bytes) (dst : Bytes) : Go (Partial H) := do
  Go.guard (msg.getD [] ≠ [])
  match pk with
  | none => Go.crash
  | some pk => partialSign cd hash sks (some (encP pk ++ msg.getD [])) dst

/-- `SigAug.Verify` (usual_bls.go:248-255); a nil key panics in `MarshalBinary` -/
def augVerify (g : G) (encP : G → Bytes) (e : G →ₗ[F] H →ₗ[F] GT) (hash : Bytes → Bytes → H)
    (pk : Option G) (msg : Option Bytes) (sig : Option H) (dst : Bytes) : Go Bool :=
  match pk with
  | none => Go.crash
  | some pk => verifySignature g e hash pk (some (encP pk ++ msg.getD [])) sig dst

/-- the loop of `SigAug.AggregateVerify` (usual_bls.go:266-272): a nil key panics -/
def augData (encP : G → Bytes) : List (Option G × Bytes) → Go (List Bytes)
  | [] => .ok []
  | (none, _) :: _ => Go.crash
  | (some pk, m) :: rest => do
    let tl ← augData encP rest
    .ok ((encP pk ++ m) :: tl)

/-- `SigAug.AggregateVerify` (usual_bls.go:261-278) -/
def augAggregateVerify (g : G) (encP : G → Bytes) (e : G →ₗ[F] H →ₗ[F] GT) (hash : Bytes → Bytes → H)
    (pks : List (Option G)) (msgs : List Bytes) (sigs : List (Option H)) (dst : Bytes) : Go Bool := do
  Go.guard (pks.length = msgs.length)
  let data ← augData encP (pks.zip msgs)
  let asig ← aggregate sigs
  coreAggregateVerify g e hash asig pks data dst

/-- `NewSigPopWithDst` (usual_bls.go:303-308) -/
def newSigPop (signDst popDst : Bytes) : Go (Bytes × Bytes) := do
  Go.guard (signDst ≠ popDst)
  .ok (signDst, popDst)

/-- `SigPop.FastAggregateVerify` (usual_bls.go:408-414) -/
def fastAggregateVerify (g : G) (e : G →ₗ[F] H →ₗ[F] GT) (hash : Bytes → Bytes → H)
    (pks : List (Option G)) (msg : Option Bytes) (asig : Option H) (dst : Bytes) : Go Bool := do
  let apk ← aggregate pks
  verifySignature g e hash apk msg asig dst

/-- `SigPop.FastAggregateVerifyConstituent` (usual_bls.go:420-428) -/
def fastAggregateVerifyConstituent (g : G) (e : G →ₗ[F] H →ₗ[F] GT) (hash : Bytes → Bytes → H)
    (pks : List (Option G)) (msg : Option Bytes) (sigs : List (Option H)) (dst : Bytes) : Go Bool := do
  let asig ← aggregate sigs
  fastAggregateVerify g e hash pks msg (some asig) dst

/-- `SigPop.VerifyMultiSignature` (usual_bls.go:399-403) of `AggregatePublicKeys` and
`AggregateSignatures` (lines 377-393); nil multi keys and signatures are not modelled -/
def verifyMulti (g : G) (e : G →ₗ[F] H →ₗ[F] GT) (hash : Bytes → Bytes → H) (pks : List (Option G))
    (msg : Option Bytes) (sigs : List (Option H)) (dst : Bytes) : Go Bool := do
  let apk ← aggregate pks
  let asig ← aggregate sigs
  verifySignature g e hash apk msg (some asig) dst

/-! ## Tiny: signatures in G1, keys in G2 (tiny_bls_sig.go, tiny_bls.go) -/

/-- `PublicKeyVt.verifySignatureVt` (tiny_bls_sig.go:190-207) -/
def verifySignatureVt (g : G) (e : H →ₗ[F] G →ₗ[F] GT) (hash : Bytes → Bytes → H) (pk : G)
    (msg : Option Bytes) (sig : Option H) (dst : Bytes) : Go Bool := do
  let s ← Go.ofOption sig
  let m ← Go.ofOption msg
  Go.guard (pk ≠ 0)
  Go.guard (s ≠ 0)
  .ok (e (-(hash m dst)) pk + e s g = 0)

/-- the key loop of `SignatureVt.coreAggregateVerify` (tiny_bls_sig.go:118-127) -/
def pairLoopVt (e : H →ₗ[F] G →ₗ[F] GT) (hash : Bytes → Bytes → H) (dst : Bytes) :
    List (Option G × Bytes) → Go GT
  | [] => .ok 0
  | (none, _) :: _ => Go.err
  | (some pk, m) :: rest => do
    Go.guard (pk ≠ 0)
    let t ← pairLoopVt e hash dst rest
    .ok (e (hash m dst) pk + t)

/-- `SignatureVt.coreAggregateVerify` (tiny_bls_sig.go:98-130) -/
def coreAggregateVerifyVt (g : G) (e : H →ₗ[F] G →ₗ[F] GT) (hash : Bytes → Bytes → H) (sig : H)
    (pks : List (Option G)) (msgs : List Bytes) (dst : Bytes) : Go Bool := do
  Go.guard (¬ pks.length < 1)
  Go.guard (¬ msgs.length < 1)
  Go.guard (pks.length = msgs.length)
  let t ← pairLoopVt e hash dst (pks.zip msgs)
  .ok (t + e sig (-g) = 0)

/-- `SigAugVt.Sign` (tiny_bls.go:209-220): unlike `SigAug.Sign`, empty messages are signed -/
def augSignVt (g : G) (encP : G → Bytes) (hash : Bytes → Bytes → H) (sk : F) (msg : Option Bytes)
    (dst : Bytes) : Go H := do
  let pk ← getPublicKey g sk
  createSignature hash sk (some (encP pk ++ msg.getD [])) dst

end Verif.Bls
