import Verif.Bls.Model

/-!
# Model of the BLS schemes as objects (`pkg/signatures/bls/bls_sig/usual_bls.go`, `tiny_bls.go`)

The three schemes with their constructors, tags and methods; `Vt` is the form with signatures in G1.  Random bytes and the coefficients of the
shares are arguments.
-/

namespace Verif.Bls

/-- the bytes of a string of the source -/
def tagBytes (s : String) : Bytes := s.toList.map fun c => UInt8.ofNat c.toNat

/-- the domain separation tags (usual_bls.go:13-30) -/
def basicDst : Bytes := tagBytes "BLS_SIG_BLS12381G2_XMD:SHA-256_SSWU_RO_NUL_"
def augDst : Bytes := tagBytes "BLS_SIG_BLS12381G2_XMD:SHA-256_SSWU_RO_AUG_"
def popSigDst : Bytes := tagBytes "BLS_SIG_BLS12381G2_XMD:SHA-256_SSWU_RO_POP_"
def popProofDst : Bytes := tagBytes "BLS_POP_BLS12381G2_XMD:SHA-256_SSWU_RO_POP_"
/-- the domain separation tags (tiny_bls.go:13-30) -/
def basicVtDst : Bytes := tagBytes "BLS_SIG_BLS12381G1_XMD:SHA-256_SSWU_RO_NUL_"
def augVtDst : Bytes := tagBytes "BLS_SIG_BLS12381G1_XMD:SHA-256_SSWU_RO_AUG_"
def popSigVtDst : Bytes := tagBytes "BLS_SIG_BLS12381G1_XMD:SHA-256_SSWU_RO_POP_"
def popProofVtDst : Bytes := tagBytes "BLS_POP_BLS12381G1_XMD:SHA-256_SSWU_RO_POP_"

/-- `SigBasic`, `SigAug` and `SigPop` (usual_bls.go:92-94, 168-170, 290-293; tiny_bls.go has the same types) -/
inductive Scheme where
  | basic (dst : Bytes)
  | aug (dst : Bytes)
  | pop (sigDst popDst : Bytes)
  deriving DecidableEq

/-- `NewSigBasic`, `NewSigBasicWithDst` (usual_bls.go:97-104) -/
def newBasic : Scheme := .basic basicDst
def newBasicWithDst (dst : Bytes) : Scheme := .basic dst
/-- `NewSigAug`, `NewSigAugWithDst` (usual_bls.go:173-180) -/
def newAug : Scheme := .aug augDst
def newAugWithDst (dst : Bytes) : Scheme := .aug dst
/-- `NewSigPop`, `NewSigEth2` (usual_bls.go:285-287, 298-300) -/
def newPop : Scheme := .pop popSigDst popProofDst
/-- `NewSigPopWithDst` (usual_bls.go:303-308) -/
def newPopWithDst (signDst popDst : Bytes) : Go Scheme := do
  Go.guard (signDst ≠ popDst)
  .ok (.pop signDst popDst)
/-- the constructors without arguments of tiny_bls.go (lines 97, 173, 280, 293) -/
def newBasicVt : Scheme := .basic basicVtDst
def newAugVt : Scheme := .aug augVtDst
def newPopVt : Scheme := .pop popSigVtDst popProofVtDst

variable {F : Type} [Field F] [DecidableEq F]
variable {G H GT : Type} [AddCommGroup G] [Module F G] [DecidableEq G]
  [AddCommGroup H] [Module F H] [DecidableEq H] [AddCommGroup GT] [Module F GT] [DecidableEq GT]

/-- `generateKeys` (usual_bls.go:42-48): `rand` is what `generateRandBytes(32)` returns -/
def keygen (g : G) (kdf : Bytes → F) (rand : Option Bytes) : Go (G × F) := do
  let ikm ← Go.ofOption rand
  generateKeys g kdf ikm

/-- `thresholdGenerateKeysWithSeed` (usual_bls.go:78-88) -/
def thresholdKeygenWithSeed (g : G) (kdf : Bytes → F) (cd : ScalarCodec F) (ikm : Bytes) (threshold total : ℕ) (rnd : ℕ → F) :
    Go (G × List KeyShare) := do
  let (pk, sk) ← generateKeys g kdf ikm
  let shares ← thresholdize cd (some sk) threshold total rnd
  .ok (pk, shares)

/-- `thresholdGenerateKeys` (usual_bls.go:64-74) -/
def thresholdKeygen (g : G) (kdf : Bytes → F) (cd : ScalarCodec F) (rand : Option Bytes) (threshold total : ℕ) (rnd : ℕ → F) :
    Go (G × List KeyShare) := do
  let (pk, sk) ← keygen g kdf rand
  let shares ← thresholdize cd (some sk) threshold total rnd
  .ok (pk, shares)

/-- `Sign` of the three schemes (usual_bls.go:131-133, 209-224, 337-339) -/
def Scheme.sign (g : G) (encP : G → Bytes) (hash : Bytes → Bytes → H) (s : Scheme) (sk : F) (msg : Option Bytes) : Go H :=
  match s with
  | .basic d => createSignature hash sk msg d
  | .aug d => augSign g encP hash sk msg d
  | .pop d _ => createSignature hash sk msg d

/-- `PartialSign` of the three schemes (usual_bls.go:136-138, 227-238, 342-344); the key is an argument of `SigAug.PartialSign` only -/
def Scheme.partialSign (encP : G → Bytes) (cd : ScalarCodec F) (hash : Bytes → Bytes → H) (s : Scheme) (sks : KeyShare) (pk : G)
    (msg : Option Bytes) : Go (Partial H) :=
  match s with
  | .basic d => Bls.partialSign cd hash sks msg d
  | .aug d => augPartialSign encP cd hash sks (some pk) msg d
  | .pop d _ => Bls.partialSign cd hash sks msg d

/-- `Verify` of the three schemes (usual_bls.go:146-148, 248-255, 354-356) for a key that is not nil -/
def Scheme.verify (g : G) (encP : G → Bytes) (e : G →ₗ[F] H →ₗ[F] GT) (hash : Bytes → Bytes → H) (s : Scheme) (pk : G)
    (msg : Option Bytes) (sig : Option H) : Go Bool :=
  match s with
  | .basic d => verifySignature g e hash pk msg sig d
  | .aug d => augVerify g encP e hash (some pk) msg sig d
  | .pop d _ => verifySignature g e hash pk msg sig d

/-- `PopProve` and `PopVerify` (usual_bls.go:435-446): methods of `SigPop` alone, so the arguments are its tags -/
def popProve (g : G) (encP : G → Bytes) (hash : Bytes → Bytes → H) (popDst : Bytes) (sk : F) : Go H := createPop g encP hash sk popDst
def popVerify (g : G) (encP : G → Bytes) (e : G →ₗ[F] H →ₗ[F] GT) (hash : Bytes → Bytes → H) (popDst : Bytes) (pk : G) (pop : H) :
    Go Bool := verifyPop g encP e hash (some pk) pop popDst

/-- `Sign` of the schemes of tiny_bls.go (lines 131-133, 209-220, 332-334) -/
def Scheme.signVt (g : G) (encP : G → Bytes) (hash : Bytes → Bytes → H) (s : Scheme) (sk : F) (msg : Option Bytes) : Go H :=
  match s with
  | .basic d => createSignature hash sk msg d
  | .aug d => augSignVt g encP hash sk msg d
  | .pop d _ => createSignature hash sk msg d

/-- `Verify` of the schemes of tiny_bls.go (lines 146-148, 243-250, 349-351) for a key that is not nil -/
def Scheme.verifyVt (g : G) (encP : G → Bytes) (e : H →ₗ[F] G →ₗ[F] GT) (hash : Bytes → Bytes → H) (s : Scheme) (pk : G)
    (msg : Option Bytes) (sig : Option H) : Go Bool :=
  match s with
  | .basic d => verifySignatureVt g e hash pk msg sig d
  | .aug d => verifySignatureVt g e hash pk (some (encP pk ++ msg.getD [])) sig d
  | .pop d _ => verifySignatureVt g e hash pk msg sig d

end Verif.Bls
