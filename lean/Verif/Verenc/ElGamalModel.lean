import Verif.Common.Go
import Verif.Common.Codec
import Mathlib.Algebra.Module.Defs

/-!
# Model of `pkg/verenc/elgamal`

Scalars `F` with codec `cd`, points `G` with generator `g`.  `Env` collects the primitives:
`hashS`/`hashP` are `Scalar.Hash`/`Point.Hash`, `encC`/`encU` the compressed and uncompressed
encodings, `kdf` the derivation of the AES key (`core.FiatShamir` of the compressed point),
`gseal`/`opn` AES-GCM (called with nonces of 12 bytes only: GCM panics on other lengths).  The bare containers
around the serialized fields are an external library and omitted.  The random reader is replaced by the
arguments `fresh` (first non-zero random scalar), `cnonce` and `r`.
-/

namespace Verif.ElGamal

/-- bytes -/
abbrev Bytes := List UInt8

/-- the primitives -/
structure Env (F G : Type) where
  cd : ScalarCodec F
  hashS : Bytes → F
  hashP : Bytes → G
  encC : G → Bytes
  encU : G → Bytes
  kdf : G → Bytes
  /-- `aesGcm.Seal(nil, nonce, msg, aad)` under a key -/
  gseal : Bytes → Bytes → Bytes → Bytes → Bytes
  /-- `aesGcm.Open(nil, nonce, ct, aad)` under a key -/
  opn : Bytes → Bytes → Bytes → Bytes → Option Bytes

variable {F : Type} [Field F] [DecidableEq F]
variable {G : Type} [AddCommGroup G] [Module F G] [DecidableEq G]

/-- `CipherText` (ciphertext.go:20-25) with non-nil points; a nil nonce or AEAD slice is treated as the
empty one, which is refused in the same places -/
structure CipherText (G : Type) where
  c1 : G
  c2 : G
  nonce : Bytes
  aead : Bytes
  msgIsHashed : Bool
  deriving DecidableEq

/-- `HomomorphicCipherText` (ciphertext.go:32-34) -/
structure HomCipherText (G : Type) where
  c1 : G
  c2 : G
  deriving DecidableEq

/-- `EncryptParams` (encryption_key.go:39-45); nil slices and the nil scalar are `none` -/
structure Params (F : Type) where
  messageIsHashed : Bool
  domain : Option Bytes
  blinding : Option F
  genProof : Bool
  proofNonce : Option Bytes
  deriving DecidableEq

/-- `ProofVerEnc` (proof_enc.go:20-22) -/
structure Proof (F : Type) where
  challenge : F
  schnorr1 : F
  schnorr2 : F
  deriving DecidableEq

/-- `NewKeys` (encryption_key.go:54-67) and `DecryptionKey.EncryptionKey` (decryption_key.go:33-37) -/
def encryptionKey (g : G) (x : F) : G := x • g

/-- `HomomorphicEncrypt` (encryption_key.go:96-102) with the random `r` -/
def homEncrypt (g ek : G) (msg r : F) : HomCipherText G := ⟨r • g, r • ek + msg • g⟩

/-- `CipherText.ToHomomorphicCipherText` (ciphertext.go:93-98) -/
def CipherText.toHom (c : CipherText G) : HomCipherText G := ⟨c.c1, c.c2⟩

/-- `HomomorphicCipherText.Add` (ciphertext.go:101-106) -/
def HomCipherText.add (c rhs : HomCipherText G) : HomCipherText G := ⟨c.c1 + rhs.c1, c.c2 + rhs.c2⟩

/-- `HomomorphicCipherText.Decrypt` (ciphertext.go:109-114) for a non-nil key, also `DecryptionKey.Decrypt`
(decryption_key.go:69-74) -/
def HomCipherText.decrypt (c : HomCipherText G) (x : F) : G := c.c2 - x • c.c1

/-- the message scalar (encryption_key.go:124-132, decryption_key.go:150-158, proof_enc.go:137-145) -/
def msgScalar (env : Env F G) (hashed : Bool) (msg : Bytes) : Go F :=
  if hashed then Go.ofOption (env.cd.dec msg) else .ok (env.hashS msg)

/-- additional data: `C1 || C2` (encryption_key.go:135-138) -/
def aad (env : Env F G) (c1 c2 : G) : Bytes := env.encU c1 ++ env.encU c2

/-- `encryptWithRandNonce` (encryption_key.go:104-144) -/
def encryptWithRandNonce (env : Env F G) (g ek : G) (msg : Bytes) (hashed : Bool) (r : F) (h : G)
    (nonce : Bytes) : Go (CipherText G) := do
  let t := r • ek
  let key := env.kdf t
  let c1 := r • g
  let m ← msgScalar env hashed msg
  let c2 := m • h + t
  .ok ⟨c1, c2, nonce, env.gseal key nonce msg (aad env c1 c2), hashed⟩

/-- the challenge (proof_enc.go:129-133, 202-206) -/
def challenge (env : Env F G) (c1 c2 r1 r2 : G) (nonce : Bytes) : F :=
  env.hashS (env.encC c1 ++ env.encC c2 ++ env.encC r1 ++ env.encC r2 ++ nonce)

/-- `genProof` (proof_enc.go:122-150) with the random `r` -/
def genProof (env : Env F G) (g ek : G) (nonce msg : Bytes) (hashed : Bool) (ct : CipherText G)
    (blinding : F) (h : G) (r : F) : Go (Proof F) := do
  let r1 := r • g
  let r2 := r • ek + blinding • h
  let c := challenge env ct.c1 ct.c2 r1 r2 nonce
  let m ← msgScalar env hashed msg
  .ok ⟨c, blinding - c * m, r - c * blinding⟩

/-- the base point derived from a domain (proof_enc.go:100-102, 166-168, decryption_key.go:104-108) -/
def domainBase (env : Env F G) (ek : G) (domain nonce : Bytes) : G :=
  env.hashP (domain ++ env.encU ek ++ nonce)

/-- the choice of the base point (proof_enc.go:95-103) -/
def chooseBase (env : Env F G) (g ek : G) (domain : Option Bytes) (nonce : Bytes) : G :=
  match domain with
  | none => g
  | some d => domainBase env ek d nonce

/-- `VerifiableEncrypt` (proof_enc.go:72-120).  `msg = none` is the nil message; the parameters are
behind a (non-nil) pointer and the function stores the blinding it chose in them, so they are returned as
well. -/
def verifiableEncrypt (env : Env F G) (g ek : G) (msg : Option Bytes) (params : Params F) (fresh : F)
    (cnonce : Bytes) (r : F) : Params F × Go (CipherText G × Option (Proof F)) :=
  match msg with
  | none => (params, Go.err)
  | some msg =>
    let b := params.blinding.getD fresh
    let params := { params with blinding := some b }
    (params, do
      Go.guard (b ≠ 0)
      let h := chooseBase env g ek params.domain cnonce
      let ct ← encryptWithRandNonce env g ek msg params.messageIsHashed b h cnonce
      if params.genProof then do
        let nonce ← Go.ofOption params.proofNonce
        let pf ← genProof env g ek nonce msg params.messageIsHashed ct b h r
        .ok (ct, some pf)
      else .ok (ct, none))

/-- `verify` (proof_enc.go:190-212) -/
def verify (env : Env F G) (g ek : G) (nonce : Bytes) (ct : CipherText G) (pf : Proof F) (h : G) :
    Go Unit := do
  let r1 := pf.challenge • ct.c1 + pf.schnorr2 • g
  let r2 := pf.challenge • ct.c2 + pf.schnorr2 • ek + pf.schnorr1 • h
  Go.guard (challenge env ct.c1 ct.c2 r1 r2 nonce = pf.challenge)

/-- `VerifyEncryptProof` (proof_enc.go:175-188), non-nil arguments -/
def verifyEncryptProof (env : Env F G) (g ek : G) (nonce : Bytes) (ct : CipherText G) (pf : Proof F) :
    Go Unit := verify env g ek nonce ct pf g

/-- `VerifyDomainEncryptProof` (proof_enc.go:155-170), non-nil arguments: the proof nonce takes the place of
the domain -/
def verifyDomainEncryptProof (env : Env F G) (g ek : G) (nonce : Bytes) (ct : CipherText G)
    (pf : Proof F) : Go Unit :=
  verify env g ek nonce ct pf (domainBase env ek nonce ct.nonce)

/-- `decryptData` (decryption_key.go:116-165); only nonces shorter than 12 bytes are refused, GCM panics on
longer ones -/
def decryptData (env : Env F G) (x : F) (ct : Option (CipherText G)) : Go (Bytes × F × G) := do
  let ct ← Go.ofOption ct
  Go.guard (¬ (ct.nonce.length < 12 ∨ ct.aead.length < 16))
  let t := x • ct.c1
  let key := env.kdf t
  if ct.nonce.length ≠ 12 then Go.crash
  else do
    let msg ← Go.ofOption (env.opn key ct.nonce ct.aead (aad env ct.c1 ct.c2))
    let m ← msgScalar env ct.msgIsHashed msg
    .ok (msg, m, ct.c2 - t)

/-- `VerifiableDecrypt` (decryption_key.go:80-91) -/
def verifiableDecrypt (env : Env F G) (g : G) (x : F) (ct : Option (CipherText G)) : Go (Bytes × F) := do
  let d ← decryptData env x ct
  Go.guard (d.2.1 • g = d.2.2)
  .ok (d.1, d.2.1)

/-- `VerifiableDecryptWithDomain` (decryption_key.go:99-114) -/
def verifiableDecryptWithDomain (env : Env F G) (g : G) (x : F) (domain : Bytes)
    (ct : Option (CipherText G)) : Go (Bytes × F) := do
  let d ← decryptData env x ct
  let h := domainBase env (encryptionKey g x) domain ((ct.map CipherText.nonce).getD [])
  Go.guard (d.2.1 • h = d.2.2)
  .ok (d.1, d.2.1)

/-! ## Serialization: the fields inside the bare container -/

/-- the fields of `proofMarshal` (proof_enc.go:24-29) -/
structure ProofMarshal where
  challenge : Bytes
  schnorr1 : Bytes
  schnorr2 : Bytes
  curve : String
  deriving DecidableEq

/-- `ProofVerEnc.MarshalBinary` (proof_enc.go:31-39) on the curve `name` -/
def Proof.marshal (cd : ScalarCodec F) (name : String) (p : Proof F) : ProofMarshal :=
  ⟨cd.enc p.challenge, cd.enc p.schnorr1, cd.enc p.schnorr2, name⟩

/-- `ProofVerEnc.UnmarshalBinary` (proof_enc.go:41-67); `known` tells whether `GetCurveByName` finds the
curve.  The nil curve is dereferenced without a check.  Only the curve of the model is represented. -/
def Proof.unmarshal (cd : ScalarCodec F) (known : String → Bool) (tv : ProofMarshal) : Go (Proof F) :=
  if known tv.curve then do
    let c ← Go.ofOption (cd.dec tv.challenge)
    let s1 ← Go.ofOption (cd.dec tv.schnorr1)
    let s2 ← Go.ofOption (cd.dec tv.schnorr2)
    .ok ⟨c, s1, s2⟩
  else Go.crash

/-- the fields of `cipherTextMarshal` (ciphertext.go:36-43) -/
structure CipherTextMarshal where
  c1 : Bytes
  c2 : Bytes
  nonce : Bytes
  aead : Bytes
  curve : String
  msgIsHashed : Bool
  deriving DecidableEq

/-- `CipherText.MarshalBinary` (ciphertext.go:51-62) -/
def CipherText.marshal (encC : G → Bytes) (name : String) (c : CipherText G) : CipherTextMarshal :=
  ⟨encC c.c1, encC c.c2, c.nonce, c.aead, name, c.msgIsHashed⟩

/-- `CipherText.UnmarshalBinary` (ciphertext.go:64-89); `decC` is `FromAffineCompressed` -/
def CipherText.unmarshal (decC : Bytes → Option G) (known : String → Bool) (tv : CipherTextMarshal) :
    Go (CipherText G) := do
  Go.guard (known tv.curve = true)
  let c1 ← Go.ofOption (decC tv.c1)
  let c2 ← Go.ofOption (decC tv.c2)
  .ok ⟨c1, c2, tv.nonce, tv.aead, tv.msgIsHashed⟩

end Verif.ElGamal
