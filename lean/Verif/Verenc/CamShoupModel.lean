import Verif.Common.BigInt
import Verif.Common.Bytes

/-!
# Model of `pkg/verenc/camshoup`

`*big.Int` values are integers.  `hash` is `internal.Hash` with the fixed key, read as a natural number, on the list of
byte strings; a nil label makes it fail.  The unexported fields of ciphertexts, proofs and keys cannot
be nil when they come out of the package, the nil pointer or the zero struct is `none` where it is
handled.  The bare containers around the serialized fields are an external library and omitted.  Randomness is passed
as an argument.
-/

namespace Verif.CamShoup

/-- bytes -/
abbrev Bytes := List UInt8

/-- `PaillierGroup` (paillier_group.go:31-33); `n2d4` is only a sampling bound -/
structure Group where
  g : ℤ
  h : ℤ
  n : ℤ
  nd4 : ℤ
  n2d2 : ℤ
  n2d4 : ℤ
  n2 : ℤ
  twoInvTwo : ℤ
  deriving DecidableEq

/-- the values derived from `n` (paillier_group.go:55-67, 166-172); shifting a nil inverse panics -/
def mkGroup (n g : ℤ) : Go Group :=
  match Big.modInverse 2 n with
  | none => Go.crash
  | some i => .ok ⟨g, n + 1, n, n >>> (1 : ℕ), (n * n) >>> (1 : ℕ), (n * n) >>> (2 : ℕ), n * n, i * 2⟩

/-- `NewPaillierGroupWithPrimes` (paillier_group.go:48-68) with the random `gTick` -/
def newGroupWithPrimes (p q gTick : ℤ) : Go Group := do
  let n := p * q
  let n2 := n * n
  let g ← (match Big.exp gTick (n2 * 2) n2 with
    | none => Go.crash
    | some g => .ok g)
  mkGroup n g

/-- `MarshalBinary` (paillier_group.go:147-155) -/
def Group.marshal (G : Group) : Bytes × Bytes := (intBytes G.n, intBytes G.g)

/-- `UnmarshalBinary` (paillier_group.go:158-174) -/
def Group.unmarshal (tv : Bytes × Bytes) : Go Group := mkGroup (beNat tv.1) (beNat tv.2)

/-- `Abs` (paillier_group.go:100-109) -/
def Group.abs (G : Group) (a : ℤ) : Go ℤ := do
  let tv ← Big.mod a G.n2
  .ok (if tv > G.n2d2 then G.n2 - tv else tv)

/-- `Exp` (paillier_group.go:112-114); every use of a nil result panics -/
def Group.exp (G : Group) (base e : ℤ) : Go ℤ :=
  match Big.exp base e G.n2 with
  | none => Go.crash
  | some r => .ok r

/-- `Mul` (paillier_group.go:116-119) -/
def Group.mul (G : Group) (lhs rhs : ℤ) : Go ℤ := Big.mod (lhs * rhs) G.n2

/-- `Inv` (paillier_group.go:122-124); the only use of a nil result panics -/
def Group.inv (G : Group) (val : ℤ) : Go ℤ :=
  match Big.modInverse val G.n2 with
  | none => Go.crash
  | some r => .ok r

/-- `Gexp` (paillier_group.go:127-129) -/
def Group.gexp (G : Group) (e : ℤ) : Go ℤ := G.exp G.g e

/-- `Hexp` (paillier_group.go:132-134) -/
def Group.hexp (G : Group) (e : ℤ) : Go ℤ := G.exp G.h e

/-- `Hash` (paillier_group.go:177-192) -/
def groupHash (hash : List Bytes → ℕ) (u : ℤ) (e : List ℤ) (data : Option Bytes) : Go ℤ := do
  Go.guard (e ≠ [])
  let d ← Go.ofOption data
  .ok (hash (intBytes u :: e.map intBytes ++ [d]))

/-- `CipherText` (ciphertext.go:17-20) -/
structure CipherText where
  u : ℤ
  v : ℤ
  e : List ℤ
  deriving DecidableEq

/-- `EncryptionKey` (encryption_key.go:29-33) -/
structure EncKey where
  y1 : List ℤ
  y2 : ℤ
  y3 : ℤ
  group : Group
  deriving DecidableEq

/-- `DecryptionKey` (decryption_key.go:28-32) -/
structure DecKey where
  x1 : List ℤ
  x2 : ℤ
  x3 : ℤ
  group : Group
  deriving DecidableEq

/-- `ProofVerEnc` (proof_enc.go:20-23) -/
structure Proof where
  challenge : ℤ
  r : ℤ
  m : List ℤ
  deriving DecidableEq

/-- `EncryptionKey` (decryption_key.go:35-45) -/
def DecKey.encKey (dk : DecKey) : Go EncKey := do
  let y2 ← dk.group.gexp dk.x2
  let y3 ← dk.group.gexp dk.x3
  let y1 ← dk.x1.mapM dk.group.gexp
  .ok ⟨y1, y2, y3, dk.group⟩

/-- `NewKeys` (encryption_key.go:35-67) with the random exponents; `numMsgs = x1.length` -/
def newKeys (x1 : List ℤ) (x2 x3 : ℤ) (G : Group) : Go (EncKey × DecKey) := do
  Go.guard (¬ (x1.length < 1))
  let y1 ← x1.mapM G.gexp
  let y2 ← G.gexp x2
  let y3 ← G.gexp x3
  .ok (⟨y1, y2, y3, G⟩, ⟨x1, x2, x3, G⟩)

/-- `computeE` (encryption_key.go:137-145); the index `y1[i]` panics when there are more messages than keys -/
def computeE (G : Group) : List ℤ → List ℤ → ℤ → Go (List ℤ)
  | _, [], _ => .ok []
  | [], _ :: _, _ => Go.crash
  | y1 :: ys, m :: ms, r => do
    let y ← G.exp y1 r
    let hM ← G.hexp m
    let e ← G.mul y hM
    let es ← computeE G ys ms r
    .ok (e :: es)

/-- `computeU` (encryption_key.go:147-149) -/
def computeU (G : Group) (r : ℤ) : Go ℤ := G.gexp r

/-- `computeV` (encryption_key.go:154-168) -/
def computeV (ek : EncKey) (r hs : ℤ) (abs : Bool) : Go ℤ := do
  let y3hs ← ek.group.exp ek.y3 hs
  let y2y3hs ← ek.group.mul ek.y2 y3hs
  let y2y3hsr ← ek.group.exp y2y3hs r
  if abs then ek.group.abs y2y3hsr else .ok y2y3hsr

/-- `encryptWithR` (encryption_key.go:125-135) -/
def encryptWithR (hash : List Bytes → ℕ) (ek : EncKey) (domain : Option Bytes) (msgs : List ℤ) (r : ℤ) :
    Go CipherText := do
  let u ← computeU ek.group r
  let e ← computeE ek.group ek.y1 msgs r
  let hs ← groupHash hash u e domain
  let v ← computeV ek r hs true
  .ok ⟨u, v, e⟩

/-- `Encrypt` (encryption_key.go:109-123) with the random `r`; nil messages are `none` -/
def encrypt (hash : List Bytes → ℕ) (ek : EncKey) (domain : Option Bytes) (msgs : List (Option ℤ)) (r : ℤ) :
    Go CipherText := do
  Go.guard (¬ (msgs.length > ek.y1.length))
  let ms ← msgs.mapM fun m => do
    let m ← Go.ofOption m
    Go.guard (¬ (m > ek.group.n))
    .ok m
  encryptWithR hash ek domain ms r

/-- the loop of `Decrypt` (decryption_key.go:129-149) -/
def decryptLoop (G : Group) (u : ℤ) : List ℤ → List ℤ → Go (List ℤ)
  | _, [] => .ok []
  | [], _ :: _ => Go.crash
  | x :: xs, ee :: es => do
    let uX1 ← G.exp u x
    let uX1Inv ← G.inv uX1
    let q ← G.mul ee uX1Inv
    let mHat ← G.exp q G.twoInvTwo
    let test ← Big.mod mHat G.n
    Go.guard (test = 1)
    let m ← Big.mod mHat G.n2
    let ms ← decryptLoop G u xs es
    .ok ((m - 1) / G.n :: ms)

/-- `Decrypt` (decryption_key.go:86-152) -/
def decrypt (hash : List Bytes → ℕ) (dk : DecKey) (domain : Option Bytes) (ct : Option CipherText) :
    Go (List ℤ) := do
  let ct ← Go.ofOption ct
  Go.guard (¬ (ct.e.length > dk.x1.length))
  Go.guard (¬ (ct.u = 0 ∨ ct.v = 0))
  Go.guard (∀ e ∈ ct.e, e ≠ 0)
  let a ← dk.group.abs ct.v
  Go.guard (ct.v = a)
  let hs ← groupHash hash ct.u ct.e domain
  let uSqr ← dk.group.exp ct.u ((hs * dk.x3 + dk.x2) * 2)
  let vSqr ← dk.group.exp ct.v 2
  Go.guard (uSqr = vSqr)
  decryptLoop dk.group ct.u dk.x1 ct.e

/-- `ciphertextTestValues` (proof_enc.go:145-155) -/
def ciphertextTestValues (ek : EncKey) (r hs : ℤ) (msgs : List ℤ) : Go CipherText := do
  let u ← computeU ek.group (r * 2)
  let e ← computeE ek.group ek.y1 (msgs.map (· * 2)) (r * 2)
  let v ← computeV ek (r * 2) hs false
  .ok ⟨u, v, e⟩

/-- `fiatShamir` (proof_enc.go:158-192) -/
def fiatShamir (hash : List Bytes → ℕ) (ek : EncKey) (nonce : Option Bytes) (ct t : CipherText) : Go ℤ := do
  let d ← Go.ofOption nonce
  .ok (hash ([intBytes ek.group.n, intBytes ek.group.g, intBytes ek.y2, intBytes ek.y3] ++
    ek.y1.map intBytes ++ [intBytes ct.u] ++ ct.e.map intBytes ++ [intBytes ct.v] ++
    [intBytes t.u] ++ t.e.map intBytes ++ [intBytes t.v] ++ [d]))

/-- `schnorr` (proof_enc.go:195-199) -/
def schnorr (G : Group) (tilde challenge value : ℤ) : Go ℤ := do
  let r ← G.mul challenge value
  .ok (tilde - r)

/-- the responses (proof_enc.go:132-135) -/
def schnorrs (G : Group) (challenge : ℤ) (bms : List (ℤ × ℤ)) : Go (List ℤ) :=
  bms.mapM fun bm => schnorr G bm.1 challenge bm.2

/-- one step of the argument check (proof_enc.go:91-101) -/
def checkArg (bm : Option ℤ × Option ℤ) : Go (ℤ × ℤ) := do
  let b ← Go.ofOption bm.1
  let m ← Go.ofOption bm.2
  Go.guard (b ≠ 0)
  .ok (b, m)

/-- `EncryptAndProveBlindings` (proof_enc.go:84-142) with the random `r` and `rBlinding` -/
def encryptAndProve (hash : List Bytes → ℕ) (ek : EncKey) (nonce : Option Bytes)
    (msgs blindings : List (Option ℤ)) (r rBlinding : ℤ) : Go (CipherText × Proof) := do
  Go.guard (msgs.length = blindings.length)
  Go.guard (¬ (msgs.length > ek.y1.length))
  let bms ← (blindings.zip msgs).mapM checkArg
  let ms := bms.map Prod.snd
  let bs := bms.map Prod.fst
  let ct ← encryptWithR hash ek nonce ms r
  let hs ← groupHash hash ct.u ct.e nonce
  let t ← ciphertextTestValues ek rBlinding hs bs
  let c ← fiatShamir hash ek nonce ct t
  let rHat ← schnorr ek.group rBlinding c r
  let mHat ← schnorrs ek.group c bms
  .ok (ct, ⟨c, rHat, mHat⟩)

/-- the reconstruction of `e` (proof_enc.go:233-243); `ciphertext.e[i]` panics when the proof has more
responses than the ciphertext has components -/
def rebuildE (G : Group) (c2 r2 : ℤ) : List ℤ → List ℤ → List ℤ → Go (List ℤ)
  | _, _, [] => .ok []
  | y :: ys, e :: es, mm :: ms => do
    let ec ← G.exp e c2
    let yr ← G.exp y r2
    let hm ← G.hexp (mm * 2)
    let a ← G.mul ec yr
    let b ← G.mul a hm
    let rest ← rebuildE G c2 r2 ys es ms
    .ok (b :: rest)
  | _, _, _ :: _ => Go.crash

/-- `VerifyEncryptProof` (proof_enc.go:203-267) -/
def verifyProof (hash : List Bytes → ℕ) (ek : EncKey) (nonce : Option Bytes) (ct : Option CipherText)
    (pf : Option Proof) : Go Unit := do
  let ct ← Go.ofOption ct
  let pf ← Go.ofOption pf
  Go.guard (¬ (pf.m.length > ek.y1.length))
  let c2 := pf.challenge * 2
  let r2 := pf.r * 2
  let uc ← ek.group.exp ct.u c2
  let gr ← ek.group.gexp r2
  let u ← ek.group.mul uc gr
  let e ← rebuildE ek.group c2 r2 ek.y1 ct.e pf.m
  let hs ← groupHash hash ct.u ct.e nonce
  let vc ← ek.group.exp ct.v c2
  let y3hs ← ek.group.exp ek.y3 hs
  let y2y3hs ← ek.group.mul ek.y2 y3hs
  let y2y3hsr ← ek.group.exp y2y3hs r2
  let v ← ek.group.mul vc y2y3hsr
  let c ← fiatShamir hash ek nonce ct ⟨u, v, e⟩
  Go.guard (c = pf.challenge)

/-! ## Serialization: the fields inside the bare container -/

/-- `CipherText.MarshalBinary` (ciphertext.go:28-38) -/
def CipherText.marshal (c : CipherText) : List Bytes × Bytes × Bytes :=
  (c.e.map intBytes, intBytes c.u, intBytes c.v)

/-- `CipherText.UnmarshalBinary` (ciphertext.go:40-53) -/
def CipherText.unmarshal (tv : List Bytes × Bytes × Bytes) : CipherText :=
  ⟨beNat tv.2.1, beNat tv.2.2, tv.1.map fun b => (beNat b : ℤ)⟩

/-- `ProofVerEnc.MarshalBinary` (proof_enc.go:31-41) -/
def Proof.marshal (p : Proof) : List Bytes × Bytes × Bytes :=
  (p.m.map intBytes, intBytes p.r, intBytes p.challenge)

/-- `ProofVerEnc.UnmarshalBinary` (proof_enc.go:43-56) -/
def Proof.unmarshal (tv : List Bytes × Bytes × Bytes) : Proof :=
  ⟨beNat tv.2.2, beNat tv.2.1, tv.1.map fun b => (beNat b : ℤ)⟩

/-- `EncryptionKey.MarshalBinary` (encryption_key.go:70-84) -/
def EncKey.marshal (k : EncKey) : List Bytes × Bytes × Bytes × (Bytes × Bytes) :=
  (k.y1.map intBytes, intBytes k.y2, intBytes k.y3, k.group.marshal)

/-- `EncryptionKey.UnmarshalBinary` (encryption_key.go:87-105) -/
def EncKey.unmarshal (tv : List Bytes × Bytes × Bytes × (Bytes × Bytes)) : Go EncKey := do
  let G ← Group.unmarshal tv.2.2.2
  .ok ⟨tv.1.map fun b => (beNat b : ℤ), beNat tv.2.1, beNat tv.2.2.1, G⟩

/-- `DecryptionKey.MarshalBinary` (decryption_key.go:48-62) -/
def DecKey.marshal (k : DecKey) : List Bytes × Bytes × Bytes × (Bytes × Bytes) :=
  (k.x1.map intBytes, intBytes k.x2, intBytes k.x3, k.group.marshal)

/-- `DecryptionKey.UnmarshalBinary` (decryption_key.go:65-83) -/
def DecKey.unmarshal (tv : List Bytes × Bytes × Bytes × (Bytes × Bytes)) : Go DecKey := do
  let G ← Group.unmarshal tv.2.2.2
  .ok ⟨tv.1.map fun b => (beNat b : ℤ), beNat tv.2.1, beNat tv.2.2.1, G⟩

end Verif.CamShoup
