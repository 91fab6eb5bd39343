import Verif.Ted.TedModel
import Verif.Legacy.ScalarModel

/-!
# Model of the random elements behind `pkg/ted25519/ted25519` and of its remaining helpers

`Field.RandomElement` treats the order of Ed25519 apart from all other fields; this file follows that case down to the bytes, through
`newPoly` of `pkg/sharing/v1` and through the nonces of `noncegen.go`.  HKDF-SHA256 is an arbitrary function of the secret and the info that
returns the bytes read from the stream; it is read once, for 64 bytes.  A `none` read is an error of the reader.
-/

namespace Verif.Ted
open Verif.Primes Verif.Curves.Ed

/-- `newElement` (`pkg/core/curves/field.go:84-90`) for the order of Ed25519: panics outside `[0, edl)` -/
def newElementEd (z : ℤ) : Go Fl :=
  if z < edl ∧ 0 ≤ z then .ok (z : Fl) else Go.crash

/-- `Field.RandomElement` (`pkg/core/curves/field.go:109-131`) for the order of Ed25519 -/
def randomElement (sha512 : List UInt8 → List UInt8) (read : Option (List UInt8)) : Go Fl := do
  let z ← Legacy.edRandom sha512 read
  newElementEd z

/-- the loop of `newPoly` (`pkg/sharing/v1/polynomial.go:27-33`); `reads i` is what the reader returns for coefficient `i + 1` -/
def drawCoeffs (sha512 : List UInt8 → List UInt8) (reads : ℕ → Option (List UInt8)) : ℕ → ℕ → Go (List Fl)
  | 0, _ => .ok []
  | n + 1, i => do
    let c ← randomElement sha512 (reads i)
    let cs ← drawCoeffs sha512 reads n (i + 1)
    .ok (c :: cs)

/-- `newPoly` (`pkg/sharing/v1/polynomial.go:18-36`) over the order of Ed25519, with its draws -/
def newPolyEd (sha512 : List UInt8 → List UInt8) (intercept : Fl) (degree : ℕ) (reads : ℕ → Option (List UInt8)) : Go (List Fl) :=
  if degree = 0 then Go.crash
  else do
    let cs ← drawCoeffs sha512 reads (degree - 1) 0
    .ok (intercept :: cs)

/-- `GetSharesAndPolynomial` (`pkg/sharing/v1/shamir.go:111-136`) over the order of Ed25519, with its draws -/
def splitEd (sha512 : List UInt8 → List UInt8) (s : V1.Shamir) (secret : List UInt8) (reads : ℕ → Option (List UInt8)) :
    Go (List (V1.Share edl) × List Fl) := do
  Go.guard (secret.length ≠ 0)
  Go.guard (beNat secret < edl)
  let poly ← newPolyEd sha512 ((beNat secret : ℕ) : Fl) s.threshold.toNat reads
  let shares ← V1.mkShares s.limit poly
  .ok (shares, poly)

/-- the bytes of `"ted25519nonce"` (`noncegen.go:119`) -/
def nonceLabel : List UInt8 := [116, 101, 100, 50, 53, 53, 49, 57, 110, 111, 110, 99, 101]

/-- the secret and the info that `generateRandomHkdf` (`noncegen.go:104-125`) hands to HKDF; `rnd` are the 32 random bytes -/
def hkdfInput (s : V1.Share edl) (pub msg rnd : List UInt8) : List UInt8 × List UInt8 :=
  (shareBytes s ++ rnd, nonceLabel ++ pub ++ msg)

/-- `generateSharableNonce` (`noncegen.go:34-65`); `rnd = none` is an error of `rand.Reader`.  The nonce is returned as its minimal
big-endian bytes -/
def sharableNonce {G : Type} [AddCommGroup G] [Module (ZMod edl) G] (g : G) (penc : G → List UInt8)
    (hkdf : List UInt8 × List UInt8 → List UInt8) (sha512 : List UInt8 → List UInt8)
    (s : V1.Share edl) (pub msg : List UInt8) (rnd : Option (List UInt8)) : Go (List UInt8 × List UInt8) := do
  let rnd ← Go.ofOption rnd
  Go.guard (rnd.length = 32)
  let nonce ← randomElement sha512 (some (hkdf (hkdfInput s pub msg rnd)))
  let sc : ZMod edl ← Go.ofOption (scalarLE (pad32 (natBytes nonce.val).reverse))
  .ok (penc (sc • g), natBytes nonce.val)

/-- `PublicKeyFromBytes` (`keygen.go:18-24`) -/
def publicKeyFromBytes (b : List UInt8) : Go (List UInt8) := do
  Go.guard (b.length = 32)
  .ok b

/-- `NewKeyShare` and `NewNonceShare` (`keygen.go:32-35`, `noncegen.go:25-27`; `NewShamirShare` at `pkg/sharing/v1/shamir.go:25-30`) -/
def newKeyShare (id : UInt8) (secret : List UInt8) : Go (V1.Share edl) := do
  let v ← newElementEd (beNat secret)
  .ok ⟨id.toUInt32, v⟩

/-- `CommitmentsToBytes` (`keygen.go:41-49`) -/
def commitmentsToBytes {G : Type} (penc : G → List UInt8) (cs : List G) : List (List UInt8) := cs.map penc

/-- `CommitmentsFromBytes` (`keygen.go:52-65`) -/
def commitmentsFromBytes {G : Type} (pdec : List UInt8 → Option G) (bs : List (List UInt8)) : Go (List G) :=
  bs.mapM fun b => do
    let k ← publicKeyFromBytes b
    Go.ofOption (pdec k)

/-- `NonceShare.Add` (`noncegen.go:93-101`): `ShamirShare.Add` with the detour through `NewShamirShare` -/
def nonceShareAdd (a b : V1.Share edl) : Go (V1.Share edl) :=
  if a.id ≠ b.id then Go.crash
  else do
    let v ← newElementEd (beNat (natBytes (a.value + b.value).val))
    .ok ⟨a.id, v⟩

/-- `PartialSignature.R` (`partialsig.go:33-35`); a shorter slice panics -/
def sigR (p : PartialSig) : Go (List UInt8) := if p.sig.length < 32 then Go.crash else .ok (p.sig.take 32)

/-- `PartialSignature.S` (`partialsig.go:38-40`) -/
def sigS (p : PartialSig) : Go (List UInt8) := if p.sig.length < 32 then Go.crash else .ok (p.sig.drop 32)

/-- `PrivateKey.Public` (`ed25519.go:51-55`) -/
def privPublic (priv : List UInt8) : Go (List UInt8) :=
  if priv.length < 32 then Go.crash else .ok (pad32 (priv.drop 32))

/-- `PrivateKey.Seed` (`ed25519.go:60-64`) -/
def privSeed (priv : List UInt8) : Go (List UInt8) :=
  if priv.length < 32 then Go.crash else .ok (pad32 (priv.take 32))

/-- `GenerateKey` (`ed25519.go:84-102`); `read` is the seed from the reader, `none` an error or a short read -/
def generateKey {G : Type} [AddCommGroup G] [Module (ZMod edl) G] (g : G) (penc : G → List UInt8)
    (sha512 : List UInt8 → List UInt8) (read : Option (List UInt8)) : Go (List UInt8 × List UInt8) := do
  let seed ← Go.ofOption read
  let priv ← newKeyFromSeed (q := edl) g penc sha512 seed
  .ok (pad32 (priv.drop 32), priv)

/-- `PrivateKey.Sign` (`ed25519.go:71-80`); `hashed` says whether `opts.HashFunc()` is not zero -/
def privSign {G : Type} [AddCommGroup G] [Module (ZMod edl) G] (g : G) (penc : G → List UInt8)
    (sha512 : List UInt8 → List UInt8) (wide : List UInt8 → ZMod edl) (priv msg : List UInt8) (hashed : Bool) : Go (List UInt8) := do
  Go.guard (hashed = false)
  sign g penc sha512 wide priv msg

end Verif.Ted
