import Verif.Sharing.V1Model

/-!
# Model of `pkg/ted25519/ted25519` (threshold Ed25519)

The group is a `ZMod q`-module `G` (the prime-order subgroup), `penc` is `ToAffineCompressed`, `pdec`
is `FromAffineCompressed`; `sha512` is an arbitrary function; `wide` is `SetBytesWide` (reduction of 64
bytes).  Scalars of `edwards25519` are `ZMod q`, their canonical encoding is little-endian, while
`curves.Element` uses minimal big-endian bytes; the conversions are modelled byte by byte.
-/

namespace Verif.Ted

variable {q : ℕ} [Fact q.Prime]
variable {G : Type} [AddCommGroup G] [Module (ZMod q) G] [DecidableEq G]

/-- `copy(dst[:], b)` into a zeroed `[32]byte` (e.g. keygen.go:163-164) -/
def pad32 (b : List UInt8) : List UInt8 := (b ++ List.replicate 32 0).take 32

/-- `ScalarEd25519.SetBytesCanonical` (pkg/core/curves/ed25519_curve.go:266-294) -/
def scalarLE (b : List UInt8) : Option (ZMod q) :=
  if b.length = 32 ∧ leNat b < q then some ((leNat b : ℕ) : ZMod q) else none

/-- buffer pruning as in `ExpandSeed` and `newKeyFromSeed` (ext.go:33-39, ed25519.go:123-126) on the
first 32 bytes of the digest -/
def prune (d : List UInt8) : List UInt8 :=
  ((d.take 32).modify 0 (· &&& 248)).modify 31 (fun b => b &&& 127 ||| 64)

/-- `SetBytesClamping` (pkg/core/curves/ed25519_curve.go:276-282): filippo.io/edwards25519 prunes with
the mask 63 and reduces; error unless 32 bytes. -/
def clampScalar (b : List UInt8) : Go (ZMod q) := do
  Go.guard (b.length = 32)
  .ok ((leNat ((b.modify 0 (· &&& 248)).modify 31 (fun b => b &&& 63 ||| 64)) : ℕ) : ZMod q)

/-- `newKeyFromSeed` (ed25519.go:118-142): 64 bytes, seed followed by the public key. -/
def newKeyFromSeed (g : G) (penc : G → List UInt8) (sha512 : List UInt8 → List UInt8)
    (seed : List UInt8) : Go (List UInt8) := do
  Go.guard (seed.length = 32)
  let h : ZMod q ← clampScalar (prune (sha512 seed))
  .ok (pad32 seed ++ pad32 (penc (h • g)))

/-- `sign` (ed25519.go:157-229). -/
def sign (g : G) (penc : G → List UInt8) (sha512 : List UInt8 → List UInt8)
    (wide : List UInt8 → ZMod q) (priv msg : List UInt8) : Go (List UInt8) := do
  Go.guard (priv.length = 64)
  let d := sha512 (priv.take 32)
  let esk := ((d.take 32).modify 0 (· &&& 248)).modify 31 (fun b => b &&& 63 ||| 64)
  let r := wide (sha512 (d.drop 32 ++ msg))
  let encR := penc (r • g)
  let k := wide (sha512 (encR ++ priv.drop 32 ++ msg))
  let s ← clampScalar esk
  .ok (pad32 encR ++ leBytes 32 (k * s + r).val)

/-- `Verify` (ed25519.go:233-288). -/
def verify (g : G) (penc : G → List UInt8) (pdec : List UInt8 → Option G)
    (sha512 : List UInt8 → List UInt8) (wide : List UInt8 → ZMod q)
    (pub msg sig : List UInt8) : Go Bool := do
  Go.guard (pub.length = 32)
  Go.guard (sig.length = 64 ∧ sig.getD 63 0 &&& 224 = 0)
  let A ← Go.ofOption (pdec pub)
  let h := wide (sha512 (sig.take 32 ++ pub ++ msg))
  let s : ZMod q ← Go.ofOption (scalarLE (sig.drop 32))
  .ok (decide (sig.take 32 = penc (h • (-A) + s • g)))

/-- `GeAdd` (ext.go:17-29). -/
def geAdd (penc : G → List UInt8) (pdec : List UInt8 → Option G) (a b : List UInt8) :
    Go (List UInt8) :=
  match pdec a, pdec b with
  | some A, some B => .ok (penc (A + B))
  | _, _ => Go.crash

/-- `ThresholdSign` (ext.go:58-123); `x` and `r` little-endian. -/
def thresholdSign (sha512 : List UInt8 → List UInt8) (wide : List UInt8 → ZMod q)
    (x pub msg r R : List UInt8) : Go (List UInt8) :=
  if x.length = 0 ∨ x.length > 32 ∨ r.length = 0 ∨ r.length > 32 then Go.crash
  else
    let c := wide (sha512 (R ++ pub ++ msg))
    match scalarLE (pad32 x), scalarLE (pad32 r) with
    | some xs, some rs => .ok (pad32 R ++ leBytes 32 (c * xs + rs : ZMod q).val)
    | _, _ => Go.crash

/-- `PartialSignature` (partialsig.go:19-22) -/
structure PartialSig where
  id : UInt8
  sig : List UInt8
  deriving DecidableEq

/-- `TSign` with `NewPartialSignature` (partialsig.go:25-30, 48-55). -/
def tSign (sha512 : List UInt8 → List UInt8) (wide : List UInt8 → ZMod q) (msg : List UInt8)
    (key : V1.Share q) (pub : List UInt8) (nonce : V1.Share q) (noncePub : List UInt8) :
    Go PartialSig := do
  let sig ← thresholdSign sha512 wide (natBytes key.value.val).reverse pub msg
    (natBytes nonce.value.val).reverse noncePub
  if sig.length ≠ 64 then Go.crash else .ok ⟨key.id.toUInt8, sig⟩

/-- conversion of a partial signature to a share (sigagg.go:45-51); `ElementFromBytes` panics when the
value is not below the modulus -/
def sigShare (p : PartialSig) : Go (Option (V1.Share q)) :=
  let v := beNat (p.sig.drop 32).reverse
  if q ≤ v then Go.crash else .ok (some ⟨p.id.toUInt32, (v : ZMod q)⟩)

/-- `Aggregate` (sigagg.go:19-62); a `Sig` slice shorter than 32 bytes panics (capacity = length),
nil pointers are not modelled. -/
def aggregate (q : ℕ) [Fact q.Prime] (sigs : List PartialSig) (T N : ℤ) : Go (List UInt8) :=
  match sigs with
  | [] => Go.err
  | p0 :: rest =>
    if sigs.any (fun p => p.sig.length < 32) then Go.crash
    else do
      Go.guard (∀ p ∈ rest, p.sig.take 32 = p0.sig.take 32)
      let s ← V1.newShamir T N
      let shares : List (Option (V1.Share q)) ← sigs.mapM sigShare
      let v ← V1.combine s shares
      .ok (p0.sig.take 32 ++ pad32 v.reverse)

/-- commitments to the coefficients (keygen.go:160-173) -/
def commitCoeffs (g : G) (poly : List (ZMod q)) : Go (List G) :=
  poly.mapM fun c => do
    let s : ZMod q ← Go.ofOption (scalarLE (pad32 (natBytes c.val).reverse))
    .ok (s • g)

/-- `split` / `splitPrivateKey` (keygen.go:136-177). -/
def splitKey (g : G) (T N : ℤ) (secret : List UInt8) (rnd : ℕ → ZMod q) :
    Go (List (V1.Share q) × List G) := do
  let s ← V1.newShamir T N
  let r ← V1.getSharesAndPolynomial s secret rnd
  let v ← commitCoeffs g r.2
  .ok (r.1, v)

/-- `GenerateSharedKey` with `generateSharableKey` (keygen.go:85-133) for the sampled `seed`; the public
key is taken from the private key bytes. -/
def generateSharedKey (g : G) (penc : G → List UInt8) (sha512 : List UInt8 → List UInt8)
    (T N : ℤ) (seed : List UInt8) (rnd : ℕ → ZMod q) :
    Go (List UInt8 × List (V1.Share q) × List G) := do
  let priv ← newKeyFromSeed (q := q) g penc sha512 seed
  let sk : ZMod q := (beNat (prune (sha512 (priv.take 32))).reverse : ℕ)
  let r ← splitKey g T N (natBytes sk.val) rnd
  .ok (priv.drop 32, r)

/-- `GenerateSharedNonce` with `generateSharableNonce` (noncegen.go:34-90) for the sampled nonce. -/
def generateSharedNonce (g : G) (penc : G → List UInt8) (T N : ℤ) (nonce : ZMod q)
    (rnd : ℕ → ZMod q) : Go (List UInt8 × List (V1.Share q) × List G) := do
  let s : ZMod q ← Go.ofOption (scalarLE (pad32 (natBytes nonce.val).reverse))
  let r ← splitKey g T N (natBytes nonce.val) rnd
  .ok (penc (s • g), r)

/-- loop of `VerifyVSS` (keygen.go:212-227): the power `i` is written big-endian into the scalar, which
is little-endian. -/
def vssLoop (x : ZMod q) : List G → ZMod q → G → Go G
  | [], _, rhs => .ok rhs
  | C :: cs, i, rhs => do
    let sc : ZMod q ← Go.ofOption (scalarLE (pad32 (natBytes (i * x).val)))
    vssLoop x cs (i * x) (rhs + sc • C)

/-- `KeyShare.VerifyVSS` (keygen.go:198-240). -/
def verifyVSS (g : G) (share : V1.Share q) (commitments : List G) (T : ℤ) : Go Bool := do
  Go.guard (¬ (commitments.length : ℤ) < T)
  if q ≤ share.id.toNat then Go.crash
  else match commitments with
    | [] => Go.crash
    | c0 :: cs => do
      let rhs ← vssLoop (share.id.toNat : ZMod q) cs 1 c0
      let v : ZMod q ← Go.ofOption (scalarLE (pad32 (natBytes share.value.val).reverse))
      .ok (decide (v • g = rhs))

/-- `Reconstruct` (keygen.go:180-193). -/
def reconstruct (shares : List (Option (V1.Share q))) (T N : ℤ) : Go (List UInt8) := do
  let s ← V1.newShamir T N
  V1.combine s shares

/-- `ShamirShare.Bytes` (pkg/sharing/v1/shamir.go:34-39): 4 bytes identifier, minimal value -/
def shareBytes (s : V1.Share q) : List UInt8 := beBytes 4 s.id.toNat ++ natBytes s.value.val

/-- `KeyShareFromBytes` (keygen.go:68-75). -/
def keyShareFromBytes (b : List UInt8) : Go (V1.Share q) :=
  if b.length < 4 then Go.crash
  else if q ≤ beNat (b.drop 4) then Go.crash
  else .ok ⟨UInt32.ofNat (beNat (b.take 4)), (beNat (b.drop 4) : ℕ)⟩

end Verif.Ted
