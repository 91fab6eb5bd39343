import Verif.Dkls.MulModel
import Verif.Ot.SimplestModel

/-!
# Model of two-party ECDSA signing `pkg/tecdsa/dkls/v1/sign/sign.go`

Simplifications: the entries of the messages which are pointers or interfaces are not nil, and the rounds
of a party are called in order (a party which has not finished a round has a different type).  Division by
zero gives a nil scalar in Go, which makes a later operation panic; the model panics at the division.
-/

namespace Verif.Dkls

open Verif.Ot

variable {F G : Type} [Field F] [DecidableEq F] [AddCommGroup G] [Module F G] [DecidableEq G]

/-- curve, hash functions and codecs used by a party -/
structure SEnv (F G : Type) extends MEnv F where
  /-- the generator of the curve -/
  gen : G
  /-- `Point.ToAffineCompressed` -/
  penc : G → List UInt8
  /-- `Point.FromAffineCompressed` -/
  pdec : List UInt8 → Option G
  /-- the digest which the `hash.Hash` object passed by the caller returns after all these bytes were
  written to it -/
  hash : List UInt8 → List UInt8
  /-- affine x coordinate of a point, for `crypto/ecdsa` -/
  xcoord : G → ℕ
  /-- the order of the group -/
  q : ℕ

/-- the environment of the seed OT -/
def SEnv.toEnv (env : SEnv F G) : Env F G := ⟨env.gen, env.penc, env.pdec, env.sha, env.cd, env.ext⟩

/-- SHA3-256 as used by the Schnorr proofs -/
def SEnv.shaL (env : SEnv F G) (b : List UInt8) : List UInt8 := (env.sha b).toList

/-- `SetBytes(sha3.Sum256(P.ToAffineCompressed()))` (sign.go:202-206, 236-240, 257-261, …) -/
def hashPoint (env : SEnv F G) (P : G) : Go F := Go.ofOption (env.cd.dec (env.shaL (env.penc P)))

/-- `One().Div(k)`: nil for `k = 0`, which panics when used -/
def invert (k : F) : Go F := if k = 0 then Go.crash else .ok k⁻¹

/-- `Alice` (sign.go:25-41); `written` are the bytes already written to `hash` -/
structure Alice (F G : Type) where
  seed : SeedReceiver
  secretKeyShare : F
  publicKey : G
  transcript : Merlin
  written : List UInt8

/-- `Bob` (sign.go:44-61) before round 2 -/
structure Bob (F G : Type) where
  keys : List (Digest × Digest)
  secretKeyShare : F
  publicKey : G
  transcript : Merlin
  written : List UInt8

/-- `NewAlice` (sign.go:64-73) -/
def newAlice (seed : SeedReceiver) (sk : F) (pk : G) (written : List UInt8) : Alice F G :=
  ⟨seed, sk, pk, Merlin.new "Coinbase_DKLs_Sign", written⟩

/-- `NewBob` (sign.go:77-86) -/
def newBob (keys : List (Digest × Digest)) (sk : F) (pk : G) (written : List UInt8) : Bob F G :=
  ⟨keys, sk, pk, Merlin.new "Coinbase_DKLs_Sign", written⟩

/-- `Alice.Round1GenerateRandomSeed` (sign.go:124-131); the message is the seed -/
def Alice.round1 (a : Alice F G) (aliceSeed : Digest) : Alice F G :=
  { a with transcript := a.transcript.append "session_id_alice" aliceSeed.toList }

/-- `SignRound2Output` (sign.go:89-98) -/
structure SignRound2 (G : Type) where
  kos0 : KosRound1
  kos1 : KosRound1
  DB : G
  seed : Digest

/-- `SignRound3Output` (sign.go:101-116) -/
structure SignRound3 (F G : Type) where
  mul0 : MulRound2 F
  mul1 : MulRound2 F
  proof : Schnorr.Proof F G
  RPrime : G
  EtaPhi : F
  EtaSig : F

/-- `Bob` after round 2 -/
structure Bob2 (F G : Type) where
  bob : Bob F G
  mul0 : MulReceiver F
  mul1 : MulReceiver F
  kB : F
  dB : G

/-- random bytes of the two multiplications -/
structure MulRnd where
  enc0 : Vector UInt8 52
  ext0 : Vector UInt8 42
  enc1 : Vector UInt8 52
  ext1 : Vector UInt8 42

/-- `Bob.Round2Initialize` (sign.go:139-176); `bobSeed`, `kB` and `rnd` are sampled -/
def Bob.round2 (env : SEnv F G) (b : Bob F G) (aliceSeed bobSeed : Digest) (kB : F) (rnd : MulRnd) :
    Go (SignRound2 G × Bob2 F G) := do
  let t := (b.transcript.append "session_id_alice" aliceSeed.toList).append "session_id_bob" bobSeed.toList
  let t0 := t.extract "multiply receiver id 0"
  let r0 ← newMultiply env.toMEnv (env.ext t0)
  let t1 := t0.extract "multiply receiver id 1"
  let r1 ← newMultiply env.toMEnv (env.ext t1)
  let dB := kB • env.gen
  let kBInv ← invert kB
  let m0 ← mulRound1 env.toMEnv b.keys (env.ext t0) r0.1 r0.2 kBInv rnd.enc0 rnd.ext0
  let m1 ← mulRound1 env.toMEnv b.keys (env.ext t1) r1.1 r1.2 (b.secretKeyShare * kBInv) rnd.enc1 rnd.ext1
  .ok (⟨m0.1, m1.1, dB, bobSeed⟩, ⟨{ b with transcript := t1 }, m0.2, m1.2, kB, dB⟩)

/-- `rX`: the x coordinate of the compressed form as a scalar (sign.go:246-254, 299-306) -/
def xScalar (env : SEnv F G) (r : G) : Go F := do
  Go.guard ((env.penc r).length = 33)
  Go.ofOption (env.cd.dec ((env.penc r).drop 1))

/-- scalars sampled by Alice in round 3: `k'_A`, the nonce of the Schnorr proof, `phi`, and the two masks of
the multiplications -/
structure AliceRnd (F : Type) where
  kPrime : F
  nonce : F
  phi : F
  hat0 : F
  hat1 : F

/-- `Alice.Round3Sign` (sign.go:184-265) -/
def Alice.round3 (env : SEnv F G) (a : Alice F G) (message : List UInt8) (m : SignRound2 G)
    (rnd : AliceRnd F) : Go (SignRound3 F G) := do
  let t := a.transcript.append "session_id_bob" m.seed.toList
  let t0 := t.extract "multiply receiver id 0"
  let s0 ← newMultiply env.toMEnv (env.ext t0)
  let t1 := t0.extract "multiply receiver id 1"
  let s1 ← newMultiply env.toMEnv (env.ext t1)
  let RPrime := rnd.kPrime • m.DB
  let hashRPrime ← hashPoint env RPrime
  let kA := hashRPrime + rnd.kPrime
  let t2 := t1.extract "schnorr proof for R"
  let proof ← (Schnorr.newProver env.gen (some m.DB) (env.ext t2).toList).prove env.shaL env.penc env.cd kA rnd.nonce
  let r := proof.statement
  let kAInv ← invert kA
  let (o0, share0) ← mulRound2 env.toMEnv a.seed (env.ext t0) s0.1 s0.2 (rnd.phi + kAInv) rnd.hat0 m.kos0
  let (o1, share1) ← mulRound2 env.toMEnv a.seed (env.ext t1) s1.1 s1.2 (a.secretKeyShare * kAInv) rnd.hat1 m.kos1
  let gamma1 := (kA * rnd.phi + 1) • env.gen + (-share0) • r
  let hashGamma1 ← hashPoint env gamma1
  let h ← Go.ofOption (env.cd.dec (env.hash (a.written ++ message)))
  let rX ← xScalar env r
  let sigA := h * share0 + rX * share1
  let gamma2 := share0 • a.publicKey + (-share1) • env.gen
  let hashGamma2 ← hashPoint env gamma2
  .ok ⟨o0, o1, proof, RPrime, hashGamma1 + rnd.phi, hashGamma2 + sigA⟩

/-- `curves.EcdsaSignature` -/
structure Sig where
  R : ℕ
  S : ℕ
  V : ℕ
  deriving DecidableEq

/-- `Scalar.BigInt` -/
def sval (cd : ScalarCodec F) (x : F) : ℕ := beNat (cd.enc x)

/-- the value of `S` and the flip of `V` (sign.go:336-340): bit 255 decides -/
def normalize (cd : ScalarCodec F) (s : F) (v : ℕ) : ℕ × ℕ :=
  if (sval cd s).testBit 255 then (sval cd (-s), v ^^^ 1) else (sval cd s, v)

/-- `crypto/ecdsa.Verify` (Go standard library) on a 32-byte digest: part of the trusted base -/
def EcdsaValid (F : Type) [Field F] [Module F G] (q : ℕ) (g pk : G) (x : G → ℕ) (e r s : ℕ) : Prop :=
  0 < r ∧ r < q ∧ 0 < s ∧ s < q ∧
    ((e : F) * (s : F)⁻¹) • g + ((r : F) * (s : F)⁻¹) • pk ≠ 0 ∧
    x (((e : F) * (s : F)⁻¹) • g + ((r : F) * (s : F)⁻¹) • pk) % q = r

instance (q : ℕ) (g pk : G) (x : G → ℕ) (e r s : ℕ) : Decidable (EcdsaValid F q g pk x e r s) := by
  unfold EcdsaValid; infer_instance

/-- `Bob.Round4Final` up to the verification (sign.go:272-340): the value which is then in `bob.Signature`.
The field stays set when the verification fails. -/
def Bob2.compute (env : SEnv F G) (b : Bob2 F G) (message : List UInt8) (m : SignRound3 F G) : Go Sig := do
  let share0 ← mulRound3 env.toMEnv b.mul0 m.mul0
  let share1 ← mulRound3 env.toMEnv b.mul1 m.mul1
  let hashRPrime ← hashPoint env m.RPrime
  let r := hashRPrime • b.dB + m.RPrime
  let t2 := b.bob.transcript.extract "schnorr proof for R"
  Schnorr.verify env.shaL env.penc env.cd env.gen (some { m.proof with statement := r }) (some b.dB) (env.ext t2).toList
  let rX ← xScalar env r
  let rY := ((env.penc r).headD 0).toNat % 2
  let hashGamma1 ← hashPoint env (share0 • r)
  let phi := m.EtaPhi - hashGamma1
  let kBInv ← invert b.kB
  let theta := share0 - phi * kBInv
  let h ← Go.ofOption (env.cd.dec (env.hash (b.bob.written ++ message)))
  let sigB := h * theta + ((sval env.cd (rX + 0) : ℕ) : F) * share1
  let gamma2 := share1 • env.gen + (-theta) • b.bob.publicKey
  let hashGamma2 ← hashPoint env gamma2
  let s := sigB + (m.EtaSig - hashGamma2)
  let n := normalize env.cd s rY
  .ok ⟨sval env.cd (rX + 0), n.1, n.2⟩

/-- `Bob.Round4Final` (sign.go:272-358), with the signature in `bob.Signature` as the result -/
def Bob2.round4 (env : SEnv F G) (b : Bob2 F G) (message : List UInt8) (m : SignRound3 F G) : Go Sig := do
  let sig ← b.compute env message m
  Go.guard (EcdsaValid F env.q env.gen b.bob.publicKey env.xcoord (beNat (env.hash (b.bob.written ++ message)))
    sig.R sig.S)
  .ok sig

end Verif.Dkls
