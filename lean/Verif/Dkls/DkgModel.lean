import Verif.Dkls.SignModel

/-!
# Model of two-party key generation `pkg/tecdsa/dkls/v1/dkg/dkg.go` and `dealer/dealer.go`

The rounds of a party are called in order: a party which has not finished a round has a different type, or
its public key is `none`.  The state after a returned error is not modelled here.
-/

namespace Verif.Dkls

open Verif.Ot

variable {F G : Type} [Field F] [DecidableEq F] [AddCommGroup G] [Module F G] [DecidableEq G]

/-- `Kappa` (pkg/ot/extension/kos/kos.go:30) -/
def kappa : ℕ := 256

/-- `dkg.Alice` (dkg.go:60-80) from round 2 on -/
structure DkgAlice (F G : Type) where
  receiver : Receiver G
  secretKeyShare : F
  proof : Schnorr.Proof F G
  publicKey : Option G
  transcript : Merlin

/-- `dkg.Bob` (dkg.go:83-104) from round 3 on -/
structure DkgBob (F G : Type) where
  sender : Sender F G
  secretKeyShare : F
  publicKey : Option G
  aliceCommitment : List UInt8
  aliceSalt : Digest
  transcript : Merlin

/-- `Round2Output` (dkg.go:107-113) -/
structure DkgRound2 where
  seed : Digest
  commitment : List UInt8

/-- `NewBob` and `Bob.Round1GenerateRandomSeed` (dkg.go:125-144): the transcript of Bob; the message is the seed -/
def dkgRound1 (bobSeed : Digest) : Merlin :=
  (Merlin.new "Coinbase_DKLs_DKG").append "session_id_bob" bobSeed.toList

/-- `NewAlice` and `Alice.Round2CommitToProof` (dkg.go:116-121, 147-175); `aliceSeed`, `rnd`, `sk` and `k` are
sampled -/
def dkgRound2 (env : Env F G) (bobSeed aliceSeed : Digest) (rnd : ℕ → UInt8) (sk k : F) :
    Go (DkgRound2 × DkgAlice F G) := do
  let t := ((Merlin.new "Coinbase_DKLs_DKG").append "session_id_bob" bobSeed.toList).append "session_id_alice"
    aliceSeed.toList
  let t0 := t.extract "salt for simplest OT"
  let receiver ← newReceiver rnd kappa (env.ext t0)
  let t1 := t0.extract "salt for alice schnorr"
  let (proof, com) ← (Schnorr.newProver env.gen none (env.ext t1).toList).proveCommit env.shaL env.penc env.cd sk k
  .ok (⟨aliceSeed, com⟩, ⟨receiver, sk, proof, none, t1⟩)

/-- `Bob.Round3SchnorrProve` (dkg.go:179-201); `sk` and `k` are sampled -/
def dkgRound3 (env : Env F G) (t : Merlin) (m : DkgRound2) (sk k : F) :
    Go (Schnorr.Proof F G × DkgBob F G) := do
  let t' := t.append "session_id_alice" m.seed.toList
  let t0 := t'.extract "salt for simplest OT"
  let sender ← newSender kappa (env.ext t0)
  let t1 := t0.extract "salt for alice schnorr"
  let t2 := t1.extract "salt for bob schnorr"
  let proof ← (Schnorr.newProver env.gen none (env.ext t2).toList).prove env.shaL env.penc env.cd sk k
  .ok (proof, ⟨sender, sk, none, m.commitment, env.ext t1, t2⟩)

/-- `Alice.Round4VerifyAndReveal` (dkg.go:204-213) -/
def DkgAlice.round4 (env : Env F G) (a : DkgAlice F G) (proof : Option (Schnorr.Proof F G)) :
    Go (Schnorr.Proof F G × DkgAlice F G) := do
  let t := a.transcript.extract "salt for bob schnorr"
  Schnorr.verify env.shaL env.penc env.cd env.gen proof none (env.ext t).toList
  let pf ← deref proof
  .ok (a.proof, { a with publicKey := some (a.secretKeyShare • pf.statement), transcript := t })

/-- `Bob.Round5DecommitmentAndStartOt` (dkg.go:216-227); `b` and `k` are sampled -/
def DkgBob.round5 (env : Env F G) (s : DkgBob F G) (proof : Option (Schnorr.Proof F G)) (b k : F) :
    Go (Schnorr.Proof F G × DkgBob F G) := do
  Schnorr.decommitVerify env.shaL env.penc env.cd env.gen proof s.aliceCommitment none s.aliceSalt.toList
  let pf ← deref proof
  let (out, sender) ← s.sender.round1 env b k
  .ok (out, { s with publicKey := some (s.secretKeyShare • pf.statement), sender := sender })

/-- `Alice.Round6DkgRound2Ot` (dkg.go:230-232) -/
def DkgAlice.round6 (env : Env F G) (a : DkgAlice F G) (x : ℕ → F) (proof : Option (Schnorr.Proof F G)) :
    Go (List (List UInt8) × DkgAlice F G) := do
  let (out, r) ← a.receiver.round2 env x proof
  .ok (out, { a with receiver := r })

/-- `Bob.Round7DkgRound3Ot` (dkg.go:235-237) -/
def DkgBob.round7 (env : Env F G) (s : DkgBob F G) (masked : List (List UInt8)) :
    Go (List Digest × DkgBob F G) := do
  let (out, sender) ← s.sender.round3 env masked
  .ok (out, { s with sender := sender })

/-- `Alice.Round8DkgRound4Ot` (dkg.go:240-242) -/
def DkgAlice.round8 (env : Env F G) (a : DkgAlice F G) (challenge : List Digest) :
    Go (List Digest × DkgAlice F G) := do
  let (out, r) ← a.receiver.round4 env challenge
  .ok (out, { a with receiver := r })

/-- `Bob.Round9DkgRound5Ot` (dkg.go:245-247) -/
def DkgBob.round9 (env : Env F G) (s : DkgBob F G) (responses : List Digest) : Go (List (Digest × Digest)) :=
  s.sender.round5 env responses

/-- `Alice.Round10DkgRound6Ot` (dkg.go:250-252) -/
def DkgAlice.round10 (env : Env F G) (a : DkgAlice F G) (openings : List (Digest × Digest)) : Go Unit :=
  a.receiver.round6 env openings

/-- `AliceOutput` (dkg.go:26-39) -/
structure AliceOutput (F G : Type) where
  publicKey : Option G
  secretKeyShare : F
  seed : SeedReceiver

/-- `BobOutput` (dkg.go:43-56) -/
structure BobOutput (F G : Type) where
  publicKey : Option G
  secretKeyShare : F
  keys : List (Digest × Digest)

/-- `Alice.Output` (dkg.go:256-262) -/
def DkgAlice.output (a : DkgAlice F G) : AliceOutput F G :=
  ⟨a.publicKey, a.secretKeyShare, ⟨a.receiver.packed, a.receiver.choices, a.receiver.pads⟩⟩

/-- `Bob.Output` (dkg.go:266-272) -/
def DkgBob.output (s : DkgBob F G) : BobOutput F G := ⟨s.publicKey, s.secretKeyShare, s.sender.keys⟩

/-- `GenerateAndDeal` (dealer/dealer.go:27-83); `rnd` are the choice bits, `k` the keys -/
def generateAndDeal (gen : G) (skA skB : F) (rnd : ℕ → UInt8) (k : ℕ → Digest × Digest) :
    Go (AliceOutput F G × BobOutput F G) := do
  let pk := (skA * skB) • gen
  let receiver ← newReceiver (G := G) rnd kappa (Vector.replicate 32 0)
  let pads ← (List.range kappa).mapM fun i => do
    let w ← index receiver.choices i
    pairIndex (k i) w
  .ok (⟨some pk, skA, ⟨receiver.packed, receiver.choices, pads⟩⟩, ⟨some pk, skB, (List.range kappa).map k⟩)

end Verif.Dkls
