import Verif.Dkls.DkgModel

/-!
# Model of key refresh `pkg/tecdsa/dkls/v1/refresh/refresh.go`

The two rounds which change the key shares are modelled with the state they leave behind when they return an
error, because the stepper (protocol.go) lets the caller repeat a failed step.  (Only the state inside the
seed OT object is not tracked in that case; both rounds create a new one.)
-/

namespace Verif.Dkls

open Verif.Ot

variable {F G : Type} [Field F] [DecidableEq F] [AddCommGroup G] [Module F G] [DecidableEq G]

/-- `refresh.Alice` (refresh.go:31-44) -/
structure RefAlice (F G : Type) where
  receiver : Option (Receiver G)
  secretKeyShare : F
  publicKey : Option G
  transcript : Merlin

/-- `refresh.Bob` (refresh.go:48-61) -/
structure RefBob (F G : Type) where
  sender : Option (Sender F G)
  secretKeyShare : F
  publicKey : Option G
  transcript : Merlin

/-- `RefreshRound2Output` (refresh.go:63-66) -/
structure RefRound2 (F G : Type) where
  proof : Option (Schnorr.Proof F G)
  bobMultiplier : F

/-- `NewAlice` (refresh.go:69-76) -/
def newRefAlice (o : AliceOutput F G) : RefAlice F G :=
  ⟨none, o.secretKeyShare, o.publicKey, Merlin.new "Coinbase_DKLs_Refresh"⟩

/-- `NewBob` (refresh.go:79-86) -/
def newRefBob (o : BobOutput F G) : RefBob F G :=
  ⟨none, o.secretKeyShare, o.publicKey, Merlin.new "Coinbase_DKLs_Refresh"⟩

/-- `Alice.Round1RefreshGenerateSeed` (refresh.go:88-92); the message is the sampled seed -/
def RefAlice.round1 (env : Env F G) (a : RefAlice F G) (aliceSeed : F) : RefAlice F G :=
  { a with transcript := a.transcript.append "alice refresh seed" (env.cd.enc aliceSeed) }

/-- `Bob.Round2RefreshProduceSeedAndMultiplyAndStartOT` (refresh.go:94-121); `bobSeed`, `b` and `k` are sampled -/
def RefBob.round2 (env : Env F G) (s : RefBob F G) (aliceSeed bobSeed b k : F) :
    RefBob F G × Go (RefRound2 F G) :=
  let t := ((s.transcript.append "alice refresh seed" (env.cd.enc aliceSeed)).append "bob refresh seed"
    (env.cd.enc bobSeed)).extract "secret key share multiplier"
  match env.cd.dec (env.ext t).toList with
  | none => ({ s with transcript := t }, Go.err)
  | some m =>
    let t' := t.extract "salt for simplest OT"
    let s' := { s with secretKeyShare := s.secretKeyShare * m, transcript := t' }
    match newSender kappa (env.ext t') with
    | .error e => ({ s' with sender := none }, .error e)
    | .ok sender =>
      match sender.round1 env b k with
      | .error e => ({ s' with sender := some sender }, .error e)
      | .ok (pf, sender) => ({ s' with sender := some sender }, .ok ⟨some pf, bobSeed⟩)

/-- `Alice.Round3RefreshMultiplyRound2Ot` (refresh.go:123-145); `rnd` and `x` are sampled -/
def RefAlice.round3 (env : Env F G) (a : RefAlice F G) (m : RefRound2 F G) (rnd : ℕ → UInt8) (x : ℕ → F) :
    RefAlice F G × Go (List (List UInt8)) :=
  let t := (a.transcript.append "bob refresh seed" (env.cd.enc m.bobMultiplier)).extract "secret key share multiplier"
  match env.cd.dec (env.ext t).toList with
  | none => ({ a with transcript := t }, Go.err)
  | some k =>
    -- `k.Invert()` is an error for zero
    if k = 0 then ({ a with transcript := t }, Go.err)
    else
      let t' := t.extract "salt for simplest OT"
      let a' := { a with secretKeyShare := a.secretKeyShare * k⁻¹, transcript := t' }
      match newReceiver rnd kappa (env.ext t') with
      | .error e => ({ a' with receiver := none }, .error e)
      | .ok receiver =>
        match receiver.round2 env x m.proof with
        | .error e => ({ a' with receiver := some receiver }, .error e)
        | .ok (out, receiver) => ({ a' with receiver := some receiver }, .ok out)

/-- `Bob.Round4RefreshRound3Ot` (refresh.go:147-149) -/
def RefBob.round4 (env : Env F G) (s : RefBob F G) (masked : List (List UInt8)) : Go (List Digest × RefBob F G) := do
  let sender ← deref s.sender
  let (out, sender) ← sender.round3 env masked
  .ok (out, { s with sender := some sender })

/-- `Alice.Round5RefreshRound4Ot` (refresh.go:151-153) -/
def RefAlice.round5 (env : Env F G) (a : RefAlice F G) (challenge : List Digest) :
    Go (List Digest × RefAlice F G) := do
  let r ← deref a.receiver
  let (out, r) ← r.round4 env challenge
  .ok (out, { a with receiver := some r })

/-- `Bob.Round6RefreshRound5Ot` (refresh.go:155-157) -/
def RefBob.round6 (env : Env F G) (s : RefBob F G) (responses : List Digest) : Go (List (Digest × Digest)) := do
  let sender ← deref s.sender
  sender.round5 env responses

/-- `Alice.Round7DkgRound6Ot` (refresh.go:159-161) -/
def RefAlice.round7 (env : Env F G) (a : RefAlice F G) (openings : List (Digest × Digest)) : Go Unit := do
  let r ← deref a.receiver
  r.round6 env openings

/-- `Alice.Output` (refresh.go:163-169); panics before round 3 -/
def RefAlice.output (a : RefAlice F G) : Go (AliceOutput F G) := do
  let r ← deref a.receiver
  .ok ⟨a.publicKey, a.secretKeyShare, ⟨r.packed, r.choices, r.pads⟩⟩

/-- `Bob.Output` (refresh.go:171-177); panics before round 2 -/
def RefBob.output (s : RefBob F G) : Go (BobOutput F G) := do
  let sender ← deref s.sender
  .ok ⟨s.publicKey, s.secretKeyShare, sender.keys⟩

end Verif.Dkls
