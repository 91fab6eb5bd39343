import Verif.DklsV0.SignModel
import Verif.Dkls.ProtocolModel

/-!
# Model of the iterators of the older DKLs (`pkg/tecdsa/dkls/v0/proto.go`)

The stepper is `Verif.Dkls.Stepper`, whose `Next` is the same code (proto.go:89-106 reports `io.EOF` at the end).  The stream is a message per
call: a step that reads fails if the message is missing or of another type (`encoding/gob`).  The randomness of a step is part of its input.
A step that fails leaves the state as it was: what it had set before is set anew when it is run again, and nothing else reads it.  The
encoding of the parties by gob is a codec of the exported fields.
-/

namespace Verif.DklsV0
open Verif.Legacy Verif.Ot Verif.Dkls

/-- what the streams carry -/
inductive Msg
  | commitment (c : List UInt8)
  | proof (p : Schnorr)
  | points (p : Fin 256 → EcPoint)
  | digests (d : Fin 256 → Digest)
  | openings (d : Fin 256 → Digest × Digest)
  | signInit (m : SignInit)
  | signMsg (m : SignMsg)

/-- decoding of the message of a step -/
def Msg.asCommitment : Option Msg → Go (List UInt8) | some (.commitment c) => .ok c | _ => Go.err
@[inherit_doc Msg.asCommitment]
def Msg.asProof : Option Msg → Go Schnorr | some (.proof p) => .ok p | _ => Go.err
@[inherit_doc Msg.asCommitment]
def Msg.asPoints : Option Msg → Go (Fin 256 → EcPoint) | some (.points p) => .ok p | _ => Go.err
@[inherit_doc Msg.asCommitment]
def Msg.asDigests : Option Msg → Go (Fin 256 → Digest) | some (.digests p) => .ok p | _ => Go.err
@[inherit_doc Msg.asCommitment]
def Msg.asOpenings : Option Msg → Go (Fin 256 → Digest × Digest) | some (.openings p) => .ok p | _ => Go.err
@[inherit_doc Msg.asCommitment]
def Msg.asSignInit : Option Msg → Go SignInit | some (.signInit p) => .ok p | _ => Go.err
@[inherit_doc Msg.asCommitment]
def Msg.asSignMsg : Option Msg → Go SignMsg | some (.signMsg p) => .ok p | _ => Go.err

/-- a step of the state of a party; a failure leaves the state -/
def stepOf {σ R : Type} (f : σ → R → Option Msg → Go (σ × Option Msg)) : Step σ (R × Option Msg) (Option Msg) := fun s i =>
  match f s i.1 i.2 with
  | .ok (s', o) => (s', .ok o)
  | .error e => (s, .error e)

/-! ## Key generation -/

/-- `Alice` (sign.go:23-31) with its `seedOTReceiver` (ot.go:40-51); `sk` is not read before the first step has set it -/
structure AliceState where
  sk : ℤ
  pkA : Schnorr
  pk : Option EcPoint
  pub : Option EcPoint
  packed : Digest
  rho : Fin 256 → Digest
  xi : Fin 256 → Digest

/-- `Bob` (sign.go:35-52) with its `seedOTSender` (ot.go:29-37) -/
structure BobState where
  com : List UInt8
  sk : ℤ
  pkB : Schnorr
  pk : Option EcPoint
  sender : Option SeedSender
  rho : Fin 256 → Digest × Digest

/-- the randomness of Alice: secret and nonce of the proof, choices and scalars of the seed OT -/
structure AliceRand where
  sk : ℤ
  k : ℤ
  packed : Digest
  a : Fin 256 → ℤ

/-- the randomness of Bob: secret and nonce of the proof, the same for the seed OT -/
structure BobRand where
  sk : ℤ
  k : ℤ
  b : ℤ
  kb : ℤ

/-- `NewAlice` (sign.go:55-61) -/
def newAlice : AliceState := ⟨0, ⟨none, none, none⟩, none, none, Vector.replicate 32 0, fun _ => Vector.replicate 32 0, fun _ => Vector.replicate 32 0⟩

/-- `NewBob` (sign.go:65-71) -/
def newBob : BobState := ⟨[], 0, ⟨none, none, none⟩, none, none, fun _ => (Vector.replicate 32 0, Vector.replicate 32 0)⟩

/-- `Alice.dkgCommit` (dkg.go:14-26) -/
def aliceStep1 (env : Env) (s : AliceState) (r : AliceRand) (_ : Option Msg) : Go (AliceState × Option Msg) := do
  let (p, c) ← aliceCommit env r.sk r.k
  .ok ({ s with sk := r.sk, pkA := p }, some (.commitment c.toList))

/-- `Alice.dkgVerify` (dkg.go:46-61) -/
def aliceStep2 (env : Env) (s : AliceState) (_ : AliceRand) (m : Option Msg) : Go (AliceState × Option Msg) := do
  let input ← Msg.asProof m
  let pk ← aliceVerify env s.sk input
  .ok ({ s with pk := some pk }, some (.proof s.pkA))

/-- the third step of Alice (proto.go:114-119) -/
def aliceStep3 (env : Env) (s : AliceState) (r : AliceRand) (m : Option Msg) : Go (AliceState × Option Msg) := do
  let input ← Msg.asProof m
  let pub ← receiverPubKey env input
  let (msg, rho) ← receiverPad env pub r.packed r.a
  .ok ({ s with pub := pub, packed := r.packed, rho := rho }, some (.points msg))

/-- `seedOTReceiver.verification` as a step (proto.go:120) -/
def aliceStep4 (env : Env) (s : AliceState) (_ : AliceRand) (m : Option Msg) : Go (AliceState × Option Msg) := do
  let xi ← Msg.asDigests m
  .ok ({ s with xi := xi }, some (.digests (receiverVerification env s.packed s.rho xi)))

/-- `seedOTReceiver.final` as a step (proto.go:121) -/
def aliceStep5 (env : Env) (s : AliceState) (_ : AliceRand) (m : Option Msg) : Go (AliceState × Option Msg) := do
  let op ← Msg.asOpenings m
  receiverFinal env s.packed s.rho s.xi op
  .ok (s, none)

/-- `Bob.dkgCommit` (dkg.go:29-43) -/
def bobStep1 (env : Env) (s : BobState) (r : BobRand) (m : Option Msg) : Go (BobState × Option Msg) := do
  let com ← Msg.asCommitment m
  let p ← bobCommit env r.sk r.k
  .ok ({ s with com := com, sk := r.sk, pkB := p }, some (.proof p))

/-- the second step of Bob (proto.go:131-136) -/
def bobStep2 (env : Env) (s : BobState) (r : BobRand) (m : Option Msg) : Go (BobState × Option Msg) := do
  let input ← Msg.asProof m
  let pk ← bobVerify env s.com s.sk input
  let (proof, sender) ← senderPubKey env r.b r.kb
  .ok ({ s with pk := some pk, sender := some sender }, some (.proof proof))

/-- `seedOTSender.padTransfer` as a step (proto.go:137) -/
def bobStep3 (env : Env) (s : BobState) (_ : BobRand) (m : Option Msg) : Go (BobState × Option Msg) := do
  let input ← Msg.asPoints m
  let sender ← deref s.sender
  let (rho, xi) ← senderPad env sender input
  .ok ({ s with rho := rho }, some (.digests xi))

/-- `seedOTSender.verification` as a step (proto.go:138) -/
def bobStep4 (env : Env) (s : BobState) (_ : BobRand) (m : Option Msg) : Go (BobState × Option Msg) := do
  let input ← Msg.asDigests m
  let op ← senderVerification env s.rho input
  .ok (s, some (.openings op))

/-- `AliceDkg` -/
abbrev AliceDkg := Stepper AliceState (AliceRand × Option Msg) (Option Msg)
/-- `BobDkg` -/
abbrev BobDkg := Stepper BobState (BobRand × Option Msg) (Option Msg)

/-- `NewAliceDkg` (proto.go:109-124) -/
def newAliceDkg (env : Env) : AliceDkg :=
  ⟨[stepOf (aliceStep1 env), stepOf (aliceStep2 env), stepOf (aliceStep3 env), stepOf (aliceStep4 env), stepOf (aliceStep5 env)], 0, newAlice⟩

/-- `NewBobDkg` (proto.go:127-141) -/
def newBobDkg (env : Env) : BobDkg :=
  ⟨[stepOf (bobStep1 env), stepOf (bobStep2 env), stepOf (bobStep3 env), stepOf (bobStep4 env)], 0, newBob⟩

/-- the exported fields of `Alice` and of its receiver -/
structure AliceSaved where
  pkA : Schnorr
  packed : Digest
  rho : Fin 256 → Digest
  sk : ℤ
  pk : Option EcPoint

/-- the exported fields of `Bob` and of its sender; `Sig` is nil after the key generation -/
structure BobSaved where
  pkB : Schnorr
  rho : Fin 256 → Digest × Digest
  sk : ℤ
  pk : Option EcPoint

/-- `AliceDkg.Result` (proto.go:148-178) with `EncodeAlice` (proto.go:281-285): the state and the public key -/
def aliceDkgResult (c : Gob AliceSaved) (p : AliceDkg) : Go (List UInt8 × Option EcPoint) := do
  Go.guard (p.complete = true)
  .ok (c.enc ⟨p.state.pkA, p.state.packed, p.state.rho, p.state.sk, p.state.pk⟩, p.state.pk)

/-- `BobDkg.Result` (proto.go:186-214) with `EncodeBob` (proto.go:295-299) -/
def bobDkgResult (c : Gob BobSaved) (p : BobDkg) : Go (List UInt8 × Option EcPoint) := do
  Go.guard (p.complete = true)
  .ok (c.enc ⟨p.state.pkB, p.state.rho, p.state.sk, p.state.pk⟩, p.state.pk)

/-! ## Signing -/

/-- the state of `BobSign`: what was decoded, what `signInit` set and the signature -/
structure BobSignState where
  saved : BobSaved
  run : Option DklsV0.BobSign
  sig : Option Sig

/-- the step of `AliceSign` (proto.go:228): the randomness are the two scalars -/
def aliceSignStep (env : Env) (msg : List UInt8) (s : AliceSaved) (r : ℤ × ℤ) (m : Option Msg) : Go (AliceSaved × Option Msg) := do
  let input ← Msg.asSignInit m
  let out ← aliceSign env s.packed s.rho s.sk s.pk msg r.1 r.2 input
  .ok (s, some (.signMsg out))

/-- the first step of `BobSign` (proto.go:246) -/
def bobSignStep1 (env : Env) (s : BobSignState) (r : BobRandom) (_ : Option Msg) : Go (BobSignState × Option Msg) := do
  let (m, b) ← bobSignInit env s.saved.rho s.saved.sk r
  .ok ({ s with run := some b }, some (.signInit m))

/-- the second step of `BobSign` (proto.go:247) -/
def bobSignStep2 (env : Env) (msg : List UInt8) (s : BobSignState) (_ : BobRandom) (m : Option Msg) : Go (BobSignState × Option Msg) := do
  let input ← Msg.asSignMsg m
  let b ← deref s.run
  let sig ← signFinal env s.saved.pk b msg input
  .ok ({ s with sig := some sig }, none)

/-- `AliceSign` -/
abbrev AliceSignIter := Stepper AliceSaved ((ℤ × ℤ) × Option Msg) (Option Msg)
/-- `BobSign` -/
abbrev BobSignIter := Stepper BobSignState (BobRandom × Option Msg) (Option Msg)

/-- `NewAliceSign` (proto.go:218-231) with `DecodeAlice` (proto.go:288-292) -/
def newAliceSign (env : Env) (c : Gob AliceSaved) (msg state : List UInt8) : Go AliceSignIter := do
  let s ← Go.ofOption (c.dec state)
  .ok ⟨[stepOf (aliceSignStep env msg)], 0, s⟩

/-- `NewBobSign` (proto.go:235-249) with `DecodeBob` (proto.go:302-306) -/
def newBobSign (env : Env) (c : Gob BobSaved) (msg state : List UInt8) : Go BobSignIter := do
  let s ← Go.ofOption (c.dec state)
  .ok ⟨[stepOf (bobSignStep1 env), stepOf (bobSignStep2 env msg)], 0, ⟨s, none, none⟩⟩

/-- `AliceSign.Result` (proto.go:257-259) -/
def aliceSignResult (_ : AliceSignIter) : Go Sig := Go.err

/-- `BobSign.Result` (proto.go:267-278): the pointer `Sig`, nil if it was never set -/
def bobSignResult (p : BobSignIter) : Go (Option Sig) := do
  Go.guard (p.complete = true)
  .ok p.state.sig

end Verif.DklsV0
