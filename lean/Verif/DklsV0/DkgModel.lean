import Verif.Legacy.ScalarModel
import Verif.Ot.SimplestModel
import Verif.Common.Tabulate

/-!
# Model of the older DKLs key generation (`pkg/tecdsa/dkls/v0`: `params.go`, `schnorr.go`, `dkg.go` and the seed OT of `ot.go`)

Points and scalars are those of the older interface (`Verif.Legacy`): pairs of integers over an `elliptic.Curve`, and integers with the
operations of `K256Scalar` or `P256Scalar`.  All randomness is an argument.  Messages are the values that `encoding/gob` delivers: a pointer
field of a structure may be nil, the entries of arrays and slices are not.  The state after a returned error is not modelled.
-/

namespace Verif.DklsV0
open Verif.Legacy Verif.Ot

/-- `Params` (params.go:24-29) with what comes from outside: SHA-256, the stream of cSHAKE256 with the customization string of
params.go:39, and `crypto/ecdsa.Verify` -/
structure Env where
  curve : ECurve
  /-- the order, for `Scalar` is `K256Scalar` or `P256Scalar` -/
  q : ℕ
  sha : List UInt8 → Digest
  shake : ℕ → UInt8
  ecdsaVerify : EcPoint → List UInt8 → ℤ → ℤ → Bool

/-- `params.Scalar` -/
def Env.sc (env : Env) : EcScalar := modScalar env.q

/-- `params.gadget` (params.go:36-47): powers of two, then 32 bytes of the stream each, not reduced -/
def Env.gadget (env : Env) (i : ℕ) : ℤ :=
  if i < 256 then 2 ^ i else beNat ((List.range 32).map fun k => env.shake (32 * (i - 256) + k))

/-- `params.Generator` (params.go:35) -/
def Env.generator (env : Env) : EcPoint := ⟨env.curve, some env.curve.params.Gx, some env.curve.params.Gy⟩

/-- a digest as an integer: `new(big.Int).SetBytes(h[:])` -/
def intOf (h : Digest) : ℤ := beNat h.toList

/-! ## Schnorr proofs -/

/-- `Schnorr` (schnorr.go:18-23) -/
structure Schnorr where
  pub : Option EcPoint
  C : Option ℤ
  S : Option ℤ

/-- the challenge (schnorr.go:38-46, 64-70) -/
def challenge (env : Env) (pub random : EcPoint) : Go Digest := do
  let a ← pub.bytes
  let b ← random.bytes
  .ok (env.sha (a ++ b))

/-- `Prove` (schnorr.go:25-49) with the nonce `k` -/
def prove (env : Env) (x k : ℤ) : Go Schnorr := do
  let pub ← newScalarBaseMult (some env.curve) (some x)
  let random ← newScalarBaseMult (some env.curve) (some k)
  let h ← challenge env pub random
  let cx ← env.sc.mul (intOf h) x
  let s ← env.sc.add cx k
  .ok ⟨some pub, some (intOf h), some s⟩

/-- `Verify` (schnorr.go:51-75): a missing response or public key is an error of `EcPoint`, a missing challenge a nil pointer in `Neg` -/
def verify (env : Env) (p : Schnorr) : Go Unit := do
  let gs ← newScalarBaseMult (some env.curve) p.S
  let c ← deref p.C
  let nc ← env.sc.neg c
  let xc ← EcPoint.scalarMult p.pub (some nc)
  let random ← EcPoint.add (some gs) (some xc)
  let pub ← deref p.pub
  let h ← challenge env pub random
  let cb ← env.sc.bytes c
  Go.guard (cb = h.toList)

/-- the commitment (schnorr.go:90-97, 101-107): it does not cover the public key -/
def commitment (env : Env) (p : Schnorr) : Go Digest := do
  let c ← deref p.C
  let cb ← env.sc.bytes c
  let s ← deref p.S
  let sb ← env.sc.bytes s
  .ok (env.sha (cb ++ sb))

/-- `ProveCommit` (schnorr.go:79-98) -/
def proveCommit (env : Env) (x k : ℤ) : Go (Schnorr × Digest) := do
  let p ← prove env x k
  let com ← commitment env p
  .ok (p, com)

/-- `DecommitVerify` (schnorr.go:100-113) -/
def decommitVerify (env : Env) (p : Schnorr) (com : List UInt8) : Go Unit := do
  let h ← commitment env p
  Go.guard (h.toList = com)
  verify env p

/-! ## Key generation -/

/-- `Alice.dkgCommit` (dkg.go:14-26): the state `PkA` and the message -/
def aliceCommit (env : Env) (skA k : ℤ) : Go (Schnorr × Digest) := proveCommit env skA k

/-- `Bob.dkgCommit` (dkg.go:29-44): the message is his proof -/
def bobCommit (env : Env) (skB k : ℤ) : Go Schnorr := prove env skB k

/-- `Alice.dkgVerify` (dkg.go:47-62): the joint key `Pk`; the message is `PkA` -/
def aliceVerify (env : Env) (skA : ℤ) (input : Schnorr) : Go EcPoint := do
  verify env input
  EcPoint.scalarMult input.pub (some skA)

/-- `Bob.dkgVerify` (dkg.go:64-78) with Alice's commitment -/
def bobVerify (env : Env) (com : List UInt8) (skB : ℤ) (input : Schnorr) : Go EcPoint := do
  decommitVerify env input com
  EcPoint.scalarMult input.pub (some skB)

/-! ## Seed OT -/

/-- `seedOTSender` (ot.go:29-37) after `pubKey`: `pub` is the opposite of `b·G` -/
structure SeedSender where
  b : ℤ
  pub : EcPoint

/-- `seedOTSender.pubKey` (ot.go:52-76): the proof is encoded before the ordinate of the stored point is negated -/
def senderPubKey (env : Env) (b k : ℤ) : Go (Schnorr × SeedSender) := do
  let pub ← newScalarBaseMult (some env.curve) (some b)
  let proof ← prove env b k
  let y ← Core.neg pub.Y (some env.curve.params.P)
  .ok (proof, ⟨b, { pub with Y := some y }⟩)

/-- `seedOTReceiver.pubKey` (ot.go:78-90): the stored `pub` -/
def receiverPubKey (env : Env) (input : Schnorr) : Go (Option EcPoint) := do
  verify env input
  .ok input.pub

/-- `initChoice` (ot.go:93-99) -/
def choiceBit (packed : Digest) (i : ℕ) : ℕ := (extractBit packed.toList i).toNat

/-- `sha256.Sum256(append(p.Bytes(), byte(i)))` (ot.go:135, 155, 163) -/
def pad (env : Env) (p : EcPoint) (i : ℕ) : Go Digest := do
  let b ← p.bytes
  .ok (env.sha (b ++ [UInt8.ofNat i]))

/-- one slot of `seedOTReceiver.padTransfer` (ot.go:115-135) with the scalar `a` -/
def receiverSlot (env : Env) (pub : Option EcPoint) (w : ℕ) (a : ℤ) (i : ℕ) : Go (EcPoint × Digest) := do
  let A ← newScalarBaseMult (some env.curve) (some a)
  let temp ← A.bytes
  let A' ← EcPoint.add (some A) pub
  let mask ← A'.bytes
  let chosen ← constantTimeCopy w temp mask
  let result ← pointFromBytes env.curve chosen
  let rho ← EcPoint.scalarMult pub (some a)
  let h ← pad env rho i
  .ok (result, h)

/-- `seedOTReceiver.padTransfer` (ot.go:104-138): the message and `Rho`; `packed` are the random choice bits -/
def receiverPad (env : Env) (pub : Option EcPoint) (packed : Digest) (a : Fin 256 → ℤ) : Go ((Fin 256 → EcPoint) × (Fin 256 → Digest)) := do
  let out ← Go.tabulate 256 fun i => receiverSlot env pub (choiceBit packed i) (a i) i
  .ok (fun i => (out i).1, fun i => (out i).2)

/-- SHA-256 of SHA-256 -/
def hh (env : Env) (d : Digest) : Digest := env.sha (env.sha d.toList).toList

/-- one slot of `seedOTSender.padTransfer` (ot.go:150-171): `Rho[i]` and the challenge -/
def senderSlot (env : Env) (s : SeedSender) (input : EcPoint) (i : ℕ) : Go ((Digest × Digest) × Digest) := do
  let d ← EcPoint.scalarMult (some input) (some s.b)
  let r0 ← pad env d i
  let input' ← EcPoint.add (some input) (some s.pub)
  let d ← EcPoint.scalarMult (some input') (some s.b)
  let r1 ← pad env d i
  .ok ((r0, r1), xorBytes (hh env r0) (hh env r1))

/-- `seedOTSender.padTransfer` (ot.go:140-173): `Rho` and the message -/
def senderPad (env : Env) (s : SeedSender) (input : Fin 256 → EcPoint) : Go ((Fin 256 → Digest × Digest) × (Fin 256 → Digest)) := do
  let out ← Go.tabulate 256 fun i => senderSlot env s (input i) i
  .ok (fun i => (out i).1, fun i => (out i).2)

/-- `subtle.ConstantTimeCopy` on arrays of 32 bytes -/
def ctCopy (v : ℕ) (x y : Digest) : Digest :=
  Vector.zipWith (fun a b => (a &&& (UInt8.ofNat v - 1)) ||| (b &&& ~~~(UInt8.ofNat v - 1))) x y

/-- `seedOTReceiver.verification` (ot.go:177-195): the response to the challenges `xi`, which are kept -/
def receiverVerification (env : Env) (packed : Digest) (rho xi : Fin 256 → Digest) : Fin 256 → Digest := fun i =>
  ctCopy (choiceBit packed i) (hh env (rho i)) (xorBytes (xi i) (hh env (rho i)))

/-- `seedOTSender.verification` (ot.go:197-217): the openings -/
def senderVerification (env : Env) (rho : Fin 256 → Digest × Digest) (input : Fin 256 → Digest) : Go (Fin 256 → Digest × Digest) :=
  Go.tabulate 256 fun i => do
    let temp0 := env.sha (rho i).1.toList
    Go.guard (env.sha temp0.toList = input i)
    .ok (temp0, env.sha (rho i).2.toList)

/-- `seedOTReceiver.final` (ot.go:221-245) -/
def receiverFinal (env : Env) (packed : Digest) (rho xi : Fin 256 → Digest) (input : Fin 256 → Digest × Digest) : Go Unit := do
  let _ ← Go.tabulate 256 fun i => do
    let w := choiceBit packed i
    let temp1 := ctCopy w (ctCopy (1 - w) (Vector.replicate 32 0) (input i).1) (input i).2
    Go.guard (env.sha (rho i).toList = temp1)
    Go.guard (xorBytes (env.sha (input i).1.toList) (env.sha (input i).2.toList) = xi i)
  .ok ()

end Verif.DklsV0
