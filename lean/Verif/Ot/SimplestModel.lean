import Verif.Common.Merlin
import Verif.Schnorr.Model
import Verif.Ot.Bits

/-!
# Model of the seed OT `pkg/ot/base/simplest/ot.go`

`Env` collects what the code takes from outside: the generator, the point encoding, SHA3-256, the
scalar codec and the extraction function of merlin.  All randomness is an argument.  A `nil` field is
`none`; the state after a returned error is not modelled.  Negative batch sizes are not modelled.
-/

namespace Verif.Ot

variable {F : Type} [Field F] [DecidableEq F]
variable {G : Type} [AddCommGroup G] [Module F G] [DecidableEq G]

/-- curve, hash and transcript functions -/
structure Env (F G : Type) where
  /-- the generator of the curve -/
  gen : G
  /-- `Point.ToAffineCompressed` -/
  penc : G → List UInt8
  /-- `Point.FromAffineCompressed` -/
  pdec : List UInt8 → Option G
  /-- SHA3-256 -/
  sha : List UInt8 → Digest
  /-- `Scalar.Bytes`, `Scalar.SetBytes` -/
  cd : ScalarCodec F
  /-- `ExtractBytes(label, 32)` -/
  ext : Merlin → Digest

/-- SHA3-256 as used by the Schnorr proofs -/
def Env.shaL (env : Env F G) (b : List UInt8) : List UInt8 := (env.sha b).toList

/-- `subtle.ConstantTimeCopy`: panics on different lengths, copies `y` over `x` if `v = 1` and leaves
`x` unchanged if `v = 0` (`xmask := byte(v - 1)`, `ymask := byte(^(v - 1))`) -/
def constantTimeCopy (v : ℕ) (x y : List UInt8) : Go (List UInt8) :=
  if x.length ≠ y.length then Go.crash
  else
    let xmask : UInt8 := UInt8.ofNat v - 1
    let ymask : UInt8 := ~~~(UInt8.ofNat v - 1)
    .ok (List.zipWith (fun a b => (a &&& xmask) ||| (b &&& ymask)) x y)

/-- index into a slice -/
def index {α : Type} (l : List α) (i : ℕ) : Go α :=
  match l[i]? with
  | some a => .ok a
  | none => Go.crash

/-- dereference of a pointer or interface that may be nil -/
def deref {α : Type} : Option α → Go α
  | some a => .ok a
  | none => Go.crash

/-- a pair indexed by an int (`[keyCount][DigestSize]byte`) -/
def pairIndex {α : Type} (p : α × α) (w : ℕ) : Go α :=
  match w with
  | 0 => .ok p.1
  | 1 => .ok p.2
  | _ => Go.crash

/-- `SenderOutput` and `Sender` (ot.go:64-69, 86-102) -/
structure Sender (F G : Type) where
  batchSize : ℕ
  transcript : Merlin
  secretKey : Option F
  publicKey : Option G
  /-- `Output.OneTimePadEncryptionKeys` -/
  keys : List (Digest × Digest)

/-- `ReceiverOutput` and `Receiver` (ot.go:72-83, 105-121) -/
structure Receiver (G : Type) where
  batchSize : ℕ
  transcript : Merlin
  /-- `Output.PackedRandomChoiceBits` -/
  packed : List UInt8
  /-- `Output.RandomChoiceBits` -/
  choices : List ℕ
  /-- `Output.OneTimePadDecryptionKey` -/
  pads : List Digest
  senderPublicKey : Option G
  senderChallenge : List Digest

/-- the transcript of `NewSender` and `NewReceiver` (ot.go:131-132, 149-150) -/
def seedTranscript (sid : Digest) : Merlin :=
  (Merlin.new "Coinbase_DKLs_SeedOT").append "session_id" sid.toList

/-- `NewSender` (ot.go:127-139) -/
def newSender (batchSize : ℕ) (sid : Digest) : Go (Sender F G) := do
  Go.guard (batchSize &&& 0x07 = 0)
  .ok ⟨batchSize, seedTranscript sid, none, none, []⟩

/-- `initChoice` (util.go:16-22) -/
def initChoice (batchSize : ℕ) (packed : List UInt8) : Go (List ℕ) :=
  (List.range batchSize).mapM fun i =>
    if i >>> 3 < packed.length then .ok (extractBit packed i).toNat else Go.crash

/-- `NewReceiver` (ot.go:143-166); `rnd` are the bytes delivered by `rand.Read` -/
def newReceiver (rnd : ℕ → UInt8) (batchSize : ℕ) (sid : Digest) : Go (Receiver G) := do
  Go.guard (batchSize &&& 0x07 = 0)
  let packed := (List.range (batchSize >>> 3)).map rnd
  let choices ← initChoice batchSize packed
  .ok ⟨batchSize, seedTranscript sid, packed, choices, [], none, []⟩

/-- `Round1ComputeAndZkpToPublicKey` (ot.go:171-186): `b` is the sampled key, `k` the nonce of the
Schnorr proof -/
def Sender.round1 (env : Env F G) (s : Sender F G) (b k : F) :
    Go (Schnorr.Proof F G × Sender F G) := do
  let t := s.transcript.extract "sender schnorr proof"
  let prover := Schnorr.newProver env.gen none (env.ext t).toList
  let proof ← prover.prove env.shaL env.penc env.cd b k
  .ok (proof, { s with transcript := t, secretKey := some b, publicKey := some (b • env.gen) })

/-- the pad of slot `i` derived from a point (ot.go:215-225, 260-270) -/
def padOf (env : Env F G) (salt : Digest) (i : ℕ) (rho : G) : Digest :=
  env.sha (salt.toList ++ [UInt8.ofNat i] ++ env.penc rho)

/-- one iteration of lines 201-226; `a` is the sampled scalar -/
def Receiver.transferOne (env : Env F G) (choices : List ℕ) (B : G) (salt : Digest) (a : F) (i : ℕ) :
    Go (List UInt8 × Digest) := do
  let option0 := a • env.gen
  let option1 := option0 + B
  let w ← index choices i
  let result ← constantTimeCopy w (env.penc option0) (env.penc option1)
  .ok (result, padOf env salt i (a • B))

/-- `Round2VerifySchnorrAndPadTransfer` (ot.go:190-228); `a i` is the scalar sampled for slot `i` -/
def Receiver.round2 (env : Env F G) (r : Receiver G) (a : ℕ → F)
    (proof : Option (Schnorr.Proof F G)) : Go (List (List UInt8) × Receiver G) := do
  let pf ← deref proof
  let t1 := r.transcript.extract "sender schnorr proof"
  Schnorr.verify env.shaL env.penc env.cd env.gen proof none (env.ext t1).toList
  let t2 := t1.extract "random oracle salts"
  let out ← (List.range r.batchSize).mapM fun i =>
    Receiver.transferOne env r.choices pf.statement (env.ext t2) (a i) i
  .ok (out.map Prod.fst,
    { r with transcript := t2, senderPublicKey := some pf.statement, pads := out.map Prod.snd })

/-- lines 251-281 for one slot: the two pads and the challenge -/
def Sender.transferOne (env : Env F G) (b : F) (B : G) (salt : Digest) (points : List G) (i : ℕ) :
    Go ((Digest × Digest) × Digest) := do
  let A ← index points i
  let k0 := padOf env salt i (b • A)
  let k1 := padOf env salt i (b • (A + -B))
  let h0 := env.sha (env.sha k0.toList).toList
  let h1 := env.sha (env.sha k1.toList).toList
  .ok ((k0, k1), xorBytes h0 h1)

/-- `Round3PadTransfer` (ot.go:232-283) -/
def Sender.round3 (env : Env F G) (s : Sender F G) (masked : List (List UInt8)) :
    Go (List Digest × Sender F G) := do
  let B ← deref s.publicKey
  let points ← masked.mapM fun c => Go.ofOption (env.pdec c)
  let t := s.transcript.extract "random oracle salts"
  let out ← (List.range s.batchSize).mapM fun i => do
    let b ← deref s.secretKey
    Sender.transferOne env b B (env.ext t) points i
  .ok (out.map Prod.snd, { s with transcript := t, keys := out.map Prod.fst })

/-- lines 292-299 for one slot -/
def Receiver.respondOne (env : Env F G) (r : Receiver G) (i : ℕ) : Go Digest := do
  let pad ← index r.pads i
  let hashed := env.sha (env.sha pad.toList).toList
  let xi ← index r.senderChallenge i
  let alternative := xorBytes xi hashed
  let w ← index r.choices i
  -- both arrays have 32 bytes
  .ok (Vector.zipWith (fun a b => (a &&& (UInt8.ofNat w - 1)) ||| (b &&& ~~~(UInt8.ofNat w - 1)))
    hashed alternative)

/-- `Round4RespondToChallenge` (ot.go:287-301) -/
def Receiver.round4 (env : Env F G) (r : Receiver G) (challenge : List Digest) :
    Go (List Digest × Receiver G) := do
  let r' := { r with senderChallenge := challenge }
  let out ← (List.range r.batchSize).mapM fun i => Receiver.respondOne env r' i
  .ok (out, r')

/-- lines 309-319 for one slot -/
def Sender.openOne (env : Env F G) (s : Sender F G) (responses : List Digest) (i : ℕ) :
    Go (Digest × Digest) := do
  let k ← index s.keys i
  let o0 := env.sha k.1.toList
  let o1 := env.sha k.2.toList
  let hashed0 := env.sha o0.toList
  let resp ← index responses i
  Go.guard (hashed0 = resp)
  .ok (o0, o1)

/-- `Round5Verify` (ot.go:307-321) -/
def Sender.round5 (env : Env F G) (s : Sender F G) (responses : List Digest) :
    Go (List (Digest × Digest)) :=
  (List.range s.batchSize).mapM fun i => Sender.openOne env s responses i

/-- lines 331-343 for one slot -/
def Receiver.checkOne (env : Env F G) (r : Receiver G) (openings : List (Digest × Digest)) (i : ℕ) :
    Go Unit := do
  let pad ← index r.pads i
  let hashed := env.sha pad.toList
  let w ← index r.choices i
  let o ← index openings i
  let ow ← pairIndex o w
  Go.guard (hashed = ow)
  let xi ← index r.senderChallenge i
  Go.guard (xorBytes (env.sha o.1.toList) (env.sha o.2.toList) = xi)

/-- `Round6Verify` (ot.go:330-345) -/
def Receiver.round6 (env : Env F G) (r : Receiver G) (openings : List (Digest × Digest)) : Go Unit :=
  (List.range r.batchSize).forM fun i => Receiver.checkOne env r openings i

/-- `SenderOutput.Encrypt` and `Round7Encrypt` (ot.go:349-351, 361-374) -/
def Sender.encrypt (s : Sender F G) (plaintexts : List (Digest × Digest)) :
    Go (List (Digest × Digest)) := do
  Go.guard (plaintexts.length = s.keys.length)
  .ok (List.zipWith (fun k m => (xorBytes k.1 m.1, xorBytes k.2 m.2)) s.keys plaintexts)

/-- `ReceiverOutput.Decrypt` and `Round8Decrypt` (ot.go:355-357, 378-390) -/
def Receiver.decrypt (r : Receiver G) (ciphertexts : List (Digest × Digest)) : Go (List Digest) := do
  Go.guard (ciphertexts.length = r.pads.length)
  (List.range ciphertexts.length).mapM fun i => do
    let w ← index r.choices i
    let c ← index ciphertexts i
    let cw ← pairIndex c w
    let pad ← index r.pads i
    .ok (xorBytes pad cw)

end Verif.Ot
