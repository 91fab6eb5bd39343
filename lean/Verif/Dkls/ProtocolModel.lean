import Verif.Common.Go
import Mathlib.Data.Nat.Notation

/-!
# Model of the protocol layer of DKLs `pkg/tecdsa/dkls/v1/{protocol,boilerplate,*serializers}.go`

`encoding/gob` is an arbitrary codec per payload type.  What gob requires of types with interface fields is
modelled: values of `curves.Scalar` or `curves.Point` can be encoded and decoded only after the concrete types
were registered in the process (`gob.Register`), so the registry is part of the state.  (Proofs and outputs in which
all interface fields are nil are not modelled.)  A process which only uses this package is assumed: other
packages also call `gob.Register`, none of them in an `init` function.
-/

namespace Verif.Dkls

/-! ## The stepper -/

/-- outcome of `Next` -/
inductive NextErr
  /-- `protocol.ErrProtocolFinished` -/
  | finished
  /-- the step failed -/
  | failed (e : Fail)
  deriving DecidableEq

/-- a step: changes the state of the party, whether it fails or not -/
abbrev Step (σ I O : Type) := σ → I → σ × Go O

/-- `protoStepper` (protocol.go:10-13), with the state of the party -/
structure Stepper (σ I O : Type) where
  steps : List (Step σ I O)
  step : ℕ
  state : σ

variable {σ I O : Type}

/-- `complete` (protocol.go:33) -/
def Stepper.complete (p : Stepper σ I O) : Bool := p.steps.length ≤ p.step

/-- `Next` (protocol.go:16-30) -/
def Stepper.next (p : Stepper σ I O) (input : I) : Stepper σ I O × Except NextErr O :=
  match p.steps[p.step]? with
  | none => (p, .error .finished)
  | some f =>
    match f p.state input with
    | (s, .error e) => ({ p with state := s }, .error (.failed e))
    | (s, .ok o) => ({ p with state := s, step := p.step + 1 }, .ok o)

/-- `Result` of `AliceDkg`, `BobDkg`, `BobSign`, `AliceRefresh`, `BobRefresh` (boilerplate.go:124-135, 197-207,
283-293, 345-356, 405-416): nil without an error before the protocol is complete; `encode` is the encoding of the output -/
def Stepper.result (p : Stepper σ I O) (encode : σ → Go O) : Go (Option O) :=
  if !p.complete then .ok none
  else do
    let m ← encode p.state
    .ok (some m)

/-- `Result` of `AliceSign` (boilerplate.go:278-280): always an error -/
def aliceSignResult (_ : Stepper σ I O) : Go (Option O) := Go.err

/-! ## Messages -/

/-- `protocol.Message` (pkg/core/protocol/protocol.go:38-53); maps are association lists -/
structure Message where
  protocol : String
  version : ℕ
  payloads : List (String × List UInt8)
  metadata : List (String × String)

/-- `Version0`, `Version1` (pkg/core/protocol/protocol.go:31-34) -/
def version0 : ℕ := 100
@[inherit_doc version0]
def version1 : ℕ := 200

/-- `m.Payloads[payloadKey]`: nil if there is no such key -/
def Message.direct (m : Message) : List UInt8 := (m.payloads.lookup "direct").getD []

/-- the encoding of a payload type by gob -/
structure Gob (α : Type) where
  enc : α → List UInt8
  dec : List UInt8 → Option α
  dec_enc : ∀ a, dec (enc a) = some a

/-- how a function checks the version: `version != protocol.Version1` in dkgserializers.go and
signserializers.go, `versionIsSupported` in refreshserializers.go:25-30 -/
inductive VersionRule
  | exactly
  | atLeast
  deriving DecidableEq

/-- the version is accepted -/
def VersionRule.ok : VersionRule → ℕ → Bool
  | .exactly, v => v = version1
  | .atLeast, v => version1 ≤ v

/-- what distinguishes the serialization functions: the version check, whether they call `registerTypes`
(dkgserializers.go:30-35), and whether the payload type contains interfaces -/
structure Ser where
  rule : VersionRule
  registers : Bool
  iface : Bool

/-- the common body of the `encode…` functions (e.g. dkgserializers.go:37-48); `reg` tells whether the types are
registered -/
def encodeWith {α : Type} (s : Ser) (proto round : String) (c : Gob α) (reg : Bool) (x : α) (version : ℕ) :
    Bool × Go Message :=
  if !s.rule.ok version then (reg, Go.err)
  else
    let reg' := reg || s.registers
    if s.iface && !reg' then (reg', Go.err)
    else (reg', .ok ⟨proto, version, [("direct", c.enc x)], [("round", round)]⟩)

/-- the common body of the `decode…` functions (e.g. dkgserializers.go:50-61) -/
def decodeWith {α : Type} (s : Ser) (c : Gob α) (reg : Bool) (m : Option Message) : Bool × Go α :=
  match m with
  | none => (reg, Go.crash)
  | some m =>
    if !s.rule.ok m.version then (reg, Go.err)
    else
      let reg' := reg || s.registers
      if s.iface && !reg' then (reg', Go.err)
      else (reg', Go.ofOption (c.dec m.direct))

/-- `encodeDkgRound1Output` … `encodeDkgRound9Output` (dkgserializers.go:37-248): rounds 3, 4 and 5 send Schnorr
proofs -/
def dkgEnc (round : ℕ) : Ser := ⟨.exactly, round = 1, round = 3 || round = 4 || round = 5⟩

/-- `decodeDkgRound2Input` … `decodeDkgRound10Input` (dkgserializers.go:50-261): rounds 4, 5 and 6 receive Schnorr
proofs -/
def dkgDec (round : ℕ) : Ser := ⟨.exactly, false, round = 4 || round = 5 || round = 6⟩

/-- `EncodeAliceDkgOutput`, `EncodeBobDkgOutput` (dkgserializers.go:263-275, 292-304) -/
def dkgOutputEnc : Ser := ⟨.exactly, true, true⟩

/-- `DecodeAliceDkgResult` (dkgserializers.go:277-290) -/
def aliceResultDec : Ser := ⟨.exactly, true, true⟩

/-- `DecodeBobDkgResult` (dkgserializers.go:306-318): does not call `registerTypes` -/
def bobResultDec : Ser := ⟨.exactly, false, true⟩

/-- `encodeSignRound1Output` … `encodeSignRound3Output` (signserializers.go:23-83) -/
def signEnc (round : ℕ) : Ser := ⟨.exactly, false, round = 2 || round = 3⟩

/-- `decodeSignRound2Input` … `decodeSignRound4Input` (signserializers.go:35-96) -/
def signDec (round : ℕ) : Ser := ⟨.exactly, false, round = 3 || round = 4⟩

/-- `encodeSignature`, `DecodeSignature` (signserializers.go:98-122): no interfaces -/
def sigSer : Ser := ⟨.exactly, false, false⟩

/-- `encodeRefreshRound1Output` … `encodeRefreshRound6Output` (refreshserializers.go:32-168) -/
def refreshEnc (round : ℕ) : Ser := ⟨.atLeast, round = 1, round = 1 || round = 2⟩

/-- `decodeRefreshRound2Input` … `decodeRefreshRound7Input` (refreshserializers.go:45-180) -/
def refreshDec (round : ℕ) : Ser := ⟨.atLeast, false, round = 2 || round = 3⟩

/-- `EncodeAliceRefreshOutput`, `EncodeBobRefreshOutput` (refreshserializers.go:183-195, 212-224) -/
def refreshOutputEnc : Ser := ⟨.atLeast, true, true⟩

/-- `DecodeAliceRefreshResult` (refreshserializers.go:197-210) -/
def aliceRefreshDec : Ser := ⟨.atLeast, true, true⟩

/-- `DecodeBobRefreshResult` (refreshserializers.go:226-238): does not call `registerTypes` -/
def bobRefreshDec : Ser := ⟨.atLeast, false, true⟩

/-! ## The parties -/

/-- a step of a party: decode the input, run the round, encode the output (e.g. boilerplate.go:65-75); the state
is the registry and the state of the party -/
def protoStep {α β : Type} (dec : Ser) (cin : Gob α) (round : σ → α → σ × Go β) (enc : Ser) (proto name : String)
    (cout : Gob β) (version : ℕ) : Step (Bool × σ) (Option Message) (Option Message) := fun st m =>
  match decodeWith dec cin st.1 m with
  | (reg, .error e) => ((reg, st.2), .error e)
  | (reg, .ok x) =>
    match round st.2 x with
    | (s, .error e) => ((reg, s), .error e)
    | (s, .ok y) =>
      match encodeWith enc proto name cout reg y version with
      | (reg', .error e) => ((reg', s), .error e)
      | (reg', .ok out) => ((reg', s), .ok (some out))

/-- a first step: no input (e.g. boilerplate.go:141-147) -/
def firstStep {β : Type} (round : σ → σ × Go β) (enc : Ser) (proto name : String) (cout : Gob β) (version : ℕ) :
    Step (Bool × σ) (Option Message) (Option Message) := fun st _ =>
  match round st.2 with
  | (s, .error e) => ((st.1, s), .error e)
  | (s, .ok y) =>
    match encodeWith enc proto name cout st.1 y version with
    | (reg', .error e) => ((reg', s), .error e)
    | (reg', .ok out) => ((reg', s), .ok (some out))

/-- a last step: no output (e.g. boilerplate.go:109-118) -/
def lastStep {α : Type} (dec : Ser) (cin : Gob α) (round : σ → α → σ × Go Unit) :
    Step (Bool × σ) (Option Message) (Option Message) := fun st m =>
  match decodeWith dec cin st.1 m with
  | (reg, .error e) => ((reg, st.2), .error e)
  | (reg, .ok x) =>
    match round st.2 x with
    | (s, .error e) => ((reg, s), .error e)
    | (s, .ok _) => ((reg, s), .ok none)

/-- gob codecs of the payload types of the key generation -/
structure DkgGobs (Seed R2 Proof Masked Chal Resp Opening : Type) where
  seed : Gob Seed
  r2 : Gob R2
  proof : Gob Proof
  masked : Gob Masked
  chal : Gob Chal
  resp : Gob Resp
  opening : Gob Opening

/-- the rounds of Alice in the key generation (dkg.go) -/
structure AliceRounds (σ Seed R2 Proof Masked Chal Resp Opening : Type) where
  r2 : σ → Seed → σ × Go R2
  r4 : σ → Proof → σ × Go Proof
  r6 : σ → Proof → σ × Go Masked
  r8 : σ → Chal → σ × Go Resp
  r10 : σ → Opening → σ × Go Unit

/-- the rounds of Bob in the key generation -/
structure BobRounds (σ Seed R2 Proof Masked Chal Resp Opening : Type) where
  r1 : σ → σ × Go Seed
  r3 : σ → R2 → σ × Go Proof
  r5 : σ → Proof → σ × Go Proof
  r7 : σ → Masked → σ × Go Chal
  r9 : σ → Resp → σ × Go Opening

/-- `NewAliceDkg` (boilerplate.go:61-121); `reg` is the registry of the process -/
def newAliceDkg {Seed R2 Proof Masked Chal Resp Opening : Type}
    (c : DkgGobs Seed R2 Proof Masked Chal Resp Opening) (r : AliceRounds σ Seed R2 Proof Masked Chal Resp Opening)
    (version : ℕ) (reg : Bool) (s : σ) : Stepper (Bool × σ) (Option Message) (Option Message) :=
  ⟨[protoStep (dkgDec 2) c.seed r.r2 (dkgEnc 2) "DKLs18-DKG" "2" c.r2 version,
    protoStep (dkgDec 4) c.proof r.r4 (dkgEnc 4) "DKLs18-DKG" "4" c.proof version,
    protoStep (dkgDec 6) c.proof r.r6 (dkgEnc 6) "DKLs18-DKG" "6" c.masked version,
    protoStep (dkgDec 8) c.chal r.r8 (dkgEnc 8) "DKLs18-DKG" "8" c.resp version,
    lastStep (dkgDec 10) c.opening r.r10], 0, (reg, s)⟩

/-- `NewBobDkg` (boilerplate.go:137-194) -/
def newBobDkg {Seed R2 Proof Masked Chal Resp Opening : Type}
    (c : DkgGobs Seed R2 Proof Masked Chal Resp Opening) (r : BobRounds σ Seed R2 Proof Masked Chal Resp Opening)
    (version : ℕ) (reg : Bool) (s : σ) : Stepper (Bool × σ) (Option Message) (Option Message) :=
  ⟨[firstStep r.r1 (dkgEnc 1) "DKLs18-DKG" "1" c.seed version,
    protoStep (dkgDec 3) c.r2 r.r3 (dkgEnc 3) "DKLs18-DKG" "3" c.proof version,
    protoStep (dkgDec 5) c.proof r.r5 (dkgEnc 5) "DKLs18-DKG" "5" c.proof version,
    protoStep (dkgDec 7) c.masked r.r7 (dkgEnc 7) "DKLs18-DKG" "7" c.chal version,
    protoStep (dkgDec 9) c.resp r.r9 (dkgEnc 9) "DKLs18-DKG" "9" c.opening version], 0, (reg, s)⟩

end Verif.Dkls
