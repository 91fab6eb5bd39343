import Verif.Dkls.ProtocolModel

/-!
# Signing and refresh of DKLs through messages

The remaining constructors of `pkg/tecdsa/dkls/v1/boilerplate.go` and the loop of a caller who hands the messages of one party to
the other. Each party has its own process with its own registry (see `ProtocolModel`).
-/

namespace Verif.Dkls

variable {σ τ : Type}

/-- a party behind the interface `protocol.Iterator` -/
abbrev Party (σ : Type) := Stepper (Bool × σ) (Option Message) (Option Message)

/-- gob codecs of the payload types of signing (signserializers.go) -/
structure SignGobs (Seed R2 R3 : Type) where
  seed : Gob Seed
  r2 : Gob R2
  r3 : Gob R3

/-- the rounds of Alice in signing with the message to be signed -/
structure AliceSignRounds (σ Seed R2 R3 : Type) where
  r1 : σ → σ × Go Seed
  r3 : σ → R2 → σ × Go R3

/-- the rounds of Bob in signing with the message to be signed -/
structure BobSignRounds (σ Seed R2 R3 : Type) where
  r2 : σ → Seed → σ × Go R2
  r4 : σ → R3 → σ × Go Unit

variable {Seed R2 R3 Out : Type}

/-- `NewAliceSign` (boilerplate.go:212-239); `init` is `sign.NewAlice`, `reg` the registry before, the first result the registry
after the call -/
def newAliceSign (g : Gob Out) (init : Out → σ) (c : SignGobs Seed R2 R3) (r : AliceSignRounds σ Seed R2 R3) (version : ℕ)
    (reg : Bool) (m : Option Message) : Bool × Go (Party σ) :=
  match decodeWith aliceResultDec g reg m with
  | (reg, .error e) => (reg, .error e)
  | (reg, .ok o) => (reg, .ok ⟨[firstStep r.r1 (signEnc 1) "DKLs18-Sign" "1" c.seed version,
      protoStep (signDec 3) c.r2 r.r3 (signEnc 3) "DKLs18-Sign" "3" c.r3 version], 0, (reg, init o)⟩)

/-- `NewBobSign` (boilerplate.go:243-274) -/
def newBobSign (g : Gob Out) (init : Out → σ) (c : SignGobs Seed R2 R3) (r : BobSignRounds σ Seed R2 R3) (version : ℕ)
    (reg : Bool) (m : Option Message) : Bool × Go (Party σ) :=
  match decodeWith bobResultDec g reg m with
  | (reg, .error e) => (reg, .error e)
  | (reg, .ok o) => (reg, .ok ⟨[protoStep (signDec 2) c.seed r.r2 (signEnc 2) "DKLs18-Sign" "2" c.r2 version,
      lastStep (signDec 4) c.r3 r.r4], 0, (reg, init o)⟩)

variable {S1 S2 S3 S4 S5 S6 : Type}

/-- gob codecs of the payload types of the refresh (refreshserializers.go) -/
structure RefreshGobs (S1 S2 S3 S4 S5 S6 : Type) where
  s1 : Gob S1
  s2 : Gob S2
  s3 : Gob S3
  s4 : Gob S4
  s5 : Gob S5
  s6 : Gob S6

/-- the rounds of Alice in the refresh; the first one cannot fail -/
structure AliceRefreshRounds (σ S1 S2 S3 S4 S5 S6 : Type) where
  r1 : σ → σ × S1
  r3 : σ → S2 → σ × Go S3
  r5 : σ → S4 → σ × Go S5
  r7 : σ → S6 → σ × Go Unit

/-- the rounds of Bob in the refresh -/
structure BobRefreshRounds (σ S1 S2 S3 S4 S5 S6 : Type) where
  r2 : σ → S1 → σ × Go S2
  r4 : σ → S3 → σ × Go S4
  r6 : σ → S5 → σ × Go S6

/-- `NewAliceRefresh` (boilerplate.go:296-342) -/
def newAliceRefresh (g : Gob Out) (init : Out → σ) (c : RefreshGobs S1 S2 S3 S4 S5 S6)
    (r : AliceRefreshRounds σ S1 S2 S3 S4 S5 S6) (version : ℕ) (reg : Bool) (m : Option Message) : Bool × Go (Party σ) :=
  match decodeWith aliceResultDec g reg m with
  | (reg, .error e) => (reg, .error e)
  | (reg, .ok o) => (reg, .ok
    ⟨[firstStep (fun s => ((r.r1 s).1, .ok (r.r1 s).2)) (refreshEnc 1) "DKLs18-Refresh" "1" c.s1 version,
      protoStep (refreshDec 3) c.s2 r.r3 (refreshEnc 3) "DKLs18-Refresh" "3" c.s3 version,
      protoStep (refreshDec 5) c.s4 r.r5 (refreshEnc 5) "DKLs18-Refresh" "5" c.s5 version,
      lastStep (refreshDec 7) c.s6 r.r7], 0, (reg, init o)⟩)

/-- `NewBobRefresh` (boilerplate.go:359-402) -/
def newBobRefresh (g : Gob Out) (init : Out → σ) (c : RefreshGobs S1 S2 S3 S4 S5 S6)
    (r : BobRefreshRounds σ S1 S2 S3 S4 S5 S6) (version : ℕ) (reg : Bool) (m : Option Message) : Bool × Go (Party σ) :=
  match decodeWith bobResultDec g reg m with
  | (reg, .error e) => (reg, .error e)
  | (reg, .ok o) => (reg, .ok
    ⟨[protoStep (refreshDec 2) c.s1 r.r2 (refreshEnc 2) "DKLs18-Refresh" "2" c.s2 version,
      protoStep (refreshDec 4) c.s3 r.r4 (refreshEnc 4) "DKLs18-Refresh" "4" c.s4 version,
      protoStep (refreshDec 6) c.s5 r.r6 (refreshEnc 6) "DKLs18-Refresh" "6" c.s6 version], 0, (reg, init o)⟩)

/-- `Result` of `AliceRefresh` and `BobRefresh` (boilerplate.go:345-356, 405-416): `EncodeAliceDkgOutput`, `EncodeBobDkgOutput`
(dkgserializers.go:263-275, 292-304), not the functions of the refresh; `out` is `Output`, `name` "alice-output" or "bob-output" -/
def refreshResult (g : Gob Out) (out : σ → Out) (name : String) (version : ℕ) (p : Party σ) : Go (Option Message) :=
  if !p.complete then .ok none
  else do .ok (some (← (encodeWith dkgOutputEnc "DKLs18-DKG" name g p.state.1 (out p.state.2) version).2))

/-- `Result` of `BobSign` (boilerplate.go:283-293) with `encodeSignature` (signserializers.go:98-109) -/
def signResult {Sig : Type} (g : Gob Sig) (sig : σ → Sig) (version : ℕ) (p : Party σ) : Go (Option Message) :=
  if !p.complete then .ok none
  else do .ok (some (← (encodeWith sigSer "DKLs18-Sign" "signature" g p.state.1 (sig p.state.2) version).2))

/-- the loop of a caller (e.g. `runIteratedProtocol`, protocol_test.go): `n` calls of `Next`, in turn, each with the message that the
last one returned, until the first error -/
def exchange : ℕ → ∀ {σ τ : Type}, Party σ → Party τ → Option Message → Party σ × Party τ × Except NextErr (Option Message)
  | 0, _, _, a, b, m => (a, b, .ok m)
  | n + 1, _, _, a, b, m =>
    match a.next m with
    | (a', .error e) => (a', b, .error e)
    | (a', .ok m') =>
      let r := exchange n b a' m'
      (r.2.1, r.1, r.2.2)

end Verif.Dkls
