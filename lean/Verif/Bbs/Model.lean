import Verif.Bbs.Common
import Verif.Common.Bytes
import Verif.Common.Codec
import Mathlib.Algebra.Module.LinearMap.Basic
import Mathlib.LinearAlgebra.BilinearMap

/-!
# Model of `pkg/signatures/bbs`

`F` is the scalar field, `G1`, `G2`, `GT` the groups (all written additively) and `e` the pairing.
`g1`, `g2` are the generators.  Encodings `enc1` (compressed G1), `enc1u`, `enc2u` (uncompressed) and
the hash to the curve are arbitrary functions.  A merlin transcript is the list of its
(label, message) entries; `chal` maps a transcript to the scalar obtained from `ExtractBytes` (64
bytes) and `SetBytesWide`, which does not fail.  Random scalars are arguments.  Go maps are
association lists with distinct keys in iteration order.  Integers are unbounded (`len` never reaches
the 64-bit limit).
-/

namespace Verif.Bbs

open SigCommon

variable {F : Type} [Field F] [DecidableEq F]
variable {G1 G2 GT : Type} [AddCommGroup G1] [Module F G1] [DecidableEq G1]
  [AddCommGroup G2] [Module F G2] [DecidableEq G2] [AddCommGroup GT] [Module F GT] [DecidableEq GT]

/-- `MessageGenerators` (pkg/signatures/bbs/message_generators.go:30-35). -/
structure Gens (G1 : Type) where
  h0 : G1
  length : ℤ
  state : List UInt8

/-- The state of `MessageGenerators.Init` (message_generators.go:43-50): 192 bytes of the public key,
five zero bytes and the length as four bytes. -/
def genState (w : List UInt8) (length : ℤ) : List UInt8 :=
  (w.take 192 ++ List.replicate (192 - w.length) 0) ++ List.replicate 5 0 ++
    beBytes 4 (length % 2 ^ 32).toNat

/-- `MessageGenerators.Init` (message_generators.go:38-58). -/
def initGens (hash : List UInt8 → G1) (enc2u : G2 → List UInt8) (w : G2) (length : ℤ) :
    Go (Gens G1) := do
  Go.guard (¬ length < 0)
  let st := genState (enc2u w) length
  .ok ⟨hash st, length, st⟩

/-- `MessageGenerators.Get` (message_generators.go:60-77).  The function writes the index into a copy
`state` of the state but hashes the original `msgg.state`. -/
def Gens.get (hash : List UInt8 → G1) (g : Gens G1) (i : ℤ) : Option G1 :=
  if i ≤ 0 then some g.h0
  else if i > g.length then none
  else some (hash g.state)

/-- `Signature` (signature.go:20-23) and `BlindSignature` (blind_signature.go:24-27). -/
structure Signature (F G1 : Type) where
  a : G1
  e : F
  s : F
  deriving DecidableEq

/-- `computeB` (secret_key.go:144-159): `msgs[0]` and the final type assertion panic. -/
def computeB (hash : List UInt8 → G1) (g1 : G1) (s : F) (msgs : List F) (gens : Gens G1) : Go G1 :=
  match msgs with
  | [] => Go.crash
  | _ :: _ =>
    match sumOfProducts (some g1 :: gens.get hash 0 ::
        (List.range msgs.length).map fun i : ℕ => gens.get hash ((i : ℤ) + 1)) (1 :: s :: msgs) with
    | none => Go.crash
    | some b => .ok b

/-- The bytes written to SHAKE256 by `Sign` (secret_key.go:118-120) and `addDeterministicNonceData`
(secret_key.go:161-168); a nil generator would panic but does not occur up to `length`. -/
def nonceData (hash : List UInt8 → G1) (enc1u : G1 → List UInt8) (cd : ScalarCodec F) (sk : F)
    (gens : Gens G1) (msgs : List F) : List UInt8 :=
  cd.enc sk ++ ((List.range (gens.length.toNat + 1)).map fun i : ℕ =>
    ((gens.get hash (i : ℤ)).map enc1u).getD []).flatten ++ (msgs.map cd.enc).flatten

/-- `SecretKey.Sign` (secret_key.go:107-134).  `draw` maps the bytes absorbed by SHAKE256 to the two
non-zero scalars sampled from it (secret_key.go:122-123, 170-177; termination of the rejection loop is
assumed). -/
def sign (hash : List UInt8 → G1) (enc1u : G1 → List UInt8) (cd : ScalarCodec F) (g1 : G1)
    (draw : List UInt8 → F × F) (sk : F) (gens : Gens G1) (msgs : List F) :
    Go (Signature F G1) := do
  Go.guard (¬ gens.length < msgs.length)
  Go.guard (¬ msgs.length < 1)
  Go.guard (sk ≠ 0)
  let d := draw (nonceData hash enc1u cd sk gens msgs)
  let b ← computeB hash g1 d.2 msgs gens
  Go.guard (d.1 + sk ≠ 0)
  .ok ⟨(d.1 + sk)⁻¹ • b, d.1, d.2⟩

/-- `SecretKey.PublicKey` (secret_key.go:137-141). -/
def publicKey (g2 : G2) (sk : F) : G2 := sk • g2

/-- `PublicKey.Verify` (public_key.go:44-73). -/
def verify (hash : List UInt8 → G1) (g1 : G1) (g2 : G2) (e : G1 →ₗ[F] G2 →ₗ[F] GT) (pk : G2)
    (sig : Signature F G1) (gens : Gens G1) (msgs : List F) : Go Unit := do
  Go.guard (¬ gens.length < msgs.length)
  Go.guard (¬ msgs.length < 1)
  Go.guard (pk ≠ 0)
  Go.guard (sig.a ≠ 0)
  let a := sig.e • g2 + pk
  let b ← computeB hash g1 sig.s msgs gens
  Go.guard (e sig.a a + e (-b) g2 = 0)

/-! ## Blind signatures -/

/-- a merlin transcript -/
abbrev Transcript := List (String × List UInt8)

/-- `BlindSignatureContext` (blind_signature_context.go:29-36). -/
structure Context (F G1 : Type) where
  commitment : G1
  challenge : F
  proofs : List F
  deriving DecidableEq

/-- the transcript of `NewBlindSignatureContext` and `Verify`
(blind_signature_context.go:87-91, 181-185) -/
def ctxTranscript (cd : ScalarCodec F) (randomCommitment blindCommitment : List UInt8) (nonce : F) :
    Transcript :=
  [("new blind signature", []), ("random commitment", randomCommitment),
    ("blind commitment", blindCommitment), ("nonce", cd.enc nonce)]

/-- `NewBlindSignatureContext` (blind_signature_context.go:45-106).  `msgs` carries for every index the
message and the random scalar of `CommitRandom`; `blinding` and `rb` are the blinding factor and its
random scalar. -/
def newContext (hash : List UInt8 → G1) (enc1 : G1 → List UInt8) (cd : ScalarCodec F)
    (chal : Transcript → F) (msgs : List (ℤ × F × F)) (gens : Gens G1) (nonce blinding rb : F) :
    Go (Context F G1 × F) := do
  msgs.forM fun m => Go.guard (¬ (m.1 > gens.length ∨ m.1 < 0))
  let b ← (msgs.map fun m => (gens.get hash (m.1 + 1), m.2.2)).foldlM
    (fun (b : Builder F G1) c => b.commit c.1 c.2) Builder.new
  let points := (msgs.map fun m => gens.get hash (m.1 + 1)) ++ [gens.get hash 0]
  let secrets := (msgs.map fun m => m.2.1) ++ [blinding]
  let b ← b.commit (gens.get hash 0) rb
  match sumOfProducts points secrets with
  | none => Go.crash
  | some commitment => do
    let challenge := chal (ctxTranscript cd (b.contribution enc1) (enc1 commitment) nonce)
    let proofs ← b.generateProof challenge secrets
    .ok (⟨commitment, challenge, proofs⟩, blinding)

/-- `BlindSignatureContext.Verify` (blind_signature_context.go:160-193); `SumOfProducts` returning nil
leads to a nil dereference. -/
def Context.verify (hash : List UInt8 → G1) (enc1 : G1 → List UInt8) (cd : ScalarCodec F)
    (chal : Transcript → F) (ctx : Context F G1) (known : List ℤ) (gens : Gens G1) (nonce : F) :
    Go Unit := do
  known.forM fun i => Go.guard (¬ i > gens.length)
  let hidden := (List.range gens.length.toNat).filter fun i : ℕ => ¬ (i : ℤ) ∈ known
  let points := (hidden.map fun i : ℕ => gens.get hash ((i : ℤ) + 1)) ++
    [gens.get hash 0, some ctx.commitment]
  match sumOfProducts points (ctx.proofs ++ [-ctx.challenge]) with
  | none => Go.crash
  | some c =>
    Go.guard (chal (ctxTranscript cd (enc1 c) (enc1 ctx.commitment) nonce) = ctx.challenge)

/-- `BlindSignatureContext.ToBlindSignature` (blind_signature_context.go:199-255).  The messages
absorbed for the nonces are sorted by index. -/
def Context.toBlindSignature (hash : List UInt8 → G1) (enc1 enc1u : G1 → List UInt8)
    (cd : ScalarCodec F) (chal : Transcript → F) (g1 : G1) (draw : List UInt8 → F × F)
    (ctx : Context F G1) (msgs : List (ℤ × F)) (sk : F) (gens : Gens G1) (nonce : F) :
    Go (Signature F G1) := do
  Go.guard (sk ≠ 0)
  msgs.forM fun m => Go.guard (¬ m.1 > gens.length)
  let sorted := msgs.mergeSort fun x y => decide (x.1 ≤ y.1)
  ctx.verify hash enc1 cd chal (sorted.map Prod.fst) gens nonce
  let d := draw (nonceData hash enc1u cd sk gens (sorted.map Prod.snd))
  Go.guard (d.1 + sk ≠ 0)
  let points := some ctx.commitment :: some g1 :: gens.get hash 0 ::
    msgs.map fun m => gens.get hash (m.1 + 1)
  let scalars := 1 :: 1 :: d.2 :: msgs.map Prod.snd
  match sumOfProducts points scalars with
  | none => Go.crash
  | some b => .ok ⟨(d.1 + sk)⁻¹ • b, d.1, d.2⟩

/-- `BlindSignature.ToUnblinded` (blind_signature.go:73-79). -/
def toUnblinded (sig : Signature F G1) (blinder : F) : Signature F G1 :=
  ⟨sig.a, sig.e, sig.s + blinder⟩

/-! ## Proofs of knowledge -/

/-- `common.ProofMessage` (pkg/signatures/common/proof_message.go:15-79); a hidden message carries the
blinding factor returned by `GetBlinding`, random or shared. -/
inductive ProofMsg (F : Type)
  | revealed (m : F)
  | hidden (m blinding : F)

/-- `ProofMessage.GetMessage` (proof_message.go:45-47, 61-63, 77-79) -/
def ProofMsg.msg : ProofMsg F → F
  | .revealed m => m
  | .hidden m _ => m

/-- `PokSignature` (pok_signature.go:21-35). -/
structure Pok (F G1 : Type) where
  aPrime : G1
  aBar : G1
  d : G1
  proof1 : Builder F G1
  proof2 : Builder F G1
  secrets1 : List F
  secrets2 : List F

/-- the random scalars of `NewPokSignature`: `r1`, `r2` and the four of `CommitRandom` -/
structure PokRand (F : Type) where
  r1 : F
  r2 : F
  b1 : F
  b2 : F
  b3 : F
  b4 : F

/-- hidden messages with their position (pok_signature.go:109-117) -/
def hiddenFrom : ℤ → List (ProofMsg F) → List (ℤ × F × F)
  | _, [] => []
  | i, .revealed _ :: rest => hiddenFrom (i + 1) rest
  | i, .hidden m b :: rest => (i, m, b) :: hiddenFrom (i + 1) rest

/-- `NewPokSignature` (pok_signature.go:38-130); `r1` is non-zero by `getNonZeroScalar`, a zero value
would fail at `Invert`. -/
def newPok (hash : List UInt8 → G1) (g1 : G1) (sig : Signature F G1) (gens : Gens G1)
    (msgs : List (ProofMsg F)) (rnd : PokRand F) : Go (Pok F G1) := do
  Go.guard ((msgs.length : ℤ) = gens.length)
  Go.guard (rnd.r1 ≠ 0)
  let r3 := rnd.r1⁻¹
  let b ← computeB hash g1 sig.s (msgs.map ProofMsg.msg) gens
  let aPrime := rnd.r1 • sig.a
  let aBar := rnd.r1 • b - sig.e • aPrime
  let d := rnd.r1 • b + rnd.r2 • gens.h0
  let sPrime := sig.s + rnd.r2 * r3
  let p1 ← (Builder.new : Builder F G1).commit (some aPrime) rnd.b1
  let p1 ← p1.commit (some gens.h0) rnd.b2
  let p2 ← (Builder.new : Builder F G1).commit (some (-d)) rnd.b3
  let p2 ← p2.commit (some gens.h0) rnd.b4
  let p2 ← ((hiddenFrom 0 msgs).map fun m => (gens.get hash (m.1 + 1), m.2.2)).foldlM
    (fun (b : Builder F G1) c => b.commit c.1 c.2) p2
  .ok ⟨aPrime, aBar, d, p1, p2, [sig.e, rnd.r2], r3 :: sPrime :: (hiddenFrom 0 msgs).map fun m => m.2.1⟩

/-- `PokSignature.GetChallengeContribution` (pok_signature.go:134-140). -/
def Pok.contribution (enc1 : G1 → List UInt8) (p : Pok F G1) (t : Transcript) : Transcript :=
  t ++ [("A'", enc1 p.aPrime), ("Abar", enc1 p.aBar), ("D", enc1 p.d),
    ("Proof1", p.proof1.contribution enc1), ("Proof2", p.proof2.contribution enc1)]

/-- `PokSignatureProof` (pok_signature_proof.go:22-25). -/
structure PokProof (F G1 : Type) where
  aPrime : G1
  aBar : G1
  d : G1
  proof1 : List F
  proof2 : List F
  deriving DecidableEq

/-- `PokSignature.GenerateProof` (pok_signature.go:143-159). -/
def Pok.generateProof (p : Pok F G1) (challenge : F) : Go (PokProof F G1) := do
  let p1 ← p.proof1.generateProof challenge p.secrets1
  let p2 ← p.proof2.generateProof challenge p.secrets2
  .ok ⟨p.aPrime, p.aBar, p.d, p1, p2⟩

/-- `PokSignatureProof.GetChallengeContribution` (pok_signature_proof.go:127-183).  Panics when the
index of a revealed message has no generator or when a response is missing; `revealed` is the map of
revealed messages. -/
def PokProof.contribution (hash : List UInt8 → G1) (enc1 : G1 → List UInt8) (g1 : G1)
    (p : PokProof F G1) (gens : Gens G1) (revealed : List (ℤ × F)) (challenge : F)
    (t : Transcript) : Go Transcript :=
  match p.proof1 with
  | e0 :: e1 :: _ =>
    let c1 := challenge • (p.aBar - p.d) + e0 • p.aPrime + e1 • gens.h0
    match sumOfProducts (some g1 :: revealed.map fun m => gens.get hash (m.1 + 1))
        (1 :: revealed.map Prod.snd) with
    | none => Go.crash
    | some r =>
      let hidden := (List.range gens.length.toNat).filter fun i : ℕ => ¬ (i : ℤ) ∈ revealed.map Prod.fst
      if p.proof2.length < 2 + hidden.length then Go.crash
      else
        match sumOfProducts (some r :: some (-p.d) :: some gens.h0 ::
            hidden.map fun i : ℕ => gens.get hash ((i : ℤ) + 1))
            (challenge :: p.proof2.take (2 + hidden.length)) with
        | none => Go.crash
        | some c2 => .ok (t ++ [("A'", enc1 p.aPrime), ("Abar", enc1 p.aBar), ("D", enc1 p.d),
            ("Proof1", enc1 c1), ("Proof2", enc1 c2)])
  | _ => Go.crash

/-- `PokSignatureProof.VerifySigPok` (pok_signature_proof.go:189-194). -/
def PokProof.verifySigPok (g2 : G2) (e : G1 →ₗ[F] G2 →ₗ[F] GT) (p : PokProof F G1) (pk : G2) : Bool :=
  decide (pk ≠ 0 ∧ p.aPrime ≠ 0 ∧ p.aBar ≠ 0 ∧ e p.aPrime pk + e p.aBar (-g2) = 0)

/-- The challenge computed from the finished transcript (pok_signature_proof.go:205-207). -/
def pokChallenge (cd : ScalarCodec F) (chal : Transcript → F) (t : Transcript) (nonce : F) : F :=
  chal (t ++ [("nonce", cd.enc nonce)])

/-- `PokSignatureProof.Verify` (pok_signature_proof.go:197-213). -/
def PokProof.verify (hash : List UInt8 → G1) (enc1 : G1 → List UInt8) (cd : ScalarCodec F)
    (chal : Transcript → F) (g1 : G1) (g2 : G2) (e : G1 →ₗ[F] G2 →ₗ[F] GT) (p : PokProof F G1)
    (revealed : List (ℤ × F)) (pk : G2) (gens : Gens G1) (nonce challenge : F) (t : Transcript) :
    Go Bool := do
  let t' ← p.contribution hash enc1 g1 gens revealed challenge t
  .ok (p.verifySigPok g2 e pk && decide (challenge = pokChallenge cd chal t' nonce))

/-! ## Serialization (48-byte points, 32-byte scalars) -/

/-- `Signature.MarshalBinary` (signature.go:34-38), `BlindSignature.MarshalBinary`
(blind_signature.go:38-42) -/
def Signature.marshal (enc1 : G1 → List UInt8) (cd : ScalarCodec F) (s : Signature F G1) :
    List UInt8 := enc1 s.a ++ cd.enc s.e ++ cd.enc s.s

/-- `Signature.UnmarshalBinary` (signature.go:40-67), `BlindSignature.UnmarshalBinary`
(blind_signature.go:44-71) -/
def Signature.unmarshal (dec1 : List UInt8 → Option G1) (cd : ScalarCodec F) (b : List UInt8) :
    Go (Signature F G1) := do
  Go.guard (b.length = 48 + 32 * 2)
  let a ← Go.ofOption (dec1 (b.take 48))
  let e ← Go.ofOption (cd.dec ((b.drop 48).take 32))
  let s ← Go.ofOption (cd.dec (b.drop 80))
  .ok ⟨a, e, s⟩

/-- `n` consecutive scalars of 32 bytes -/
def readScalars (cd : ScalarCodec F) : ℕ → List UInt8 → Go (List F)
  | 0, _ => .ok []
  | n + 1, b => do
    let x ← Go.ofOption (cd.dec (b.take 32))
    let xs ← readScalars cd n (b.drop 32)
    .ok (x :: xs)

/-- `BlindSignatureContext.MarshalBinary` (blind_signature_context.go:118-124) -/
def Context.marshal (enc1 : G1 → List UInt8) (cd : ScalarCodec F) (c : Context F G1) :
    List UInt8 := enc1 c.commitment ++ cd.enc c.challenge ++ (c.proofs.map cd.enc).flatten

/-- `BlindSignatureContext.UnmarshalBinary` (blind_signature_context.go:126-157) -/
def Context.unmarshal (dec1 : List UInt8 → Option G1) (cd : ScalarCodec F) (b : List UInt8) :
    Go (Context F G1) := do
  Go.guard (¬ b.length < 32 * 2 + 48)
  Go.guard ((b.length - 48) % 32 = 0)
  let c ← Go.ofOption (dec1 (b.take 48))
  let ch ← Go.ofOption (cd.dec ((b.drop 48).take 32))
  let ps ← readScalars cd ((b.length - 48) / 32 - 1) (b.drop 80)
  .ok ⟨c, ch, ps⟩

/-- `PokSignatureProof.MarshalBinary` (pok_signature_proof.go:41-51) -/
def PokProof.marshal (enc1 : G1 → List UInt8) (cd : ScalarCodec F) (p : PokProof F G1) :
    List UInt8 := enc1 p.aPrime ++ enc1 p.aBar ++ enc1 p.d ++ (p.proof1.map cd.enc).flatten ++
      (p.proof2.map cd.enc).flatten

/-- `PokSignatureProof.UnmarshalBinary` (pok_signature_proof.go:53-123) on a value from `Init` -/
def PokProof.unmarshal (dec1 : List UInt8 → Option G1) (cd : ScalarCodec F) (b : List UInt8) :
    Go (PokProof F G1) := do
  Go.guard (¬ b.length < 32 * 4 + 48 * 3)
  Go.guard ((b.length - 48) % 32 = 0)
  let a ← Go.ofOption (dec1 (b.take 48))
  let ab ← Go.ofOption (dec1 ((b.drop 48).take 48))
  let d ← Go.ofOption (dec1 ((b.drop 96).take 48))
  let p1 ← readScalars cd 2 (b.drop 144)
  let p2 ← readScalars cd ((b.length - 144) / 32 - 2) (b.drop 208)
  .ok ⟨a, ab, d, p1, p2⟩

end Verif.Bbs
