import Verif.Gg20.ProofModel
import Mathlib.Data.List.Dedup

/-!
# Model of GG20 signing (`pkg/tecdsa/gg20/participant`: participant.go, round1.go - round6.go)

Participant identifiers (`uint32`) are `ℕ`.  A Go map is the association list of its entries in the
order in which a `range` loop visits them, so that statements for all lists cover all iteration
orders; looking up a missing key of a map of pointers gives nil (`none`).  Random values are
arguments.  A round returns the new state together with its messages; the state after an error is
not modelled (every round overwrites what a failed attempt of it has stored, and `Round` is only
advanced on success).  State fields of later rounds hold dummy values; the round counter guards
them.  Commitments, `R` and the ciphertexts are modelled by their values; JSON is not modelled.
-/

namespace Verif.Gg20

/-- Using a pointer: nil panics. -/
def deref {α : Type} : Option α → Go α
  | none => Go.crash
  | some a => .ok a

/-- `dealer.KeyGenType` (keygentype.go:10-15): one set of parameters from a dealer, or one per
participant. -/
inductive KeyGen where
  | dealer (D : Dealer)
  | dkg (ps : List (ℕ × Dealer))

/-- `GetProofParams` (keygentype.go:36-38, 46-48). -/
def KeyGen.params : KeyGen → ℕ → Option Dealer
  | .dealer D, _ => some D
  | .dkg ps, id => ps.lookup id

/-- `IsTrustedDealer` (keygentype.go:31-33, 41-43). -/
def KeyGen.trusted : KeyGen → Bool
  | .dealer _ => true
  | .dkg _ => false

/-- Curve, HMAC and the uncompressed point encoding (`EcPoint.Bytes`, `PointFromBytesUncompressed`;
the decoder accepts points of the curve and the identity). -/
structure Env (q : ℕ) (G : Type) extends Curve q G where
  hmac : List UInt8 → List UInt8 → List UInt8
  enc : G → List UInt8
  dec : List UInt8 → Option G

/-- `curves.EcdsaSignature` (ecdsa.go:15-18). -/
structure Sig where
  v : ℕ
  r : ℤ
  s : ℤ
  deriving DecidableEq

/-- `Signer` (participant.go:31-43) with its `state` (participant.go:134-173). -/
structure Signer (G : Type) where
  id : ℕ
  sk : Paillier.SecretKey
  w : ℤ
  pub : List (ℕ × G)
  threshold : ℕ
  y : G
  round : ℕ
  keygen : KeyGen
  verify : G → List UInt8 → Sig → Bool
  cosigners : List ℕ
  pks : List (ℕ × Paillier.PublicKey)
  ki : ℤ
  gammai : ℤ
  Gammai : G
  Di : Core.Witness
  ci : ℤ
  ri : ℤ
  cj : List (ℕ × Option ℤ)
  Cj : List (ℕ × List UInt8)
  betaj : List (ℕ × ℤ)
  vuj : List (ℕ × ℤ)
  deltai : ℤ
  sigmai : ℤ
  delta : ℤ
  r : ℤ
  Rbari : G
  Rbark : G
  R : G
  si : ℤ
  msgHash : List UInt8

variable {q : ℕ} {G : Type} [AddCommGroup G] [Module (ZMod q) G]

/-- `Signer.verifyStateMap` (participant.go:71-110); `keys = none` is an untyped nil. -/
def verifyStateMap (s : Signer G) (round : ℕ) (keys : Option (List ℕ)) : Go Unit := do
  Go.guard (s.round = round)
  match keys with
  | none => .ok ()
  | some keys => do
    keys.forM fun id => Go.guard (¬ (id ≠ s.id ∧ id ∉ s.cosigners))
    s.cosigners.forM fun id => Go.guard (¬ (id ≠ s.id ∧ id ∉ keys))

/-- The second check of the senders without a trusted dealer (round2.go:49-53, round6.go:61-65). -/
def verifyP2PMap (s : Signer G) (round : ℕ) (keys : List ℕ) : Go Unit :=
  if s.keygen.trusted then .ok () else verifyStateMap s round (some keys)

/-- Which proof is checked: the broadcast one with a trusted dealer, else the private one
(round2.go:84-93, round6.go:106-114); nil panics. -/
def pickProof (s : Signer G) (bcast : Option Proof1) (p2p : List (ℕ × Option Proof1)) (j : ℕ) :
    Go Proof1 :=
  if s.keygen.trusted then deref bcast else deref (p2p.lookup j).join

/-! ## Setting up a signer -/

/-- The Lagrange coefficient loop (participant.go:203-216) with the coordinates of `makeXMap`
(participant.go:283-296): the identifier is cut to one byte. -/
def lagCoeff (ids : List ℕ) (j : ℕ) : Go (ZMod q) :=
  ids.foldlM (fun l k =>
    if j = k then .ok l
    else do
      let xk : ZMod q := ((k % 256 : ℕ) : ZMod q)
      let xj : ZMod q := ((j % 256 : ℕ) : ZMod q)
      Go.guard (¬ xk - xj = 0)
      .ok (l * (xk * (xk - xj)⁻¹))) 1

/-- The loop over the public shares of `convertToAdditive` (participant.go:201-234): the additive
public shares and, if the own identifier occurs, the additive private share. -/
def additiveLoop (id : ℕ) (value : ZMod q) (ids : List ℕ) :
    List (ℕ × G) → Go (List (ℕ × G) × Option (ZMod q))
  | [] => .ok ([], none)
  | (j, P) :: rest => do
    let l ← lagCoeff (q := q) ids j
    let (pubs, w) ← additiveLoop id value ids rest
    .ok ((j, l • P) :: pubs, if j = id then some (l * value) else w)

/-- `Participant.convertToAdditive` (participant.go:178-243) for a participant with non-nil share;
the identifiers are the keys of a map, so they are distinct. -/
def convertToAdditive (id : ℕ) (value : ZMod q) (publicShares : List (ℕ × Option G)) :
    Go (List (ℕ × G) × Option (ZMod q)) := do
  Go.guard (¬ publicShares.length < 2)
  let shares ← publicShares.mapM fun (j, P) => do
    let P ← Go.ofOption P
    .ok (j, P)
  additiveLoop id value (publicShares.map (·.1)) shares

/-- `Participant.PrepareToSign` (participant.go:247-280) for non-nil arguments. -/
def prepareToSign (id : ℕ) (value : ZMod q) (sk : Paillier.SecretKey) (y : G)
    (verify : G → List UInt8 → Sig → Bool) (keygen : KeyGen) (publicShares : List (ℕ × Option G))
    (pks : List (ℕ × Paillier.PublicKey)) : Go (Signer G) := do
  Go.guard (¬ publicShares.length < 1)
  let (pub, w) ← convertToAdditive id value publicShares
  let w ← deref w
  let others := (publicShares.map (·.1)).filter (· ≠ id)
  others.forM fun j => Go.guard ((pks.lookup j).isSome = true)
  .ok
    { id := id
      sk := sk
      w := (w.cast : ℤ)
      pub := pub
      threshold := publicShares.length
      y := y
      round := 1
      keygen := keygen
      verify := verify
      cosigners := others
      pks := pks
      ki := 0
      gammai := 0
      Gammai := 0
      Di := ⟨[], []⟩
      ci := 0
      ri := 0
      cj := []
      Cj := []
      betaj := []
      vuj := []
      deltai := 0
      sigmai := 0
      delta := 0
      r := 0
      Rbari := 0
      Rbark := 0
      R := 0
      si := 0
      msgHash := [] }

/-- `NewSigner` (participant.go:46-66): the cosigner list becomes the key set of a map, and the
signature check handed to `PrepareToSign` accepts everything. -/
def newSigner (id : ℕ) (value : ZMod q) (sk : Paillier.SecretKey) (y : G) (keygen : KeyGen)
    (publicShares : List (ℕ × G)) (pks : List (ℕ × Paillier.PublicKey)) (cosigners : List ℕ) :
    Go (Signer G) :=
  prepareToSign id value sk y (fun _ _ _ => true) keygen
    (cosigners.dedup.map fun j => (j, publicShares.lookup j)) pks

/-! ## Round 1 -/

/-- `Round1Bcast` (round1.go:20-25). -/
structure Bcast1 where
  C : List UInt8
  Ctxt : Option ℤ
  proof : Option Proof1

/-- The values drawn in round 1; one set of proof randomness per recipient. -/
structure Rnd1 where
  k : ℤ
  gamma : ℤ
  open_ : List UInt8
  r : ℤ
  rp : ℕ → Rand1

/-- `SignRound1` (round1.go:35-131). -/
def round1 (E : Env q G) (s : Signer G) (rnd : Rnd1) :
    Go (Signer G × Bcast1 × List (ℕ × Proof1)) := do
  verifyStateMap s 1 none
  let pk := s.sk.pk
  let Gamma : G := (rnd.gamma : ZMod q) • E.gen
  let cd := Core.commit E.hmac (E.enc Gamma) rnd.open_
  let ctxt ← pk.encrypt (some rnd.k) (some rnd.r)
  let (proof, p2p) ← match s.keygen with
    | .dealer D => do
      let pi ← prove1 E.toCurve pk D rnd.k ctxt rnd.r (rnd.rp s.id)
      .ok (some pi, [])
    | .dkg _ => do
      let p2p ← (s.cosigners.filter (· ≠ s.id)).mapM fun id => do
        let D ← Go.ofOption (s.keygen.params id)
        let pi ← prove1 E.toCurve pk D rnd.k ctxt rnd.r (rnd.rp id)
        .ok (id, pi)
      .ok (none, p2p)
  let s' :=
    { s with
      round := 2
      ki := rnd.k
      gammai := rnd.gamma
      Gammai := Gamma
      Di := cd.2
      ci := ctxt
      ri := rnd.r }
  .ok (s', ⟨cd.1, some ctxt, proof⟩, p2p)

/-! ## Round 2 -/

/-- `P2PSend` (round2.go:19-21); `Beta` is cleared before sending and not read by the receiver. -/
structure P2P where
  proof2 : Option Response
  proof3 : Option Response

/-- The values drawn for one MtA response. -/
structure RndM where
  betaTick : ℤ
  rBeta : ℤ
  rp : Rand2

/-- `Range1Proof.Verify` with parameters that may be nil: nil parameters are used only after the
check of `s1` and the Paillier side (mta.go:459-470, 513-516), and panic. -/
def verify1N (E : Curve q G) (pk : Paillier.PublicKey) (D : Option Dealer) (c : Option ℤ)
    (pi : Proof1) : Go Unit :=
  match D with
  | some D => verify1 E pk D c pi
  | none => do
    cmpLe pi.s1 ((q : ℤ) ^ 3)
    let _ ← uHat1 pk c pi
    Go.crash

/-- `genResponseProof` with parameters that may be nil: they are used after the ciphertexts have
been computed (mta.go:202-249, 559-575), and nil panics. -/
def genResponseN (E : Curve q G) (pk : Paillier.PublicKey) (D : Option Dealer) (B : Option G)
    (smallB c1 : ℤ) (m : RndM) : Go Response :=
  match D with
  | some D => genResponse E pk D B smallB c1 m.betaTick m.rBeta m.rp
  | none => do
    let cb ← pk.mul (some smallB) (some c1)
    let cBeta ← pk.encrypt (some m.betaTick) (some m.rBeta)
    let _ ← pk.add (some cb) (some cBeta)
    let _ ← Core.neg (some m.betaTick) (some (q : ℤ))
    Core.inZm (some smallB) (some (q : ℤ))
    Go.crash

/-- What one iteration of the loop of round 2 stores and sends. -/
structure Out2 where
  j : ℕ
  c : Option ℤ
  C : List UInt8
  beta : ℤ
  vu : ℤ
  msg : P2P

/-- One iteration of the loop (round2.go:74-127) for `j ≠ i` and a non-nil message. -/
def step2 (E : Env q G) (s : Signer G) (B : G) (p2p : List (ℕ × Option Proof1))
    (rnd : ℕ → RndM × RndM) (jp : ℕ × Bcast1) : Go Out2 := do
  let j := jp.1
  let param := jp.2
  let pk ← deref (s.pks.lookup j)
  let pi ← pickProof s param.proof p2p j
  verify1N E.toCurve pk (s.keygen.params s.id) param.Ctxt pi
  let c ← Go.ofOption param.Ctxt
  let proofGamma ← genResponseN E.toCurve pk (s.keygen.params j) none s.gammai c (rnd j).1
  let proofW ← genResponseN E.toCurve pk (s.keygen.params j) (some B) s.w c (rnd j).2
  .ok
    { j := j
      c := param.Ctxt
      C := param.C
      beta := proofGamma.beta
      vu := proofW.beta
      msg := ⟨some { proofGamma with beta := 0 }, some { proofW with beta := 0 }⟩ }

/-- `SignRound2` (round2.go:44-130).  The key of a cosigner is looked up before its proof is
checked (a missing key panics inside `Verify`; `PrepareToSign` excludes it). -/
def round2 (E : Env q G) (s : Signer G) (params : List (ℕ × Option Bcast1))
    (p2p : List (ℕ × Option Proof1)) (rnd : ℕ → RndM × RndM) :
    Go (Signer G × List (ℕ × P2P)) := do
  verifyStateMap s 2 (some (params.map (·.1)))
  verifyP2PMap s 2 (p2p.map (·.1))
  let B ← deref (s.pub.lookup s.id)
  let outs ← (params.filterMap fun jp =>
      if jp.1 = s.id then none else jp.2.map fun m => (jp.1, m)).mapM (step2 E s B p2p rnd)
  let s' :=
    { s with
      round := 3
      cj := outs.map fun o => (o.j, o.c)
      Cj := outs.map fun o => (o.j, o.C)
      betaj := outs.map fun o => (o.j, o.beta)
      vuj := outs.map fun o => (o.j, o.vu) }
  .ok (s', outs.map fun o => (o.j, o.msg))

/-! ## Round 3 -/

/-- `Finalize` / `FinalizeWc` with parameters that may be nil: they are first used after the two
range checks (mta.go:695-730). -/
def finalizeN (E : Curve q G) (sk : Paillier.SecretKey) (D : Option Dealer) (B : Option G) (c1 : ℤ)
    (rp : Response) : Go ℤ :=
  match D with
  | some D => finalize E sk D B c1 rp
  | none => do
    cmpLe rp.proof.s1 ((q : ℤ) ^ 3)
    cmpLe rp.proof.t1 ((q : ℤ) ^ 7)
    Go.crash

/-- One iteration of the loop (round3.go:80-128) for `j ≠ i`. -/
def step3 (E : Env q G) (s : Signer G) (acc : ℤ × ℤ) (jv : ℕ × Option P2P) : Go (ℤ × ℤ) := do
  let j := jv.1
  let value ← Go.ofOption jv.2
  let p2 ← deref value.proof2
  let alpha ← finalizeN E.toCurve s.sk (s.keygen.params s.id) none s.ci p2
  let Wj ← deref (s.pub.lookup j)
  let p3 ← deref value.proof3
  let mu ← finalizeN E.toCurve s.sk (s.keygen.params s.id) (some Wj) s.ci p3
  let d1 ← Core.add (some acc.1) (some alpha) (some (q : ℤ))
  let d2 ← Core.add (some d1) (s.betaj.lookup j) (some (q : ℤ))
  let s1 ← Core.add (some acc.2) (some mu) (some (q : ℤ))
  let s2 ← Core.add (some s1) (s.vuj.lookup j) (some (q : ℤ))
  .ok (d2, s2)

/-- `SignRound3` (round3.go:55-140). -/
def round3 (E : Env q G) (s : Signer G) (inp : List (ℕ × Option P2P)) : Go (Signer G × ℤ) := do
  verifyStateMap s 3 (some (inp.map (·.1)))
  let deltai ← Core.mul (some s.ki) (some s.gammai) (some (q : ℤ))
  let sigmai ← Core.mul (some s.ki) (some s.w) (some (q : ℤ))
  let ds ← (inp.filter fun jv => jv.1 ≠ s.id).foldlM (step3 E s) (deltai, sigmai)
  let s' :=
    { s with
      round := 4
      deltai := ds.1
      sigmai := ds.2 }
  .ok (s', ds.1)

/-! ## Round 4 -/

/-- `SignRound4` (round4.go:26-60); a message is a pointer to a struct with a pointer. -/
def round4 (q : ℕ) {G : Type} (s : Signer G) (deltas : List (ℕ × Option (Option ℤ))) :
    Go (Signer G × Core.Witness) := do
  verifyStateMap s 4 (some (deltas.map (·.1)))
  let delta ← (deltas.filter fun jd => jd.1 ≠ s.id).foldlM (fun acc jd => do
    let m ← deref jd.2
    Core.add (some acc) m (some (q : ℤ))) s.deltai
  let s' :=
    { s with
      round := 5
      delta := delta }
  .ok (s', s.Di)

/-! ## Round 5 -/

/-- `Round5Bcast` (round5.go:19-22). -/
structure Bcast5 (G : Type) where
  Rbar : Option G
  proof : Option Proof1

/-- One iteration of the loop (round5.go:42-72); the witness of `Round4Bcast` is a pointer. -/
def step5 (E : Env q G) (s : Signer G) (R : G) (jd : ℕ × Option (Option Core.Witness)) : Go G := do
  let d ← Go.ofOption jd.2
  if jd.1 = s.id then .ok R
  else do
    let wit ← deref d
    let ok ← Core.openC E.hmac ((s.Cj.lookup jd.1).getD []) wit
    Go.guard (ok = true)
    let Gammaj ← Go.ofOption (E.dec wit.msg)
    .ok (R + Gammaj)

/-- `SignRound5` (round5.go:33-151). -/
def round5 (E : Env q G) (s : Signer G) (witnesses : List (ℕ × Option (Option Core.Witness)))
    (rp : ℕ → Rand1) : Go (Signer G × Bcast5 G × List (ℕ × Proof1)) := do
  verifyStateMap s 5 (some (witnesses.map (·.1)))
  let R0 ← witnesses.foldlM (step5 E s) s.Gammai
  let deltaInv ← Core.inv (some s.delta) (some (q : ℤ))
  let R : G := (deltaInv : ZMod q) • R0
  let Rbari : G := (s.ki : ZMod q) • R
  let Rbark : G := (s.sigmai : ZMod q) • R
  let pk := s.sk.pk
  let (proof, p2p) ← match s.keygen with
    | .dealer D => do
      let pi ← pdlProve E.toCurve pk D R Rbari s.ki s.ri s.ci (rp s.id)
      .ok (some pi, [])
    | .dkg _ => do
      let p2p ← (s.cosigners.filter (· ≠ s.id)).mapM fun id => do
        let D ← Go.ofOption (s.keygen.params id)
        let pi ← pdlProve E.toCurve pk D R Rbari s.ki s.ri s.ci (rp id)
        .ok (id, pi)
      .ok (none, p2p)
  let s' :=
    { s with
      round := 6
      R := R
      r := (E.xy R).1
      Rbari := Rbari
      Rbark := Rbark }
  .ok (s', ⟨some Rbari, proof⟩, p2p)

/-! ## Round 6 and output -/

/-- One iteration of the loop of `signRound6Offline` (round6.go:89-121) for `j ≠ i`. -/
def step6 (E : Env q G) (s : Signer G) (p2p : List (ℕ × Option Proof1)) (v : G)
    (jv : ℕ × Option (Bcast5 G)) : Go G := do
  let value ← deref jv.2
  let pi ← pickProof s value.proof p2p jv.1
  let Rbar ← match s.pks.lookup jv.1, s.keygen.params s.id, value.Rbar with
    | some pk, some D, some Rbar => do
      pdlVerify E.toCurve pk D s.R Rbar (s.cj.lookup jv.1).join pi
      .ok Rbar
    | _, _, _ => Go.err
  .ok (v + Rbar)

/-- `signRound6Offline` (round6.go:80-129). -/
def round6Offline [DecidableEq G] (E : Env q G) (s : Signer G)
    (inp : List (ℕ × Option (Bcast5 G))) (p2p : List (ℕ × Option Proof1)) : Go Unit := do
  let v ← (inp.filter fun jv => jv.1 ≠ s.id).foldlM (step6 E s p2p) s.Rbari
  Go.guard (v = E.gen)

/-- `signRound6Online` (round6.go:134-167). -/
def round6Online (q : ℕ) {G : Type} (s : Signer G) (hash : List UInt8) : Go (Signer G × ℤ) := do
  let m : ℤ := beNat hash
  Core.inZm (some m) (some (q : ℤ))
  let mk ← Core.mul (some m) (some s.ki) (some (q : ℤ))
  let rs ← Core.mul (some s.r) (some s.sigmai) (some (q : ℤ))
  let si ← Core.add (some mk) (some rs) (some (q : ℤ))
  let s' :=
    { s with
      round := 7
      si := si
      msgHash := hash }
  .ok (s', si)

/-- `SignRound6Full` (round6.go:56-75). -/
def round6 [DecidableEq G] (E : Env q G) (s : Signer G) (hash : List UInt8)
    (inp : List (ℕ × Option (Bcast5 G))) (p2p : List (ℕ × Option Proof1)) :
    Go (Signer G × ℤ) := do
  verifyStateMap s 6 (some (inp.map (·.1)))
  verifyP2PMap s 6 (p2p.map (·.1))
  round6Offline E s inp p2p
  round6Online q s hash

/-- `Signer.normalizeS` (round6.go:213-243). -/
def normalizeS (q : ℕ) (s : ℤ) : ℤ := if s > (q : ℤ) / 2 then q - s else s

/-- `SignOutput` (round6.go:171-211); the round counter stays at 7. -/
def signOutput (E : Env q G) (s : Signer G) (inp : List (ℕ × Option (Option ℤ))) : Go Sig := do
  verifyStateMap s 7 (some (inp.map (·.1)))
  let sum ← (inp.filter fun js => js.1 ≠ s.id).foldlM (fun acc js => do
    let m ← deref js.2
    Core.add (some acc) m (some (q : ℤ))) s.si
  let sn := normalizeS q sum
  let v : ℕ := ((E.xy s.R).2 % 2).toNat
  let v := if sum ≠ sn then v ^^^ 1 else v
  let sigma : Sig := ⟨v, s.r, sn⟩
  Go.guard (s.verify s.y s.msgHash sigma = true)
  .ok sigma

end Verif.Gg20
