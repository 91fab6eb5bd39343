import Verif.Sharing.Model

/-!
# Model of `pkg/dkg/frost`

Scalars `F` with codec `cd`, points `G` with generator `g` and encoding `penc`
(`ToAffineCompressed`), `hs` is `Scalar.Hash` (an arbitrary function).  Go maps keyed by participant
identifiers are association lists with distinct keys whose order is the (unspecified) iteration
order; a missing key reads as nil.  Nil interface values inside a broadcast (which panic) and the gob
encoding are not modelled.  All points of the model are on the curve.
-/

namespace Verif.Frost

open Sharing

variable {F : Type} [Field F] [DecidableEq F]
variable {G : Type} [AddCommGroup G] [Module F G] [DecidableEq G]

/-- Lookup in a Go map of pointers. -/
def mapGet {V : Type} (m : List (UInt32 × Option V)) (k : UInt32) : Option V := (m.lookup k).join

/-- digits of `strconv.Atoi`; `none` = syntax error -/
def atoiDigits : List Char → ℕ → Option ℕ
  | [], acc => some acc
  | c :: cs, acc => if '0' ≤ c ∧ c ≤ '9' then atoiDigits cs (acc * 10 + (c.toNat - 48)) else none

/-- First result of `strconv.Atoi` (the error is dropped at participant.go:55): 0 on a syntax
error, clamped to the range of a 64-bit `int` on a range error. -/
def atoi (s : List Char) : ℤ :=
  let r := match s with
    | '+' :: cs => (false, cs)
    | '-' :: cs => (true, cs)
    | cs => (false, cs)
  if r.2 = [] then 0
  else match atoiDigits r.2 0 with
    | none => 0
    | some v => if r.1 then max (-(v : ℤ)) (-(2 ^ 63)) else min (v : ℤ) (2 ^ 63 - 1)

/-- `DkgParticipant` (participant.go:18-30); `others` is the key set of `otherParticipantShares`. -/
structure State (F G : Type) where
  round : ℕ
  others : List UInt32
  id : UInt32
  feldman : Shamir
  ctx : UInt8
  verifiers : List G := []
  secretShares : List Share := []
  skShare : Option F := none
  verificationKey : Option G := none
  vkShare : Option G := none
  deriving DecidableEq

/-- `NewDkgParticipant` (participant.go:38-65).  `otherParticipants` may contain duplicates: the
limit counts them, the map does not. -/
def newDkgParticipant (id threshold : UInt32) (ctx : List Char) (curveNonNil : Bool)
    (otherParticipants : List UInt32) : Go (State F G) := do
  Go.guard (curveNonNil = true ∧ otherParticipants.length ≠ 0)
  let limit := UInt32.ofNat otherParticipants.length + 1
  let feldman ← newShamir threshold limit true
  .ok { round := 1, others := otherParticipants.dedup, id := id, feldman := feldman,
        ctx := UInt8.ofInt (atoi ctx) }

/-- `Round1Bcast` (dkg_round1.go:25-28). -/
structure Bcast (F G : Type) where
  verifiers : List G
  wi : F
  ci : F
  deriving DecidableEq

/-- The hashed message of dkg_round1.go:113-121 and dkg_round2.go:93-101. -/
def hashMsg (penc : G → List UInt8) (id : UInt32) (ctx : UInt8) (a r : G) : List UInt8 :=
  id.toUInt8 :: ctx :: (penc a ++ penc r)

/-- The choice of the secret in `Round1` (dkg_round1.go:76-90): `none` = nil slice. -/
def pickSecret (cd : ScalarCodec F) (secret : Option (List UInt8)) (sampled : F) : Go F :=
  match secret with
  | none => .ok sampled
  | some b => do
    let s ← Go.ofOption (cd.dec b)
    Go.guard (s ≠ 0)
    .ok s

/-- `DkgParticipant.Round1` (dkg_round1.go:60-148) for a non-nil receiver.  Random choices: the
secret `sampled` (used when `secret` is nil), the polynomial stream `rnd`, the nonce `ki`. -/
def round1 (cd : ScalarCodec F) (g : G) (penc : G → List UInt8) (hs : List UInt8 → F)
    (st : State F G) (secret : Option (List UInt8)) (sampled : F) (rnd : ℕ → F) (ki : F) :
    Go (State F G × Bcast F G × List (UInt32 × Option Share)) := do
  Go.guard (st.round = 1)
  Go.guard (¬ (UInt32.ofNat (st.others.length + 1) > st.feldman.limit ∨
    UInt32.ofNat (st.others.length + 1) < st.feldman.threshold))
  let s ← pickSecret cd secret sampled
  let (verifiers, shares) ← feldmanSplit cd g st.feldman s rnd
  let ri := ki • g
  match verifiers with
  | [] => Go.crash
  | a0 :: _ => do
    let ci := hs (hashMsg penc st.id st.ctx a0 ri)
    let wi := s * ci + ki
    let p2p ← st.others.mapM fun id => match shares[(id - 1).toNat]? with
      | none => Go.crash
      | some sh => .ok (id, some sh)
    .ok ({ st with verifiers := verifiers, secretShares := shares, round := 2 },
      ⟨verifiers, wi, ci⟩, p2p)

/-- Body of the verification loop of `Round2` for one sender (dkg_round2.go:71-113). -/
def checkPeer (cd : ScalarCodec F) (g : G) (penc : G → List UInt8) (hs : List UInt8 → F)
    (ctx : UInt8) (id : UInt32) (b : Bcast F G) (share : Option Share) : Go Unit :=
  match b.verifiers with
  | [] => Go.crash
  | aj0 :: _ => do
    let prod1 := b.wi • g
    let prod2 := (-b.ci) • aj0
    Go.guard (¬ (aj0 = 0 ∨ prod2 = 0))
    let prod := prod1 + prod2
    Go.guard (hs (hashMsg penc id ctx aj0 prod) = b.ci)
    feldmanVerify cd g b.verifiers share

/-- `Round2Bcast` (dkg_round2.go:19-22). -/
structure Bcast2 (G : Type) where
  verificationKey : G
  vkShare : G
  deriving DecidableEq

/-- `DkgParticipant.Round2` (dkg_round2.go:25-158) for a non-nil receiver; `none` = nil map.  The
test `prod2 == nil` is dead code. -/
def round2 (cd : ScalarCodec F) (g : G) (penc : G → List UInt8) (hs : List UInt8 → F)
    (st : State F G) (bcast : Option (List (UInt32 × Option (Bcast F G))))
    (p2psend : Option (List (UInt32 × Option Share))) : Go (State F G × Bcast2 G) := do
  Go.guard (st.round = 2)
  match bcast, p2psend with
  | some bc, some p2p => do
    Go.guard (p2p.length ≠ 0)
    Go.guard (¬ (UInt32.ofNat bc.length > st.feldman.limit ∨
      UInt32.ofNat bc.length < st.feldman.threshold - 1))
    Go.guard (¬ (UInt32.ofNat p2p.length > st.feldman.limit - 1 ∨
      UInt32.ofNat p2p.length < st.feldman.threshold - 1))
    bc.forM fun e => match e.2 with
      | none => Go.crash
      | some b => Go.guard (b.ci ≠ 0)
    bc.forM fun e => match e.2 with
      | none => Go.crash
      | some b => b.verifiers.forM fun com => Go.guard (com ≠ 0)
    bc.forM fun e =>
      if e.1 = st.id then .ok () else match e.2 with
      | none => Go.crash
      | some b => checkPeer cd g penc hs st.ctx e.1 b (mapGet p2p e.1)
    match st.secretShares[(st.id - 1).toNat]? with
    | none => Go.crash
    | some own => do
      let sk0 ← Go.ofOption (cd.dec own.value)
      match st.verifiers with
      | [] => Go.crash
      | vk0 :: _ => do
        let sk ← bc.foldlM (fun sk e =>
          if e.1 = st.id then .ok sk else match mapGet p2p e.1 with
          | none => Go.crash
          | some sh => do
            let t2 ← Go.ofOption (cd.dec sh.value)
            .ok (sk + t2)) sk0
        let vk ← bc.foldlM (fun vk e =>
          if e.1 = st.id then .ok vk else match e.2 with
          | none => Go.crash
          | some b => match b.verifiers with
            | [] => Go.crash
            | aj0 :: _ => .ok (vk + aj0)) vk0
        .ok ({ st with skShare := some sk, vkShare := some (sk • g), verificationKey := some vk,
                       round := 3 }, ⟨vk, sk • g⟩)
  | _, _ => Go.err

end Verif.Frost
