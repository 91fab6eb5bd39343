import Verif.Sharing.V1Model
import Verif.Dkg.FrostModel

/-!
# Model of `pkg/dkg/gennaro` and `pkg/dkg/gennaro2p`

Scalars are `ZMod q` for the (prime) curve order `q`, points an abstract module with base point `g`
and blinding generator `h` (`EcPoint` operations on points of one curve do not fail).  Go maps are
association lists with distinct keys in iteration order.  Rounds return the new state also when they
fail, because the Go methods write into the participant before they detect an error.
A nil receiver and nil verifier pointers are not modelled.
-/

namespace Verif.Gennaro

open V1
open Verif.Frost (mapGet)

variable {q : ℕ} [Fact q.Prime]
variable {G : Type} [AddCommGroup G] [Module (ZMod q) G] [DecidableEq G]

/-- `validIds` (participant.go:78-91): the list consists of the values `1..n`. -/
def validIds (ids : List UInt32) : Go Unit :=
  Go.guard (∀ i ∈ List.range ids.length, UInt32.ofNat (i + 1) ∈ ids)

/-- `v1.PedersenResult` as kept by the participant. -/
structure Dealt (q : ℕ) (G : Type) where
  blindingShares : List (Share q)
  secretShares : List (Share q)
  blindedVerifiers : List G
  verifiers : List G
  deriving DecidableEq

/-- `Participant` (participant.go:21-32).  `shares` and `vs` hold the `Share` and `Verifiers` fields
of `otherParticipantShares`, newest write first; `others` is the key set of that map. -/
structure State (q : ℕ) (G : Type) where
  round : ℕ
  id : UInt32
  others : List UInt32
  scheme : Shamir
  dealt : Option (Dealt q G) := none
  shares : List (UInt32 × Share q) := []
  vs : List (UInt32 × List G) := []
  skShare : Option (ZMod q) := none
  verificationKey : Option G := none
  deriving DecidableEq

/-- `NewParticipant` (participant.go:40-75); the generator is non-nil. -/
def newParticipant (id threshold : UInt32) (others : List UInt32) : Go (State q G) := do
  Go.guard (others.length ≠ 0)
  validIds (others ++ [id])
  let limit := UInt32.ofNat others.length + 1
  Go.guard (¬ limit < threshold)
  Go.guard (¬ threshold < 2)
  .ok { round := 1, id := id, others := others.dedup, scheme := ⟨threshold, limit⟩ }

/-- `Round1P2PSendPacket` (round1.go:27-30). -/
structure Packet (q : ℕ) where
  secretShare : Option (Share q)
  blindingShare : Option (Share q)
  deriving DecidableEq

/-- choice of the secret in `Round1` (round1.go:41-56) -/
def pickSecret (q : ℕ) (secret : Option (List UInt8)) (sampled : ZMod q) : Go (List UInt8) :=
  match secret with
  | none => .ok (natBytes sampled.val)
  | some b => do
    Go.guard (beNat b < q)
    Go.guard (beNat b ≠ 0)
    .ok b

/-- `Participant.Round1` (round1.go:36-80).  Random: `sampled` secret, blinding, coefficients. -/
def round1 (g h : G) (st : State q G) (secret : Option (List UInt8)) (sampled blinding : ZMod q)
    (rnd rndB : ℕ → ZMod q) :
    State q G × Go (List G × List (UInt32 × Option (Packet q))) :=
  if st.round ≠ 1 then (st, Go.err)
  else match pickSecret q secret sampled with
    | .error e => (st, .error e)
    | .ok s => match pedersenSplit g h st.scheme s blinding rnd rndB with
      | .error e => ({ st with dealt := none }, .error e)
      | .ok (_, bsh, shs, bv, v) =>
        let st' := { st with dealt := some ⟨bsh, shs, bv, v⟩ }
        match st.others.mapM (fun id => match shs[(id - 1).toNat]?, bsh[(id - 1).toNat]? with
            | some x, some r => (.ok (id, some ⟨some x, some r⟩) :
                Go (UInt32 × Option (Packet q)))
            | _, _ => Go.crash) with
        | .error e => (st', .error e)
        | .ok p2p => ({ st' with round := 2 }, .ok (bv, p2p))

/-- the loop of `Round2` (round2.go:43-81): stored shares and accumulated signing share -/
def round2Loop (g h : G) (st : State q G) (p2p : List (UInt32 × Option (Packet q))) :
    List (UInt32 × List G) → List (UInt32 × Share q) → ZMod q →
      List (UInt32 × Share q) × Go (ZMod q)
  | [], acc, sk => (acc, .ok sk)
  | (id, bvs) :: rest, acc, sk =>
    if id = st.id then round2Loop g h st p2p rest acc sk
    else match mapGet p2p id with
      | none => (acc, Go.err)
      | some pk => match pedersenVerify g h st.scheme pk.secretShare pk.blindingShare bvs with
        | .error e => (acc, .error e)
        | .ok false => (acc, Go.err)
        | .ok true => match pk.secretShare with
          | none => (acc, Go.crash)
          | some x =>
            if id ∈ st.others then round2Loop g h st p2p rest ((id, x) :: acc) (sk + x.value)
            else (acc, Go.crash)

/-- `Participant.Round2` (round2.go:22-91); `none` = nil map. -/
def round2 (g h : G) (st : State q G) (bcast : Option (List (UInt32 × List G)))
    (p2p : Option (List (UInt32 × Option (Packet q)))) : State q G × Go (List G) :=
  if st.round ≠ 2 then (st, Go.err)
  else match bcast, p2p with
    | some bc, some pp =>
      if bc.length = 0 ∨ pp.length = 0 then (st, Go.err)
      else match st.dealt with
        | none => (st, Go.crash)
        | some d => match d.secretShares[(st.id - 1).toNat]? with
          | none => (st, Go.crash)
          | some own => match round2Loop g h st pp bc st.shares own.value with
            | (acc, .error e) => ({ st with shares := acc }, .error e)
            | (acc, .ok sk) =>
              ({ st with shares := acc, round := 3, skShare := some sk }, .ok d.verifiers)
    | _, _ => (st, Go.err)

/-- the loop of `Round3` (round3.go:42-68) -/
def round3Loop (g : G) (st : State q G) :
    List (UInt32 × List G) → List (UInt32 × List G) → G → List (UInt32 × List G) × Go G
  | [], acc, pk => (acc, .ok pk)
  | (id, vs) :: rest, acc, pk =>
    if id = st.id then round3Loop g st rest acc pk
    else if id ∉ st.others then (acc, Go.crash)
    else match feldmanVerify g st.scheme (st.shares.lookup id) vs with
      | .error e => (acc, .error e)
      | .ok false => (acc, Go.err)
      | .ok true => match vs with
        | [] => ((id, vs) :: acc, Go.crash)
        | v0 :: _ => round3Loop g st rest ((id, vs) :: acc) (pk + v0)

/-- `Participant.Round3` (round3.go:22-89); an empty and a nil map are the same. -/
def round3 (g : G) (st : State q G) (bcast : List (UInt32 × List G)) :
    State q G × Go (G × Share q) :=
  if st.round ≠ 3 then (st, Go.err)
  else if bcast.length = 0 then (st, Go.err)
  else match st.dealt with
    | none => (st, Go.crash)
    | some d => match d.verifiers with
      | [] => (st, Go.crash)
      | v0 :: _ => match round3Loop g st bcast st.vs v0 with
        | (acc, .error e) => ({ st with vs := acc }, .error e)
        | (acc, .ok pk) =>
          if pk = 0 then ({ st with vs := acc }, Go.err)
          else match st.skShare with
            | none => ({ st with vs := acc, verificationKey := some pk, round := 4 }, Go.crash)
            | some sk => ({ st with vs := acc, verificationKey := some pk, round := 4 },
                .ok (pk, ⟨st.id, sk⟩))

/-- one public share of `Round4` (round4.go:44-72): `Pk + Σ_k (j·(k+1))·v[k]` for `k < t` -/
def publicShare (pk : G) (t : ℕ) (j : UInt32) (v : List G) : Go G :=
  (List.range t).foldlM (fun acc k => match v[k]? with
    | none => Go.crash
    | some vk => .ok (acc + ((j.toNat : ZMod q) * ((k + 1 : ℕ) : ZMod q)) • vk)) pk

/-- `Participant.Round4` (round4.go:21-76). -/
def round4 (st : State q G) : Go (List (UInt32 × G)) := do
  Go.guard (st.round = 4)
  match st.dealt, st.verificationKey with
  | some d, some pk =>
    ((st.id, d.verifiers) :: st.others.map fun j => (j, (st.vs.lookup j).getD [])).mapM fun jv => do
      let w ← publicShare (q := q) pk d.verifiers.length jv.1 jv.2
      .ok (jv.1, w)
  | _, _ => Go.crash

/-! ### The two-party wrapper -/

/-- `gennaro2p.NewParticipant` (genarro2p.go:55-70) with the blinding generator already chosen. -/
def new2p (id counter : UInt32) : Go (State q G) := newParticipant id 2 [counter]

/-- `Round1Message` (genarro2p.go:34-39); the `Blind` field is never read by the receiver. -/
structure Msg1 (q : ℕ) (G : Type) where
  verifiers : List G
  secretShare : Option (Share q)
  blindingShare : Option (Share q)
  deriving DecidableEq

/-- `Participant.Round1` (genarro2p.go:84-104) -/
def round1_2p (g h : G) (counter : UInt32) (st : State q G) (secret : Option (List UInt8))
    (sampled blinding : ZMod q) (rnd rndB : ℕ → ZMod q) : State q G × Go (Msg1 q G) :=
  match round1 g h st secret sampled blinding rnd rndB with
  | (st', .error e) => (st', .error e)
  | (st', .ok (bc, p2p)) => match mapGet p2p counter with
    | none => (st', Go.err)
    | some pk => (st', .ok ⟨bc, pk.secretShare, pk.blindingShare⟩)

/-- `Participant.Round2` (genarro2p.go:107-124), non-nil message -/
def round2_2p (g h : G) (counter : UInt32) (st : State q G) (msg : Msg1 q G) :
    State q G × Go (List G) :=
  round2 g h st (some [(counter, msg.verifiers)])
    (some [(counter, some ⟨msg.secretShare, msg.blindingShare⟩)])

/-- `Participant.Finalize` (genarro2p.go:127-149), non-nil message: public key, share, public shares -/
def finalize2p (g : G) (counter : UInt32) (st : State q G) (msg : List G) :
    State q G × Go (G × Share q × List (UInt32 × G)) :=
  match round3 g st [(counter, msg)] with
  | (st', .error e) => (st', .error e)
  | (st', .ok (pk, share)) => match round4 st' with
    | .error e => (st', .error e)
    | .ok ps => (st', .ok (pk, share, ps))

end Verif.Gennaro
