import Verif.Dkg.FrostModel

/-!
# Model of `pkg/ted25519/frost` (threshold Schnorr signing)

`hs` is `Scalar.Hash`, `chal` is `ChallengeDerive.DeriveChallenge`, `isNeg` is `Point.IsNegative` (all
arbitrary functions), `penc` is `ToAffineCompressed`.  Every round returns the state of the signer also
when it fails.  Maps are association lists with distinct keys in iteration order.  The signer is built
from a finished key generation (non-nil key share); a nil receiver and nil values inside
messages other than those tested for are not modelled.
-/

namespace Verif.FrostSign

open Verif.Frost (mapGet)

variable {F : Type} [Field F] [DecidableEq F]
variable {G : Type} [AddCommGroup G] [Module F G] [DecidableEq G]

/-- `Round1Bcast` of signing (round1.go:21-23) -/
structure Commit (G : Type) where
  D : G
  E : G
  deriving DecidableEq

/-- `Round2Bcast` of signing (round2.go:21-24) -/
structure Resp (F G : Type) where
  z : F
  vk : G
  deriving DecidableEq

/-- `Signer` with its `state` (participant.go:19-44) -/
structure Signer (F G : Type) where
  skShare : F
  vkShare : G
  vk : G
  id : UInt32
  threshold : UInt32
  round : ℕ
  lCoeffs : List (UInt32 × F)
  cosigners : List UInt32
  smallD : Option F := none
  smallE : Option F := none
  commitments : Option (List (UInt32 × Option (Commit G))) := none
  msg : List UInt8 := []
  c : Option F := none
  capRs : List (UInt32 × G) := []
  sumR : Option G := none

/-- `NewSigner` (participant.go:49-83) for a non-nil `info`. -/
def newSigner (skShare : F) (vkShare vk : G) (id thresh : UInt32) (lcoeffs : List (UInt32 × F))
    (cosigners : List UInt32) : Go (Signer F G) := do
  Go.guard (cosigners.length ≠ 0 ∧ lcoeffs.length ≠ 0)
  Go.guard (¬ thresh > UInt32.ofNat cosigners.length)
  Go.guard (lcoeffs.length = cosigners.length)
  Go.guard (∀ i ∈ cosigners, i ∈ lcoeffs.map Prod.fst)
  .ok { skShare := skShare, vkShare := vkShare, vk := vk, id := id, threshold := thresh, round := 1,
        lCoeffs := lcoeffs, cosigners := cosigners }

/-- `SignRound1` (round1.go:45-78) with the nonces `d`, `e`. -/
def round1 (g : G) (st : Signer F G) (d e : F) : Signer F G × Go (Commit G) :=
  if st.round ≠ 1 then (st, Go.err)
  else ({ st with round := 2, smallD := some d, smallE := some e }, .ok ⟨d • g, e • g⟩)

/-- `concatHashArray` (round2.go:161-181); a cosigner missing from the input is a nil pointer. -/
def blob (penc : G → List UInt8) (id : UInt32) (msg : List UInt8)
    (input : List (UInt32 × Option (Commit G))) (cosigners : List UInt32) : Go (List UInt8) := do
  let parts ← cosigners.mapM fun j => match mapGet input j with
    | none => Go.crash
    | some m => .ok (j.toUInt8 :: (penc m.D ++ penc m.E))
  .ok (id.toUInt8 :: (msg ++ parts.flatten))

/-- loop of steps 3-6 of `SignRound2` (round2.go:97-115): `(j, r_j, R_j)` for every entry -/
def bindings (hs : List UInt8 → F) (penc : G → List UInt8) (msg : List UInt8)
    (cosigners : List UInt32) (input : List (UInt32 × Option (Commit G))) :
    Go (List (UInt32 × F × G)) :=
  input.mapM fun e => match e.2 with
    | none => Go.crash
    | some m => do
      let b ← blob penc e.1 msg input cosigners
      .ok (e.1, hs b, hs b • m.E + m.D)

/-- the test of one entry of the round 2 input (round2.go:80-87): not nil, no identity -/
def checkCommit (e : UInt32 × Option (Commit G)) : Go Unit :=
  match e.2 with
  | none => Go.err
  | some m => Go.guard (m.D ≠ 0 ∧ m.E ≠ 0)

/-- `SignRound2` (round2.go:47-158). -/
def round2 (hs : List UInt8 → F) (chal : List UInt8 → G → G → Go F) (isNeg : G → Bool)
    (penc : G → List UInt8) (st : Signer F G) (msg : List UInt8)
    (input : List (UInt32 × Option (Commit G))) : Signer F G × Go (Resp F G) :=
  match st.smallD, st.smallE with
  | some d, some e =>
    if d = 0 ∨ e = 0 ∨ msg = [] ∨ st.round ≠ 2 ∨ UInt32.ofNat input.length ≠ st.threshold then
      (st, Go.err)
    else match input.forM checkCommit with
      | .error f => (st, .error f)
      | .ok () =>
        let st1 := { st with commitments := some input }
        match bindings hs penc msg st.cosigners input with
        | .error f => (st1, .error f)
        | .ok bs =>
          let R := (bs.map fun b => b.2.2).sum
          match chal msg st.vk R with
          | .error f => (st1, .error f)
          | .ok c =>
            let st2 := { st1 with c := some c, capRs := bs.map fun b => (b.1, b.2.2), sumR := some R }
            match st.lCoeffs.lookup st.id with
            | none => (st2, Go.crash)
            | some Li =>
              let d' := if isNeg R then -d else d
              let e' := if isNeg R then -e else e
              match bs.lookup st.id with
              | none => ({ st2 with smallD := some d', smallE := some e' }, Go.crash)
              | some (ri, _) =>
                ({ st2 with round := 3, msg := msg, smallD := some 0, smallE := some 0 },
                  .ok ⟨Li * st.skShare * c + e' * ri + d', st.vkShare⟩)
  | _, _ => (st, Go.err)

/-- `Round3Bcast` (round3.go:18-22) -/
structure Sig (F G : Type) where
  R : G
  z : F
  c : F
  msg : List UInt8
  deriving DecidableEq

/-- the loop of `SignRound3` (round3.go:75-103) -/
def round3Loop (g : G) (st : Signer F G) (c : F) (negate : Bool) :
    List (UInt32 × Option (Resp F G)) → F → Go F
  | [], z => .ok z
  | (_, none) :: _, _ => Go.crash
  | (id, some r) :: rest, z =>
    match st.lCoeffs.lookup id with
    | none => Go.crash
    | some Lj => match st.capRs.lookup id with
      | none => if negate then Go.crash else Go.err
      | some Rj =>
        if r.z • g = (c * Lj) • r.vk + (if negate then -Rj else Rj) then
          round3Loop g st c negate rest (z + r.z)
        else Go.err

/-- `SignRound3` (round3.go:30-131); `none` = nil map. -/
def round3 (g : G) (chal : List UInt8 → G → G → Go F) (isNeg : G → Bool) (st : Signer F G)
    (input : Option (List (UInt32 × Option (Resp F G)))) : Signer F G × Go (Sig F G) :=
  match st.smallD, st.smallE with
  | some d, some e =>
    if d ≠ 0 ∨ e ≠ 0 ∨ st.msg = [] then (st, Go.err)
    else match input with
      | none => (st, Go.err)
      | some inp =>
        if inp.any (fun e => e.2.isNone) then (st, Go.err)
        else match st.commitments with
          | none => (st, Go.err)
          | some cm =>
            if cm.length ≠ inp.length ∨ st.round ≠ 3 ∨ UInt32.ofNat inp.length ≠ st.threshold then
              (st, Go.err)
            else match st.c, st.sumR with
              | some c, some R =>
                match round3Loop g st c (isNeg R) inp 0 with
                | .error f => (st, .error f)
                | .ok z => match chal st.msg st.vk (z • g + (-c) • st.vk) with
                  | .error f => (st, .error f)
                  | .ok c' => if c' = c then
                      ({ st with round := 4 }, .ok ⟨R, z, c, st.msg⟩)
                    else (st, Go.err)
              | _, _ => (st, Go.crash)
  | none, _ => (st, Go.crash)
  | some d, none => (st, if d ≠ 0 then Go.err else Go.crash)

/-- `Verify` (round3.go:134-157) with non-nil arguments. -/
def verify (g : G) (chal : List UInt8 → G → G → Go F) (vk : G) (msg : List UInt8) (z c : F) :
    Go Bool := do
  Go.guard (msg ≠ [])
  let c' ← chal msg vk (z • g + (-c) • vk)
  Go.guard (c' = c)
  .ok true

/-- `Ed25519ChallengeDeriver.DeriveChallenge` (challenge_derive.go:21-27): `wide` is SHA-512 followed
by `SetBytesWide`. -/
def ed25519Challenge (wide : List UInt8 → F) (penc : G → List UInt8) (msg : List UInt8) (vk r : G) :
    Go F := .ok (wide (penc r ++ penc vk ++ msg))

end Verif.FrostSign
