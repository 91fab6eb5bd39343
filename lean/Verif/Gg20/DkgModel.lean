import Verif.Gg20.SignModel
import Verif.Sharing.V1Model

/-!
# Model of the GG20 distributed key generation

`pkg/tecdsa/gg20/participant/dkg_round1.go … dkg_round4.go` and the state of participant.go:298-340.
Maps are association lists with distinct keys, in the order in which Go happens to iterate; drawn
values are arguments.  The nil checks for the receiver and the curve are omitted.  Fields of a
received round 1 message are taken to be non-nil, the message itself may be nil.
-/

namespace Verif.Gg20

/-- The environment of the key generation: `size` is `2 * CalcFieldSize`, the length of an encoded
point (dkg_round3.go:37); `keyBits` is `2 * PaillierPrimeBits`, i.e. 2048 (dkg_round2.go:77). -/
structure DkgEnv (q : ℕ) (G : Type) extends Env q G where
  size : ℕ
  keyBits : ℕ

/-- `dkgParticipantData` (participant.go:306-310). -/
structure Other where
  pk : Paillier.PublicKey
  C : List UInt8
  params : Dealer

/-- `DkgParticipant` with its `dkgstate` (participant.go:298-332), values of round 1 to 3. -/
structure Dkg (q : ℕ) (G : Type) where
  id : UInt32
  round : ℕ
  D : Core.Witness
  sk : Paillier.SecretKey
  params : Dealer
  V : List G
  X : List (V1.Share q)
  threshold : UInt32
  limit : UInt32
  others : List (UInt32 × Other)
  y : G
  xi : ℤ
  publicShares : List G

/-- `DkgRound1Bcast` (dkg_round1.go:21-27).  The field `Identifier` is never read and omitted. -/
structure DkgBcast where
  C : List UInt8
  pk : Paillier.PublicKey
  params : Dealer
  proof1 : CdlProof
  proof2 : CdlProof

/-- The values drawn in round 1: the secret, the coefficients, the opening of the commitment, the
Paillier primes, the safe primes, `f`, `alpha` and the nonces of the two proofs. -/
structure DkgRnd (q : ℕ) where
  ui : ℤ
  coeffs : ℕ → ZMod q
  open_ : List UInt8
  p : ℕ
  q : ℕ
  P : ℕ
  Q : ℕ
  f : ℤ
  alpha : ℤ
  a1 : Fin ell → ℤ
  a2 : Fin ell → ℤ

variable {q : ℕ} {G : Type} [AddCommGroup G] [Module (ZMod q) G]

/-- `v1.NewFeldman` (pkg/sharing/v1/feldman.go:29-39). -/
def newFeldman (threshold limit : UInt32) : Go V1.Shamir := do
  Go.guard (¬ limit < threshold)
  Go.guard (¬ threshold < 2)
  .ok ⟨threshold, limit⟩

/-- `DkgRound1` (dkg_round1.go:31-181).  `Rsh(Pi, 1)` is `P / 2`.  The loop over `Pi == Qi` compares
pointers and therefore accepts the first pair, even equal primes; a nil `beta` is an error of
`Prove`. -/
def dkgRound1 [Fact q.Prime] (E : DkgEnv q G) (s : Dkg q G) (threshold total : UInt32)
    (rnd : DkgRnd q) : Go (Dkg q G × DkgBcast) := do
  Go.guard (¬ total < threshold)
  Go.guard (s.round = 1)
  let feldman ← newFeldman threshold total
  let (V, X) ← V1.feldmanSplit E.gen feldman (natBytes rnd.ui.natAbs) rnd.coeffs
  let byteV := (V.map E.enc).flatten
  let (C, D) := Core.commit E.hmac byteV rnd.open_
  let sk ← Paillier.newSecretKey (some rnd.p) (some rnd.q)
  let N : ℤ := (rnd.P : ℤ) * rnd.Q
  let pi : ℤ := (rnd.P / 2 : ℕ)
  let qi : ℤ := (rnd.Q / 2 : ℕ)
  let beta := Big.modInverse rnd.alpha (pi * qi)
  let h1 ← Core.mul (some rnd.f) (some rnd.f) (some N)
  let h2 ← deref (Big.exp h1 rnd.alpha N)
  let proof1 ← cdlProve E.toCurve pi qi h1 h2 rnd.alpha N rnd.a1
  let beta ← Go.ofOption beta
  let proof2 ← cdlProve E.toCurve pi qi h2 h1 beta N rnd.a2
  .ok ({ s with
    round := 2
    D := D
    sk := sk
    params := ⟨N, h1, h2⟩
    V := V
    X := X
    threshold := threshold
    limit := total }, ⟨C, sk.pk, ⟨N, h1, h2⟩, proof1, proof2⟩)

/-- The body of the loop of round 2 (dkg_round2.go:78-126) for one sender: the share to send to it
and the data to store. -/
def dkgStep2 (E : DkgEnv q G) (s : Dkg q G) (id : UInt32) (param : Option DkgBcast) :
    Go ((UInt32 × V1.Share q) × (UInt32 × Other)) := do
  let b ← deref param
  Go.guard (¬ (b.pk.N.natAbs.size ≠ E.keyBits ∧ b.pk.N.natAbs.size ≠ E.keyBits - 1))
  cdlVerify E.toCurve b.params.N b.params.H1 b.params.H2 b.proof1
  cdlVerify E.toCurve b.params.N b.params.H2 b.params.H1 b.proof2
  let x ← deref s.X[(id - 1).toNat]?
  .ok ((id, x), (id, ⟨b.pk, b.C, b.params⟩))

/-- `DkgRound2` (dkg_round2.go:33-136): the opening to broadcast and the shares to send.  The map of
participant data is rebuilt from scratch by every call, so what a failing call leaves there is
omitted. -/
def dkgRound2 (E : DkgEnv q G) (s : Dkg q G) (params : List (UInt32 × Option DkgBcast)) :
    Go (Dkg q G × Core.Witness × List (UInt32 × V1.Share q)) := do
  Go.guard (s.round = 2)
  let cnt := (params.filter fun p => p.2.isSome && p.1 ≠ s.id).length
  Go.guard (UInt32.ofNat cnt = s.limit - 1)
  let out ← (params.filter fun p => p.1 ≠ s.id).mapM fun p => dkgStep2 E s p.1 p.2
  .ok ({ s with
    round := 3
    others := out.map (·.2) }, s.D, out.map (·.1))

/-- `unmarshalFeldmanVerifiers` (dkg_round3.go:164-189). -/
def unmarshalVerifiers (E : DkgEnv q G) (msg : List UInt8) (threshold : ℕ) : Go (List G) := do
  if E.size = 0 then Go.crash else .ok ()
  Go.guard (msg.length % E.size = 0)
  Go.guard (msg.length / E.size = threshold)
  (List.range (msg.length / E.size)).mapM fun k =>
    Go.ofOption (E.dec ((msg.drop (k * E.size)).take E.size))

/-- The body of the first loop of round 3 (dkg_round3.go:52-78) for one sender: its verifiers and
the value of its share. -/
def dkgStep3 [Fact q.Prime] [DecidableEq G] (E : DkgEnv q G) (feldman : V1.Shamir) (s : Dkg q G)
    (x : List (UInt32 × Option (V1.Share q))) (j : UInt32) (wit : Option Core.Witness) :
    Go (List G × ZMod q) := do
  let o ← deref (s.others.lookup j)
  let w ← deref wit
  let ok ← Core.openC E.hmac o.C w
  Go.guard (ok = true)
  let V ← unmarshalVerifiers E w.msg s.threshold.toNat
  let ok ← V1.feldmanVerify E.gen feldman (x.lookup j).join V
  Go.guard (ok = true)
  let sh ← deref (x.lookup j).join
  .ok (V, sh.value)

/-- The first loop of round 3 (dkg_round3.go:47-79).  `xi` points into the state and is updated in
place, so its value is returned also when the loop stops with an error. -/
def dkgLoop3 [Fact q.Prime] [DecidableEq G] (E : DkgEnv q G) (feldman : V1.Shamir) (s : Dkg q G)
    (x : List (UInt32 × Option (V1.Share q))) :
    List (UInt32 × Option Core.Witness) → ZMod q → List (List G) → ZMod q × Go (List (List G))
  | [], xi, vs => (xi, .ok vs)
  | (j, wit) :: rest, xi, vs =>
    if j = s.id then dkgLoop3 E feldman s x rest xi vs
    else match dkgStep3 E feldman s x j wit with
      | .error e => (xi, .error e)
      | .ok (V, v) => dkgLoop3 E feldman s x rest (xi + v) (vs ++ [V])

/-- The sums of the verifiers (dkg_round3.go:81-97). -/
def sumVerifiers (t : ℕ) (vs : List (List G)) : List G :=
  (List.range t).map fun k => (vs.map fun V => V.getD k 0).sum

/-- The public shares (dkg_round3.go:108-139): the scalar of the `k`-th verifier is `j * (k + 1)`
modulo the order, although the comment says `pj^k`. -/
def publicShares (t limit : ℕ) (v : List G) : List G :=
  (List.range limit).map fun j =>
    (List.range t).foldl (fun P k => P + (((j + 1) * (k + 1) : ℕ) : ZMod q) • v.getD k 0)
      (v.getD 0 0)

/-- The own share is replaced by the running sum (dkg_round3.go:46, 78). -/
def setOwn (X : List (V1.Share q)) (i : ℕ) (v : ZMod q) : List (V1.Share q) :=
  X.modify i fun sh => { sh with value := v }

/-- What follows the first loop of round 3 (dkg_round3.go:81-160).  `fuel` bounds the search of the
proof for challenges; running out of it counts as an error. -/
def dkgFinish3 [DecidableEq G] (E : DkgEnv q G) (s : Dkg q G) (fuel : ℕ) (xi : ZMod q)
    (vs : List (List G)) : Go (Dkg q G × List (Option ℤ)) := do
  let v := sumVerifiers s.threshold.toNat vs
  let y := v.getD 0 0
  Go.guard (y ≠ 0)
  let proof ← (Paillier.psfProve E.kdf
    ⟨(E.xy E.gen).1, (E.xy E.gen).2, q, s.id, (E.xy y).1, (E.xy y).2⟩ s.sk fuel).getD Go.err
  .ok ({ s with
    round := 4
    y := y
    xi := xi.cast
    publicShares := publicShares (q := q) s.threshold.toNat s.limit.toNat v }, proof)

/-- `DkgRound3` (dkg_round3.go:23-161).  The state is returned also with an error, because the own
share has then been changed. -/
def dkgRound3 [Fact q.Prime] [DecidableEq G] (E : DkgEnv q G) (s : Dkg q G) (fuel : ℕ)
    (d : List (UInt32 × Option Core.Witness)) (x : List (UInt32 × Option (V1.Share q))) :
    Dkg q G × Go (List (Option ℤ)) :=
  if d = [] ∨ x = [] then (s, Go.err)
  else if s.round ≠ 3 then (s, Go.err)
  else match newFeldman s.threshold s.limit with
    | .error e => (s, .error e)
    | .ok feldman =>
      match s.X[(s.id - 1).toNat]? with
      | none => (s, Go.crash)
      | some own =>
        match dkgLoop3 E feldman s x d own.value [s.V] with
        | (xi, r) =>
          let s1 := { s with X := setOwn s.X (s.id - 1).toNat xi }
          match r with
          | .error e => (s1, .error e)
          | .ok vs =>
            match dkgFinish3 E s1 fuel xi vs with
            | .error e => (s1, .error e)
            | .ok (s2, proof) => (s2, .ok proof)

/-- `DkgResult` (dkg_round4.go:20-26) with `DkgParticipantData` (dkg_round4.go:28-31). -/
structure DkgResult (G : Type) where
  publicShares : List G
  y : G
  xi : ℤ
  sk : Paillier.SecretKey
  data : List (UInt32 × Paillier.PublicKey × Dealer)

/-- The check of one proof in round 4 (dkg_round4.go:56-68). -/
def dkgStep4 (E : DkgEnv q G) (s : Dkg q G) (fuel : ℕ) (id : UInt32) (p : List (Option ℤ)) :
    Go Unit := do
  let o ← deref (s.others.lookup id)
  (Paillier.psfVerify E.kdf
    ⟨(E.xy E.gen).1, (E.xy E.gen).2, q, id, (E.xy s.y).1, (E.xy s.y).2⟩ o.pk p fuel).getD Go.err

/-- `DkgRound4` (dkg_round4.go:35-91).  The state is not changed; the data of the participant itself
are not part of the result. -/
def dkgRound4 (E : DkgEnv q G) (s : Dkg q G) (fuel : ℕ)
    (proofs : List (UInt32 × List (Option ℤ))) : Go (DkgResult G) := do
  Go.guard (proofs ≠ [])
  Go.guard (s.round = 4)
  (s.others.filter fun o => o.1 ≠ s.id).forM fun o => Go.guard ((proofs.lookup o.1).isSome = true)
  (proofs.filter fun p => p.1 ≠ s.id).forM fun p => dkgStep4 E s fuel p.1 p.2
  .ok ⟨s.publicShares, s.y, s.xi, s.sk, s.others.map fun o => (o.1, o.2.pk, o.2.params)⟩

end Verif.Gg20
