import Verif.Common.Go
import Verif.Common.GoList
import Verif.Common.Codec
import Mathlib.Algebra.Module.LinearMap.Basic
import Mathlib.LinearAlgebra.BilinearMap

/-!
# Model of `pkg/accumulator`

`F` is the scalar field, `G1`, `G2`, `GT` the groups (written additively), `e` the pairing.  The nil
value of a point, scalar or element is `none`; pointers to the structs themselves are not nil and all
values belong to the same curve.  A Go slice whose nil-ness is tested is an `Option (List _)`.
`bare.Marshal` and `bare.Unmarshal` are an external library and enter only as an inverse pair on the
values `(bytes, curve name)`.
-/

namespace Verif.Accum

variable {F : Type} [Field F] [DecidableEq F]
variable {G1 G2 GT : Type} [AddCommGroup G1] [Module F G1] [DecidableEq G1]
  [AddCommGroup G2] [Module F G2] [DecidableEq G2] [AddCommGroup GT] [Module F GT] [DecidableEq GT]

/-! ## Keys and polynomials -/

/-- the nil checks on elements (key.go:75-77, lib.go:24-28) -/
def elems (l : List (Option F)) : Go (List F) := l.mapM Go.ofOption

/-- `SecretKey.BatchAdditions` (key.go:70-87) -/
def batchAdditions (sk : Option F) (l : List (Option F)) : Go F := do
  let sk ← Go.ofOption sk
  let ys ← elems l
  .ok (ys.foldl (fun m y => m * (y + sk)) 1)

/-- `Scalar.Invert` (bls12381_curve.go:157-167): an error for zero -/
def invert (x : F) : Go F := do
  Go.guard (x ≠ 0)
  .ok x⁻¹

/-- `SecretKey.BatchDeletions` (key.go:90-100) -/
def batchDeletions (sk : Option F) (l : List (Option F)) : Go F := do
  let v ← batchAdditions sk l
  invert v

/-- `polynomial.Add` (lib.go:106-129) on coefficients that are not nil -/
def polyAdd : List F → List F → List F
  | [], q => q
  | p, [] => p
  | a :: p, b :: q => (a + b) :: polyAdd p q

/-- `polynomial.Sub` (lib.go:132-155) -/
def polySub : List F → List F → List F
  | [], q => q.map fun c => -c
  | p, [] => p
  | a :: p, b :: q => (a - b) :: polySub p q

/-- `polynomial.Mul` (lib.go:158-190): the double loop adds every product to `prod[i+j]` -/
def polyMul (p q : List F) : List F :=
  p.zipIdx.foldl (fun prod ci => q.zipIdx.foldl
    (fun prod cj => prod.modify (ci.2 + cj.2) (· + ci.1 * cj.1)) prod)
    (List.replicate (p.length + q.length - 1) 0)

/-- `polynomial.MulScalar` (lib.go:193-202) -/
def polyScale (p : List F) (c : F) : List F := p.map fun x => x * c

/-- the product of the factors `y_j - x` built in the inner loops (key.go:119-135, 172-187) -/
def prodPoly (ys : List F) : List F := ys.foldl (fun p y => polyMul p [y, -1]) [1]

/-- `SecretKey.CreateCoefficients` (key.go:104-216).  A nil element makes one of the calls to
`BatchAdditions` or `BatchDeletions` fail, so the elements are unwrapped first. -/
def createCoefficients (sk : Option F) (additions deletions : List (Option F)) : Go (List F) := do
  let _ ← Go.ofOption sk
  let adds ← elems additions
  let dels ← elems deletions
  let vD ← (List.range dels.length).foldlM (fun (vD : List F) s => do
    let c ← batchDeletions sk ((dels.take (s + 1)).map some)
    .ok (polyAdd vD (polyScale (prodPoly (dels.take s)) c))) []
  let bAdd ← batchAdditions sk (adds.map some)
  let vD := polyScale vD bAdd
  let vA ← (List.range adds.length).foldlM (fun (vA : List F) s => do
    let c ← if s = 0 then .ok 1 else batchAdditions sk ((adds.take s).map some)
    .ok (polyAdd vA (polyScale (prodPoly (adds.drop (s + 1))) c))) []
  .ok (polySub vA vD)

/-- `SecretKey.GetPublicKey` (key.go:30-36) -/
def publicKey (g2 : G2) (sk : F) : G2 := sk • g2

/-! ## The accumulator -/

/-- `Accumulator.New` (accumulator.go:37-47) -/
def new (g1 : G1) : Option G1 := some g1

/-- `Accumulator.WithElements` (accumulator.go:52-63): the receiver is reset to the generator even when
the elements are rejected -/
def withElements (g1 : G1) (sk : Option F) (m : List (Option F)) : Option G1 × Go Unit :=
  match batchAdditions sk m with
  | .error f => (some g1, .error f)
  | .ok y => (some (y • g1), .ok ())

/-- `Accumulator.AddElements` (accumulator.go:66-76) -/
def addElements (acc : Option G1) (sk : Option F) (m : List (Option F)) : Option G1 × Go Unit :=
  match acc, sk with
  | some v, some _ =>
    match batchAdditions sk m with
    | .error f => (acc, .error f)
    | .ok y => (some (y • v), .ok ())
  | _, _ => (acc, Go.err)

/-- `Accumulator.Add` (accumulator.go:80-87) -/
def add (acc : Option G1) (sk el : Option F) : Option G1 × Go Unit :=
  match acc, sk, el with
  | some v, some sk, some el =>
    if v = 0 then (acc, Go.err) else (some ((el + sk) • v), .ok ())
  | _, _, _ => (acc, Go.err)

/-- `Accumulator.Remove` (accumulator.go:91-102) -/
def remove (acc : Option G1) (sk el : Option F) : Option G1 × Go Unit :=
  match acc, sk, el with
  | some v, some sk, some el =>
    if v = 0 then (acc, Go.err)
    else
      match invert (el + sk) with
      | .error f => (acc, .error f)
      | .ok y => (some (y • v), .ok ())
  | _, _, _ => (acc, Go.err)

/-- the computation of `Accumulator.Update` (accumulator.go:106-142) for an accumulator value `v` -/
def updateCore (v : G1) (sk : Option F) (additions deletions : List (Option F)) :
    Go (G1 × List G1) := do
  Go.guard (v ≠ 0)
  let _ ← Go.ofOption sk
  let a ← batchAdditions sk additions
  let d ← batchDeletions sk deletions
  let els ← createCoefficients sk additions deletions
  .ok ((a * d) • v, els.map fun c => c • v)

/-- `Accumulator.Update` (accumulator.go:106-142) -/
def update (acc : Option G1) (sk : Option F) (additions deletions : List (Option F)) :
    Option G1 × Go (List G1) :=
  match acc with
  | none => (acc, Go.err)
  | some v =>
    match updateCore v sk additions deletions with
    | .error f => (acc, .error f)
    | .ok r => (some r.1, .ok r.2)

/-! ## Witnesses -/

/-- `MembershipWitness` (witness.go:19-22) -/
structure Witness (F G1 : Type) where
  c : Option G1
  y : Option F
  deriving DecidableEq

/-- `MembershipWitness.New` (witness.go:25-43) -/
def newWitness (y : Option F) (acc : Option G1) (sk : Option F) : Go (Witness F G1) :=
  match acc, sk, y with
  | some v, some k, some e => do
    Go.guard (v ≠ 0)
    Go.guard (k ≠ 0)
    Go.guard (e ≠ 0)
    match remove (some v) (some k) (some e) with
    | (c, .ok ()) => .ok ⟨c, some e⟩
    | (_, .error f) => .error f
  | _, _, _ => Go.err

/-- `MembershipWitness.Verify` (witness.go:47-89) -/
def Witness.verify (g2 : G2) (e : G1 →ₗ[F] G2 →ₗ[F] GT) (mw : Witness F G1) (pk : Option G2)
    (acc : Option G1) : Go Unit :=
  match mw.c, mw.y, pk, acc with
  | some c, some y, some pk, some v => do
    Go.guard (c ≠ 0)
    Go.guard (y ≠ 0)
    Go.guard (pk ≠ 0)
    Go.guard (v ≠ 0)
    Go.guard (e c (y • g2 + pk) + e (-v) g2 = 0)
  | _, _, _, _ => Go.err

/-- `dad` (lib.go:19-42) -/
def dad (values : Option (List (Option F))) (y : Option F) : Go F := do
  let vs ← Go.ofOption values
  let y ← Go.ofOption y
  let vs ← elems vs
  match vs with
  | [a] => .ok (a - y)
  | vs => .ok (vs.foldl (fun r v => r * (v - y)) 1)

/-- `polynomialPoint.evaluate` (lib.go:47-65) for a slice that is not nil; `p[0]` panics on an empty
one. -/
def evaluate (p : List (Option G1)) (x : F) : Go G1 := do
  let ps ← p.mapM Go.ofOption
  match ps with
  | [] => Go.crash
  | a :: l => .ok (l.foldl (fun (st : G1 × F) c => (st.1 + st.2 • c, st.2 * x)) (a, x)).1

/-- `polynomialPoint.Add` (lib.go:68-91) on coefficients that are not nil -/
def pointAdd : List G1 → List G1 → List G1
  | [], q => q
  | p, [] => p
  | a :: p, b :: q => (a + b) :: pointAdd p q

/-- `polynomialPoint.Mul` (lib.go:94-105) -/
def pointScale (p : List (Option G1)) (c : F) : Go (List G1) := do
  let ps ← p.mapM Go.ofOption
  .ok (ps.map fun x => c • x)

/-- `Delta` (witness.go:167-170) -/
structure Delta (F G1 : Type) where
  d : F
  p : G1
  deriving DecidableEq

/-- `evaluateDelta` (witness.go:339-378) -/
def evaluateDelta (y : Option F) (additions deletions : Option (List (Option F)))
    (coefficients : List (Option G1)) : Go (Delta F G1) := do
  let d ← dad deletions y
  let d ← invert d
  let a ← dad additions y
  let y ← Go.ofOption y
  let v ← evaluate coefficients y
  .ok ⟨a * d, d • v⟩

/-- `evaluateDeltas` (witness.go:237-335); `y.One()` panics for a nil `y` -/
def evaluateDeltas (y : Option F) (A D : List (Option (List (Option F))))
    (C : List (List (Option G1))) : Go (Delta F G1) := do
  Go.guard (¬ (A.length ≠ D.length ∨ A.length ≠ C.length))
  match y with
  | none => Go.crash
  | some y => do
    let ad ← (A.zip D).mapM fun ad => do
      let ta ← dad ad.1 (some y)
      let td ← dad ad.2 (some y)
      .ok (ta, td)
    let a := ad.foldl (fun a t => a * t.1) 1
    let d := ad.foldl (fun d t => d * t.2) 1
    let d ← invert d
    let p ← C.zipIdx.foldlM (fun (p : List G1) ci => do
      let ddh := (ad.take ci.2).foldl (fun r t => r * t.2) 1
      let dak := (ad.drop (ci.2 + 1)).foldl (fun r t => r * t.1) 1
      let pp ← pointScale ci.1 (dak * ddh)
      .ok (pointAdd p pp)) []
    let v ← evaluate (p.map some) y
    .ok ⟨a * d, d • v⟩

/-- `MembershipWitness.ApplyDelta` (witness.go:94-102) -/
def Witness.applyDelta (mw : Witness F G1) (delta : Option (Delta F G1)) : Go (Witness F G1) :=
  match mw.c, mw.y, delta with
  | some c, some y, some dl => .ok ⟨some (dl.d • c + dl.p), some y⟩
  | _, _, _ => Go.err

/-- `MembershipWitness.BatchUpdate` (witness.go:105-115) -/
def Witness.batchUpdate (mw : Witness F G1) (additions deletions : Option (List (Option F)))
    (coefficients : List (Option G1)) : Go (Witness F G1) := do
  let delta ← evaluateDelta mw.y additions deletions coefficients
  mw.applyDelta (some delta)

/-- `MembershipWitness.MultiBatchUpdate` (witness.go:118-128) -/
def Witness.multiBatchUpdate (mw : Witness F G1) (A D : List (Option (List (Option F))))
    (C : List (List (Option G1))) : Go (Witness F G1) := do
  let delta ← evaluateDeltas mw.y A D C
  mw.applyDelta (some delta)

/-! ## Membership proofs -/

/-- `ProofParams` (proof.go:27-29) -/
structure Params (G1 : Type) where
  x : G1
  y : G1
  z : G1

/-- `ProofParams.New` (proof.go:32-50); `pkBytes` is the serialized public key -/
def newParams (hash : List UInt8 → G1) (pkBytes entropy : List UInt8) : Params G1 :=
  let tail := List.replicate 31 0xFF ++ entropy ++ pkBytes
  ⟨hash (0xFD :: tail), hash (0xFE :: tail), hash (0xFF :: tail)⟩

/-- the random scalars of `MembershipProofCommitting.New` (proof.go:132-133, 159-163) -/
structure Rand (F : Type) where
  sigma : F
  rho : F
  rY : F
  rSigma : F
  rRho : F
  rDeltaSigma : F
  rDeltaRho : F

/-- `MembershipProofCommitting` (proof.go:99-122) -/
structure Committing (F G1 GT : Type) where
  eC : G1
  tSigma : G1
  tRho : G1
  deltaSigma : F
  deltaRho : F
  rnd : Rand F
  capRSigma : G1
  capRRho : G1
  capRDeltaSigma : G1
  capRDeltaRho : G1
  capRE : GT
  accumulator : G1
  witnessValue : F

/-- `MembershipProofCommitting.New` (proof.go:125-255) for a witness, accumulator and parameters
without nil values -/
def newCommitting (g2 : G2) (e : G1 →ₗ[F] G2 →ₗ[F] GT) (c : G1) (y : F) (acc : G1) (pp : Params G1)
    (pk : G2) (r : Rand F) : Committing F G1 GT :=
  let eC := (r.sigma + r.rho) • pp.z + c
  let tSigma := r.sigma • pp.x
  let tRho := r.rho • pp.y
  { eC := eC
    tSigma := tSigma
    tRho := tRho
    deltaSigma := y * r.sigma
    deltaRho := y * r.rho
    rnd := r
    capRSigma := r.rSigma • pp.x
    capRRho := r.rRho • pp.y
    capRDeltaSigma := r.rY • tSigma + r.rDeltaSigma • (-pp.x)
    capRDeltaRho := r.rY • tRho + r.rDeltaRho • (-pp.y)
    capRE := e (r.rY • eC) g2 + e ((-(r.rDeltaSigma + r.rDeltaRho)) • pp.z) g2 +
      e ((-(r.rSigma + r.rRho)) • pp.z) pk
    accumulator := acc
    witnessValue := y }

/-- the bytes hashed for the challenge (proof.go:259-270 and 503-515) -/
def challengeBytes (enc1 : G1 → List UInt8) (encT : GT → List UInt8) (acc eC tSigma tRho : G1)
    (capRE : GT) (capRSigma capRRho capRDeltaSigma capRDeltaRho : G1) : List UInt8 :=
  enc1 acc ++ enc1 eC ++ enc1 tSigma ++ enc1 tRho ++ encT capRE ++ enc1 capRSigma ++ enc1 capRRho ++
    enc1 capRDeltaSigma ++ enc1 capRDeltaRho

/-- `MembershipProofCommitting.GetChallengeBytes` (proof.go:259-270) -/
def Committing.challengeBytes (enc1 : G1 → List UInt8) (encT : GT → List UInt8)
    (m : Committing F G1 GT) : List UInt8 :=
  Accum.challengeBytes enc1 encT m.accumulator m.eC m.tSigma m.tRho m.capRE m.capRSigma m.capRRho
    m.capRDeltaSigma m.capRDeltaRho

/-- `MembershipProof` (proof.go:323-332) -/
structure Proof (F G1 : Type) where
  eC : G1
  tSigma : G1
  tRho : G1
  sSigma : F
  sRho : F
  sDeltaSigma : F
  sDeltaRho : F
  sY : F
  deriving DecidableEq

/-- `schnorr` (proof.go:300-305) -/
def schnorr (r v challenge : F) : F := v * challenge + r

/-- `MembershipProofCommitting.GenProof` (proof.go:274-298) -/
def Committing.genProof (m : Committing F G1 GT) (c : F) : Proof F G1 :=
  { eC := m.eC
    tSigma := m.tSigma
    tRho := m.tRho
    sSigma := schnorr m.rnd.rSigma m.rnd.sigma c
    sRho := schnorr m.rnd.rRho m.rnd.rho c
    sDeltaSigma := schnorr m.rnd.rDeltaSigma m.deltaSigma c
    sDeltaRho := schnorr m.rnd.rDeltaRho m.deltaRho c
    sY := schnorr m.rnd.rY m.witnessValue c }

/-- `MembershipProofFinal` (proof.go:489-499) -/
structure Final (G1 GT : Type) where
  accumulator : G1
  eC : G1
  tSigma : G1
  tRho : G1
  capRE : GT
  capRSigma : G1
  capRRho : G1
  capRDeltaSigma : G1
  capRDeltaRho : G1
  deriving DecidableEq

/-- `MembershipProof.Finalize` (proof.go:335-424) -/
def Proof.finalize (g2 : G2) (e : G1 →ₗ[F] G2 →ₗ[F] GT) (mp : Proof F G1) (acc : G1)
    (pp : Params G1) (pk : G2) (c : F) : Final G1 GT :=
  let lhs := mp.sY • mp.eC + (-(mp.sDeltaSigma + mp.sDeltaRho)) • pp.z + (-c) • acc
  let rhs := c • mp.eC + (-(mp.sSigma + mp.sRho)) • pp.z
  { accumulator := acc
    eC := mp.eC
    tSigma := mp.tSigma
    tRho := mp.tRho
    capRE := e lhs g2 + e rhs pk
    capRSigma := mp.sSigma • pp.x + c • (-mp.tSigma)
    capRRho := mp.sRho • pp.y + c • (-mp.tRho)
    capRDeltaSigma := mp.sY • mp.tSigma + mp.sDeltaSigma • (-pp.x)
    capRDeltaRho := mp.sY • mp.tRho + mp.sDeltaRho • (-pp.y) }

/-- `MembershipProofFinal.GetChallenge` (proof.go:502-516) -/
def Final.challenge (chal : List UInt8 → F) (enc1 : G1 → List UInt8) (encT : GT → List UInt8)
    (m : Final G1 GT) : F :=
  chal (challengeBytes enc1 encT m.accumulator m.eC m.tSigma m.tRho m.capRE m.capRSigma m.capRRho
    m.capRDeltaSigma m.capRDeltaRho)

/-! ## Serialization: the byte strings handed to `bare` -/

/-- `MembershipWitness.MarshalBinary` and `Delta.MarshalBinary` (witness.go:131-142, 173-185): point
followed by scalar -/
def marshalPair (enc1 : G1 → List UInt8) (cd : ScalarCodec F) (c : Option G1) (y : Option F) :
    Go (List UInt8) := do
  let c ← Go.ofOption c
  let y ← Go.ofOption y
  .ok (enc1 c ++ cd.enc y)

/-- `MembershipWitness.UnmarshalBinary` and `Delta.UnmarshalBinary` (witness.go:145-178, 188-227) -/
def unmarshalPair (dec1 : List UInt8 → Option G1) (cd : ScalarCodec F) (b : List UInt8) :
    Go (G1 × F) := do
  Go.guard (b.length = 48 + 32)
  let c ← Go.ofOption (dec1 (b.take 48))
  let y ← Go.ofOption (cd.dec (b.drop 48))
  .ok (c, y)

end Verif.Accum
