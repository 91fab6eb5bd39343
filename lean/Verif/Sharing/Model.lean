import Verif.Common.Go
import Verif.Common.Codec
import Mathlib.Algebra.Module.Defs
import Mathlib.Data.List.Dedup

/-!
# Model of `pkg/sharing` (Shamir, Feldman, Pedersen)

Scalars: a field `F` with a byte codec.  Points: an `F`-module `G`, generator `g`.
The random reader is the stream `rnd : ℕ → F` of successive results of
`Scalar.Random(reader)`.  Pointers that can be nil are `Option`s.
-/

namespace Verif.Sharing

variable {F : Type} [Field F] [DecidableEq F]
variable {G : Type} [AddCommGroup G] [Module F G] [DecidableEq G]

/-- `type ShamirShare struct` (pkg/sharing/shamir.go:22-25). -/
structure Share where
  id : UInt32
  value : List UInt8
  deriving DecidableEq

/-- `ShamirShare.Validate` (pkg/sharing/shamir.go:27-39). -/
def Share.validate (cd : ScalarCodec F) (s : Share) : Go Unit := do
  Go.guard (s.id ≠ 0)
  let sc ← Go.ofOption (cd.dec s.value)
  Go.guard (sc ≠ 0)

/-- `type Shamir struct` (pkg/sharing/shamir.go:47-50); the curve is the ambient `F`. -/
structure Shamir where
  threshold : UInt32
  limit : UInt32
  deriving DecidableEq

/-- `NewShamir` (pkg/sharing/shamir.go:52-66), also `NewFeldman`
(pkg/sharing/feldman.go:49-63) which performs the same checks.
`curveNonNil` says whether the curve argument is non-nil. -/
def newShamir (threshold limit : UInt32) (curveNonNil : Bool) : Go Shamir := do
  Go.guard (¬ limit < threshold)
  Go.guard (¬ threshold < 2)
  Go.guard (¬ limit > 255)
  Go.guard (curveNonNil = true)
  .ok ⟨threshold, limit⟩

/-- `NewPedersen` (pkg/sharing/pedersen.go:68-89).  The generator is dereferenced
(`generator.CurveName()`) before the nil check, so nil panics.  All points of the
model are on the curve, so only the identity check of line 85 remains.
Returns the scheme and its generator. -/
def newPedersen (threshold limit : UInt32) (generator : Option G) : Go (Shamir × G) := do
  Go.guard (¬ limit < threshold)
  Go.guard (¬ threshold < 2)
  Go.guard (¬ limit > 255)
  match generator with
  | none => Go.crash
  | some h => do
    Go.guard (h ≠ 0)
    .ok (⟨threshold, limit⟩, h)

/-- `Polynomial.Init` (pkg/sharing/polynomial.go:19-26): `degree` coefficients,
the first one is the intercept, the others come from the reader.
`degree = 0` makes `p.Coefficients[0]` panic. -/
def polyInit (intercept : F) (degree : ℕ) (rnd : ℕ → F) : Go (List F) :=
  if degree = 0 then Go.crash
  else .ok (intercept :: (List.range (degree - 1)).map rnd)

/-- `Polynomial.Evaluate` (pkg/sharing/polynomial.go:28-35): Horner from the top
coefficient downwards.  (`Init` never builds an empty list, on which the Go code would panic.) -/
def polyEval (cs : List F) (x : F) : F :=
  match cs.reverse with
  | [] => 0
  | top :: rest => rest.foldl (fun out c => out * x + c) top

/-- the loop of `getPolyAndShares` (pkg/sharing/shamir.go:78-85). -/
def mkShares (cd : ScalarCodec F) (limit : UInt32) (poly : List F) : List Share :=
  (List.range limit.toNat).map fun i =>
    ⟨UInt32.ofNat (i + 1), cd.enc (polyEval poly ((i + 1 : ℕ) : F))⟩

/-- `Shamir.getPolyAndShares` (pkg/sharing/shamir.go:76-87). -/
def getPolyAndShares (cd : ScalarCodec F) (s : Shamir) (secret : F) (rnd : ℕ → F) :
    Go (List Share × List F) := do
  let poly ← polyInit secret s.threshold.toNat rnd
  .ok (mkShares cd s.limit poly, poly)

/-- `Shamir.Split` (pkg/sharing/shamir.go:68-74). -/
def split (cd : ScalarCodec F) (s : Shamir) (secret : F) (rnd : ℕ → F) : Go (List Share) := do
  Go.guard (secret ≠ 0)
  let r ← getPolyAndShares cd s secret rnd
  .ok r.1

/-- The loop of `Combine` (pkg/sharing/shamir.go:123-137): validates the shares one by one,
`seen` is the key set of the map `dups`. -/
def checkShares (cd : ScalarCodec F) (limit : UInt32) :
    List UInt32 → List (Option Share) → Go (List (F × F))
  | _, [] => .ok []
  | _, none :: _ => Go.crash
  | seen, some sh :: rest => do
    sh.validate cd
    Go.guard (¬ sh.id > limit)
    Go.guard (sh.id ∉ seen)
    let y ← Go.ofOption (cd.dec sh.value)
    let tl ← checkShares cd limit (sh.id :: seen) rest
    .ok (((sh.id.toNat : F), y) :: tl)

/-- The inner loop of `interpolate` (pkg/sharing/shamir.go:171-179): numerator and
denominator of the `i`-th Lagrange coefficient at zero. -/
def numDen (xs : List F) (i : ℕ) (xi : F) : F × F :=
  xs.zipIdx.foldl
    (fun nd xj => if i = xj.2 then nd else (nd.1 * xj.1, nd.2 * (xj.1 - xi))) (1, 1)

/-- `Shamir.interpolate` (pkg/sharing/shamir.go:168-186) for `M = F` and
`Shamir.interpolatePoint` (lines 188-206) for `M = G`; the two Go functions are
textually identical up to the type of `ys`. -/
def interpolate {M : Type} [AddCommGroup M] [Module F M] (pts : List (F × M)) : Go M :=
  pts.zipIdx.foldlM
    (fun result p =>
      let nd := numDen (pts.map Prod.fst) p.2 p.1.1
      if nd.2 = 0 then Go.err else .ok (result + (nd.1 / nd.2) • p.1.2)) 0

/-- `Shamir.Combine` (pkg/sharing/shamir.go:115-139). -/
def combine (cd : ScalarCodec F) (s : Shamir) (shares : List (Option Share)) : Go F := do
  Go.guard (¬ shares.length < s.threshold.toNat)
  let pts ← checkShares cd s.limit [] shares
  interpolate pts

/-- `Shamir.CombinePoints` (pkg/sharing/shamir.go:141-166). -/
def combinePoints (cd : ScalarCodec F) (g : G) (s : Shamir) (shares : List (Option Share)) :
    Go G := do
  Go.guard (¬ shares.length < s.threshold.toNat)
  let pts ← checkShares cd s.limit [] shares
  interpolate (pts.map fun p => (p.1, p.2 • g))

/-- `Shamir.LagrangeCoeffs` (pkg/sharing/shamir.go:89-113).  The Go map `xs` is keyed by
identity, so repeated identities collapse: `identities.dedup`.  The result is
the association list of the Go result map (in an unspecified order in Go). -/
def lagrangeCoeffs (identities : List UInt32) : Go (List (UInt32 × F)) :=
  let xs := identities.dedup
  xs.mapM fun i =>
    let nd := xs.foldl
      (fun (nd : F × F) j => if i = j then nd
        else (nd.1 * (j.toNat : F), nd.2 * ((j.toNat : F) - (i.toNat : F)))) (1, 1)
    if nd.2 = 0 then Go.err else .ok (i, nd.1 / nd.2)

/-- right-hand side loop of the verifiers (pkg/sharing/feldman.go:27-33,
pkg/sharing/pedersen.go:37-44): `C_0 + Σ_{j≥1} x^j C_j`. -/
def commitEval (c0 : G) (cs : List G) (x : F) : G :=
  (cs.foldl (fun (st : F × G) c => (st.1 * x, st.2 + (st.1 * x) • c)) (1, c0)).2

/-- `FeldmanVerifier.Verify` (pkg/sharing/feldman.go:20-42).  Empty commitments panic
(`v.Commitments[0]`), a nil share panics. -/
def feldmanVerify (cd : ScalarCodec F) (g : G) (commitments : List G) (share : Option Share) :
    Go Unit :=
  match commitments with
  | [] => Go.crash
  | c0 :: cs =>
    match share with
    | none => Go.crash
    | some sh => do
      sh.validate cd
      let rhs := commitEval c0 cs (sh.id.toNat : F)
      let sc ← Go.ofOption (cd.dec sh.value)
      Go.guard (sc • g = rhs)

/-- `Feldman.Split` (pkg/sharing/feldman.go:65-81): commitments and shares. -/
def feldmanSplit (cd : ScalarCodec F) (g : G) (s : Shamir) (secret : F) (rnd : ℕ → F) :
    Go (List G × List Share) := do
  Go.guard (secret ≠ 0)
  let r ← getPolyAndShares cd s secret rnd
  .ok (r.2.map (· • g), r.1)

/-- `PedersenVerifier.Verify` (pkg/sharing/pedersen.go:28-57); `h` is `pv.Generator`. -/
def pedersenVerify (cd : ScalarCodec F) (g h : G) (commitments : List G)
    (share blindShare : Option Share) : Go Unit :=
  match share with
  | none => Go.crash
  | some sh => do
    sh.validate cd
    match blindShare with
    | none => Go.crash
    | some bsh => do
      bsh.validate cd
      match commitments with
      | [] => Go.crash
      | c0 :: cs => do
        let rhs := commitEval c0 cs (sh.id.toNat : F)
        let sc ← Go.ofOption (cd.dec sh.value)
        let bsc ← Go.ofOption (cd.dec bsh.value)
        Go.guard (sc • g + bsc • h = rhs)

/-- `PedersenResult` (pkg/sharing/pedersen.go:60-65). -/
structure PedersenResult (F G : Type) where
  blinding : F
  blindingShares : List Share
  secretShares : List Share
  feldman : List G
  pedersen : List G

/-- `Pedersen.Split` (pkg/sharing/pedersen.go:92-121).  The reader is consumed in this order:
the blinding, `threshold-1` coefficients, `threshold-1` blinding coefficients.
There is no check for a zero secret. -/
def pedersenSplit (cd : ScalarCodec F) (g h : G) (s : Shamir) (secret : F) (rnd : ℕ → F) :
    Go (PedersenResult F G) := do
  let blinding := rnd 0
  let r ← getPolyAndShares cd s secret (fun i => rnd (i + 1))
  let b ← getPolyAndShares cd s blinding (fun i => rnd (i + s.threshold.toNat))
  let sG := r.2.map (· • g)
  .ok ⟨blinding, b.1, r.1, sG, List.zipWith (fun a c => a + c • h) sG b.2⟩

end Verif.Sharing
