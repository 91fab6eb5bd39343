import Verif.Common.Go
import Verif.Common.Bytes
import Mathlib.Data.ZMod.Basic
import Mathlib.Algebra.Field.ZMod

/-!
# Model of `pkg/sharing/v1`

The legacy scheme over `curves.Element`, i.e. integers modulo a prime `q`, here `ZMod q`
(the refinement of `curves.Element` to `ZMod q` is the subject of `Verif/Core/Field*.lean`).
All shares handed to one call are assumed to carry the same modulus; mixing moduli panics in Go.
-/

namespace Verif.V1

variable {q : ℕ} [Fact q.Prime]

/-- `ShamirShare` (pkg/sharing/v1/shamir.go:18-23). -/
structure Share (q : ℕ) where
  id : UInt32
  value : ZMod q
  deriving DecidableEq

/-- `Shamir` (pkg/sharing/v1/shamir.go:52-55). -/
structure Shamir where
  threshold : UInt32
  limit : UInt32
  deriving DecidableEq

/-- `NewShamir` (pkg/sharing/v1/shamir.go:58-68).  The `int` arguments are compared before they
are truncated to `uint32`. -/
def newShamir (threshold limit : ℤ) : Go Shamir := do
  Go.guard (¬ limit < threshold)
  Go.guard (¬ threshold < 2)
  .ok ⟨UInt32.ofInt threshold, UInt32.ofInt limit⟩

/-- `newPoly` (pkg/sharing/v1/polynomial.go:18-36) with the random elements given by `rnd`;
`degree = 0` panics at `p.Coefficients[0]`. -/
def newPoly (intercept : ZMod q) (degree : ℕ) (rnd : ℕ → ZMod q) : Go (List (ZMod q)) :=
  if degree = 0 then Go.crash else .ok (intercept :: (List.range (degree - 1)).map rnd)

/-- `polynomial.evaluate` (pkg/sharing/v1/polynomial.go:39-49). -/
def evaluate (cs : List (ZMod q)) (x : ZMod q) : ZMod q :=
  match cs.reverse with
  | [] => 0
  | top :: rest => rest.foldl (fun out c => out * x + c) top

/-- the share loop (pkg/sharing/v1/shamir.go:126-134); `NewElement` panics when
`i + 1` is not below the modulus. -/
def mkShares (limit : UInt32) (poly : List (ZMod q)) : Go (List (Share q)) :=
  if q ≤ limit.toNat then Go.crash
  else .ok ((List.range limit.toNat).map fun i =>
    ⟨UInt32.ofNat (i + 1), evaluate poly ((i + 1 : ℕ) : ZMod q)⟩)

/-- `GetSharesAndPolynomial` (pkg/sharing/v1/shamir.go:111-136). -/
def getSharesAndPolynomial (s : Shamir) (secret : List UInt8) (rnd : ℕ → ZMod q) :
    Go (List (Share q) × List (ZMod q)) := do
  Go.guard (secret.length ≠ 0)
  Go.guard (beNat secret < q)
  let poly ← newPoly ((beNat secret : ℕ) : ZMod q) s.threshold.toNat rnd
  let shares ← mkShares s.limit poly
  .ok (shares, poly)

/-- `Split` (pkg/sharing/v1/shamir.go:72-75). -/
def split (s : Shamir) (secret : List UInt8) (rnd : ℕ → ZMod q) : Go (List (Share q)) := do
  let r ← getSharesAndPolynomial s secret rnd
  .ok r.1

/-- inner loop of `Interpolate` (pkg/sharing/v1/shamir.go:149-162) -/
def basisAt (pts : List (ZMod q × ZMod q)) (i : ℕ) (xi : ZMod q) : Go (ZMod q) :=
  pts.zipIdx.foldlM
    (fun basis pj =>
      if i = pj.2 then .ok basis
      else if pj.1.1 - xi = 0 then Go.err
      else .ok (basis * (pj.1.1 / (pj.1.1 - xi)))) 1

/-- `Interpolate` (pkg/sharing/v1/shamir.go:139-168) on the zipped coordinates; only the first
`threshold` points are used; an empty list panics at `xCoordinates[0]`. -/
def interpolate (threshold : ℕ) (pts : List (ZMod q × ZMod q)) : Go (ZMod q) := do
  Go.guard (¬ pts.length < threshold)
  if pts = [] then Go.crash
  else
    let used := pts.take threshold
    used.zipIdx.foldlM (fun result p => do
      let basis ← basisAt used p.2 p.1.1
      .ok (result + p.1.2 * basis)) 0

/-- the loop of `Combine` (pkg/sharing/v1/shamir.go:87-100) over the first `threshold` shares.
The map `dups` of the code is never written, so its test never fires and is omitted.
`ElementFromBytes` panics for an identifier which is not below the modulus. -/
def collect (limit : UInt32) : List (Option (Share q)) → Go (List (ZMod q × ZMod q))
  | [] => .ok []
  | none :: _ => Go.crash
  | some r :: rest => do
    Go.guard (¬ (r.id > limit ∨ r.id < 1))
    if q ≤ r.id.toNat then Go.crash
    else do
      let tl ← collect limit rest
      .ok (((r.id.toNat : ZMod q), r.value) :: tl)

/-- `Combine` (pkg/sharing/v1/shamir.go:78-107): result as minimal big-endian bytes. -/
def combine (s : Shamir) (shares : List (Option (Share q))) : Go (List UInt8) := do
  Go.guard (¬ shares.length < s.threshold.toNat)
  let pts ← collect s.limit (shares.take s.threshold.toNat)
  let secret ← interpolate s.threshold.toNat pts
  .ok (natBytes secret.val)

/-- `ComputeL` (pkg/sharing/v1/shamir.go:172-212): the Lagrange coefficients of the first
`threshold` shares. -/
def computeL (s : Shamir) (shares : List (Option (Share q))) : Go (List (ZMod q)) := do
  Go.guard (¬ shares.length < s.threshold.toNat)
  let pts ← collect s.limit (shares.take s.threshold.toNat)
  if pts = [] then Go.crash
  else pts.zipIdx.mapM fun p => basisAt pts p.2 p.1.1

/-- `ShamirShare.Add` (pkg/sharing/v1/shamir.go:43-49). The detour through bytes in
`NewShamirShare` is the identity. -/
def Share.add (a b : Share q) : Go (Share q) :=
  if a.id ≠ b.id then Go.crash else .ok ⟨a.id, a.value + b.value⟩

variable {G : Type} [AddCommGroup G] [Module (ZMod q) G] [DecidableEq G]

/-- right-hand side loop of `Verify` (pkg/sharing/v1/feldman.go:77-98,
pkg/sharing/v1/pedersen.go:126-147). -/
def commitEval (c0 : G) (cs : List G) (x : ZMod q) : G :=
  (cs.foldl (fun (st : ZMod q × G) c => (st.1 * x, st.2 + (st.1 * x) • c)) (1, c0)).2

/-- `Feldman.Verify` (pkg/sharing/v1/feldman.go:67-107). -/
def feldmanVerify (g : G) (s : Shamir) (share : Option (Share q)) (verifiers : List G) :
    Go Bool := do
  Go.guard (¬ verifiers.length < s.threshold.toNat)
  match share with
  | none => Go.crash
  | some sh =>
    if q ≤ sh.id.toNat then Go.crash
    else match verifiers with
      | [] => Go.crash
      | c0 :: cs => .ok (decide (sh.value • g = commitEval c0 cs (sh.id.toNat : ZMod q)))

/-- `Feldman.Split` (pkg/sharing/v1/feldman.go:41-58). -/
def feldmanSplit (g : G) (s : Shamir) (secret : List UInt8) (rnd : ℕ → ZMod q) :
    Go (List G × List (Share q)) := do
  let r ← getSharesAndPolynomial s secret rnd
  .ok (r.2.map (· • g), r.1)

/-- `Pedersen.Verify` (pkg/sharing/v1/pedersen.go:116-164). -/
def pedersenVerify (g h : G) (s : Shamir) (share blinding : Option (Share q))
    (verifiers : List G) : Go Bool := do
  Go.guard (¬ verifiers.length < s.threshold.toNat)
  match share with
  | none => Go.crash
  | some sh =>
    if q ≤ sh.id.toNat then Go.crash
    else match verifiers with
      | [] => Go.crash
      | c0 :: cs =>
        match blinding with
        | none => Go.crash
        | some b => .ok (decide (sh.value • g + b.value • h =
            commitEval c0 cs (sh.id.toNat : ZMod q)))

/-- `Pedersen.Split` (pkg/sharing/v1/pedersen.go:58-106): blinding, blinding shares, shares,
blinded verifiers, verifiers.  `blinding.Bytes()` of a zero blinding is the empty slice, which
`GetSharesAndPolynomial` rejects. -/
def pedersenSplit (g h : G) (s : Shamir) (secret : List UInt8) (blinding : ZMod q)
    (rnd rndB : ℕ → ZMod q) :
    Go (ZMod q × List (Share q) × List (Share q) × List G × List G) := do
  let r ← getSharesAndPolynomial s secret rnd
  let b ← getSharesAndPolynomial s (natBytes blinding.val) rndB
  let sG := r.2.map (· • g)
  .ok (blinding, b.1, r.1, List.zipWith (fun a c => a + c • h) sG b.2, sG)

end Verif.V1
