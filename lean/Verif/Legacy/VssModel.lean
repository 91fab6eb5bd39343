import Verif.Legacy.PointModel
import Verif.Sharing.V1Model

/-!
# Model of `pkg/sharing/v1/feldman.go` and `pedersen.go` on `EcPoint`

`Verif.V1` has the same functions over an abstract group.  Here the commitments are pairs of integers on an `elliptic.Curve`.
The field of the shares is that of the order of the curve.
-/

namespace Verif.Legacy
open Verif.V1

variable {q : ℕ} [Fact q.Prime]

/-- the loop over the verifiers (feldman.go:83-98, pedersen.go:132-147): power of the identifier and sum so far -/
def ecRhs (x : ZMod q) : List EcPoint → ZMod q → EcPoint → Go EcPoint
  | [], _, rhs => .ok rhs
  | v :: vs, i, rhs => do
    let i := i * x
    let c ← EcPoint.scalarMult (some v) (some (i.val : ℤ))
    let rhs ← EcPoint.add (some rhs) (some c)
    ecRhs x vs i rhs

/-- `Feldman.Verify` (feldman.go:67-107) -/
def ecFeldmanVerify (c : ECurve) (s : Shamir) (share : Option (Share q)) (verifiers : List EcPoint) : Go Bool := do
  Go.guard (¬ verifiers.length < s.threshold.toNat)
  match share with
  | none => Go.crash
  | some sh =>
    if q ≤ sh.id.toNat then Go.crash
    else match verifiers with
      | [] => Go.crash
      | c0 :: cs => do
        let rhs ← ecRhs (sh.id.toNat : ZMod q) cs 1 c0
        let lhs ← newScalarBaseMult (some c) (some (sh.value.val : ℤ))
        .ok (lhs.equals (some rhs))

/-- `Feldman.Split` (feldman.go:41-58) -/
def ecFeldmanSplit (c : ECurve) (s : Shamir) (secret : List UInt8) (rnd : ℕ → ZMod q) : Go (List EcPoint × List (Share q)) := do
  let r ← getSharesAndPolynomial s secret rnd
  let vs ← r.2.mapM fun (a : ZMod q) => newScalarBaseMult (some c) (some (a.val : ℤ))
  .ok (vs, r.1)

/-- `NewPedersen` (pedersen.go:34-56), the checks of the generator -/
def newPedersen (threshold limit : UInt32) (generator : Option EcPoint) : Go (Shamir × EcPoint) := do
  Go.guard (¬ limit < threshold)
  Go.guard (¬ threshold < 2)
  match generator with
  | none => Go.err
  | some h => do
    Go.guard (¬ h.isIdentity = true)
    let on ← h.isOnCurve
    Go.guard (on = true)
    .ok (⟨threshold, limit⟩, h)

/-- `Pedersen.Verify` (pedersen.go:116-164) -/
def ecPedersenVerify (h : EcPoint) (s : Shamir) (share blinding : Option (Share q)) (verifiers : List EcPoint) : Go Bool := do
  Go.guard (¬ verifiers.length < s.threshold.toNat)
  match share with
  | none => Go.crash
  | some sh =>
    if q ≤ sh.id.toNat then Go.crash
    else match verifiers with
      | [] => Go.crash
      | c0 :: cs => do
        let rhs ← ecRhs (sh.id.toNat : ZMod q) cs 1 c0
        let lhs ← newScalarBaseMult (some h.curve) (some (sh.value.val : ℤ))
        match blinding with
        | none => Go.crash
        | some b => do
          let tmp ← EcPoint.scalarMult (some h) (some (b.value.val : ℤ))
          let lhs ← EcPoint.add (some lhs) (some tmp)
          .ok (lhs.equals (some rhs))

/-- the commitments of `Pedersen.Split` (pedersen.go:82-101): blinded and plain, for the coefficients of the two polynomials, which are of
the same length -/
def ecCommit (h : EcPoint) (a b : ZMod q) : Go (EcPoint × EcPoint) := do
  let s ← newScalarBaseMult (some h.curve) (some (a.val : ℤ))
  let t ← EcPoint.scalarMult (some h) (some (b.val : ℤ))
  let bv ← EcPoint.add (some s) (some t)
  .ok (bv, s)

/-- `Pedersen.Split` (pedersen.go:58-106) -/
def ecPedersenSplit (h : EcPoint) (s : Shamir) (secret : List UInt8) (blinding : ZMod q) (rnd rndB : ℕ → ZMod q) :
    Go (ZMod q × List (Share q) × List (Share q) × List EcPoint × List EcPoint) := do
  let r ← getSharesAndPolynomial s secret rnd
  let b ← getSharesAndPolynomial s (natBytes blinding.val) rndB
  let l ← (r.2.zip b.2).mapM fun ab => ecCommit h ab.1 ab.2
  .ok (blinding, b.1, r.1, l.map (·.1), l.map (·.2))

end Verif.Legacy
