import Verif.Pallas.IfaceModel
import Verif.Sharing.Model

/-!
# Shamir sharing with the scalars of Pallas (`pkg/sharing/shamir.go`, `pkg/sharing/polynomial.go`)

The functions of `pkg/sharing` on the limbs of `ScalarPallas`.  All scalars come from the curve of the scheme, so the type assertions of the
methods succeed; a nil scalar can only come from a division by zero, which the code excludes.
-/

namespace Verif.Pallas.Split
open Native hiding isZero
open Curves Sharing Iface

/-- `New` (`pkg/core/curves/pallas_curve.go:269-274`) -/
def new (v : ℤ) : Limbs := pastaSetBigInt pastaFq ⟨0, 0, 0, 0⟩ v

/-- `Polynomial.Evaluate` (`pkg/sharing/polynomial.go:28-35`); the coefficients are never empty -/
def polyEval (cs : List Limbs) (x : Limbs) : Limbs :=
  match cs.reverse with
  | [] => zero
  | top :: rest => rest.foldl (fun out c => montAdd pastaFq (montMul pastaFq out x) c) top

/-- `Shamir.Split` (`pkg/sharing/shamir.go:68-87`, `pkg/sharing/polynomial.go:19-26`); `rnd` are the scalars that `Random` returns -/
def split (s : Shamir) (secret : Limbs) (rnd : ℕ → Limbs) : Go (List Share) := do
  Go.guard (isZero secret = false)
  let poly ← if s.threshold.toNat = 0 then Go.crash else .ok (secret :: (List.range (s.threshold.toNat - 1)).map rnd)
  .ok ((List.range s.limit.toNat).map fun i => ⟨UInt32.ofNat (i + 1), bytes (polyEval poly (new (i + 1)))⟩)

/-- `ShamirShare.Validate` (`pkg/sharing/shamir.go:27-39`) -/
def validate (sh : Share) : Go Unit := do
  Go.guard (sh.id ≠ 0)
  let sc ← setBytes sh.value
  Go.guard (isZero sc = false)

/-- the loop of `Combine` (`pkg/sharing/shamir.go:123-137`) -/
def check (limit : UInt32) : List UInt32 → List Share → Go (List (Limbs × Limbs))
  | _, [] => .ok []
  | seen, sh :: rest => do
    validate sh
    Go.guard (¬ sh.id > limit)
    Go.guard (sh.id ∉ seen)
    let y ← setBytes sh.value
    let tl ← check limit (sh.id :: seen) rest
    .ok ((new sh.id.toNat, y) :: tl)

/-- the inner loop of `interpolate` (`pkg/sharing/shamir.go:171-179`) -/
def numDen (xs : List Limbs) (i : ℕ) (xi : Limbs) : Limbs × Limbs :=
  xs.zipIdx.foldl (fun nd xj => if i = xj.2 then nd else
    (montMul pastaFq nd.1 xj.1, montMul pastaFq nd.2 (montSub pastaFq xj.1 xi))) (one, one)

/-- `num.Div(den)`, used at once: a nil result would panic (`pkg/sharing/shamir.go:183`) -/
def quo (num den : Limbs) : Go Limbs :=
  match div num (some den) with
  | none => Go.crash
  | some c => .ok c

/-- `interpolate` (`pkg/sharing/shamir.go:168-186`) -/
def interpolate (pts : List (Limbs × Limbs)) : Go Limbs :=
  pts.zipIdx.foldlM (fun (result : Limbs) (p : (Limbs × Limbs) × ℕ) =>
    let nd := numDen (pts.map Prod.fst) p.2 p.1.1
    if isZero nd.2 then Go.err else do
      let c ← quo nd.1 nd.2
      .ok (montAdd pastaFq result (montMul pastaFq p.1.2 c))) zero

/-- `Combine` (`pkg/sharing/shamir.go:115-139`); shares that are nil are in C03 -/
def combine (s : Shamir) (shares : List Share) : Go Limbs := do
  Go.guard (¬ shares.length < s.threshold.toNat)
  let pts ← check s.limit [] shares
  interpolate pts

end Verif.Pallas.Split
