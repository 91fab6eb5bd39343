import Verif.Common.Go
import Verif.Common.Codec
import Mathlib.Algebra.Module.Defs

/-!
# Model of `pkg/zkp/schnorr`

`H` is SHA3-256 as an arbitrary function, `penc` is `Point.ToAffineCompressed`, `cd` the scalar codec,
`g` the generator of the curve.  The random nonce of `Prove` is the argument `k`.  Writing to a
`sha3` state never fails, so those error branches are omitted.  Nil scalars or points inside a proof
(which panic) are not modelled, a nil proof pointer is.
-/

namespace Verif.Schnorr

variable {F : Type} [Field F] [DecidableEq F]
variable {G : Type} [AddCommGroup G] [Module F G] [DecidableEq G]

/-- `Proof` (pkg/zkp/schnorr/schnorr.go:31-35). -/
structure Proof (F G : Type) where
  C : F
  S : F
  statement : G
  deriving DecidableEq

/-- `Prover` (pkg/zkp/schnorr/schnorr.go:23-27). -/
structure Prover (G : Type) where
  basePoint : G
  sessionId : List UInt8

/-- `NewProver` (pkg/zkp/schnorr/schnorr.go:39-48): a nil base point is replaced by the generator. -/
def newProver (g : G) (basePoint : Option G) (sid : List UInt8) : Prover G :=
  ⟨basePoint.getD g, sid⟩

/-- The bytes absorbed by the hash in `Prove` (schnorr.go:58-71) and `Verify` (schnorr.go:91-103). -/
def transcript (penc : G → List UInt8) (sid : List UInt8) (base statement random : G) :
    List UInt8 := sid ++ penc base ++ penc statement ++ penc random

/-- `Prover.Prove` (pkg/zkp/schnorr/schnorr.go:52-78). -/
def Prover.prove (H : List UInt8 → List UInt8) (penc : G → List UInt8) (cd : ScalarCodec F)
    (p : Prover G) (x k : F) : Go (Proof F G) := do
  let statement := x • p.basePoint
  let random := k • p.basePoint
  let c ← Go.ofOption (cd.dec (H (transcript penc p.sessionId p.basePoint statement random)))
  .ok ⟨c, c * x + k, statement⟩

/-- `Verify` (pkg/zkp/schnorr/schnorr.go:82-109). -/
def verify (H : List UInt8 → List UInt8) (penc : G → List UInt8) (cd : ScalarCodec F) (g : G)
    (proof : Option (Proof F G)) (basePoint : Option G) (sid : List UInt8) : Go Unit :=
  let base := basePoint.getD g
  match proof with
  | none => Go.crash
  | some pf =>
    let gs := pf.S • base
    let xc := (-pf.C) • pf.statement
    let random := gs + xc
    Go.guard (cd.enc pf.C = H (transcript penc sid base pf.statement random))

/-- The commitment hash of `ProveCommit` and `DecommitVerify` (schnorr.go:118-124, 131-137). -/
def commitment (H : List UInt8 → List UInt8) (cd : ScalarCodec F) (pf : Proof F G) : List UInt8 :=
  H (cd.enc pf.C ++ cd.enc pf.S)

/-- `Prover.ProveCommit` (pkg/zkp/schnorr/schnorr.go:113-126). -/
def Prover.proveCommit (H : List UInt8 → List UInt8) (penc : G → List UInt8) (cd : ScalarCodec F)
    (p : Prover G) (x k : F) : Go (Proof F G × List UInt8) := do
  let pf ← p.prove H penc cd x k
  .ok (pf, commitment H cd pf)

/-- `DecommitVerify` (pkg/zkp/schnorr/schnorr.go:130-142). -/
def decommitVerify (H : List UInt8 → List UInt8) (penc : G → List UInt8) (cd : ScalarCodec F)
    (g : G) (proof : Option (Proof F G)) (com : List UInt8) (basePoint : Option G)
    (sid : List UInt8) : Go Unit :=
  match proof with
  | none => Go.crash
  | some pf => do
    Go.guard (commitment H cd pf = com)
    verify H penc cd g (some pf) basePoint sid

end Verif.Schnorr
