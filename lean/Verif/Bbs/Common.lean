import Verif.Common.Go
import Verif.Common.GoList
import Mathlib.Algebra.Module.BigOperators
import Mathlib.Algebra.BigOperators.Group.List.Basic

/-!
# Model of `pkg/signatures/common`

Points are `Option G`, `none` is a nil interface value.  Random scalars are arguments.
-/

namespace Verif.SigCommon

variable {F : Type} [Field F]
variable {G : Type} [AddCommGroup G] [Module F G]

/-- `Point.SumOfProducts` of the pairing curves (pkg/core/curves/bls12381_curve.go:484-506,
pkg/core/curves/native/bls12381/g1.go:978-985): nil if a point is nil or the lengths differ. -/
def sumOfProducts (points : List (Option G)) (scalars : List F) : Option G :=
  if points.length = scalars.length then
    (points.mapM id).map fun ps => (List.zipWith (fun p s => s • p) ps scalars).sum
  else none

/-- `ProofCommittedBuilder` (pkg/signatures/common/proof_committed_builder.go:22-26). -/
structure Builder (F G : Type) where
  points : List (Option G)
  scalars : List F

/-- `NewProofCommittedBuilder` (proof_committed_builder.go:29-35). -/
def Builder.new : Builder F G := ⟨[], []⟩

/-- `ProofCommittedBuilder.Commit` (proof_committed_builder.go:48-55); `CommitRandom` (38-45) is the
same with a sampled scalar.  `limit` is 65535 (line 17). -/
def Builder.commit (b : Builder F G) (p : Option G) (s : F) : Go (Builder F G) := do
  Go.guard (¬ b.points.length > 65535)
  .ok ⟨b.points ++ [p], b.scalars ++ [s]⟩

/-- `ProofCommittedBuilder.Get` (proof_committed_builder.go:58-63). -/
def Builder.get (b : Builder F G) (index : ℤ) : Option G × Option F :=
  if index ≥ b.points.length ∨ index < 0 then (none, none)
  else ((b.points[index.toNat]?).join, b.scalars[index.toNat]?)

/-- The point hashed by `ProofCommittedBuilder.GetChallengeContribution`
(proof_committed_builder.go:67-73). -/
def Builder.commitment (b : Builder F G) : Option G := sumOfProducts b.points b.scalars

/-- `ProofCommittedBuilder.GetChallengeContribution` (proof_committed_builder.go:67-73). -/
def Builder.contribution (penc : G → List UInt8) (b : Builder F G) : List UInt8 :=
  match b.commitment with
  | none => []
  | some c => penc c

/-- `ProofCommittedBuilder.GenerateProof` (proof_committed_builder.go:76-86). -/
def Builder.generateProof (b : Builder F G) (challenge : F) (secrets : List F) : Go (List F) := do
  Go.guard (secrets.length = b.scalars.length)
  .ok (List.zipWith (fun sc x => x * challenge + sc) b.scalars secrets)

/-! ## HMAC-DRBG -/

/-- `HmacDrbg` (pkg/signatures/common/hmacdrbg.go:17-21); the hash function is the parameter `hmac`
(key, data) of the functions below. -/
structure Drbg where
  k : List UInt8
  v : List UInt8
  count : ℕ
  deriving DecidableEq

/-- `HmacDrbg.update` (hmacdrbg.go:69-99). -/
def Drbg.update (hmac : List UInt8 → List UInt8 → List UInt8) (d : Drbg)
    (seeds : List (List UInt8)) : Drbg :=
  let k := hmac d.k (d.v ++ [0] ++ seeds.flatten)
  let v := hmac k d.v
  match seeds with
  | [] => { d with k := k, v := v }
  | _ :: _ =>
    let k' := hmac k (v ++ [1] ++ seeds.flatten)
    { d with k := k', v := hmac k' v }

/-- `NewHmacDrbg` (hmacdrbg.go:23-38), `size` is the output length of the hash. -/
def Drbg.new (hmac : List UInt8 → List UInt8 → List UInt8) (size : ℕ)
    (entropy nonce pers : List UInt8) : Drbg :=
  let d := Drbg.update hmac ⟨List.replicate size 0, List.replicate size 1, 0⟩ [entropy, nonce, pers]
  { d with count := d.count + 1 }

/-- `HmacDrbg.Reseed` (hmacdrbg.go:61-63). -/
def Drbg.reseed (hmac : List UInt8 → List UInt8 → List UInt8) (d : Drbg) (entropy : List UInt8) :
    Drbg := d.update hmac [entropy]

/-- Loop of `HmacDrbg.Read` (hmacdrbg.go:45-56).  `dst` is the destination, `i` the write position.
The inner loop `dst[i+j] = b` panics as soon as `i+j` reaches the end of the destination.  The fuel
bounds the iterations; with blocks of at least one byte `len(dst)` iterations suffice. -/
def Drbg.readLoop (hmac : List UInt8 → List UInt8 → List UInt8) (k : List UInt8) :
    ℕ → List UInt8 → List UInt8 → ℕ → List UInt8 × Go (List UInt8 × ℕ)
  | 0, v, dst, i => (v, .ok (dst, i))
  | fuel + 1, v, dst, i =>
    if i < dst.length then
      let v' := hmac k v
      if i + v'.length > dst.length then (v', Go.crash)
      else Drbg.readLoop hmac k fuel v'
        (dst.take i ++ v' ++ dst.drop (i + v'.length)) (i + v'.length)
    else (v, .ok (dst, i))

/-- `HmacDrbg.Read` (hmacdrbg.go:40-59): new state, filled destination and returned count. -/
def Drbg.read (hmac : List UInt8 → List UInt8 → List UInt8) (d : Drbg) (dst : List UInt8) :
    Drbg × Go (List UInt8 × ℕ) :=
  if dst.length = 0 then (d, .ok (dst, 0))
  else
    match Drbg.readLoop hmac d.k dst.length d.v dst 0 with
    | (v, .error e) => ({ d with v := v }, .error e)
    | (v, .ok r) =>
      let d' := Drbg.update hmac { d with v := v } []
      ({ d' with count := d'.count + 1 }, .ok r)

end Verif.SigCommon
