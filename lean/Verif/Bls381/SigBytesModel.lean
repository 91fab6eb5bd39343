import Verif.Bls381.SigModel
import Verif.Bls.Model
import Verif.Common.Primes

/-!
# Model of the keys and signatures of `pkg/signatures/bls/bls_sig`, on coordinates and bytes

`usual_bls_sig.go` has its keys in `G1` and its signatures in `G2`, `tiny_bls_sig.go` is the same text with the groups
exchanged. A `Side` is one of the two groups with the methods of `g1.go` or `g2.go` that are called, so each function below is
the one of both files. Nil pointers and the nil message are `none`; `hash` is `Hash` with SHA-256 and the tag.
-/

namespace Verif.Bls381.SigBytes

open Verif.Native Verif.Bls381 Verif.Primes

/-- the methods of `G1` or of `G2` used by the signatures; `len` is `PublicKeySize`, `SignatureSize`, ... -/
structure Side (F : Type) where
  len : ℕ
  m3b : F → F
  generator : Proj F
  toC : Proj F → List UInt8
  fromC : List UInt8 → Go (Proj F)

/-- `G1`: `PublicKeySize` (`usual_bls_sig.go:26`), `SignatureVtSize` (`tiny_bls_sig.go:28`) -/
def side1 : Side Fq := ⟨48, mulBy3b1, g1Generator, g1ToCompressed, g1FromCompressed⟩

/-- `G2`: `SignatureSize` (`usual_bls_sig.go:28`), `PublicKeyVtSize` (`tiny_bls_sig.go:26`) -/
def side2 : Side (Fp2 Fq) := ⟨96, mulBy3b2, g2Generator, g2ToCompressed, g2FromCompressed⟩

variable {F : Type} [Field F] [DecidableEq F]

/-- `MarshalBinary` of `PublicKey` (`usual_bls_sig.go:42-45`), `Signature` (79-82), `ProofOfPossession` (277-280),
`MultiSignature` (322-325), `MultiPublicKey` (364-367) and of their `Vt` forms (`tiny_bls_sig.go:42-45`, 79-82, 276-279,
321-324, 363-366) -/
def marshal (s : Side F) (p : Proj F) : List UInt8 := s.toC p

/-- `UnmarshalBinary` of `PublicKey` (`usual_bls_sig.go:53-68`) and `Signature` (138-153) and of their `Vt` forms
(`tiny_bls_sig.go:53-68`, 138-153) -/
def unmarshal (s : Side F) (data : List UInt8) : Go (Proj F) := do
  Go.guard (data.length = s.len)
  let p ← s.fromC data
  Go.guard (p.z ≠ 0)
  .ok p

/-- `UnmarshalBinary` of `MultiSignature` (`usual_bls_sig.go:342-353`) and `MultiPublicKey` (375-386) and of their `Vt` forms
(`tiny_bls_sig.go:341-352`, 374-385); `ProofOfPossession` (288-296, `tiny_bls_sig.go:287-295`) is without the first line -/
def unmarshalMulti (s : Side F) (data : List UInt8) : Go (Proj F) := do
  Go.guard (data.length = s.len)
  unmarshal s data

/-- `SecretKey.GetPublicKey` (`usual_bls_sig.go:157-164`, `tiny_bls_sig.go:157-164`) -/
def getPublicKey (s : Side F) (sk : ZMod blsr) : Go (Proj F) := do
  let r := gMultiply s.m3b s.generator (leBytes 32 sk.val)
  Go.guard (¬ (gInSubgroup s.m3b r = false ∨ r.z = 0))
  .ok r

/-- `SecretKey.createSignature` (`usual_bls_sig.go:174-187`, `tiny_bls_sig.go:173-186`) -/
def createSignature (s : Side F) (hash : List UInt8 → Proj F) (sk : ZMod blsr) (msg : Option (List UInt8)) :
    Go (Proj F) := do
  let m ← Go.ofOption msg
  Go.guard (sk ≠ 0)
  let p := hash m
  let r := gMultiply s.m3b p (leBytes 32 sk.val)
  Go.guard (gInSubgroup s.m3b r = true)
  .ok r

/-- the bodies of the loops of `aggregatePublicKeys` (`usual_bls_sig.go:216-224`) and `aggregateSignatures` (234-242),
`tiny_bls_sig.go:215-223`, 233-241 -/
def addStep (s : Side F) (acc : Proj F) : Option (Proj F) → Go (Proj F)
  | none => Go.err
  | some k => do
    Go.guard (gInSubgroup s.m3b k = true)
    .ok (gAdd s.m3b acc k)

/-- `aggregatePublicKeys` (`usual_bls_sig.go:211-226`) and `aggregateSignatures` (229-244), `tiny_bls_sig.go:210-225`,
228-243 -/
def aggregate (s : Side F) (ps : List (Option (Proj F))) : Go (Proj F) := do
  Go.guard (¬ ps.length < 1)
  ps.foldlM (addStep s) gIdentity

/-- `SecretKey.createProofOfPossession` (`usual_bls_sig.go:257-271`, `tiny_bls_sig.go:256-270`); `k` is the side of the keys -/
def createPop {K : Type} [Field K] [DecidableEq K] (k : Side K) (s : Side F) (hash : List UInt8 → Proj F) (sk : ZMod blsr) :
    Go (Proj F) := do
  let pk ← getPublicKey k sk
  createSignature s hash sk (some (marshal k pk))

/-- `SecretKeyShare.partialSign` (`usual_bls_sig.go:403-420`, `tiny_bls_sig.go:402-419`) after the message is tested and the
share is decoded to `x` -/
def partialSign (s : Side F) (hash : List UInt8 → Proj F) (id : UInt8) (x : ZMod blsr) (msg : List UInt8) :
    Go (Bls.Partial (Proj F)) := do
  let r := gMultiply s.m3b (hash msg) (leBytes 32 x.val)
  Go.guard (gInSubgroup s.m3b r = true)
  .ok ⟨id, r⟩

/-- `splitXY` (`usual_bls_sig.go:471-492`, `tiny_bls_sig.go:469-490`); `seen` is the map `dup` -/
def splitXY (s : Side F) : List UInt8 → List (Option (Bls.Partial (Proj F))) → Go (List (ZMod blsr × Proj F))
  | _, [] => .ok []
  | _, none :: _ => Go.err
  | seen, some sp :: rest => do
    Go.guard (sp.identifier ∉ seen)
    Go.guard (gInSubgroup s.m3b sp.signature = true)
    let tl ← splitXY s (sp.identifier :: seen) rest
    .ok (((sp.identifier.toNat : ZMod blsr), sp.signature) :: tl)

/-- the body of the outer loop of `combineSigs` (`usual_bls_sig.go:443-462`, `tiny_bls_sig.go:441-460`); the inner loop is on
scalars only and is `Bls.basis` -/
def combineStep (s : Side F) (xs : List (ZMod blsr)) (sig : Proj F) (p : (ZMod blsr × Proj F) × ℕ) : Go (Proj F) := do
  let b ← Bls.basis xs p.2 p.1.1
  let sTmp := gMultiply s.m3b p.1.2 (leBytes 32 b.val)
  .ok (gAdd s.m3b sig sTmp)

/-- `combineSigs` (`usual_bls_sig.go:423-468`, `tiny_bls_sig.go:422-466`) -/
def combineSigs (s : Side F) (partials : List (Option (Bls.Partial (Proj F)))) : Go (Proj F) := do
  Go.guard (¬ partials.length < 2)
  Go.guard (¬ partials.length > 255)
  let pts ← splitXY s [] partials
  let sig ← pts.zipIdx.foldlM (combineStep s (pts.map Prod.fst)) gIdentity
  Go.guard (gInSubgroup s.m3b sig = true)
  .ok sig

end Verif.Bls381.SigBytes
