import Verif.Bulletproof.Model

/-!
# Generators and constructors of the bulletproof package (pkg/bulletproof/generators.go and the `New…` functions)

The output of SHAKE256 for a domain is an unbounded byte stream, hashing to the curve a function of 64 bytes; both
are arguments. `lenVector * 2` does not overflow.
-/

namespace Verif.Bulletproof

/-- what the generators are made with: `sha3.NewShake256` after writing the domain (read position by position) and
`curve.Point.Hash` -/
structure GenEnv (G : Type) where
  shake : Bytes → ℕ → UInt8
  hash : Bytes → G

section
variable {G : Type}

/-- `shake.Read(bytes[:])` for 64 bytes when `pos` bytes were read before (generators.go:41-42) -/
def shakeRead (s : ℕ → UInt8) (pos : ℕ) : Bytes := (List.range 64).map fun j => s (pos + j)

/-- the loop of `getGeneratorPoints` (generators.go:40-48); `pos` bytes were read before -/
def genLoop (hash : Bytes → G) (s : ℕ → UInt8) : ℕ → ℕ → List G
  | 0, _ => []
  | k + 1, pos => hash (shakeRead s pos) :: genLoop hash s k (pos + 64)

/-- `getGeneratorPoints` (generators.go:32-57): `make` panics for a negative length -/
def getGeneratorPoints (ge : GenEnv G) (lenVector : ℤ) (domain : Bytes) : Go (Gens G) := do
  let numPoints := lenVector * 2
  if numPoints < 0 then Go.crash
  else do
    let points := genLoop ge.hash (ge.shake domain) numPoints.toNat 0
    let gh ← splitVector points
    .ok ⟨gh.1, gh.2⟩

/-- `NewInnerProductProver` (ipp_prover.go:51-57), `NewInnerProductVerifier` (ipp_verifier.go:22-28): what the two
hold beside the curve -/
def newInnerProduct (ge : GenEnv G) (maxVectorLength : ℤ) (domain : Bytes) : Go (Gens G) :=
  getGeneratorPoints ge maxVectorLength domain

/-- `RangeProver` (range_prover.go:27-31), `RangeVerifier` (range_verifier.go:13-17) without the curve: the own
generators and those of the inner product prover or verifier -/
structure RangeKit (G : Type) where
  generators : Gens G
  ipp : Gens G

/-- `NewRangeProver` (range_prover.go:51-61), `NewRangeVerifier` (range_verifier.go:23-33) -/
def newRange (ge : GenEnv G) (maxVectorLength : ℤ) (rangeDomain ippDomain : Bytes) : Go (RangeKit G) := do
  let g ← getGeneratorPoints ge maxVectorLength rangeDomain
  let i ← newInnerProduct ge maxVectorLength ippDomain
  .ok ⟨g, i⟩

end

end Verif.Bulletproof
