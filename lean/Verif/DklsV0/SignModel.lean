import Verif.DklsV0.CotModel

/-!
# Model of the older DKLs signing (`pkg/tecdsa/dkls/v0/sign.go`)

A round that reads several gob values from one reader is one function of a message that holds them all.  The multiplicity is two.
-/

namespace Verif.DklsV0
open Verif.Legacy Verif.Ot

/-- `signInitStorage` (sign.go:72-75) followed by the first message of the multiplication -/
structure SignInit where
  seed : Digest
  dB : Option EcPoint
  cot : CotInit

/-- the second message of the multiplication followed by `signStorage` (sign.go:77-81) -/
structure SignMsg where
  cot : CotMsg
  rPrime : Option EcPoint
  etaPhi : Option ℤ
  etaSig : Option ℤ

/-- the part of `Bob` (sign.go:35-52) that a signature sets -/
structure BobSign where
  kB : ℤ
  dB : EcPoint
  tB : CotReceiver 2

/-- the randomness of `Bob.signInit`: the seed, the nonce and the random bytes of `encode` and of the extension -/
structure BobRandom where
  seed : Digest
  kB : ℤ
  r : Fin 2 → Digest
  rnd : Vector UInt8 10
  gamma : Vector UInt8 42

/-- `Bob.signInit` (sign.go:90-114): a new receiver for each signature; `rho` are the pads of the seed OT -/
def bobSignInit (env : Env) (rho : Fin 256 → Digest × Digest) (skB : ℤ) (rd : BobRandom) : Go (SignInit × BobSign) := do
  let idExt := env.sha rd.seed.toList
  let dB ← newScalarBaseMult (some env.curve) (some rd.kB)
  let kBInv ← env.sc.div 1 rd.kB
  let b ← env.sc.mul skB kBInv
  let (cot, tB) ← multiplyInit env (newCotReceiver 2) rho idExt ![kBInv, b] rd.r rd.rnd rd.gamma
  .ok (⟨rd.seed, some dB, cot⟩, ⟨rd.kB, dB, tB⟩)

/-- `Alice.signInit` (sign.go:127-211): `packed` and `rho` are those of her seed OT receiver, `kPrimeA` and `phi` the random scalars -/
def aliceSign (env : Env) (packed : Digest) (rho : Fin 256 → Digest) (skA : ℤ) (pk : Option EcPoint) (digest : List UInt8) (kPrimeA phi : ℤ)
    (input : SignInit) : Go SignMsg := do
  let idExt := env.sha input.seed.toList
  let rPrime ← EcPoint.scalarMult input.dB (some kPrimeA)
  let rb ← rPrime.bytes
  let kA ← env.sc.add (intOf (env.sha rb)) kPrimeA
  let r ← EcPoint.scalarMult input.dB (some kA)
  let kAInv ← env.sc.div 1 kA
  let a0 ← env.sc.add phi kAInv
  let a1 ← env.sc.mul skA kAInv
  let (cot, ta) ← multiply env idExt packed rho ![a0, a1] input.cot
  let gamma1 ← newScalarBaseMult (some env.curve) (some kA)
  let gamma1 ← EcPoint.scalarMult (some gamma1) (some phi)
  let n0 ← env.sc.neg (ta 0)
  let other ← EcPoint.scalarMult (some r) (some n0)
  let gamma1 ← EcPoint.add (some gamma1) (some other)
  let gamma1 ← EcPoint.add (some gamma1) (some env.generator)
  let g1 ← gamma1.bytes
  let etaPhi ← env.sc.add (intOf (env.sha g1)) phi
  let s0 ← env.sc.mul (beNat digest) (ta 0)
  let rx ← deref r.X
  let s1 ← env.sc.mul rx (ta 1)
  let sigA ← env.sc.add s0 s1
  let gamma2 ← EcPoint.scalarMult pk (some (ta 0))
  let n1 ← env.sc.neg (ta 1)
  let other ← newScalarBaseMult (some env.curve) (some n1)
  let gamma2 ← EcPoint.add (some gamma2) (some other)
  let g2 ← gamma2.bytes
  let etaSig ← env.sc.add (intOf (env.sha g2)) sigA
  .ok ⟨cot, some rPrime, some etaPhi, some etaSig⟩

/-- `EcdsaSignature` (pkg/core/curves/ecdsa.go) -/
structure Sig where
  R : ℤ
  S : ℤ
  V : ℕ
deriving DecidableEq

/-- `Bit(i)` of a `big.Int` that is not negative, as all the values of the code are -/
def bigBit (x : ℤ) (i : ℕ) : ℕ := (x.toNat.testBit i).toNat

/-- `Bob.signFinal` before the verification (sign.go:223-266) -/
def signCompute (env : Env) (pk : Option EcPoint) (bob : BobSign) (digest : List UInt8) (input : SignMsg) : Go Sig := do
  let tb ← multiplyTransfer env bob.tB input.cot
  let rp ← deref input.rPrime
  let rb ← rp.bytes
  let R ← EcPoint.scalarMult (some bob.dB) (some (intOf (env.sha rb)))
  let R ← EcPoint.add (some R) input.rPrime
  let rx ← deref R.X
  let ry ← deref R.Y
  let gamma1 ← EcPoint.scalarMult (some R) (some (tb 0))
  let g1 ← gamma1.bytes
  let etaPhi ← deref input.etaPhi
  let phi ← env.sc.sub etaPhi (intOf (env.sha g1))
  let d ← env.sc.div phi bob.kB
  let theta ← env.sc.sub (tb 0) d
  let s0 ← env.sc.mul (beNat digest) theta
  let s1 ← env.sc.mul rx (tb 1)
  let sigB ← env.sc.add s0 s1
  let gamma2 ← newScalarBaseMult (some env.curve) (some (tb 1))
  let nt ← env.sc.neg theta
  let other ← EcPoint.scalarMult pk (some nt)
  let gamma2 ← EcPoint.add (some gamma2) (some other)
  let g2 ← gamma2.bytes
  let etaSig ← deref input.etaSig
  let t ← env.sc.sub etaSig (intOf (env.sha g2))
  let s ← env.sc.add sigB t
  let v := bigBit ry 0
  if bigBit s 255 = 1 then do
    let s ← env.sc.neg s
    .ok ⟨rx, s, v ^^^ 1⟩
  else .ok ⟨rx, s, v⟩

/-- `Bob.signFinal` (sign.go:223-275): the field `Sig` of a run without error; the public key is `Pk` on the curve of the parameters -/
def signFinal (env : Env) (pk : Option EcPoint) (bob : BobSign) (digest : List UInt8) (input : SignMsg) : Go Sig := do
  let sig ← signCompute env pk bob digest input
  let p ← deref pk
  Go.guard (env.ecdsaVerify { p with curve := env.curve } digest sig.R sig.S = true)
  .ok sig

end Verif.DklsV0
