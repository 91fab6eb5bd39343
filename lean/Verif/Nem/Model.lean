import Mathlib.Data.ZMod.Basic
import Mathlib.Algebra.Field.ZMod
import Verif.Common.Bytes
import Verif.Common.Go

/-!
# Model of `pkg/signatures/schnorr/nem` (Ed25519 with Keccak-512)

The group is the whole curve group `G`, not only the part of prime order: a scalar `s` of
`filippo.io/edwards25519` is a residue modulo the order `q` of the base point and acts on a point as the
integer `s.val`. Public keys may therefore have components of small order. `keccak` is an arbitrary function.
-/

namespace Verif.Nem

/-- the curve with its encoding, and Keccak-512 -/
structure Env (G : Type) where
  /-- the base point -/
  base : G
  /-- `Point.Bytes` -/
  penc : G → List UInt8
  /-- `Point.SetBytes`, `none` for an error -/
  pdec : List UInt8 → Option G
  /-- `Keccak512` (`ed25519_keccak.go:64-71`); it never returns an error -/
  keccak : List UInt8 → List UInt8

section Model
variable {q : ℕ} {G : Type} [AddCommGroup G] [DecidableEq G] (E : Env G)

/-- `Scalar.SetBytesWithClamping` of `filippo.io/edwards25519`: error unless 32 bytes -/
def clamp (q : ℕ) (b : List UInt8) : Go (ZMod q) := do
  Go.guard (b.length = 32)
  pure ((leNat ((b.modify 0 (· &&& 248)).modify 31 (fun x => (x &&& 63) ||| 64)) : ℕ) : ZMod q)

/-- `Scalar.SetUniformBytes`: error unless 64 bytes -/
def uniform (q : ℕ) (b : List UInt8) : Go (ZMod q) := do
  Go.guard (b.length = 64)
  pure ((leNat b : ℕ) : ZMod q)

/-- `Scalar.SetCanonicalBytes`: error unless 32 bytes below the order -/
def canonical (q : ℕ) (b : List UInt8) : Go (ZMod q) := do
  Go.guard (b.length = 32)
  Go.guard (leNat b < q)
  pure ((leNat b : ℕ) : ZMod q)

/-- `Point.ScalarBaseMult` -/
def baseMult (s : ZMod q) : G := s.val • E.base

/-- `newKeyFromSeed` (`ed25519_keccak.go:133-158`) -/
def newKeyFromSeed (q : ℕ) (seed : List UInt8) : Go (List UInt8) := do
  Go.guard (seed.length = 32)
  let digest := E.keccak seed.reverse
  let sc ← clamp q (digest.take 32)
  pure (seed ++ E.penc (baseMult E sc))

/-- `GenerateKey` (`ed25519_keccak.go:96-115`) on the bytes read -/
def generateKey (q : ℕ) (seed : List UInt8) : Go (List UInt8 × List UInt8) := do
  let priv ← newKeyFromSeed E q seed
  pure (priv.drop 32, priv)

/-- `PrivateKey.Public` (`ed25519_keccak.go:58-62`): `priv[32:]` panics for fewer than 32 bytes, and
`copy` fills 32 bytes -/
def publicOf (priv : List UInt8) : Go (List UInt8) :=
  if priv.length < 32 then Go.crash
  else .ok ((priv.drop 32).take 32 ++ List.replicate (32 - (priv.drop 32).length) 0)

/-- `PrivateKey.Seed` (`ed25519_keccak.go:76-80`) -/
def seedOf (priv : List UInt8) : Go (List UInt8) :=
  if priv.length < 32 then Go.crash else .ok (priv.take 32)

/-- `sign` (`ed25519_keccak.go:173-248`) -/
def sign (q : ℕ) (priv message : List UInt8) : Go (List UInt8) := do
  Go.guard (priv.length = 64)
  let digest := E.keccak (priv.take 32).reverse
  let sc ← clamp q (digest.take 32)
  let r ← uniform q (E.keccak (digest.drop 32 ++ message))
  let R := E.penc (baseMult E r)
  let h ← uniform q (E.keccak (R ++ priv.drop 32 ++ message))
  let s := h * sc + r
  pure (R ++ leBytes 32 s.val)

/-- `PrivateKey.Sign` (`ed25519_keccak.go:87-96`); `hashed` tells whether `opts.HashFunc()` is not zero -/
def signOpts (q : ℕ) (priv message : List UInt8) (hashed : Bool) : Go (List UInt8) := do
  Go.guard (hashed = false)
  sign E q priv message

/-- `Verify` (`ed25519_keccak.go:253-316`) -/
def verify (q : ℕ) (pub message sig : List UInt8) : Go Bool := do
  Go.guard (pub.length = 32)
  Go.guard (¬ (sig.length ≠ 64 ∨ sig.getD 63 0 &&& 224 ≠ 0))
  let A ← Go.ofOption (E.pdec pub)
  let h : ZMod q ← uniform q (E.keccak (sig.take 32 ++ pub ++ message))
  let s ← canonical q (sig.drop 32)
  let R' := h.val • (-A) + s.val • E.base
  pure (decide (sig.take 32 = E.penc R'))

end Model

end Verif.Nem
