import Verif.Native.MapModel
import Verif.Curves.ScalarModel

/-!
# `K256GeneratorFromHashedBytes` (`pkg/sharing/v1/pedersen.go`)
-/

namespace Verif.Sharing.Generator
open Native Curves Primes

/-- the tag of `EllipticPoint.Hash` for secp256k1 and SHA-256 (`native/point.go:235-242`, `native/k256/point.go:47`) -/
def tag : List UInt8 := ascii "secp256k1_XMD:SHA-256_SSWU_RO_"

/-- `K256GeneratorFromHashedBytes` (`pkg/sharing/v1/pedersen.go:168-175`, `pkg/core/curves/k256_curve.go:388-397,608-614`,
`native/point.go:384-395`).  The error is nil in every case, so only the coordinates remain; `Hash` does not fail. -/
def k256Generator (h : Hasher) (bytes : List UInt8) : ℤ × ℤ :=
  let p := K256.hash h bytes tag
  ((toAffine p).x.val, (toAffine p).y.val)

end Verif.Sharing.Generator
