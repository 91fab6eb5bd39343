import Verif.Core.Model

/-!
# `ComputeHMAC` (`pkg/core/commit.go`) over `crypto/hmac`

The hash is an arbitrary function `H` on byte strings with blocks of `b` bytes; `crypto/hmac` is modelled as in RFC 2104.
-/

namespace Verif.Core

/-- the key as `crypto/hmac.New` uses it: a key longer than a block is hashed, the rest of the block is zero -/
def hmacKey (H : List UInt8 → List UInt8) (b : ℕ) (key : List UInt8) : List UInt8 :=
  let k := if key.length > b then H key else key
  k ++ List.replicate (b - k.length) 0

/-- the inner and the outer pad of `crypto/hmac` -/
def ipad (k : List UInt8) : List UInt8 := k.map (· ^^^ 0x36)
def opad (k : List UInt8) : List UInt8 := k.map (· ^^^ 0x5c)

/-- HMAC of `crypto/hmac`: `New`, `Write` and `Sum` -/
def hmac (H : List UInt8 → List UInt8) (b : ℕ) (key msg : List UInt8) : List UInt8 :=
  let k := hmacKey H b key
  H (opad k ++ H (ipad k ++ msg))

/-- `ComputeHMAC` (`pkg/core/commit.go:101-115`); `none` is a nil function.  `Write` of a hash takes everything and never fails. -/
def computeHMAC (f : Option (List UInt8 → List UInt8)) (b : ℕ) (msg k : List UInt8) : Go (List UInt8) :=
  match f with
  | none => Go.err
  | some H => .ok (hmac H b k msg)

/-- `Open` (`pkg/core/commit.go:85-97`) with SHA-256 as `H`, whose blocks have 64 bytes -/
def openHash (H : List UInt8 → List UInt8) (c : List UInt8) (d : Witness) : Go Bool := do
  Go.guard (c.length = 32)
  let c' ← computeHMAC (some H) 64 d.msg d.r
  .ok (decide (c' = c))

end Verif.Core
