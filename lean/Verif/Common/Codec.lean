import Mathlib.Algebra.Field.Basic
import Mathlib.Data.Nat.Cast.Basic

/-!
# Scalars as bytes

`curves.Scalar` offers `Bytes()` and `SetBytes([]byte) (Scalar, error)`.
Code that only passes scalars through bytes is modelled relative to a
`ScalarCodec`; concrete 32-byte big/little-endian codecs over `ZMod q` are
constructed in `Verif/Native/Codec.lean`.
-/

namespace Verif

/-- `Scalar.Bytes` / `Scalar.SetBytes` of one curve
(e.g. `pkg/core/curves/k256_curve.go` `ScalarK256.Bytes`, `ScalarK256.SetBytes`). -/
structure ScalarCodec (F : Type) where
  /-- `Scalar.Bytes()` -/
  enc : F → List UInt8
  /-- `Scalar.SetBytes(b)`; `none` models the error return. -/
  dec : List UInt8 → Option F
  /-- decoding an encoding succeeds -/
  dec_enc : ∀ x, dec (enc x) = some x
  /-- only canonical encodings decode -/
  enc_dec : ∀ b x, dec b = some x → enc x = b

/-- The integers `1..255` are non-zero scalars; true for every curve of the library
(all scalar fields have a prime order of at least 252 bits). -/
def ByteInj (F : Type) [Field F] : Prop := ∀ n : ℕ, 0 < n → n ≤ 255 → (n : F) ≠ 0

theorem ByteInj.inj {F : Type} [Field F] (h : ByteInj F) {a b : ℕ} (ha : a ≤ 255)
    (hb : b ≤ 255) (hab : (a : F) = b) : a = b := by
  rcases lt_trichotomy a b with hlt | heq | hgt
  · have h1 := h (b - a) (by omega) (by omega)
    rw [Nat.cast_sub hlt.le, hab, sub_self] at h1
    exact absurd rfl h1
  · exact heq
  · have h1 := h (a - b) (by omega) (by omega)
    rw [Nat.cast_sub hgt.le, hab, sub_self] at h1
    exact absurd rfl h1

end Verif
