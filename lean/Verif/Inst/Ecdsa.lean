import Verif.Legacy.EcdsaProps
import Verif.Inst.Dkls

/-!
# C222: the verification at the end of DKLs signing

The model of DKLs signing asks whether the ECDSA equation holds (`EcdsaValid`).  The code calls `ecdsa.Verify` with the curve of
`ToEllipticCurve`; here it is shown that this is the same question, on secp256k1 and on P-256.
-/

namespace Verif.Inst
open Verif.Native Verif.Primes Verif.Ot Verif.Dkls Verif.Legacy

theorem k256X_coords (P : K256.Group) : k256X P = (coords P).1.toNat := by
  cases P with
  | zero => rfl
  | some x y h => rfl

theorem p256X_coords (P : P256.Group) : p256X P = (coords P).1.toNat := by
  cases P with
  | zero => rfl
  | some x y h => rfl

/-- C222: on secp256k1 the check at the end of DKLs signing is `ecdsa.Verify` with the methods of `Koblitz256` -/
theorem C222_dkls_k256 (H : Hashes) (refs : List ℕ) (P : K256.Group) (digest : List UInt8) (hd : digest.length = 32) (r s : ℕ) :
    stdVerify (k256Curve refs) (some (coords P).1) (some (coords P).2) digest (some r) (some s) = .ok true ↔
      EcdsaValid (ZMod k256q) (Inst.k256Env H).q (Inst.k256Env H).gen P (Inst.k256Env H).xcoord (beNat digest) r s := by
  obtain ⟨b, h1, h2⟩ := C222_k256 refs P digest 0 r s
  rw [show stdVerify (k256Curve refs) (some (coords P).1) (some (coords P).2) digest (some r) (some s) = .ok b from h1, Except.ok.injEq, h2,
    List.take_of_length_le (by omega)]
  show EcdsaValid (ZMod k256q) k256q k256G P _ _ r s ↔ EcdsaValid (ZMod k256q) k256q k256G P k256X _ r s
  rw [show k256X = fun Q => (coords Q).1.toNat from funext k256X_coords]

/-- C222: and on P-256 with the methods of `NistP256`, if the standard library multiplies points of P-256 -/
theorem C222_dkls_p256 (H : Hashes) (refs : List ℕ) (std : Option ℤ → Option ℤ → List UInt8 → Go XY)
    (hstd : ∀ (P : P256.Group) (k : List UInt8), beNat k < p256q → std (some (coords P).1) (some (coords P).2) k =
        .ok (some (coords (beNat k • P)).1, some (coords (beNat k • P)).2))
    (P : P256.Group) (digest : List UInt8) (hd : digest.length = 32) (r s : ℕ) :
    stdVerify (p256Curve refs std) (some (coords P).1) (some (coords P).2) digest (some r) (some s) = .ok true ↔
      EcdsaValid (ZMod p256q) (p256Env H).q (p256Env H).gen P (p256Env H).xcoord (beNat digest) r s := by
  obtain ⟨b, h1, h2⟩ := C222_verify (q := p256q) (p256Lawful refs std hstd) rfl P digest 0 r s
  rw [show stdVerify (p256Curve refs std) (some (coords P).1) (some (coords P).2) digest (some r) (some s) = .ok b from h1, Except.ok.injEq, h2]
  have hsz : p256q.size = 256 := by decide +kernel
  rw [hd, hsz, show 8 * 32 - 256 = 0 from rfl, pow_zero, Nat.div_one]
  show EcdsaValid (ZMod p256q) p256q p256G P _ _ r s ↔ EcdsaValid (ZMod p256q) p256q p256G P p256X _ r s
  rw [show p256X = fun Q => (coords Q).1.toNat from funext p256X_coords]
  rfl

/-- the hypothesis on the standard library can be met -/
example (H : Hashes) (P : P256.Group) (r s : ℕ) :
    stdVerify (p256Curve [] p256ScalarMul) (some (coords P).1) (some (coords P).2) (List.replicate 32 1) (some r) (some s) = .ok true ↔
      EcdsaValid (ZMod p256q) (p256Env H).q (p256Env H).gen P (p256Env H).xcoord (beNat (List.replicate 32 1)) r s :=
  C222_dkls_p256 H [] p256ScalarMul C186_p256_scalarMul P _ (List.length_replicate ..) r s

end Verif.Inst
