import Verif.Inst.Dkls
import Verif.Legacy.CurveProps
import Verif.Gg20.DkgSignProps

/-!
# C194: GG20 on the curves that the older interface computes in
-/

namespace Verif.Inst
open Verif.Native Verif.Primes Verif.Legacy Verif.Gg20

section
variable {c : ECurve} {A : Type} [AddCommGroup A] (L : Lawful c A)

/-- `EcPoint.Bytes` (ec_point.go:194-209) of an element of the group; no element gives an error -/
def ecEnc (P : A) : List UInt8 := match (L.pt P).bytes with | .ok b => b | .error _ => []

open Classical in
/-- `PointFromBytesUncompressed` (ec_point.go:212-226) as an element of the group.  Bytes of a coordinate that is not reduced are read by the
code on some curves; they belong to no element here. -/
noncomputable def ecDec (b : List UInt8) : Option A :=
  if h : ∃ P, pointFromBytes c b = .ok (L.pt P) then some h.choose else none

/-- what GG20 takes from the curve, for given hash functions and key size -/
noncomputable def ggEnv (q : ℕ) (kdf : List UInt8 → List UInt8) (hmac : List UInt8 → List UInt8 → List UInt8) (keyBits : ℕ) :
    DkgEnv q A where
  gen := L.g
  xy := L.xy
  kdf := kdf
  hmac := hmac
  enc := ecEnc L
  dec := ecDec L
  size := fieldSize c * 2
  keyBits := keyBits

theorem ecEnc_spec (P : A) : (ecEnc L P).length = fieldSize c * 2 ∧ pointFromBytes c (ecEnc L P) = .ok (L.pt P) := by
  obtain ⟨b, h1, h2, h3⟩ := C189_bytes L P
  rw [ecEnc, h1]
  exact ⟨h2, h3⟩

theorem pt_inj {P Q : A} (h : L.pt P = L.pt Q) : P = Q := by
  unfold Computes.pt at h
  rw [EcPoint.mk.injEq] at h
  exact (xy_eq L.toComputes P Q).1 h.2

theorem ecDec_enc (P : A) : ecDec L (ecEnc L P) = some P := by
  have h : ∃ Q, pointFromBytes c (ecEnc L P) = .ok (L.pt Q) := ⟨P, (ecEnc_spec L P).2⟩
  rw [ecDec, dif_pos h]
  exact congrArg some (pt_inj L (Except.ok.inj ((ecEnc_spec L P).2.symm.trans h.choose_spec))).symm

/-- C194: on every curve that computes in a group the bytes of points have the fixed length and are read back, also those of the neutral
element; the coordinates determine the point; and the negative of a point has the same abscissa and an ordinate of the other parity, when
the field is odd -/
theorem C194_lawful {q : ℕ} [Module (ZMod q) A] (hg : ∀ r : ZMod q, r • L.g = 0 → r = 0) (hpos : 0 < fieldSize c)
    (hodd : (c.params.P : ℤ) % 2 = 1)
    (kdf : List UInt8 → List UInt8) (hmac : List UInt8 → List UInt8 → List UInt8) (keyBits : ℕ) (hh : ∀ k m, (hmac k m).length = 32) :
    let E := ggEnv L q kdf hmac keyBits
    GoodEnv E ∧ E.dec (E.enc 0) = some 0 ∧ Function.Injective E.xy ∧ (∀ P, (E.xy (-P)).1 = (E.xy P).1) ∧
      ∀ P ≠ 0, ((E.xy (-P)).2 % 2).toNat = ((E.xy P).2 % 2).toNat ^^^ 1 := by
  refine ⟨{ gen := hg, sizePos := by show 0 < _ * 2; omega, encLen := fun P => (ecEnc_spec L P).1, decEnc := fun P _ => ecDec_enc L P,
            hmacLen := hh }, ecDec_enc L 0, L.inj, fun P => ?_, fun P h => ?_⟩
  · by_cases h : P = 0
    · rw [h, neg_zero]
    · show (L.xy (-P)).1 = (L.xy P).1
      rw [L.neg P h]
  · show ((L.xy (-P)).2 % 2).toNat = ((L.xy P).2 % 2).toNat ^^^ 1
    rw [L.neg P h]
    show (((c.params.P : ℤ) - (L.xy P).2) % 2).toNat = _
    rcases Int.emod_two_eq_zero_or_one (L.xy P).2 with e | e
    · rw [e, show ((c.params.P : ℤ) - (L.xy P).2) % 2 = 1 by omega]; rfl
    · rw [e, show ((c.params.P : ℤ) - (L.xy P).2) % 2 = 0 by omega]; rfl

end

/-- C194: so the hypotheses on the curve in the theorems on GG20 hold on secp256k1, and on P-256 when the `ScalarMult` of the standard library
multiplies -/
theorem C194_curves (refs : List ℕ) (kdf : List UInt8 → List UInt8) (hmac : List UInt8 → List UInt8 → List UInt8) (keyBits : ℕ)
    (hh : ∀ k m, (hmac k m).length = 32) :
    (∃ E : DkgEnv k256q K256.Group, E.gen = k256G ∧ E.kdf = kdf ∧ E.hmac = hmac ∧ E.keyBits = keyBits ∧ E.size = 64 ∧ GoodEnv E ∧
      E.xy = coords ∧ Function.Injective E.xy ∧ (∀ P, (E.xy (-P)).1 = (E.xy P).1) ∧
      ∀ P ≠ 0, ((E.xy (-P)).2 % 2).toNat = ((E.xy P).2 % 2).toNat ^^^ 1) ∧
    ∀ std : Option ℤ → Option ℤ → List UInt8 → Go XY, (∀ (P : P256.Group) (k : List UInt8), beNat k < p256q →
      std (some (coords P).1) (some (coords P).2) k = .ok (some (coords (beNat k • P)).1, some (coords (beNat k • P)).2)) →
    ∃ E : DkgEnv p256q P256.Group, E.gen = p256G ∧ E.kdf = kdf ∧ E.hmac = hmac ∧ E.keyBits = keyBits ∧ E.size = 64 ∧ GoodEnv E ∧
      E.xy = coords ∧ Function.Injective E.xy ∧ (∀ P, (E.xy (-P)).1 = (E.xy P).1) ∧
      ∀ P ≠ 0, ((E.xy (-P)).2 % 2).toNat = ((E.xy P).2 % 2).toNat ^^^ 1 := by
  refine ⟨?_, fun std hstd => ?_⟩
  · have hs : fieldSize (k256Curve refs) = 32 := show (256 + 7) / 8 = 32 by decide
    obtain ⟨h1, -, h2⟩ := C194_lawful (k256Lawful refs) (q := k256q) C192_generators.1 (by rw [hs]; decide)
      (show ((k256p : ℕ) : ℤ) % 2 = 1 by decide +kernel) kdf hmac keyBits hh
    exact ⟨ggEnv (k256Lawful refs) k256q kdf hmac keyBits, rfl, rfl, rfl, rfl, congrArg (· * 2) hs, h1, rfl, h2⟩
  · have hs : fieldSize (p256Curve refs std) = 32 := show (256 + 7) / 8 = 32 by decide
    obtain ⟨h1, -, h2⟩ := C194_lawful (p256Lawful refs std hstd) (q := p256q) C192_generators.2 (by rw [hs]; decide)
      (show ((p256p : ℕ) : ℤ) % 2 = 1 by decide +kernel) kdf hmac
      keyBits hh
    exact ⟨ggEnv (p256Lawful refs std hstd) p256q kdf hmac keyBits, rfl, rfl, rfl, rfl, congrArg (· * 2) hs, h1, rfl, h2⟩

/-- `C194_curves`: the method `ScalarMul` of the repository is one that multiplies on P-256 -/
example (P : P256.Group) (k : List UInt8) (h : beNat k < p256q) : p256ScalarMul (some (coords P).1) (some (coords P).2) k =
    .ok (some (coords (beNat k • P)).1, some (coords (beNat k • P)).2) := C186_p256_scalarMul P k h

end Verif.Inst
