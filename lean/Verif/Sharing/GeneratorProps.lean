import Verif.Sharing.GeneratorModel
import Verif.Native.MapHash

/-!
# C228: the generator of Pedersen sharing from hashed bytes
-/

namespace Verif.Sharing.Generator
open Native Curves Primes

/-- the coordinates that stand for a point in the older code: zeros for the identity -/
def coords : K256.Group → ℤ × ℤ
  | .zero => (0, 0)
  | .some x y _ => (x.val, y.val)

theorem coords_of_rep {p : Proj (ZMod k256p)} {P : K256.Group} (hp : Rep p P) : (((toAffine p).x.val : ℤ), ((toAffine p).y.val : ℤ)) = coords P := by
  rcases P with _ | ⟨x, y, h⟩
  · have hz : p.z = 0 := hp
    simp [toAffine, invert, hz, coords]
  · obtain ⟨hz, hx, hy⟩ := hp
    simp [toAffine, invert, hz, hx, hy, coords]

theorem coords_zero (P : K256.Group) : coords P = (0, 0) ↔ P = 0 := by
  rcases P with _ | ⟨x, y, h⟩
  · exact ⟨fun _ => rfl, fun _ => rfl⟩
  · refine ⟨fun e => ?_, fun e => by cases e⟩
    exfalso
    have hx : x = 0 := (ZMod.val_eq_zero x).1 (Int.natCast_eq_zero.1 (congrArg Prod.fst e))
    have hy : y = 0 := (ZMod.val_eq_zero y).1 (Int.natCast_eq_zero.1 (congrArg Prod.snd e))
    have := equation_curve.1 h.1
    rw [hx, hy] at this
    revert this
    decide +kernel

theorem coords_on_curve {P : K256.Group} (h0 : P ≠ 0) : 0 ≤ (coords P).1 ∧ (coords P).1 < k256p ∧ 0 ≤ (coords P).2 ∧ (coords P).2 < k256p ∧
    ((coords P).2 ^ 2 - ((coords P).1 ^ 3 + 7)) % (k256p : ℤ) = 0 := by
  rcases P with _ | ⟨x, y, h⟩
  · exact absurd rfl h0
  · have hx := ZMod.val_lt x
    have hy := ZMod.val_lt y
    refine ⟨Int.natCast_nonneg _, Int.ofNat_lt.2 hx, Int.natCast_nonneg _, Int.ofNat_lt.2 hy, ?_⟩
    have hb : K256.b = 7 := by decide +kernel
    have := equation_curve.1 h.1
    rw [← Int.dvd_iff_emod_eq_zero, ← ZMod.intCast_zmod_eq_zero_iff_dvd]
    simp only [coords]
    push_cast
    rw [ZMod.natCast_zmod_val, ZMod.natCast_zmod_val, this, hb]
    ring

/-- C228: the result is the affine form of hash_to_curve of RFC 9380: the sum of the images of two field elements read from the expanded bytes -/
theorem C228_hash {h : Hasher} (hh : h.Ok) (bytes : List UInt8) : ∃ P Q : K256.Group,
    K256.IsMap (beNat ((h.expand bytes tag 96).take 48) : ℕ) P ∧ K256.IsMap (beNat ((h.expand bytes tag 96).drop 48) : ℕ) Q ∧
    k256Generator h bytes = coords (P + Q) := by
  obtain ⟨P, Q, hP, hQ, hr⟩ := C161_k256_hash hh bytes tag
  exact ⟨P, Q, hP, hQ, coords_of_rep hr⟩

/-- C228: it is a point of the curve with reduced coordinates, or `(0, 0)`, which is not on the curve -/
theorem C228_on_curve {h : Hasher} (hh : h.Ok) (bytes : List UInt8) (r : ℤ × ℤ) (hr : k256Generator h bytes = r) :
    (r ≠ (0, 0) → 0 ≤ r.1 ∧ r.1 < k256p ∧ 0 ≤ r.2 ∧ r.2 < k256p ∧ (r.2 ^ 2 - (r.1 ^ 3 + 7)) % (k256p : ℤ) = 0) ∧
    (r = (0, 0) → (r.2 ^ 2 - (r.1 ^ 3 + 7)) % (k256p : ℤ) ≠ 0) := by
  obtain ⟨P, Q, -, -, e⟩ := C228_hash hh bytes
  rw [hr] at e
  refine ⟨fun h0 => ?_, fun h0 => by rw [h0]; decide +kernel⟩
  rw [e] at h0 ⊢
  exact coords_on_curve fun hz => h0 ((coords_zero _).2 hz)

/-- C228: without an error the result is no generator exactly if the images of the two halves of the expanded bytes cancel -/
theorem C228_identity {h : Hasher} (hh : h.Ok) (bytes : List UInt8) (P Q : K256.Group)
    (hP : K256.IsMap (beNat ((h.expand bytes tag 96).take 48) : ℕ) P) (hQ : K256.IsMap (beNat ((h.expand bytes tag 96).drop 48) : ℕ) Q) :
    k256Generator h bytes = (0, 0) ↔ Q = -P := by
  obtain ⟨P', Q', hP', hQ', e⟩ := C228_hash hh bytes
  obtain rfl := hP.unique hP'
  obtain rfl := hQ.unique hQ'
  rw [e, coords_zero, add_comm, add_eq_zero_iff_eq_neg]

/-- a hasher that meets the hypotheses, with a result that is not zero -/
example : (Hasher.xmd (fun x => List.replicate 32 (x.foldl (· + ·) 5)) 32 64).Ok ∧
    k256Generator (Hasher.xmd (fun x => List.replicate 32 (x.foldl (· + ·) 5)) 32 64) [1, 2] ≠ (0, 0) :=
  ⟨⟨by decide, by simp⟩, by decide +kernel⟩

end Verif.Sharing.Generator
