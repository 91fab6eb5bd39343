import Mathlib.GroupTheory.Coset.Card
import Mathlib.GroupTheory.Perm.Cycle.Type
import Mathlib.Data.Fintype.Option
import Mathlib.Algebra.Module.ZMod
import Verif.Native.CurveProps

/-!
# The number of points of secp256k1 and P-256

* C169 each group has exactly `q` points: every point is a multiple of the generator and scalars act modulo `q`
-/

set_option linter.unusedSectionVars false

namespace Verif.Native

open Primes WeierstrassCurve.Affine

section Count
variable {F : Type} [Field F] [DecidableEq F]

/-- at most two points for every abscissa, and infinity -/
theorem card_points_le {a b : F} [Fintype F] :
    Finite (curve a b).Point ∧ Nat.card (curve a b).Point ≤ 2 * Fintype.card F + 1 := by
  classical
  let root : F → F := fun x => if h : ∃ y, y ^ 2 = x ^ 3 + a * x + b then h.choose else 0
  let f : (curve a b).Point → Option (F × Bool)
    | .zero => none
    | .some x y _ => some (x, decide (y = root x))
  have hf : Function.Injective f := by
    rintro (_ | ⟨x, y, hn⟩) (_ | ⟨x', y', hn'⟩) h
    · rfl
    · cases h
    · cases h
    · have h := Option.some.inj h
      obtain ⟨rfl, h2⟩ := Prod.mk.injEq _ _ _ _ ▸ h
      have e1 := equation_curve.1 hn.1
      have e2 := equation_curve.1 hn'.1
      have hr : (root x) ^ 2 = x ^ 3 + a * x + b := by
        have h : ∃ y, y ^ 2 = x ^ 3 + a * x + b := ⟨y, e1⟩
        simp only [root, dif_pos h]
        exact h.choose_spec
      have hy : y = y' := by
        rcases sq_eq_sq_iff_eq_or_eq_neg.1 (e1.trans hr.symm) with h3 | h3 <;>
        rcases sq_eq_sq_iff_eq_or_eq_neg.1 (e2.trans hr.symm) with h4 | h4
        · rw [h3, h4]
        · have : y' = root x := by simpa [h3] using h2
          rw [h3, this]
        · have : y = root x := by simpa [h4] using h2
          rw [h4, this]
        · rw [h3, h4]
      subst hy
      rfl
  refine ⟨Finite.of_injective f hf, ?_⟩
  have := Nat.card_le_card_of_injective f hf
  rwa [Nat.card_eq_fintype_card (α := Option (F × Bool)), Fintype.card_option, Fintype.card_prod, Fintype.card_bool,
    mul_comm] at this

/-- no root of the cubic, no point of order two -/
theorem no_two_torsion {a b : F} (h2 : (2 : F) ≠ 0) (hno : ∀ x : F, x ^ 3 + a * x + b ≠ 0) {P : (curve a b).Point}
    (h : 2 • P = 0) : P = 0 := by
  rcases P with _ | ⟨x, y, hn⟩
  · rfl
  · rw [two_nsmul, add_eq_zero_iff_eq_neg, Point.neg_some] at h
    have hy : y = -y := ((Point.some.injEq ..).mp h).2.trans negY_curve
    have h0 : y = 0 := (mul_eq_zero.1 (by linear_combination hy : (2 : F) * y = 0)).resolve_left h2
    have he := equation_curve.1 hn.1
    rw [h0] at he
    exact absurd (by linear_combination -he) (hno x)

/-- a curve over `p` elements with a point of prime order `q`, `3q > 2p + 1`, and no point of order two has `q` points -/
theorem card_points {p q : ℕ} [hp : Fact p.Prime] {a b : ZMod p} (hlt : 2 * p + 1 < 3 * q)
    (h2 : (2 : ZMod p) ≠ 0) (hno : ∀ x : ZMod p, x ^ 3 + a * x + b ≠ 0) {G : (curve a b).Point}
    (hG : addOrderOf G = q) : Finite (curve a b).Point ∧ Nat.card (curve a b).Point = q := by
  have : NeZero p := ⟨hp.out.pos.ne'⟩
  obtain ⟨hfin, hle⟩ := card_points_le (a := a) (b := b)
  refine ⟨hfin, ?_⟩
  rw [ZMod.card] at hle
  have hpos : 0 < Nat.card (curve a b).Point := Nat.card_pos
  obtain ⟨k, hk⟩ : q ∣ Nat.card (curve a b).Point := hG ▸ addOrderOf_dvd_natCard G
  have hk3 : k < 3 := by
    by_contra h
    have : q * 3 ≤ q * k := Nat.mul_le_mul_left _ (by omega)
    omega
  have hk2 : k ≠ 2 := by
    rintro rfl
    have : Fact (Nat.Prime 2) := ⟨Nat.prime_two⟩
    obtain ⟨P, hP⟩ := exists_prime_addOrderOf_dvd_card' (G := (curve a b).Point) 2 ⟨q, by rw [hk, mul_comm]⟩
    have h0 := no_two_torsion h2 hno (hP ▸ addOrderOf_nsmul_eq_zero P : 2 • P = 0)
    rw [h0, addOrderOf_zero] at hP
    omega
  have hk0 : k ≠ 0 := by rintro rfl; omega
  have : k = 1 := by omega
  rw [hk, this, mul_one]

end Count

section Cyclic
variable {A : Type} [AddCommGroup A] {q : ℕ}

/-- in a group of `q` elements `q` kills everything -/
theorem exponent_of_card (h : Nat.card A = q) (P : A) : q • P = 0 := by
  rw [← h]; exact card_nsmul_eq_zero'

/-- a group of prime order is generated by each of its elements but zero, uniquely -/
theorem exists_unique_multiple [Finite A] (h : Nat.card A = q) {G : A} (hG : addOrderOf G = q) (P : A) :
    ∃! k, k < q ∧ P = k • G := by
  have htop : AddSubgroup.zmultiples G = ⊤ := by
    apply AddSubgroup.eq_top_of_card_eq
    rw [Nat.card_zmultiples, hG, h]
  have hpos : 0 < q := h ▸ Nat.card_pos
  have hm : P ∈ AddSubgroup.zmultiples G := by rw [htop]; trivial
  obtain ⟨z, rfl⟩ := AddSubgroup.mem_zmultiples_iff.1 hm
  have hz0 : 0 ≤ z % (q : ℤ) := Int.emod_nonneg _ (by omega)
  have hz1 : z % (q : ℤ) < q := Int.emod_lt_of_pos _ (by omega)
  refine ⟨(z % (q : ℤ)).toNat, ⟨by omega, ?_⟩, ?_⟩
  · rw [← natCast_zsmul, Int.toNat_of_nonneg hz0, ← hG, mod_addOrderOf_zsmul]
  · rintro k ⟨hk, e⟩
    have h1 : (z % (q : ℤ)).toNat • G = k • G := by
      rw [← e, ← natCast_zsmul, Int.toNat_of_nonneg hz0, ← hG, mod_addOrderOf_zsmul]
    rw [nsmul_eq_nsmul_iff_modEq, hG] at h1
    exact (Nat.ModEq.eq_of_lt_of_lt h1 (by omega) hk).symm

end Cyclic

/-! ## C169 -/

/-- C169: secp256k1 has exactly `q` points. -/
theorem C169_k256_card : Finite K256.Group ∧ Nat.card K256.Group = k256q := by
  obtain ⟨G, -, ho⟩ := C111_k256_generator
  exact card_points (by decide +kernel) K256.two_ne K256.no_root ho

/-- C169: P-256 has exactly `q` points. -/
theorem C169_p256_card : Finite P256.Group ∧ Nat.card P256.Group = p256q := by
  obtain ⟨G, -, ho⟩ := C111_p256_generator
  exact card_points (by decide +kernel) P256.two_ne P256.no_root ho

/-- C169: every point of secp256k1 is one multiple of the generator. -/
theorem C169_k256_cyclic : ∃ G : K256.Group, Rep K256.generator G ∧
    ∀ P : K256.Group, ∃! k, k < k256q ∧ P = k • G := by
  obtain ⟨G, hG, ho⟩ := C111_k256_generator
  have := C169_k256_card.1
  exact ⟨G, hG, fun P => exists_unique_multiple C169_k256_card.2 ho P⟩

/-- C169: every point of P-256 is one multiple of the generator. -/
theorem C169_p256_cyclic : ∃ G : P256.Group, Rep P256.generator G ∧
    ∀ P : P256.Group, ∃! k, k < p256q ∧ P = k • G := by
  obtain ⟨G, hG, ho⟩ := C111_p256_generator
  have := C169_p256_card.1
  exact ⟨G, hG, fun P => exists_unique_multiple C169_p256_card.2 ho P⟩

/-- C169: the scalars modulo `q` act on secp256k1: the structure the protocol models assume of a group. -/
instance K256.module : Module (ZMod k256q) K256.Group :=
  AddCommGroup.zmodModule fun P => exponent_of_card C169_k256_card.2 P

/-- C169: the scalars modulo `q` act on P-256. -/
instance P256.module : Module (ZMod p256q) P256.Group :=
  AddCommGroup.zmodModule fun P => exponent_of_card C169_p256_card.2 P

/-- a scalar acts as its representative -/
theorem smul_eq_val_nsmul {A : Type} [AddCommGroup A] {q : ℕ} [NeZero q] [Module (ZMod q) A] (s : ZMod q) (P : A) :
    s • P = s.val • P := by
  conv_lhs => rw [← ZMod.natCast_zmod_val s]
  rw [Nat.cast_smul_eq_nsmul]

/-- C169: native `Mul` by the bytes of a scalar is the action of that scalar. -/
theorem C169_k256_mul {p : Proj (ZMod k256p)} {P : K256.Group} (hp : Rep p P) (s : ZMod k256q) :
    Rep (mul (K256.ops K256.b) p (leBytes 32 s.val)) (s • P) := by
  rw [smul_eq_val_nsmul]
  have hv := leNat_leBytes 32 s.val (lt_trans (ZMod.val_lt s) (by decide +kernel))
  have hl := leBytes_length 32 s.val
  generalize leBytes 32 s.val = bytes at hv hl ⊢
  rw [← hv]
  exact C52_k256 hp bytes hl

/-- C169: … and so it is on P-256. -/
theorem C169_p256_mul {p : Proj (ZMod p256p)} {P : P256.Group} (hp : Rep p P) (s : ZMod p256q) :
    Rep (mul (P256.ops P256.b) p (leBytes 32 s.val)) (s • P) := by
  rw [smul_eq_val_nsmul]
  have hv := leNat_leBytes 32 s.val (lt_trans (ZMod.val_lt s) (by decide +kernel))
  have hl := leBytes_length 32 s.val
  generalize leBytes 32 s.val = bytes at hv hl ⊢
  rw [← hv]
  exact C52_p256 hp bytes hl

/-- C169: hence multiplying by the native `Mul` respects sums and products of scalars modulo `q`, and `Equal` on the
results says so for every point and all scalars. -/
theorem C169_k256_laws {p : Proj (ZMod k256p)} {P : K256.Group} (hp : Rep p P) (s t : ZMod k256q) :
    equal (mul (K256.ops K256.b) p (leBytes 32 (s + t).val))
      (K256.add K256.b (mul (K256.ops K256.b) p (leBytes 32 s.val)) (mul (K256.ops K256.b) p (leBytes 32 t.val))) = true ∧
    equal (mul (K256.ops K256.b) p (leBytes 32 (s * t).val))
      (mul (K256.ops K256.b) (mul (K256.ops K256.b) p (leBytes 32 t.val)) (leBytes 32 s.val)) = true := by
  constructor
  · rw [C110_equal (C169_k256_mul hp (s + t))
      (C56_k256_add K256.two_ne K256.no_root (C169_k256_mul hp s) (C169_k256_mul hp t)), add_smul]
  · rw [C110_equal (C169_k256_mul hp (s * t)) (C169_k256_mul (C169_k256_mul hp t) s), mul_smul]

/-- C169: … and on P-256. -/
theorem C169_p256_laws {p : Proj (ZMod p256p)} {P : P256.Group} (hp : Rep p P) (s t : ZMod p256q) :
    equal (mul (P256.ops P256.b) p (leBytes 32 (s + t).val))
      (P256.add P256.b (mul (P256.ops P256.b) p (leBytes 32 s.val)) (mul (P256.ops P256.b) p (leBytes 32 t.val))) = true ∧
    equal (mul (P256.ops P256.b) p (leBytes 32 (s * t).val))
      (mul (P256.ops P256.b) (mul (P256.ops P256.b) p (leBytes 32 t.val)) (leBytes 32 s.val)) = true := by
  constructor
  · rw [C110_equal (C169_p256_mul hp (s + t))
      (C56_p256_add P256.two_ne P256.no_root (C169_p256_mul hp s) (C169_p256_mul hp t)), add_smul]
  · rw [C110_equal (C169_p256_mul hp (s * t)) (C169_p256_mul (C169_p256_mul hp t) s), mul_smul]

/-- the wrap-around is real: `q - 1` times the generator plus the generator is infinity -/
example : ∃ G : K256.Group, Rep K256.generator G ∧ G ≠ 0 ∧ (-1 : ZMod k256q) • G + G = 0 := by
  obtain ⟨G, hG, ho⟩ := C111_k256_generator
  refine ⟨G, hG, ?_, by rw [neg_one_smul, neg_add_cancel]⟩
  rintro rfl
  rw [addOrderOf_zero] at ho
  revert ho
  decide +kernel

end Verif.Native
