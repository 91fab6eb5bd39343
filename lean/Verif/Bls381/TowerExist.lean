import Verif.Bls381.TowerLemmas
import Verif.Common.Pocklington

/-!
# The tower exists

`-1` and `2` are not squares and `2` is not a cube modulo `p`, so that `u² + 1`, `v³ - u - 1` and `w² - v` are
irreducible one after the other.
-/

namespace Verif.Bls381

open Polynomial Verif.Primes

/-- adjoin a square root -/
theorem quad_ext {K : Type} [Field K] (a : K) (h : ∀ x : K, x ^ 2 ≠ a) :
    ∃ (L : Type) (_ : Field L) (ι : K →+* L) (r : L), r ^ 2 = ι a ∧
      Function.Bijective (fun p : K × K => ι p.1 + ι p.2 * r) := by
  have : Fact (∀ r : K, r ^ 2 ≠ a + 0 * r) := ⟨fun r => by rw [zero_mul, add_zero]; exact h r⟩
  refine ⟨QuadraticAlgebra K a 0, inferInstance, algebraMap _ _, ⟨0, 1⟩, ?_, ?_, ?_⟩
  · ext <;> simp [pow_two]
  · rintro ⟨x, y⟩ ⟨x', y'⟩ hp
    have h1 := congrArg QuadraticAlgebra.re hp
    have h2 := congrArg QuadraticAlgebra.im hp
    simp at h1 h2
    exact Prod.ext h1 h2
  · rintro ⟨x, y⟩
    exact ⟨(x, y), by ext <;> simp⟩

/-- adjoin a cube root -/
theorem cubic_ext {K : Type} [Field K] (a : K) (h : ∀ x : K, x ^ 3 ≠ a) :
    ∃ (L : Type) (_ : Field L) (ι : K →+* L) (r : L), r ^ 3 = ι a ∧
      Function.Bijective (fun p : K × K × K => ι p.1 + ι p.2.1 * r + ι p.2.2 * r ^ 2) := by
  set f : K[X] := X ^ 3 - C a with hf
  have hirr : Irreducible f := X_pow_sub_C_irreducible_of_prime Nat.prime_three h
  have hmon : f.Monic := monic_X_pow_sub_C a (by norm_num)
  have hdeg : f.natDegree = 3 := natDegree_X_pow_sub_C
  have : Fact (Irreducible f) := ⟨hirr⟩
  have hmk : ∀ x y z : K, AdjoinRoot.of f x + AdjoinRoot.of f y * AdjoinRoot.root f
      + AdjoinRoot.of f z * AdjoinRoot.root f ^ 2 = AdjoinRoot.mk f (C x + C y * X + C z * X ^ 2) := by
    intro x y z
    simp only [map_add, map_mul, map_pow, AdjoinRoot.mk_C, AdjoinRoot.mk_X]
  refine ⟨AdjoinRoot f, inferInstance, AdjoinRoot.of f, AdjoinRoot.root f, ?_, ?_, ?_⟩
  · have h0 := AdjoinRoot.eval₂_root f
    rw [hf, eval₂_sub, eval₂_X_pow, eval₂_C] at h0
    exact sub_eq_zero.1 h0
  · rintro ⟨x, y, z⟩ ⟨x', y', z'⟩ hp
    dsimp only at hp
    rw [hmk, hmk, AdjoinRoot.mk_eq_mk] at hp
    have h0 : (C x + C y * X + C z * X ^ 2 - (C x' + C y' * X + C z' * X ^ 2) : K[X]) = 0 := by
      refine eq_zero_of_dvd_of_natDegree_lt hp ?_
      rw [hdeg]
      have : (C x + C y * X + C z * X ^ 2 - (C x' + C y' * X + C z' * X ^ 2) : K[X])
          = C (z - z') * X ^ 2 + C (y - y') * X + C (x - x') := by
        simp only [C_sub]; ring
      rw [this]
      exact lt_of_le_of_lt natDegree_quadratic_le (by norm_num)
    have hc : ∀ n, (C x + C y * X + C z * X ^ 2 - (C x' + C y' * X + C z' * X ^ 2) : K[X]).coeff n = 0 := by
      intro n; rw [h0, coeff_zero]
    have c0 := hc 0
    have c1 := hc 1
    have c2 := hc 2
    simp [coeff_X, coeff_C] at c0 c1 c2
    rw [sub_eq_zero] at c0 c1 c2
    rw [c0, c1, c2]
  · intro z
    obtain ⟨g, rfl⟩ := AdjoinRoot.mk_surjective z
    have hg : AdjoinRoot.mk f (g %ₘ f) = AdjoinRoot.mk f g := by
      conv_rhs => rw [← modByMonic_add_div g f]
      rw [map_add, map_mul, AdjoinRoot.mk_self, zero_mul, add_zero]
    refine ⟨((g %ₘ f).coeff 0, (g %ₘ f).coeff 1, (g %ₘ f).coeff 2), ?_⟩
    dsimp only
    rw [hmk, ← hg]
    refine congrArg _ ?_
    have hlt : (g %ₘ f).natDegree < 3 := by
      rw [← hdeg]; exact natDegree_modByMonic_lt g hmon (fun h1 => by rw [h1, natDegree_one] at hdeg; omega)
    have hs := (g %ₘ f).as_sum_range' 3 hlt
    conv_rhs => rw [hs]
    simp only [Finset.sum_range_succ, Finset.sum_range_zero, ← C_mul_X_pow_eq_monomial]
    ring

/-- the tower over a field in which `-1` and `2` are not squares and `2` is not a cube -/
theorem tower_of {F : Type} [Field F] (h1 : ∀ x : F, x ^ 2 ≠ -1) (h2 : ∀ x : F, x ^ 2 ≠ 2)
    (h3 : ∀ x : F, x ^ 3 ≠ 2) : ∃ (K : Type) (_ : Field K), Nonempty (Tower F K) := by
  obtain ⟨L2, _, ι2, u, hu, hb2⟩ := quad_ext (-1 : F) h1
  rw [map_neg, map_one] at hu
  -- coordinates
  have hco : ∀ {a b a' b' : F}, ι2 a + ι2 b * u = ι2 a' + ι2 b' * u → a = a' ∧ b = b' := by
    intro a b a' b' h
    have := @hb2.1 (a, b) (a', b') h
    exact ⟨congrArg Prod.fst this, congrArg Prod.snd this⟩
  have hξ3 : ∀ y : L2, y ^ 3 ≠ u + 1 := by
    intro y hy
    obtain ⟨⟨a, b⟩, rfl⟩ := hb2.2 y
    dsimp only at hy
    obtain ⟨e1, e2⟩ := @hco (a ^ 3 - 3 * a * b ^ 2) (3 * a ^ 2 * b - b ^ 3) 1 1 (by
      simp only [map_sub, map_mul, map_pow, map_one, map_ofNat]
      linear_combination hy - (3 * ι2 a * ι2 b ^ 2 + ι2 b ^ 3 * u) * hu)
    exact h3 (a ^ 2 + b ^ 2) (by
      linear_combination (a ^ 3 - 3 * a * b ^ 2 + 1) * e1 + (3 * a ^ 2 * b - b ^ 3 + 1) * e2)
  have hξ2 : ∀ y : L2, y ^ 2 ≠ u + 1 := by
    intro y hy
    obtain ⟨⟨a, b⟩, rfl⟩ := hb2.2 y
    dsimp only at hy
    obtain ⟨e1, e2⟩ := @hco (a ^ 2 - b ^ 2) (2 * a * b) 1 1 (by
      simp only [map_sub, map_mul, map_pow, map_one, map_ofNat]
      linear_combination hy - (ι2 b ^ 2) * hu)
    exact h2 (a ^ 2 + b ^ 2) (by
      linear_combination (a ^ 2 - b ^ 2 + 1) * e1 + (2 * a * b + 1) * e2)
  obtain ⟨L6, _, ι6, v, hv, hb6⟩ := cubic_ext (u + 1) hξ3
  rw [map_add, map_one] at hv
  have hco6 : ∀ {a b c a' b' c' : L2}, ι6 a + ι6 b * v + ι6 c * v ^ 2 = ι6 a' + ι6 b' * v + ι6 c' * v ^ 2 →
      a = a' ∧ b = b' ∧ c = c' := by
    intro a b c a' b' c' h
    have := @hb6.1 (a, b, c) (a', b', c') h
    exact ⟨congrArg Prod.fst this, congrArg (fun p => p.2.1) this, congrArg (fun p => p.2.2) this⟩
  have hv2 : ∀ y : L6, y ^ 2 ≠ v := by
    intro s hs
    obtain ⟨⟨x, y, z⟩, rfl⟩ := hb6.2 s
    dsimp only at hs
    obtain ⟨e1, e2, e3⟩ := @hco6 (x ^ 2 + 2 * (u + 1) * y * z) (2 * x * y + (u + 1) * z ^ 2)
      (y ^ 2 + 2 * x * z) 0 1 0 (by
        simp only [map_add, map_mul, map_pow, map_one, map_ofNat, map_zero]
        linear_combination hs - (2 * ι6 y * ι6 z + ι6 z ^ 2 * v) * hv)
    apply hξ2 (x ^ 3 + (u + 1) * y ^ 3 + (u + 1) ^ 2 * z ^ 3 - 3 * (u + 1) * x * y * z)
    have key : (x ^ 3 + (u + 1) * y ^ 3 + (u + 1) ^ 2 * z ^ 3 - 3 * (u + 1) * x * y * z) ^ 2
        = (x ^ 2 + 2 * (u + 1) * y * z) ^ 3 + (u + 1) * (2 * x * y + (u + 1) * z ^ 2) ^ 3
          + (u + 1) ^ 2 * (y ^ 2 + 2 * x * z) ^ 3
          - 3 * (u + 1) * (x ^ 2 + 2 * (u + 1) * y * z) * (2 * x * y + (u + 1) * z ^ 2)
            * (y ^ 2 + 2 * x * z) := by ring
    rw [key, e1, e2, e3]
    ring
  obtain ⟨L12, _, ι12, w, hw, hb12⟩ := quad_ext v hv2
  have hE2 : Function.Bijective (fun x : Fp2 F => ι2 x.A + ι2 x.B * u) :=
    hb2.comp (⟨fun x y h => Fp2.ext (congrArg Prod.fst h) (congrArg Prod.snd h),
      fun p => ⟨⟨p.1, p.2⟩, rfl⟩⟩ : Function.Bijective (fun x : Fp2 F => (x.A, x.B)))
  have hE6 : Function.Bijective (fun x : Fp6 F => ι6 (ι2 x.A.A + ι2 x.A.B * u)
      + ι6 (ι2 x.B.A + ι2 x.B.B * u) * v + ι6 (ι2 x.C.A + ι2 x.C.B * u) * v ^ 2) := by
    constructor
    · intro x y h
      obtain ⟨e1, e2, e3⟩ := hco6 h
      exact Fp6.ext (hE2.1 e1) (hE2.1 e2) (hE2.1 e3)
    · intro z
      obtain ⟨⟨a, b, c⟩, rfl⟩ := hb6.2 z
      obtain ⟨a, rfl⟩ := hE2.2 a
      obtain ⟨b, rfl⟩ := hE2.2 b
      obtain ⟨c, rfl⟩ := hE2.2 c
      exact ⟨⟨a, b, c⟩, rfl⟩
  have hev : ∀ x : Fp12 F, ev12 ((ι12.comp ι6).comp ι2) (ι12 (ι6 u)) (ι12 v) w x
      = ι12 (ι6 (ι2 x.A.A.A + ι2 x.A.A.B * u)
        + ι6 (ι2 x.A.B.A + ι2 x.A.B.B * u) * v + ι6 (ι2 x.A.C.A + ι2 x.A.C.B * u) * v ^ 2)
        + ι12 (ι6 (ι2 x.B.A.A + ι2 x.B.A.B * u)
        + ι6 (ι2 x.B.B.A + ι2 x.B.B.B * u) * v + ι6 (ι2 x.B.C.A + ι2 x.B.C.B * u) * v ^ 2) * w := by
    intro x
    simp only [ev12, ev6, ev2, RingHom.comp_apply, map_add, map_mul, map_pow]
  refine ⟨L12, inferInstance, ⟨⟨(ι12.comp ι6).comp ι2, ι12 (ι6 u), ι12 v, w, ?_, ?_, hw, ?_, ?_⟩⟩⟩
  · rw [← map_pow, ← map_pow, hu]; simp
  · rw [← map_pow, hv]; simp
  · intro x y h
    rw [hev, hev] at h
    have := @hb12.1 (_, _) (_, _) h
    exact Fp12.ext (hE6.1 (congrArg Prod.fst this)) (hE6.1 (congrArg Prod.snd this))
  · intro z
    obtain ⟨⟨a, b⟩, rfl⟩ := hb12.2 z
    obtain ⟨a, rfl⟩ := hE6.2 a
    obtain ⟨b, rfl⟩ := hE6.2 b
    exact ⟨⟨a, b⟩, hev _⟩

theorem neg_one_nonsquare (x : ZMod blsp) : x ^ 2 ≠ -1 := by
  intro h
  exact absurd (ZMod.exists_sq_eq_neg_one_iff.1 ⟨x, by rw [← h, sq]⟩) (by decide +kernel)

theorem two_nonsquare (x : ZMod blsp) : x ^ 2 ≠ 2 := by
  intro h
  exact absurd ((ZMod.exists_sq_eq_two_iff (by decide +kernel)).1 ⟨x, by rw [← h, sq]⟩) (by decide +kernel)

theorem two_noncube (x : ZMod blsp) : x ^ 3 ≠ 2 := by
  intro h
  have h0 : x ≠ 0 := by
    rintro rfl
    rw [zero_pow (by norm_num)] at h
    have h' : ((2 : ℕ) : ZMod blsp) = 0 := by exact_mod_cast h.symm
    rw [ZMod.natCast_eq_zero_iff] at h'
    exact absurd h' (by decide +kernel)
  have h1 := ZMod.pow_card_sub_one_eq_one h0
  rw [show blsp - 1 = 3 * ((blsp - 1) / 3) by decide +kernel, pow_mul, h] at h1
  have h2 := Verif.Pock.powMod_eq blsp 384 2 ((blsp - 1) / 3) 1 (by decide +kernel)
  rw [Nat.cast_one, one_mul, Nat.cast_ofNat, h1, ← Nat.cast_one (R := ZMod blsp),
    ZMod.natCast_eq_natCast_iff'] at h2
  exact absurd h2 (by decide +kernel)

end Verif.Bls381
