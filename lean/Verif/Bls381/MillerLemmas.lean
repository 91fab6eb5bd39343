import Verif.Bls381.LineLemmas
import Mathlib.Algebra.BigOperators.Intervals

/-!
# Miller's function

Nothing here is about the repository. `miller n Q` is the function of Miller's algorithm, `χ` any character that does
not see fourth roots of unity (the final exponentiation). `miller_add` is the step of the algorithm, `miller_add_left`
and `miller_add_right` are what bilinearity follows from. Maps `(x, y) ↦ (c²·σ x, c³·σ y)` between curves are
homomorphisms (`SMap.hom`).
-/

set_option linter.unusedSectionVars false

namespace Verif.Bls381

open Verif.Native WeierstrassCurve WeierstrassCurve.Affine

section Miller
variable {K : Type} [Field K] [DecidableEq K] {a b : K}

/-- no zeros where there are none -/
theorem ellP_ne {A B P : (curve a b).Point} (h1 : Apart A P) (h2 : Apart B P) (h3 : Apart (A + B) P) :
    ellP A B P ≠ 0 := by
  rcases P with _ | ⟨x, y, hP⟩
  · exact one_ne_zero
  rcases A with _ | ⟨x₁, y₁, h₁⟩
  · rw [← Point.zero_def, ellP_zero_left h2]; exact one_ne_zero
  rcases B with _ | ⟨x₂, y₂, h₂⟩
  · rw [← Point.zero_def, ellP_zero_right h1]; exact one_ne_zero
  refine div_ne_zero ?_ h3.vert_ne
  by_cases hxy : x₁ = x₂ ∧ y₁ = (curve a b).negY x₂ y₂
  · rw [line_some_neg hxy]
    exact sub_ne_zero.2 (Ne.symm h1)
  · obtain ⟨m, n, x₃, hn, hc, -, -, hadd, hl⟩ := chord_of (h₁ := h₁) (h₂ := h₂) hxy
    rw [hl]
    intro h
    have he := equation_curve.1 hP.1
    have h4 := hc.poly x
    have hy : y = m * x + n := sub_eq_zero.1 h
    rw [← hy, he] at h4
    rw [hadd] at h3
    have : (x - x₁) * (x - x₂) * (x - x₃) ≠ 0 :=
      mul_ne_zero (mul_ne_zero (sub_ne_zero.2 (Ne.symm h1)) (sub_ne_zero.2 (Ne.symm h2))) (sub_ne_zero.2 (Ne.symm h3))
    exact this (by rw [← h4]; ring)

/-- Miller's function: zeros `Q` (`n` times), poles `n • Q` and `0` (`n - 1` times) -/
def miller (n : ℕ) (Q P : (curve a b).Point) : K := ∏ k ∈ Finset.range n, ellP (k • Q) Q P

theorem miller_succ (n : ℕ) (Q P : (curve a b).Point) : miller (n + 1) Q P = miller n Q P * ellP (n • Q) Q P :=
  Finset.prod_range_succ _ _

theorem miller_zero (Q P : (curve a b).Point) : miller 0 Q P = 1 := rfl

theorem miller_one {Q P : (curve a b).Point} (h : Apart Q P) : miller 1 Q P = 1 := by
  rw [miller_succ, miller_zero, zero_nsmul, ellP_zero_left h, one_mul]

/-- apart from all points of a subgroup -/
def Sep (H : AddSubgroup (curve a b).Point) (P : (curve a b).Point) : Prop := ∀ A ∈ H, Apart A P

variable {H : AddSubgroup (curve a b).Point} {P : (curve a b).Point} {χ : K →* K}

theorem miller_ne (hP : Sep H P) {Q : (curve a b).Point} (hQ : Q ∈ H) (n : ℕ) : miller n Q P ≠ 0 := by
  refine Finset.prod_ne_zero_iff.2 fun k _ => ellP_ne (hP _ (H.nsmul_mem hQ k)) (hP _ hQ) ?_
  rw [← succ_nsmul]
  exact hP _ (H.nsmul_mem hQ _)

/-- the character kills fourth roots of unity -/
def Kills4 (χ : K →* K) : Prop := ∀ c : K, c ^ 4 = 1 → χ c = 1

theorem Kills4.eq (h : Kills4 χ) {x y : K} (he : Eq4 x y) : χ x = χ y := by
  obtain ⟨c, hc, rfl⟩ := he
  rw [map_mul, h c hc, one_mul]

theorem ellP_assoc (hχ : Kills4 χ) (hP : Sep H P) {A B D : (curve a b).Point} (hA : A ∈ H) (hB : B ∈ H) (hD : D ∈ H) :
    χ (ellP A B P) * χ (ellP (A + B) D P) = χ (ellP B D P) * χ (ellP A (B + D) P) := by
  rcases P with _ | ⟨x, y, hn⟩
  · simp only [← Point.zero_def, ellP_at_zero]
  rw [← map_mul, ← map_mul]
  exact hχ.eq (ell_assoc hn.1 A B D (hP _ (H.add_mem hA hB)).vert_ne (hP _ (H.add_mem hB hD)).vert_ne)

theorem ellP_symm (hχ : Kills4 χ) (A B P : (curve a b).Point) : χ (ellP A B P) = χ (ellP B A P) := by
  rcases P with _ | ⟨x, y, hn⟩
  · rfl
  exact hχ.eq (ell_symm hn.1 A B)

/-- the step of Miller's algorithm -/
theorem miller_add (hχ : Kills4 χ) (hP : Sep H P) {Q : (curve a b).Point} (hQ : Q ∈ H) (m n : ℕ) :
    χ (miller (m + n) Q P) = χ (miller m Q P) * χ (miller n Q P) * χ (ellP (m • Q) (n • Q) P) := by
  induction n with
  | zero =>
    rw [add_zero, miller_zero, zero_nsmul, ellP_zero_right (hP _ (H.nsmul_mem hQ m)), map_one, mul_one, mul_one]
  | succ n ih =>
    have h := ellP_assoc hχ hP (H.nsmul_mem hQ m) (H.nsmul_mem hQ n) hQ
    rw [← add_nsmul, ← succ_nsmul] at h
    rw [← add_assoc, miller_succ, miller_succ n, map_mul, map_mul, ih]
    linear_combination (χ (miller m Q P) * χ (miller n Q P)) * h

theorem four_term (hχ : Kills4 χ) (hP : Sep H P) {A B C D : (curve a b).Point} (hA : A ∈ H) (hB : B ∈ H) (hC : C ∈ H)
    (hD : D ∈ H) : χ (ellP A B P) * χ (ellP C D P) * χ (ellP (A + B) (C + D) P)
      = χ (ellP A C P) * χ (ellP B D P) * χ (ellP (A + C) (B + D) P) := by
  have h1 := ellP_assoc hχ hP hA hB (H.add_mem hC hD)
  have h2 := ellP_assoc hχ hP hB hC hD
  have h3 := ellP_assoc hχ hP hA hC (H.add_mem hB hD)
  have h4 := ellP_assoc hχ hP hC hB hD
  have h5 := ellP_symm hχ B C P
  rw [add_comm C B] at h4
  rw [← add_assoc] at h1 h3
  rw [add_comm C B] at h3
  linear_combination χ (ellP C D P) * h1 - χ (ellP A (B + C + D) P) * h2 - χ (ellP B D P) * h3
    + χ (ellP A (B + C + D) P) * h4 + χ (ellP A (B + C + D) P) * χ (ellP (B + C) D P) * h5

/-- additivity in the point the function belongs to, up to a power and an error term -/
theorem miller_add_left (hχ : Kills4 χ) (hP : Sep H P) {Q R : (curve a b).Point} (hQ : Q ∈ H) (hR : R ∈ H) (n : ℕ) :
    χ (miller n (Q + R) P) * χ (ellP Q R P) ^ n
      = χ (miller n Q P) * χ (miller n R P) * χ (ellP (n • Q) (n • R) P) := by
  induction n with
  | zero => rw [miller_zero, miller_zero, miller_zero, zero_nsmul, zero_nsmul,
      ellP_zero_left (hP 0 H.zero_mem)]; simp
  | succ n ih =>
    have h := four_term hχ hP (H.nsmul_mem hQ n) (H.nsmul_mem hR n) hQ hR
    rw [← succ_nsmul, ← succ_nsmul, ← nsmul_add] at h
    rw [miller_succ, miller_succ, miller_succ, map_mul, map_mul, map_mul, pow_succ]
    linear_combination χ (ellP (n • (Q + R)) (Q + R) P) * χ (ellP Q R P) * ih
      + χ (miller n Q P) * χ (miller n R P) * h

/-- additivity in the point the function is evaluated at, up to a power and an error term -/
theorem miller_add_right (hχ : Kills4 χ) {R : (curve a b).Point} (hP : Sep H P) (hR : Sep H R) (hPR : Sep H (P + R))
    {Q : (curve a b).Point} (hQ : Q ∈ H) (n : ℕ) :
    χ (miller n Q P) * χ (miller n Q R) * χ (ellP P R (n • Q)) = χ (miller n Q (P + R)) * χ (ellP P R Q) ^ n := by
  induction n with
  | zero => rw [miller_zero, miller_zero, miller_zero, zero_nsmul, ellP_at_zero]; simp
  | succ n ih =>
    have hn := H.nsmul_mem hQ n
    have hs := H.add_mem hn hQ
    have h := hχ.eq (ell_reciprocity (hP _ hn) (hR _ hn) (hPR _ hn) (hP _ hQ) (hR _ hQ) (hPR _ hQ) (hP _ hs) (hR _ hs)
      (hPR _ hs))
    simp only [map_mul] at h
    rw [← succ_nsmul] at h
    rw [miller_succ, miller_succ, miller_succ, map_mul, map_mul, map_mul, pow_succ]
    linear_combination χ (ellP (n • Q) Q (P + R)) * χ (ellP P R Q) * ih + χ (miller n Q P) * χ (miller n Q R) * h

end Miller

/-! ## Maps between curves -/

section Maps
variable {F K : Type} [Field F] [DecidableEq F] [Field K] [DecidableEq K] {b : F} {b' : K}

/-- the data of a map `(x, y) ↦ (c²·σ x, c³·σ y)` -/
structure SMap (b : F) (b' : K) where
  σ : F →+* K
  c : K
  ne : c ≠ 0
  coeff : c ^ 6 * σ b = b'

namespace SMap
variable (S : SMap b b')

theorem equation {x y : F} (h : (curve 0 b).Equation x y) : (curve 0 b').Equation (S.c ^ 2 * S.σ x) (S.c ^ 3 * S.σ y) := by
  rw [equation_curve] at h ⊢
  have h1 := congrArg S.σ h
  simp only [map_add, map_mul, map_pow, map_zero] at h1
  linear_combination S.c ^ 6 * h1 + S.coeff

theorem nonsingular {x y : F} (h : (curve 0 b).Nonsingular x y) :
    (curve 0 b').Nonsingular (S.c ^ 2 * S.σ x) (S.c ^ 3 * S.σ y) := by
  rw [nonsingular_iff'] at h ⊢
  refine ⟨S.equation h.1, h.2.imp (fun h1 => ?_) fun h1 => ?_⟩
  · intro h2
    apply h1
    simp only at h2 ⊢
    have h3 : S.c ^ 4 * S.σ (0 * y - (3 * x ^ 2 + 2 * 0 * x + 0)) = 0 := by
      simp only [map_sub, map_add, map_mul, map_pow, map_zero, map_ofNat]
      linear_combination h2
    exact (map_eq_zero S.σ).1 ((mul_eq_zero.1 h3).resolve_left (pow_ne_zero 4 S.ne))
  · intro h2
    apply h1
    simp only at h2 ⊢
    have h3 : S.c ^ 3 * S.σ (2 * y + 0 * x + 0) = 0 := by
      simp only [map_add, map_mul, map_zero, map_ofNat]
      linear_combination h2
    exact (map_eq_zero S.σ).1 ((mul_eq_zero.1 h3).resolve_left (pow_ne_zero 3 S.ne))

/-- on points -/
def pt : (curve 0 b).Point → (curve 0 b').Point
  | .zero => 0
  | .some _ _ hn => .some _ _ (S.nonsingular hn)

theorem eqX {x x' : F} : S.c ^ 2 * S.σ x = S.c ^ 2 * S.σ x' ↔ x = x' :=
  (mul_right_injective₀ (pow_ne_zero 2 S.ne)).eq_iff.trans S.σ.injective.eq_iff

theorem negY' (x y : F) : (curve 0 b').negY (S.c ^ 2 * S.σ x) (S.c ^ 3 * S.σ y) = S.c ^ 3 * S.σ ((curve 0 b).negY x y) := by
  rw [negY_curve, negY_curve, map_neg]; ring

theorem eqY {y y' : F} : S.c ^ 3 * S.σ y = S.c ^ 3 * S.σ y' ↔ y = y' :=
  (mul_right_injective₀ (pow_ne_zero 3 S.ne)).eq_iff.trans S.σ.injective.eq_iff

theorem vertical {x₁ y₁ x₂ y₂ : F} : (S.c ^ 2 * S.σ x₁ = S.c ^ 2 * S.σ x₂ ∧
    S.c ^ 3 * S.σ y₁ = (curve 0 b').negY (S.c ^ 2 * S.σ x₂) (S.c ^ 3 * S.σ y₂))
      ↔ x₁ = x₂ ∧ y₁ = (curve 0 b).negY x₂ y₂ := by
  rw [S.negY', S.eqX, S.eqY]

theorem slope (x₁ x₂ y₁ y₂ : F) : (curve 0 b').slope (S.c ^ 2 * S.σ x₁) (S.c ^ 2 * S.σ x₂) (S.c ^ 3 * S.σ y₁)
    (S.c ^ 3 * S.σ y₂) = S.c * S.σ ((curve 0 b).slope x₁ x₂ y₁ y₂) := by
  have hc := S.ne
  by_cases hx : x₁ = x₂
  · by_cases hy : y₁ = (curve 0 b).negY x₂ y₂
    · rw [slope_of_Y_eq (S.eqX.2 hx) (by rw [S.negY', hy]), slope_of_Y_eq hx hy, map_zero, mul_zero]
    · rw [slope_of_Y_ne (S.eqX.2 hx) (by rw [S.negY', Ne, S.eqY]; exact hy), slope_of_Y_ne hx hy, S.negY', map_div₀,
        ← mul_sub, ← map_sub]
      have e : (3 * (S.c ^ 2 * S.σ x₁) ^ 2 + 2 * (curve 0 b').a₂ * (S.c ^ 2 * S.σ x₁) + (curve 0 b').a₄
          - (curve 0 b').a₁ * (S.c ^ 3 * S.σ y₁)) = S.c ^ 4 * S.σ (3 * x₁ ^ 2 + 2 * (curve 0 b).a₂ * x₁ + (curve 0 b).a₄
          - (curve 0 b).a₁ * y₁) := by
        simp only [map_sub, map_add, map_mul, map_pow, map_zero, map_ofNat]; ring
      rw [e, mul_div_mul_comm]
      congr 1
      field_simp
  · rw [slope_of_X_ne (fun h => hx (S.eqX.1 h)), slope_of_X_ne hx, map_div₀, ← mul_sub, ← mul_sub, ← map_sub, ← map_sub,
      mul_div_mul_comm]
    congr 1
    field_simp

theorem pt_add (A B : (curve 0 b).Point) : S.pt (A + B) = S.pt A + S.pt B := by
  rcases A with _ | ⟨x₁, y₁, h₁⟩
  · rw [← Point.zero_def, zero_add]; exact (zero_add (S.pt B)).symm
  rcases B with _ | ⟨x₂, y₂, h₂⟩
  · rw [← Point.zero_def, add_zero]; exact (add_zero (S.pt _)).symm
  by_cases hxy : x₁ = x₂ ∧ y₁ = (curve 0 b).negY x₂ y₂
  · rw [Point.add_of_Y_eq hxy.1 hxy.2]
    exact (Point.add_of_Y_eq (S.vertical.2 hxy).1 (S.vertical.2 hxy).2).symm
  · rw [Point.add_some hxy, pt, pt, pt, Point.add_some (fun h => hxy (S.vertical.1 h)), Point.some.injEq]
    refine ⟨?_, ?_⟩
    · rw [S.slope]
      simp only [addX, curve, map_sub, map_add, map_mul, map_pow, map_zero]; ring
    · rw [S.slope]
      simp only [addY, negAddY, negY, addX, curve, map_sub, map_add, map_mul, map_pow, map_zero, map_neg]; ring

/-- the map is a homomorphism -/
def hom : (curve 0 b).Point →+ (curve 0 b').Point where
  toFun := S.pt
  map_zero' := rfl
  map_add' := S.pt_add

theorem hom_some {x y : F} (h : (curve 0 b).Nonsingular x y) : S.hom (.some x y h) = .some _ _ (S.nonsingular h) := rfl

theorem injective : Function.Injective S.hom := by
  rw [injective_iff_map_eq_zero]
  rintro (_ | ⟨x, y, h⟩) h0
  · rfl
  · cases h0

theorem apart {A B : (curve 0 b).Point} (h : Apart A B) : Apart (S.hom A) (S.hom B) := by
  rcases A with _ | ⟨x₁, y₁, h₁⟩
  · trivial
  rcases B with _ | ⟨x₂, y₂, h₂⟩
  · trivial
  · exact fun e => h (S.eqX.1 e)

theorem vert_hom (A : (curve 0 b).Point) (hA : A ≠ 0) (x : F) : vert (S.hom A) (S.c ^ 2 * S.σ x) = S.c ^ 2 * S.σ (vert A x) := by
  rcases A with _ | ⟨x₁, y₁, h₁⟩
  · exact absurd rfl hA
  · rw [hom_some, vert, vert, map_sub, mul_sub]

/-- values of functions, for the maps with `c = 1` -/
theorem ellP_hom (hc : S.c = 1) (A B P : (curve 0 b).Point) : ellP (S.hom A) (S.hom B) (S.hom P) = S.σ (ellP A B P) := by
  have hv : ∀ (A : (curve 0 b).Point) x, vert (S.hom A) (S.c ^ 2 * S.σ x) = S.σ (vert A x) := by
    intro A x
    rcases A with _ | ⟨x₁, y₁, h₁⟩
    · exact (map_one _).symm
    · rw [hom_some, vert, vert, map_sub, hc]; ring
  rcases P with _ | ⟨x, y, hP⟩
  · exact (map_one _).symm
  rw [hom_some, ellP, ellP, ell, ell, map_div₀, ← map_add, hv]
  congr 1
  rcases A with _ | ⟨x₁, y₁, h₁⟩
  · rw [← Point.zero_def, map_zero, line_zero_left, line_zero_left, hv]
  rcases B with _ | ⟨x₂, y₂, h₂⟩
  · rw [← Point.zero_def, map_zero, line_zero_right, line_zero_right, hv]
  rw [hom_some, hom_some]
  by_cases hxy : x₁ = x₂ ∧ y₁ = (curve 0 b).negY x₂ y₂
  · rw [line_some_neg hxy, line_some_neg (S.vertical.2 hxy), map_sub, hc]; ring
  · rw [line_some hxy, line_some (fun h => hxy (S.vertical.1 h)), S.slope]
    simp only [map_sub, map_mul, hc]; ring

end SMap

end Maps

end Verif.Bls381
