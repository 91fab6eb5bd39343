import Verif.Native.CurveLemmas
import Mathlib.AlgebraicGeometry.EllipticCurve.Affine.Point
import Mathlib.RingTheory.Norm.Basic

/-!
# Lines through points of an elliptic curve

Nothing here is about the repository. For points `A`, `B` of a curve, `ell A B` is the value at a point `(x, y)` of
the function with zeros `A`, `B` and poles `A + B`, `0` (the quotient of a line and a vertical). Up to fourth roots of
unity it is a symmetric cocycle (`ell_symm`, `ell_assoc`: the ideals of the coordinate ring) and satisfies Weil's
reciprocity law (`ell_reciprocity`: elementary). Miller's function is a product of such values.
-/

set_option linter.unusedSectionVars false

namespace Verif.Bls381

open Verif.Native WeierstrassCurve WeierstrassCurve.Affine Polynomial
open scoped Polynomial.Bivariate

section Ideals
variable {F : Type} [Field F] [DecidableEq F] {W : Affine F}

open CoordinateRing

/-- the vertical through a point -/
noncomputable def vertC : W.Point → W.CoordinateRing
  | .zero => 1
  | .some x _ _ => XClass W x

/-- the line through two points -/
noncomputable def lineC : W.Point → W.Point → W.CoordinateRing
  | .zero, B => vertC B
  | A, .zero => vertC A
  | .some x₁ y₁ _, .some x₂ y₂ _ =>
    if x₁ = x₂ ∧ y₁ = W.negY x₂ y₂ then XClass W x₁ else YClass W (linePolynomial x₁ y₁ (W.slope x₁ x₂ y₁ y₂))

/-- the ideal of a point -/
noncomputable def idl : W.Point → Ideal W.CoordinateRing
  | .zero => ⊤
  | .some x y _ => XYIdeal W x (C y)

theorem vertC_zero : vertC (0 : W.Point) = 1 := rfl

theorem idl_zero : idl (0 : W.Point) = ⊤ := rfl

theorem lineC_zero_left (B : W.Point) : lineC 0 B = vertC B := by cases B <;> rfl

theorem lineC_zero_right (A : W.Point) : lineC A 0 = vertC A := by cases A <;> rfl

theorem lineC_some_neg {x₁ y₁ x₂ y₂ : F} {h₁ : W.Nonsingular x₁ y₁} {h₂ : W.Nonsingular x₂ y₂}
    (h : x₁ = x₂ ∧ y₁ = W.negY x₂ y₂) : lineC (.some x₁ y₁ h₁) (.some x₂ y₂ h₂) = XClass W x₁ := by
  rw [lineC, if_pos h]

theorem lineC_some {x₁ y₁ x₂ y₂ : F} {h₁ : W.Nonsingular x₁ y₁} {h₂ : W.Nonsingular x₂ y₂}
    (h : ¬ (x₁ = x₂ ∧ y₁ = W.negY x₂ y₂)) : lineC (.some x₁ y₁ h₁) (.some x₂ y₂ h₂)
      = YClass W (linePolynomial x₁ y₁ (W.slope x₁ x₂ y₁ y₂)) := by
  rw [lineC, if_neg h]

theorem vertC_ne (A : W.Point) : vertC A ≠ 0 := by
  rcases A with _ | ⟨x, y, h⟩
  · exact one_ne_zero
  · exact XClass_ne_zero x

theorem idl_mul (A B : W.Point) :
    Ideal.span {vertC (A + B)} * (idl A * idl B) = Ideal.span {lineC A B} * idl (A + B) := by
  rcases A with _ | ⟨x₁, y₁, h₁⟩
  · rw [← Point.zero_def, zero_add, lineC_zero_left, idl_zero, Ideal.top_mul]
  rcases B with _ | ⟨x₂, y₂, h₂⟩
  · rw [← Point.zero_def, add_zero, lineC_zero_right, idl_zero, Ideal.mul_top]
  by_cases hxy : x₁ = x₂ ∧ y₁ = W.negY x₂ y₂
  · rw [Point.add_of_Y_eq hxy.1 hxy.2, vertC_zero, idl_zero, lineC_some_neg hxy, Ideal.mul_top,
      Ideal.span_singleton_one, Ideal.top_mul]
    obtain ⟨rfl, rfl⟩ := hxy
    exact XYIdeal_neg_mul h₂
  · rw [Point.add_some hxy, lineC_some hxy]
    exact XYIdeal_mul_XYIdeal h₁.1 h₂.1 hxy

theorem idl_neg (A : W.Point) : idl (-A) * idl A = Ideal.span {vertC A} := by
  rcases A with _ | ⟨x, y, h⟩
  · change (⊤ : Ideal W.CoordinateRing) * ⊤ = Ideal.span {1}
    rw [Ideal.mul_top, Ideal.span_singleton_one]
  · exact XYIdeal_neg_mul h

/-! ## Norms -/

/-- the abscissa of a point as a polynomial -/
noncomputable def absc : W.Point → F[X]
  | .zero => 1
  | .some x _ _ => X - C x

theorem absc_zero : absc (0 : W.Point) = 1 := rfl

theorem absc_ne (A : W.Point) : absc A ≠ 0 := by
  rcases A with _ | ⟨x, y, h⟩
  · exact one_ne_zero
  · exact X_sub_C_ne_zero x

theorem norm_mkC (p : F[X]) : Algebra.norm F[X] (mk W (C p)) = p ^ 2 := by
  have := norm_smul_basis (W' := W) p 0
  rw [zero_smul, add_zero, CoordinateRing.smul, mul_one] at this
  rw [this]; ring

theorem norm_vertC (A : W.Point) : Algebra.norm F[X] (vertC A) = absc A ^ 2 := by
  rcases A with _ | ⟨x, y, h⟩
  · rw [vertC, absc, map_one, one_pow]
  · exact norm_mkC _

theorem norm_lineC (A B : W.Point) : ∃ s : F[X], s ^ 2 = 1 ∧
    Algebra.norm F[X] (lineC A B) = s * (absc A * absc B * absc (A + B)) := by
  rcases A with _ | ⟨x₁, y₁, h₁⟩
  · refine ⟨1, one_pow _, ?_⟩
    rw [← Point.zero_def, zero_add, lineC_zero_left, norm_vertC, absc_zero]; ring
  rcases B with _ | ⟨x₂, y₂, h₂⟩
  · refine ⟨1, one_pow _, ?_⟩
    rw [← Point.zero_def, add_zero, lineC_zero_right, norm_vertC, absc_zero]; ring
  by_cases hxy : x₁ = x₂ ∧ y₁ = W.negY x₂ y₂
  · refine ⟨1, one_pow _, ?_⟩
    rw [Point.add_of_Y_eq hxy.1 hxy.2, lineC_some_neg hxy, XClass, norm_mkC, absc_zero, absc, absc, hxy.1]; ring
  · refine ⟨-1, by ring, ?_⟩
    rw [Point.add_some hxy, lineC_some hxy, absc, absc, absc]
    have h := addPolynomial_slope h₁.1 h₂.1 hxy
    rw [neg_one_mul, ← h]
    set l := linePolynomial x₁ y₁ (W.slope x₁ x₂ y₁ y₂) with hl
    have e : YClass W l = (-l) • (1 : W.CoordinateRing) + (1 : F[X]) • mk W Y := by
      rw [YClass, CoordinateRing.smul, CoordinateRing.smul, map_sub, C_neg, map_neg, C_1, map_one]; ring
    rw [e, norm_smul_basis, addPolynomial, ← hl, polynomial]
    simp only [eval_add, eval_sub, eval_mul, eval_pow, eval_X, eval_C]
    ring

/-- functions that generate the same ideal and have the same norm up to sign agree up to a fourth root of unity -/
theorem eq_of_span_eq {f g : W.CoordinateRing} (hf : f ≠ 0) (h : Ideal.span {f} = Ideal.span {g}) {s : F[X]}
    (hs : s ^ 2 = 1) (hn : Algebra.norm F[X] f = s * Algebra.norm F[X] g) :
    ∃ c : F, c ^ 4 = 1 ∧ f = mk W (C (C c)) * g := by
  rw [Ideal.span_singleton_eq_span_singleton] at h
  obtain ⟨u, hu⟩ := h.symm
  have hg : g ≠ 0 := by rintro rfl; exact hf (by rw [← hu, zero_mul])
  have hunit : IsUnit (Algebra.norm F[X] (u : W.CoordinateRing)) := u.isUnit.map _
  obtain ⟨p, q, hpq⟩ := exists_smul_basis_eq (u : W.CoordinateRing)
  have hdeg := degree_eq_zero_of_isUnit hunit
  rw [← hpq, degree_norm_smul_basis] at hdeg
  have hq : q = 0 := by
    by_contra hq
    have h1 : (2 • q.degree + 3 : WithBot ℕ) ≤ 0 := by
      rw [← hdeg]; exact le_max_right _ _
    rw [degree_eq_natDegree hq] at h1
    have h2 : ((2 * q.natDegree + 3 : ℕ) : WithBot ℕ) ≤ ((0 : ℕ) : WithBot ℕ) := by
      rw [two_nsmul] at h1
      push_cast
      rw [two_mul]
      exact h1
    have h3 : 2 * q.natDegree + 3 ≤ 0 := WithBot.coe_le_coe.1 h2
    omega
  subst hq
  have hp0 : p ≠ 0 := by
    rintro rfl
    rw [zero_smul, zero_smul, add_zero] at hpq
    exact u.ne_zero hpq.symm
  have hp : p.degree = 0 := by
    rw [degree_zero] at hdeg
    have h1 : (2 • p.degree : WithBot ℕ) ≤ 0 := by
      rw [← hdeg]; exact le_max_left _ _
    rw [degree_eq_natDegree hp0] at h1 ⊢
    have h2 : ((2 * p.natDegree : ℕ) : WithBot ℕ) ≤ ((0 : ℕ) : WithBot ℕ) := by
      rw [two_nsmul] at h1
      push_cast
      rw [two_mul]
      exact h1
    have h4 : 2 * p.natDegree ≤ 0 := WithBot.coe_le_coe.1 h2
    have h3 : p.natDegree = 0 := by omega
    rw [h3]; rfl
  obtain ⟨c, rfl⟩ : ∃ c, p = C c := ⟨_, eq_C_of_degree_eq_zero hp⟩
  rw [zero_smul, add_zero, CoordinateRing.smul, mul_one] at hpq
  refine ⟨c, ?_, by rw [hpq, mul_comm, hu]⟩
  have hN : Algebra.norm F[X] g ≠ 0 := by
    rw [Ne, Algebra.norm_eq_zero_iff_of_basis (CoordinateRing.basis W)]
    exact hg
  rw [← hu, ← hpq, map_mul, norm_mkC, mul_comm] at hn
  have h1 := mul_right_cancel₀ hN hn
  have h2 : (C (c ^ 4) : F[X]) = C 1 := by
    rw [C_1, ← hs, ← h1, C_pow]; ring
  exact C_injective h2

theorem lineC_ne (A B : W.Point) : lineC A B ≠ 0 := by
  intro h0
  obtain ⟨s, hs, h⟩ := norm_lineC A B
  have hz : Algebra.norm F[X] (0 : W.CoordinateRing) = 0 := by
    have := norm_mkC (W := W) 0
    rwa [C_0, map_zero, zero_pow two_ne_zero] at this
  rw [h0, hz] at h
  have hs0 : s ≠ 0 := by rintro rfl; simp at hs
  exact mul_ne_zero hs0 (mul_ne_zero (mul_ne_zero (absc_ne _) (absc_ne _)) (absc_ne _)) h.symm

/-- the same with the ideal of a point as a factor -/
theorem eq_of_span_mul_eq {f g : W.CoordinateRing} (hf : f ≠ 0) (A : W.Point)
    (h : Ideal.span {f} * idl A = Ideal.span {g} * idl A) {s : F[X]}
    (hs : s ^ 2 = 1) (hn : Algebra.norm F[X] f = s * Algebra.norm F[X] g) :
    ∃ c : F, c ^ 4 = 1 ∧ f = mk W (C (C c)) * g := by
  have h1 := congrArg (· * idl (-A)) h
  simp only [mul_assoc, mul_comm (idl A), idl_neg, Ideal.span_singleton_mul_span_singleton] at h1
  obtain ⟨c, hc, h2⟩ := eq_of_span_eq (mul_ne_zero hf (vertC_ne A)) h1 hs (by rw [map_mul, map_mul, hn, mul_assoc])
  refine ⟨c, hc, mul_right_cancel₀ (vertC_ne A) ?_⟩
  rw [h2, mul_assoc]

theorem lineC_symm (A B : W.Point) : ∃ c : F, c ^ 4 = 1 ∧ lineC A B = mk W (C (C c)) * lineC B A := by
  obtain ⟨s, hs, h1⟩ := norm_lineC A B
  obtain ⟨t, ht, h2⟩ := norm_lineC B A
  refine eq_of_span_mul_eq (lineC_ne A B) (A + B) ?_ (s := s * t) (by rw [mul_pow, hs, ht, one_mul]) ?_
  · rw [← idl_mul, mul_comm (idl A), add_comm A B, idl_mul]
  · rw [h1, h2, add_comm B A]
    linear_combination (-(s * (absc A * absc B * absc (A + B)))) * ht

theorem lineC_assoc (A B D : W.Point) : ∃ c : F, c ^ 4 = 1 ∧
    lineC A B * lineC (A + B) D * vertC (B + D) = mk W (C (C c)) * (lineC B D * lineC A (B + D) * vertC (A + B)) := by
  obtain ⟨s1, hs1, h1⟩ := norm_lineC A B
  obtain ⟨s2, hs2, h2⟩ := norm_lineC (A + B) D
  obtain ⟨s3, hs3, h3⟩ := norm_lineC B D
  obtain ⟨s4, hs4, h4⟩ := norm_lineC A (B + D)
  refine eq_of_span_mul_eq (mul_ne_zero (mul_ne_zero (lineC_ne _ _) (lineC_ne _ _)) (vertC_ne _)) (A + B + D) ?_
    (s := s1 * s2 * s3 * s4) (by simp only [mul_pow, hs1, hs2, hs3, hs4, one_mul]) ?_
  · have e1 := idl_mul A B
    have e2 := idl_mul (A + B) D
    have e3 := idl_mul B D
    have e4 := idl_mul A (B + D)
    rw [← add_assoc] at e4
    simp only [← Ideal.span_singleton_mul_span_singleton]
    generalize Ideal.span {lineC A B} = l1 at *
    generalize Ideal.span {lineC (A + B) D} = l2 at *
    generalize Ideal.span {lineC B D} = l3 at *
    generalize Ideal.span {lineC A (B + D)} = l4 at *
    generalize Ideal.span {vertC (A + B)} = v1 at *
    generalize Ideal.span {vertC (B + D)} = v2 at *
    generalize Ideal.span {vertC (A + B + D)} = v3 at *
    generalize idl (A + B + D) = i at *
    generalize idl (A + B) = j at *
    generalize idl (B + D) = k at *
    calc l1 * l2 * v2 * i = v2 * l1 * (l2 * i) := by ring
      _ = v2 * l1 * (v3 * (j * idl D)) := by rw [e2]
      _ = v2 * v3 * idl D * (l1 * j) := by ring
      _ = v2 * v3 * idl D * (v1 * (idl A * idl B)) := by rw [e1]
      _ = v1 * v3 * idl A * (v2 * (idl B * idl D)) := by ring
      _ = v1 * v3 * idl A * (l3 * k) := by rw [e3]
      _ = v1 * l3 * (v3 * (idl A * k)) := by ring
      _ = v1 * l3 * (l4 * i) := by rw [e4]
      _ = _ := by ring
  · simp only [map_mul, norm_vertC, h1, h2, h3, h4, ← add_assoc]
    linear_combination (-(s1 * s2 * (absc A * absc B * absc (A + B) * absc (A + B) * absc D * absc (A + B + D)
      * absc (B + D) ^ 2))) * hs3 - (s1 * s2 * s3 ^ 2 * (absc A * absc B * absc (A + B) * absc (A + B) * absc D
      * absc (A + B + D) * absc (B + D) ^ 2)) * hs4

end Ideals

/-! ## Values -/

section Values
variable {F : Type} [Field F] [DecidableEq F] {W : Affine F}

/-- the value of the vertical through `C` at a point with abscissa `x`; one for the point at infinity -/
def vert : W.Point → F → F
  | .zero, _ => 1
  | .some xc _ _, x => x - xc

/-- the value at `(x, y)` of the line through two points: the tangent if they are equal, the vertical if they are
opposite or one of them is at infinity -/
def line : W.Point → W.Point → F → F → F
  | .zero, B, x, _ => vert B x
  | A, .zero, x, _ => vert A x
  | .some x₁ y₁ _, .some x₂ y₂ _, x, y =>
    if x₁ = x₂ ∧ y₁ = W.negY x₂ y₂ then x - x₁ else y - y₁ - W.slope x₁ x₂ y₁ y₂ * (x - x₁)

/-- the function with zeros `A`, `B` and poles `A + B`, `0` -/
def ell (A B : W.Point) (x y : F) : F := line A B x y / vert (A + B) x

theorem vert_zero (x : F) : vert (0 : W.Point) x = 1 := rfl

theorem line_zero_left (B : W.Point) (x y : F) : line 0 B x y = vert B x := by cases B <;> rfl

theorem line_zero_right (A : W.Point) (x y : F) : line A 0 x y = vert A x := by cases A <;> rfl

theorem line_some_neg {x₁ y₁ x₂ y₂ : F} {h₁ : W.Nonsingular x₁ y₁} {h₂ : W.Nonsingular x₂ y₂}
    (h : x₁ = x₂ ∧ y₁ = W.negY x₂ y₂) (x y : F) : line (.some x₁ y₁ h₁) (.some x₂ y₂ h₂) x y = x - x₁ := by
  rw [line, if_pos h]

theorem line_some {x₁ y₁ x₂ y₂ : F} {h₁ : W.Nonsingular x₁ y₁} {h₂ : W.Nonsingular x₂ y₂}
    (h : ¬ (x₁ = x₂ ∧ y₁ = W.negY x₂ y₂)) (x y : F) : line (.some x₁ y₁ h₁) (.some x₂ y₂ h₂) x y
      = y - y₁ - W.slope x₁ x₂ y₁ y₂ * (x - x₁) := by
  rw [line, if_neg h]

/-- evaluation of functions at a point -/
noncomputable def evalC {x y : F} (h : W.Equation x y) : W.CoordinateRing →+* F :=
  AdjoinRoot.lift (evalRingHom x) y (by
    rw [eval₂_evalRingHom]
    exact h)

theorem evalC_mkC {x y : F} (h : W.Equation x y) (p : F[X]) : evalC h (CoordinateRing.mk W (C p)) = p.eval x := by
  rw [evalC, CoordinateRing.mk, AdjoinRoot.lift_mk, eval₂_C]; rfl

theorem evalC_mkY {x y : F} (h : W.Equation x y) : evalC h (CoordinateRing.mk W Y) = y := by
  rw [evalC, CoordinateRing.mk, AdjoinRoot.lift_mk, eval₂_X]

theorem evalC_vertC {x y : F} (h : W.Equation x y) (A : W.Point) : evalC h (vertC A) = vert A x := by
  rcases A with _ | ⟨a, b, hA⟩
  · rw [vertC, map_one, vert]
  · rw [vertC, CoordinateRing.XClass, evalC_mkC, vert, eval_sub, eval_X, eval_C]

theorem evalC_lineC {x y : F} (h : W.Equation x y) (A B : W.Point) : evalC h (lineC A B) = line A B x y := by
  rcases A with _ | ⟨x₁, y₁, h₁⟩
  · rw [← Point.zero_def, lineC_zero_left, line_zero_left, evalC_vertC]
  rcases B with _ | ⟨x₂, y₂, h₂⟩
  · rw [← Point.zero_def, lineC_zero_right, line_zero_right, evalC_vertC]
  by_cases hxy : x₁ = x₂ ∧ y₁ = W.negY x₂ y₂
  · rw [lineC_some_neg hxy, line_some_neg hxy, CoordinateRing.XClass, evalC_mkC, eval_sub, eval_X, eval_C]
  · rw [lineC_some hxy, line_some hxy, CoordinateRing.YClass, map_sub, map_sub, evalC_mkC, evalC_mkY, linePolynomial]
    simp only [eval_add, eval_sub, eval_mul, eval_X, eval_C]
    ring

/-- equal up to a fourth root of unity -/
def Eq4 (a b : F) : Prop := ∃ c : F, c ^ 4 = 1 ∧ a = c * b

theorem ell_symm {x y : F} (h : W.Equation x y) (A B : W.Point) : Eq4 (ell A B x y) (ell B A x y) := by
  obtain ⟨c, hc, e⟩ := lineC_symm A B
  refine ⟨c, hc, ?_⟩
  have := congrArg (evalC h) e
  rw [map_mul, evalC_mkC, eval_C, evalC_lineC, evalC_lineC] at this
  rw [ell, ell, this, add_comm A B, mul_div_assoc]

theorem ell_assoc {x y : F} (h : W.Equation x y) (A B D : W.Point) (h1 : vert (A + B) x ≠ 0)
    (h2 : vert (B + D) x ≠ 0) :
    Eq4 (ell A B x y * ell (A + B) D x y) (ell B D x y * ell A (B + D) x y) := by
  obtain ⟨c, hc, e⟩ := lineC_assoc A B D
  refine ⟨c, hc, ?_⟩
  have := congrArg (evalC h) e
  simp only [map_mul, evalC_mkC, eval_C, evalC_lineC, evalC_vertC] at this
  rw [ell, ell, ell, ell, ← add_assoc, div_mul_div_comm, div_mul_div_comm, mul_div_assoc', eq_comm]
  by_cases h3 : vert (A + B + D) x = 0
  · rw [h3]; simp
  rw [div_eq_div_iff (mul_ne_zero h2 h3) (mul_ne_zero h1 h3)]
  linear_combination (-vert (A + B + D) x) * this

theorem ell_zero_left {x y : F} {B : W.Point} (h : vert B x ≠ 0) : ell 0 B x y = 1 := by
  rw [ell, line_zero_left, zero_add, div_self h]

theorem ell_zero_right {x y : F} {A : W.Point} (h : vert A x ≠ 0) : ell A 0 x y = 1 := by
  rw [ell, line_zero_right, add_zero, div_self h]

end Values

/-! ## Reciprocity -/

section Reciprocity
variable {F : Type} [Field F] [DecidableEq F] {a b : F}

/-- a line `y = m x + n` through three points -/
structure Chord (a b m n x₁ x₂ x₃ : F) : Prop where
  e1 : x₁ + x₂ + x₃ = m ^ 2
  e2 : x₁ * x₂ + x₁ * x₃ + x₂ * x₃ = a - 2 * m * n
  e3 : x₁ * x₂ * x₃ = n ^ 2 - b

theorem Chord.poly {m n x₁ x₂ x₃ : F} (h : Chord a b m n x₁ x₂ x₃) (x : F) :
    x ^ 3 + a * x + b - (m * x + n) ^ 2 = (x - x₁) * (x - x₂) * (x - x₃) := by
  linear_combination (-x) * h.e2 + x ^ 2 * h.e1 + h.e3

theorem Chord.symm {m n x₁ x₂ x₃ m' n' p₁ p₂ p₃ : F} (h : Chord a b m n x₁ x₂ x₃) (h' : Chord a b m' n' p₁ p₂ p₃) :
    ((m' - m) * p₁ + (n' - n)) * ((m' - m) * p₂ + (n' - n)) * ((m' - m) * p₃ + (n' - n))
      = ((m' - m) * x₁ + (n' - n)) * ((m' - m) * x₂ + (n' - n)) * ((m' - m) * x₃ + (n' - n)) := by
  linear_combination (m' - m) ^ 3 * h'.e3 - (m' - m) ^ 3 * h.e3 + (m' - m) ^ 2 * (n' - n) * h'.e2
    - (m' - m) ^ 2 * (n' - n) * h.e2 + (m' - m) * (n' - n) ^ 2 * h'.e1 - (m' - m) * (n' - n) ^ 2 * h.e1

theorem chord_of {x₁ y₁ x₂ y₂ : F} {h₁ : (curve a b).Nonsingular x₁ y₁} {h₂ : (curve a b).Nonsingular x₂ y₂}
    (hxy : ¬ (x₁ = x₂ ∧ y₁ = (curve a b).negY x₂ y₂)) : ∃ m n x₃ hn, Chord a b m n x₁ x₂ x₃ ∧
      y₁ = m * x₁ + n ∧ y₂ = m * x₂ + n ∧
      (Point.some x₁ y₁ h₁ : (curve a b).Point) + .some x₂ y₂ h₂ = .some x₃ (-(m * x₃ + n)) hn ∧
      ∀ x y, line (.some x₁ y₁ h₁) (.some x₂ y₂ h₂) x y = y - (m * x + n) := by
  have hp := addPolynomial_slope h₁.1 h₂.1 hxy
  rw [addPolynomial_eq, neg_inj, Cubic.prod_X_sub_C_eq, Cubic.toPoly_injective] at hp
  have hc := congrArg Cubic.c hp
  have hd := congrArg Cubic.d hp
  have hy₂ : y₂ = (curve a b).slope x₁ x₂ y₁ y₂ * (x₂ - x₁) + y₁ := by
    by_cases hx : x₁ = x₂
    · have hy : y₁ ≠ (curve a b).negY x₂ y₂ := fun h => hxy ⟨hx, h⟩
      obtain ⟨rfl, rfl⟩ := And.intro hx (Y_eq_of_Y_ne h₁.1 h₂.1 hx hy)
      ring
    · rw [slope_of_X_ne hx]
      have : x₁ - x₂ ≠ 0 := sub_ne_zero.2 hx
      field_simp
      ring
  have hadd : ∃ hn, (Point.some x₁ y₁ h₁ : (curve a b).Point) + .some x₂ y₂ h₂
      = .some ((curve a b).addX x₁ x₂ ((curve a b).slope x₁ x₂ y₁ y₂))
        ((curve a b).addY x₁ x₂ y₁ ((curve a b).slope x₁ x₂ y₁ y₂)) hn := ⟨_, Point.add_some hxy⟩
  clear hp
  generalize hm : (curve a b).slope x₁ x₂ y₁ y₂ = m at hc hd hy₂ hadd
  simp only [addX] at hc hd
  have hx3 : (curve a b).addX x₁ x₂ m = m ^ 2 - x₁ - x₂ := by simp only [addX]; ring
  have hy3 : (curve a b).addY x₁ x₂ y₁ m = -(m * (m ^ 2 - x₁ - x₂) + (y₁ - m * x₁)) := by
    simp only [addY, negAddY, negY_curve, hx3]; ring
  obtain ⟨hn, hadd⟩ := hadd
  have hn' := hn
  rw [hx3, hy3] at hn'
  refine ⟨m, y₁ - m * x₁, m ^ 2 - x₁ - x₂, hn', ⟨by ring, ?_, ?_⟩, by ring, ?_, ?_, ?_⟩
  · linear_combination -hc
  · linear_combination hd
  · linear_combination hy₂
  · rw [hadd, Point.some.injEq]
    exact ⟨hx3, hy3⟩
  · intro x y
    rw [line_some hxy, hm]; ring

/-- the value at a point; one at infinity -/
def ellP (A B : (curve a b).Point) : (curve a b).Point → F
  | .zero => 1
  | .some x y _ => ell A B x y

/-- different abscissas, if they are affine -/
def Apart : (curve a b).Point → (curve a b).Point → Prop
  | .some x _ _, .some x' _ _ => x ≠ x'
  | _, _ => True

theorem Apart.symm {A P : (curve a b).Point} (h : Apart A P) : Apart P A := by
  rcases A with _ | ⟨x, y, hA⟩ <;> rcases P with _ | ⟨x', y', hP⟩ <;> first | trivial | exact Ne.symm h

theorem Apart.vert_ne {A : (curve a b).Point} {x y : F} {h} (hA : Apart A (.some x y h)) : vert A x ≠ 0 := by
  rcases A with _ | ⟨x', y', hA'⟩
  · exact one_ne_zero
  · exact sub_ne_zero.2 (Ne.symm hA)

theorem ellP_zero_left {B P : (curve a b).Point} (h : Apart B P) : ellP 0 B P = 1 := by
  rcases P with _ | ⟨x, y, hP⟩
  · rfl
  · exact ell_zero_left h.vert_ne

theorem ellP_zero_right {A P : (curve a b).Point} (h : Apart A P) : ellP A 0 P = 1 := by
  rcases P with _ | ⟨x, y, hP⟩
  · rfl
  · exact ell_zero_right h.vert_ne

theorem ellP_at_zero (A B : (curve a b).Point) : ellP A B 0 = 1 := rfl

theorem Eq4.of_eq {x y : F} (h : x = y) : Eq4 x y := ⟨1, one_pow _, by rw [h, one_mul]⟩

theorem ellP_neg {x₁ y₁ x₂ y₂ x y : F} {h₁ : (curve a b).Nonsingular x₁ y₁} {h₂ : (curve a b).Nonsingular x₂ y₂}
    (h : x₁ = x₂ ∧ y₁ = (curve a b).negY x₂ y₂) (hn) :
    ellP (.some x₁ y₁ h₁) (.some x₂ y₂ h₂) (.some x y hn) = x - x₁ := by
  rw [ellP, ell, line_some_neg h, Point.add_of_Y_eq h.1 h.2, vert_zero, div_one]

theorem recip_aux {d₁ d₂ d₃ c₁ c₂ c₃ s t u₁ u₂ w₁ w₂ w₃ : F} (hA : c₃ * s = -(w₁ * w₂ * w₃))
    (hP : d₃ * t = -(u₁ * u₂ * w₃)) (hs : d₁ * d₂ * d₃ = c₁ * c₂ * c₃) (h1 : u₁ ≠ 0) (h2 : u₂ ≠ 0) (h3 : w₁ ≠ 0)
    (h4 : w₂ ≠ 0) (h5 : w₃ ≠ 0) :
    d₁ / (-w₁) * (d₂ / (-w₂)) * (-s / w₃) = -1 * (-t / (-w₃) * (-c₁ / u₁ * (-c₂ / u₂))) := by
  have hc : c₃ ≠ 0 := by
    rintro rfl
    rw [zero_mul, eq_comm, neg_eq_zero] at hA
    exact mul_ne_zero (mul_ne_zero h3 h4) h5 hA
  have hd : d₃ ≠ 0 := by
    rintro rfl
    rw [zero_mul, eq_comm, neg_eq_zero] at hP
    exact mul_ne_zero (mul_ne_zero h1 h2) h5 hP
  have e1 : s = -(w₁ * w₂ * w₃) / c₃ := by rw [eq_div_iff hc, ← hA]; ring
  have e2 : t = -(u₁ * u₂ * w₃) / d₃ := by rw [eq_div_iff hd, ← hP]; ring
  rw [e1, e2]
  field_simp
  linear_combination hs

/-- Weil reciprocity for the functions `ell A B` and `ell P Q`, whose divisors are disjoint -/
theorem ell_reciprocity {A B P Q : (curve a b).Point} (h1 : Apart A P) (h2 : Apart A Q) (h3 : Apart A (P + Q))
    (h4 : Apart B P) (h5 : Apart B Q) (h6 : Apart B (P + Q)) (h7 : Apart (A + B) P) (h8 : Apart (A + B) Q)
    (h9 : Apart (A + B) (P + Q)) :
    Eq4 (ellP A B P * ellP A B Q * ellP P Q (A + B)) (ellP A B (P + Q) * (ellP P Q A * ellP P Q B)) := by
  rcases A with _ | ⟨a₁, b₁, hA⟩
  · rw [← Point.zero_def] at *
    rw [ellP_zero_left h4, ellP_zero_left h5, ellP_zero_left h6, zero_add, ellP_at_zero]
    exact Eq4.of_eq (by ring)
  rcases B with _ | ⟨a₂, b₂, hB⟩
  · rw [← Point.zero_def] at *
    rw [ellP_zero_right h1, ellP_zero_right h2, ellP_zero_right h3, add_zero, ellP_at_zero]
    exact Eq4.of_eq (by ring)
  rcases P with _ | ⟨p₁, q₁, hP⟩
  · rw [← Point.zero_def] at *
    rw [ellP_zero_left h2.symm, ellP_zero_left h5.symm, ellP_zero_left h8.symm, zero_add, ellP_at_zero]
    exact Eq4.of_eq (by ring)
  rcases Q with _ | ⟨p₂, q₂, hQ⟩
  · rw [← Point.zero_def] at *
    rw [ellP_zero_right h1.symm, ellP_zero_right h4.symm, ellP_zero_right h7.symm, add_zero, ellP_at_zero]
    exact Eq4.of_eq (by ring)
  by_cases hab : a₁ = a₂ ∧ b₁ = (curve a b).negY a₂ b₂
  · rw [Point.add_of_Y_eq hab.1 hab.2, ellP_at_zero, ellP_neg hab, ellP_neg hab]
    by_cases hpq : p₁ = p₂ ∧ q₁ = (curve a b).negY p₂ q₂
    · rw [Point.add_of_Y_eq hpq.1 hpq.2, ellP_at_zero, ellP_neg hpq, ellP_neg hpq]
      exact Eq4.of_eq (by rw [← hpq.1, ← hab.1]; ring)
    · obtain ⟨m, n, p₃, hn, hc, e1, e2, e3, hl⟩ := chord_of (h₁ := hP) (h₂ := hQ) hpq
      rw [e3] at h3 ⊢
      have hd : a₁ - p₃ ≠ 0 := sub_ne_zero.2 h3
      rw [ellP_neg hab]
      simp only [ellP, ell, hl, e3, vert]
      have hb : b₂ = -b₁ := by rw [hab.2, negY_curve, neg_neg]
      have ha := equation_curve.1 hA.1
      have hcp := hc.poly a₁
      rw [← hab.1, hb]
      refine Eq4.of_eq ?_
      rw [div_mul_div_comm, mul_div_assoc', eq_div_iff (mul_ne_zero hd hd)]
      linear_combination (p₃ - a₁) * ha + (p₃ - a₁) * hcp
  · obtain ⟨m, n, a₃, hn, hc, e1, e2, e3, hl⟩ := chord_of (h₁ := hA) (h₂ := hB) hab
    rw [e3] at h7 h8 h9 ⊢
    by_cases hpq : p₁ = p₂ ∧ q₁ = (curve a b).negY p₂ q₂
    · rw [Point.add_of_Y_eq hpq.1 hpq.2, ellP_at_zero, ellP_neg hpq, ellP_neg hpq, ellP_neg hpq]
      have hd : p₁ - a₃ ≠ 0 := sub_ne_zero.2 (Ne.symm h7)
      simp only [ellP, ell, hl, e3, vert]
      have hb : q₂ = -q₁ := by rw [hpq.2, negY_curve, neg_neg]
      have ha := equation_curve.1 hP.1
      have hcp := hc.poly p₁
      rw [← hpq.1, hb]
      refine Eq4.of_eq ?_
      rw [div_mul_div_comm, div_mul_eq_mul_div, div_eq_iff (mul_ne_zero hd hd)]
      linear_combination (p₁ - a₃) * ha + (p₁ - a₃) * hcp
    · obtain ⟨m', n', p₃, hn', hc', e1', e2', e3', hl'⟩ := chord_of (h₁ := hP) (h₂ := hQ) hpq
      rw [e3'] at h3 h6 h9 ⊢
      simp only [ellP, ell, hl, hl', e3, e3', vert]
      have n1 : a₁ - p₃ ≠ 0 := sub_ne_zero.2 h3
      have n2 : a₂ - p₃ ≠ 0 := sub_ne_zero.2 h6
      have n3 : a₃ - p₁ ≠ 0 := sub_ne_zero.2 h7
      have n4 : a₃ - p₂ ≠ 0 := sub_ne_zero.2 h8
      have n5 : a₃ - p₃ ≠ 0 := sub_ne_zero.2 h9
      have hA3 : ((m' - m) * a₃ + (n' - n)) * ((m' + m) * a₃ + (n' + n)) = -((a₃ - p₁) * (a₃ - p₂) * (a₃ - p₃)) := by
        linear_combination hc.poly a₃ - hc'.poly a₃
      have hP3 : ((m' - m) * p₃ + (n' - n)) * ((m' + m) * p₃ + (n' + n)) = -((a₁ - p₃) * (a₂ - p₃) * (a₃ - p₃)) := by
        linear_combination hc.poly p₃ - hc'.poly p₃
      refine ⟨-1, by ring, ?_⟩
      have := recip_aux hA3 hP3 (hc.symm hc') n1 n2 n3 n4 n5
      convert this using 2
      · rw [e1', e2']; congr 2 <;> ring
      · congr 1; ring
      · congr 1
        · congr 1 <;> ring
        · rw [e1, e2]; congr 2 <;> ring

end Reciprocity

end Verif.Bls381
