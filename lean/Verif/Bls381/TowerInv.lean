import Verif.Bls381.TowerLemmas

/-!
# Inversion and predicates in the tower
-/

namespace Verif.Bls381

set_option linter.unusedSectionVars false

namespace Tower
variable {F K : Type} [Field F] [Field K] [DecidableEq F] (T : Tower F K)

/-! ## Predicates -/

theorem fp2_isZero (x : Fp2 F) : x.isZero = true ↔ x = Fp2.zero := by
  simp [Fp2.isZero, Fp2.zero, Fp2.ext_iff]

theorem fp2_isOne (x : Fp2 F) : x.isOne = true ↔ x = Fp2.one := by
  simp [Fp2.isOne, Fp2.one, Fp2.ext_iff]

theorem fp2_equal (x y : Fp2 F) : x.equal y = true ↔ x = y := by
  simp [Fp2.equal, Fp2.ext_iff]

theorem fp6_isZero (x : Fp6 F) : x.isZero = true ↔ x = Fp6.zero := by
  simp [Fp6.isZero, Fp6.zero, Fp6.ext_iff, fp2_isZero, and_assoc]

theorem fp6_equal (x y : Fp6 F) : x.equal y = true ↔ x = y := by
  simp [Fp6.equal, Fp6.ext_iff, fp2_equal, and_assoc]

theorem fp12_isZero (x : Fp12 F) : x.isZero = true ↔ x = Fp12.zero := by
  simp [Fp12.isZero, Fp12.zero, Fp12.ext_iff, fp6_isZero]

theorem fp12_equal (x y : Fp12 F) : x.equal y = true ↔ x = y := by
  simp [Fp12.equal, Fp12.ext_iff, fp6_equal]

/-! ## Inversion -/

theorem e2_conj_ne {x : Fp2 F} (h : x ≠ Fp2.zero) : T.e2 x.conj ≠ 0 := by
  intro h0
  apply h
  have := T.e2_eq_zero.1 h0
  simp only [Fp2.conj, Fp2.zero, Fp2.ext_iff, neg_eq_zero] at this ⊢
  exact this

include T in
theorem norm2_ne {x : Fp2 F} (h : x ≠ Fp2.zero) : x.A * x.A + x.B * x.B ≠ 0 := by
  intro h0
  have h1 := T.e2_mul_conj x
  rw [h0, map_zero] at h1
  rcases mul_eq_zero.1 h1 with h2 | h2
  · exact h (T.e2_eq_zero.1 h2)
  · exact T.e2_conj_ne h h2

theorem invert2_ne (f : Fp2 F) {x : Fp2 F} (h : x ≠ Fp2.zero) :
    (Fp2.invert f x).2 = true ∧ T.e2 (Fp2.invert f x).1 = (T.e2 x)⁻¹ := by
  have hn := T.norm2_ne h
  have hx : T.e2 x ≠ 0 := fun h0 => h (T.e2_eq_zero.1 h0)
  have hphi : T.φ (x.A * x.A + x.B * x.B) ≠ 0 := by rwa [Ne, map_eq_zero]
  simp only [Fp2.invert, hn, decide_true, ne_eq, not_false_eq_true, sel, if_true, true_and]
  have h1 : T.e2 ⟨x.A * (x.A * x.A + x.B * x.B)⁻¹, -(x.A * x.A + x.B * x.B)⁻¹ * x.B⟩
      = T.e2 x.conj * (T.φ (x.A * x.A + x.B * x.B))⁻¹ := by
    simp only [e2_def, Fp2.conj, map_mul, map_neg, map_inv₀]; ring
  rw [h1, ← T.e2_mul_conj]
  have hc := T.e2_conj_ne h
  field_simp

theorem invert2_zero (f : Fp2 F) : Fp2.invert f Fp2.zero = (f, false) := by
  simp [Fp2.invert, Fp2.zero, sel]

/-- the adjoint element used by `fp6.Invert` -/
def adj6 (x : Fp6 F) : Fp6 F :=
  ⟨x.A.square.sub (x.B.mul x.C).mulByNonResidue, x.C.square.mulByNonResidue.sub (x.A.mul x.B),
    x.B.square.sub (x.A.mul x.C)⟩

/-- the norm used by `fp6.Invert` -/
def norm6 (x : Fp6 F) : Fp2 F :=
  ((x.B.mul (adj6 x).C).add (x.C.mul (adj6 x).B)).mulByNonResidue.add (x.A.mul (adj6 x).A)

theorem e6_mul_adj (x : Fp6 F) : T.e6 x * T.e6 (adj6 x) = T.e2 (norm6 x) := by
  simp only [norm6, adj6, e6_def, e2_nonRes, e2_add, e2_sub, e2_mul, e2_square]
  linear_combination (T.e2 x.B ^ 3 + (T.u + 1) * T.e2 x.C ^ 3 - 2 * T.e2 x.A * T.e2 x.B * T.e2 x.C
    + (T.e2 x.B ^ 2 * T.e2 x.C - T.e2 x.A * T.e2 x.C ^ 2) * T.v) * T.hv

include T in
theorem adj6_ne {x : Fp6 F} (h : x ≠ Fp6.zero) : adj6 x ≠ Fp6.zero := by
  intro h0
  have hA : T.e2 x.A ^ 2 = (T.u + 1) * (T.e2 x.B * T.e2 x.C) := by
    have := congrArg (fun y => T.e2 (Fp6.A y)) h0
    simp only [adj6, Fp6.zero, e2_sub, e2_square, e2_nonRes, e2_mul, e2_zero] at this
    linear_combination this
  have hB : (T.u + 1) * T.e2 x.C ^ 2 = T.e2 x.A * T.e2 x.B := by
    have := congrArg (fun y => T.e2 (Fp6.B y)) h0
    simp only [adj6, Fp6.zero, e2_sub, e2_square, e2_nonRes, e2_mul, e2_zero] at this
    linear_combination this
  have hC : T.e2 x.B ^ 2 = T.e2 x.A * T.e2 x.C := by
    have := congrArg (fun y => T.e2 (Fp6.C y)) h0
    simp only [adj6, Fp6.zero, e2_sub, e2_square, e2_mul, e2_zero] at this
    linear_combination this
  have hcube : T.e2 x.B ^ 3 = T.v ^ 3 * T.e2 x.C ^ 3 := by
    rw [T.hv]
    linear_combination T.e2 x.B * hC - T.e2 x.C * hB
  have hfac : (T.v * T.e2 x.C - T.e2 x.B)
      * (T.v ^ 2 * T.e2 x.C ^ 2 + T.v * T.e2 x.C * T.e2 x.B + T.e2 x.B ^ 2) = 0 := by
    linear_combination -hcube
  have hc0 : x.C = Fp2.zero := by
    rcases mul_eq_zero.1 hfac with h1 | h1
    · have h2 : T.e6 ⟨x.B.neg, x.C, Fp2.zero⟩ = 0 := by
        simp only [e6_def, e2_neg, e2_zero]; linear_combination h1
      exact congrArg Fp6.B (T.e6_eq_zero.1 h2)
    · have h2 : T.e6 ⟨x.B.square, x.B.mul x.C, x.C.square⟩ = 0 := by
        simp only [e6_def, e2_square, e2_mul]; linear_combination h1
      have h3 := congrArg (fun y => T.e2 (Fp6.C y)) (T.e6_eq_zero.1 h2)
      simp only [e2_square, Fp6.zero, e2_zero] at h3
      exact T.e2_eq_zero.1 (pow_eq_zero_iff (by norm_num) |>.1 h3)
  have hc1 := T.e2_eq_zero.2 hc0
  rw [hc1, mul_zero] at hC
  have hb1 := (pow_eq_zero_iff (by norm_num)).1 hC
  rw [hc1, hb1, mul_zero, mul_zero] at hA
  have ha1 := (pow_eq_zero_iff (by norm_num)).1 hA
  apply h
  rw [← T.e6_eq_zero, e6_def, ha1, hb1, hc1]
  ring

include T in
theorem norm6_ne {x : Fp6 F} (h : x ≠ Fp6.zero) : norm6 x ≠ Fp2.zero := by
  intro h0
  have h1 := T.e6_mul_adj x
  rw [h0, e2_zero] at h1
  rcases mul_eq_zero.1 h1 with h2 | h2
  · exact h (T.e6_eq_zero.1 h2)
  · exact T.adj6_ne h (T.e6_eq_zero.1 h2)

theorem invert6_eq (f x : Fp6 F) : Fp6.invert f x =
    (⟨sel f.A ((adj6 x).A.mul (Fp2.invert (x.A.mul (adj6 x).A) (norm6 x)).1)
        (Fp2.invert (x.A.mul (adj6 x).A) (norm6 x)).2,
      sel f.B ((adj6 x).B.mul (Fp2.invert (x.A.mul (adj6 x).A) (norm6 x)).1)
        (Fp2.invert (x.A.mul (adj6 x).A) (norm6 x)).2,
      sel f.C ((adj6 x).C.mul (Fp2.invert (x.A.mul (adj6 x).A) (norm6 x)).1)
        (Fp2.invert (x.A.mul (adj6 x).A) (norm6 x)).2⟩,
      (Fp2.invert (x.A.mul (adj6 x).A) (norm6 x)).2) := rfl

theorem invert6_ne (f : Fp6 F) {x : Fp6 F} (h : x ≠ Fp6.zero) :
    (Fp6.invert f x).2 = true ∧ T.e6 (Fp6.invert f x).1 = (T.e6 x)⁻¹ := by
  have hn := T.norm6_ne h
  obtain ⟨h1, h2⟩ := T.invert2_ne (x.A.mul (adj6 x).A) hn
  rw [invert6_eq, h1]
  refine ⟨rfl, ?_⟩
  have hx : T.e6 x ≠ 0 := fun h0 => h (T.e6_eq_zero.1 h0)
  have ha : T.e6 (adj6 x) ≠ 0 := fun h0 => T.adj6_ne h (T.e6_eq_zero.1 h0)
  have h3 : T.e6 (adj6 x) * (T.e2 (norm6 x))⁻¹ = (T.e6 x)⁻¹ := by
    rw [← T.e6_mul_adj]; field_simp
  rw [← h3]
  simp only [sel, if_true, e6_def, e2_mul, h2]
  ring

theorem adj6_zero : adj6 (Fp6.zero : Fp6 F) = Fp6.zero := by
  simp [adj6, Fp6.zero, Fp2.square, Fp2.sub, Fp2.mulByNonResidue, Fp2.mul, Fp2.zero]

theorem norm6_zero : norm6 (Fp6.zero : Fp6 F) = Fp2.zero := by
  rw [norm6, adj6_zero]
  simp [Fp6.zero, Fp2.add, Fp2.mulByNonResidue, Fp2.mul, Fp2.zero]

theorem invert6_zero (f : Fp6 F) : Fp6.invert f Fp6.zero = (f, false) := by
  rw [invert6_eq, norm6_zero, invert2_zero]
  rfl

/-- the norm used by `fp12.Invert` -/
def norm12 (x : Fp12 F) : Fp6 F := x.A.square.sub x.B.square.mulByNonResidue

theorem e12_conj_ne {x : Fp12 F} (h : x ≠ Fp12.zero) : T.e12 x.conj ≠ 0 := by
  intro h0
  apply h
  have h1 := T.e12_eq_zero.1 h0
  have hA : x.A = Fp6.zero := congrArg Fp12.A h1
  have hB : T.e6 x.B.neg = 0 := by rw [show x.B.neg = Fp6.zero from congrArg Fp12.B h1, e6_zero]
  rw [e6_neg, neg_eq_zero] at hB
  rw [Fp12.ext_iff]
  exact ⟨hA, T.e6_eq_zero.1 hB⟩

theorem e12_norm (x : Fp12 F) : T.e12 x * T.e12 x.conj = T.e6 (norm12 x) := by
  rw [e12_mul_conj, norm12, e6_sub, e6_square, e6_nonRes, e6_square]

include T in
theorem norm12_ne {x : Fp12 F} (h : x ≠ Fp12.zero) : norm12 x ≠ Fp6.zero := by
  intro h0
  have h1 := T.e12_norm x
  rw [h0, e6_zero] at h1
  rcases mul_eq_zero.1 h1 with h2 | h2
  · exact h (T.e12_eq_zero.1 h2)
  · exact T.e12_conj_ne h h2

theorem invert12_eq (f x : Fp12 F) : Fp12.invert f x =
    (⟨sel f.A (x.A.mul (Fp6.invert Fp6.zero (norm12 x)).1) (Fp6.invert Fp6.zero (norm12 x)).2,
      sel f.B (x.B.mul (Fp6.invert Fp6.zero (norm12 x)).1.neg) (Fp6.invert Fp6.zero (norm12 x)).2⟩,
      (Fp6.invert Fp6.zero (norm12 x)).2) := rfl

theorem invert12_ne (f : Fp12 F) {x : Fp12 F} (h : x ≠ Fp12.zero) :
    (Fp12.invert f x).2 = true ∧ T.e12 (Fp12.invert f x).1 = (T.e12 x)⁻¹ := by
  obtain ⟨h1, h2⟩ := T.invert6_ne Fp6.zero (T.norm12_ne h)
  rw [invert12_eq, h1]
  refine ⟨rfl, ?_⟩
  have hx : T.e12 x ≠ 0 := fun h0 => h (T.e12_eq_zero.1 h0)
  have hc := T.e12_conj_ne h
  have h3 : T.e12 x.conj * (T.e6 (norm12 x))⁻¹ = (T.e12 x)⁻¹ := by
    rw [← T.e12_norm]; field_simp
  rw [← h3]
  simp only [sel, if_true, e12_def, e6_mul, e6_neg, h2, Fp12.conj]
  ring

theorem norm12_zero : norm12 (Fp12.zero : Fp12 F) = Fp6.zero := by
  simp [norm12, Fp12.zero, Fp6.zero, Fp6.square, Fp6.sub, Fp6.mulByNonResidue, Fp2.square, Fp2.sub,
    Fp2.mulByNonResidue, Fp2.mul, Fp2.zero, Fp2.add, Fp2.double]

theorem invert12_zero (f : Fp12 F) : Fp12.invert f Fp12.zero = (f, false) := by
  rw [invert12_eq, norm12_zero, invert6_zero]
  rfl

end Tower

end Verif.Bls381
