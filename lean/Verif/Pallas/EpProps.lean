import Verif.Pallas.EpModel

/-!
# The Pallas group law and the algorithms on it

* C171 `Add`, `Double`, `Neg`, `Sub`, `Mul`, `SumOfProducts`, `Equal`, `toAffine`, `IsOnCurve` on Jacobian coordinates
-/

set_option linter.unusedSectionVars false
set_option exponentiation.threshold 600

namespace Verif.Pallas

open Primes Native WeierstrassCurve.Affine

/-! ## The field functions on residues -/

theorem fp_modulus : pastaFp.modulus.val = pallasp := by decide +kernel
theorem fq_modulus : pastaFq.modulus.val = pallasq := by decide +kernel

section Transfer
variable {P : FieldParams} {p : ℕ} [hp : Fact p.Prime]

theorem unMont_encode_val (hP : P.Ok) (h2 : 2 < p) (hm : P.modulus.val = p) (y : P.Ring) :
    unMont p (encode P y) = (y.val : ℕ) := by
  have := hP.neZero
  conv_lhs => rw [← ZMod.natCast_zmod_val y]
  exact unMont_encode hP h2 hm _

/-- residues and elements of the ring of the parameters -/
theorem transfer (hm : P.modulus.val = p) : ∃ e : P.Ring ≃+* ZMod p,
    (∀ y : P.Ring, ((y.val : ℕ) : ZMod p) = e y) ∧ (∀ x : ZMod p, ((x.val : ℕ) : P.Ring) = e.symm x) := by
  subst hm
  have := hp.out.pos
  have : NeZero P.modulus.val := ⟨by omega⟩
  exact ⟨RingEquiv.refl _, fun y => ZMod.natCast_zmod_val y, fun x => ZMod.natCast_zmod_val x⟩

end Transfer

theorem fp_ok : pastaFp.Ok := pastaFp_shape.ok
theorem fq_ok : pastaFq.Ok := pastaFq_shape.ok

theorem unMont_fp (y : pastaFp.Ring) : unMont pallasp (encode pastaFp y) = ((y.val : ℕ) : Fp) :=
  unMont_encode_val fp_ok (by decide) fp_modulus y
theorem unMont_fq (y : pastaFq.Ring) : unMont pallasq (encode pastaFq y) = ((y.val : ℕ) : Fq) :=
  unMont_encode_val fq_ok (by decide) fq_modulus y

/-- `Sqrt` finds a root if there is one, and says whether it did. -/
theorem fpSqrt_spec (a : Fp) : ∃ y, fpSqrt a = (y, decide (y ^ 2 = a)) ∧ (y ^ 2 = a ↔ IsSquare a) := by
  obtain ⟨e, h1, h2⟩ := transfer (P := pastaFp) (p := pallasp) fp_modulus
  obtain ⟨y, hy, hs⟩ := C113_pasta_sqrt.1 ((a.val : ℕ) : pastaFp.Ring)
  rw [h2] at hy hs
  have hiff : e y ^ 2 = a ↔ y ^ 2 = e.symm a := by
    rw [← map_pow, RingEquiv.eq_symm_apply]
  refine ⟨e y, ?_, ?_⟩
  · unfold fpSqrt fpLimbs
    rw [h2, hy]
    simp only [unMont_fp, h1, hiff]
  · rw [hiff, hs]
    constructor
    · rintro ⟨r, hr⟩
      exact ⟨e r, by rw [← map_mul, ← hr, RingEquiv.apply_symm_apply]⟩
    · rintro ⟨r, hr⟩
      exact ⟨e.symm r, by rw [hr, map_mul]⟩

/-- `Invert` is the inverse, zero for zero. -/
theorem fpInvert_eq (x : Fp) : fpInvert x = x⁻¹ := by
  obtain ⟨e, h1, h2⟩ := transfer (P := pastaFp) (p := pallasp) fp_modulus
  obtain ⟨hn, hz⟩ := C113_pasta_invert.1 ((x.val : ℕ) : pastaFp.Ring)
  rw [h2] at hn hz
  unfold fpInvert fpLimbs
  rw [h2]
  by_cases h : x = 0
  · rw [hz (by rw [h, map_zero]), unMont_fp, h1, map_zero, h, inv_zero]
  · obtain ⟨y, hy, hi⟩ := hn (fun h' => h (by simpa using h'))
    rw [hi, unMont_fp, h1]
    refine eq_inv_of_mul_eq_one_right ?_
    have := congrArg e hy
    rwa [map_mul, RingEquiv.apply_symm_apply, map_one] at this

theorem fpBytes_eq (x : Fp) : fpBytes x = leBytes 32 x.val := by
  unfold fpBytes fpLimbs
  rw [C57_bytes fp_ok, ZMod.val_natCast, fp_modulus, Nat.mod_eq_of_lt (ZMod.val_lt x)]

theorem fqBytes_eq (x : Fq) : fqBytes x = leBytes 32 x.val := by
  unfold fqBytes fqLimbs
  rw [C57_bytes fq_ok, ZMod.val_natCast, fq_modulus, Nat.mod_eq_of_lt (ZMod.val_lt x)]

theorem leNat_fpBytes (x : Fp) : leNat (fpBytes x) = x.val := by
  rw [fpBytes_eq]
  refine leNat_leBytes _ _ (lt_trans (ZMod.val_lt x) (by decide +kernel))

theorem leNat_fqBytes (x : Fq) : leNat (fqBytes x) = x.val := by
  rw [fqBytes_eq]
  refine leNat_leBytes _ _ (lt_trans (ZMod.val_lt x) (by decide +kernel))

/-! ## Jacobian coordinates -/

/-- the group of Pallas -/
abbrev Group := (curve (0 : Fp) 5).Point

/-- Jacobian coordinates `p` stand for the point `P`: `z = 0` for infinity, otherwise `(x/z², y/z³)` -/
def JRep (p : Ep) : Group → Prop
  | .zero => p.z = 0
  | .some x y _ => p.z ≠ 0 ∧ p.x = x * p.z ^ 2 ∧ p.y = y * p.z ^ 3

/-- Jacobian as projective coordinates -/
theorem jrep_iff {p : Ep} {P : Group} : JRep p P ↔ Rep (⟨p.x * p.z, p.y, p.z ^ 3⟩ : Proj Fp) P := by
  rcases P with _ | ⟨x, y, h⟩
  · show p.z = 0 ↔ p.z ^ 3 = 0
    simp
  · show (_ ∧ _ ∧ _) ↔ (_ ∧ _ ∧ _)
    simp only [ne_eq, pow_eq_zero_iff (n := 3) (by norm_num : (3 : ℕ) ≠ 0)]
    constructor
    · rintro ⟨hz, hx, hy⟩
      exact ⟨hz, by rw [hx]; ring, hy⟩
    · rintro ⟨hz, hx, hy⟩
      refine ⟨hz, mul_right_cancel₀ hz ?_, hy⟩
      rw [hx]; ring

theorem jrep_zero {p : Ep} : JRep p (0 : Group) ↔ p.z = 0 := Iff.rfl

theorem two_ne : (2 : Fp) ≠ 0 := two_ne_zero_of (by decide)

theorem three_eq : three = 3 := by
  have := unMont_eq (p := pallasp) (by decide)
    ⟨0x6b0ee5d0fffffff5, 0x86f76d2b99b14bd0, 0xfffffffffffffffe, 0x3fffffffffffffff⟩ 3 (by decide +kernel)
  rw [three, lit, this]; norm_num

theorem eight_eq : eight = 8 := by
  have := unMont_eq (p := pallasp) (by decide)
    ⟨0x7387134cffffffe1, 0xd973797adfadd5a8, 0xfffffffffffffffb, 0x3fffffffffffffff⟩ 8 (by decide +kernel)
  rw [eight, lit, this]; norm_num

theorem epDouble_of_ne {p : Ep} (hz : p.z ≠ 0) : epDouble p =
    ⟨(3 * p.x ^ 2) ^ 2 - 8 * p.x * p.y ^ 2,
     3 * p.x ^ 2 * (4 * p.x * p.y ^ 2 - ((3 * p.x ^ 2) ^ 2 - 8 * p.x * p.y ^ 2)) - 8 * p.y ^ 4,
     2 * p.y * p.z⟩ := by
  simp only [epDouble, epIsIdentity, hz, decide_false, Bool.false_eq_true, if_false, three_eq, eight_eq,
    Proj.mk.injEq]
  refine ⟨by ring, by ring, by ring⟩

theorem jrep_double {p : Ep} {P : Group} (hp : JRep p P) : JRep (epDouble p) (P + P) := by
  rcases P with _ | ⟨x, y, h⟩
  · have hz : p.z = 0 := hp
    change JRep _ (0 + 0)
    rw [add_zero, jrep_zero]
    simp [epDouble, epIsIdentity, hz]
  · obtain ⟨hz, hx, hy⟩ := hp
    rw [epDouble_of_ne hz]
    by_cases h0 : y = 0
    · have : (Point.some x y h + Point.some x y h : Group) = 0 := by
        refine Point.add_of_Y_eq rfl ?_
        rw [negY_curve, h0, neg_zero]
      rw [this, jrep_zero]
      show 2 * p.y * p.z = 0
      rw [hy, h0]; ring
    · rw [jrep_iff]
      obtain ⟨px, py, z⟩ := p
      simp only at hz hx hy
      subst hx hy
      refine rep_add_self h two_ne h0 ?_ ?_ ?_
      · show (2 * (y * z ^ 3) * z) ^ 3 ≠ 0
        exact pow_ne_zero _ (mul_ne_zero (mul_ne_zero two_ne (mul_ne_zero h0 (pow_ne_zero _ hz))) hz)
      · simp only; ring
      · simp only; ring

theorem epAdd_of_ne {p q : Ep} (hp : p.z ≠ 0) (hq : q.z ≠ 0) (hx : p.x * q.z ^ 2 ≠ q.x * p.z ^ 2) :
    ∃ h r, h = q.x * p.z ^ 2 - p.x * q.z ^ 2 ∧ r = 2 * (q.y * p.z ^ 3 - p.y * q.z ^ 3) ∧
    epAdd p q = ⟨r ^ 2 - 4 * h ^ 3 - 8 * p.x * q.z ^ 2 * h ^ 2,
      r * (4 * p.x * q.z ^ 2 * h ^ 2 - (r ^ 2 - 4 * h ^ 3 - 8 * p.x * q.z ^ 2 * h ^ 2))
        - 8 * (p.y * q.z ^ 3) * h ^ 3, 2 * p.z * q.z * h⟩ := by
  refine ⟨_, _, rfl, rfl, ?_⟩
  have hx' : p.x * (q.z * q.z) ≠ q.x * (p.z * p.z) := by rwa [← pow_two, ← pow_two]
  simp only [epAdd, epIsIdentity, hp, hq, hx', decide_false, Bool.false_eq_true, if_false, Proj.mk.injEq]
  refine ⟨by ring, by ring, by ring⟩

theorem jrep_add {p q : Ep} {P Q : Group} (hp : JRep p P) (hq : JRep q Q) : JRep (epAdd p q) (P + Q) := by
  rcases P with _ | ⟨x1, y1, h1⟩
  · have hz : p.z = 0 := hp
    have e : epAdd p q = q := by simp [epAdd, epIsIdentity, hz]
    rw [e]
    change JRep q (0 + Q)
    rwa [zero_add]
  rcases Q with _ | ⟨x2, y2, h2⟩
  · have hz : q.z = 0 := hq
    have hz1 := hp.1
    have e : epAdd p q = p := by simp [epAdd, epIsIdentity, hz, hz1]
    rw [e]
    change JRep p (_ + 0)
    rwa [add_zero]
  have hp' := hp
  obtain ⟨hz1, hx1, hy1⟩ := hp
  obtain ⟨hz2, hx2, hy2⟩ := hq
  have ex : p.x * q.z ^ 2 = q.x * p.z ^ 2 ↔ x1 = x2 := by
    rw [hx1, hx2, mul_assoc, mul_assoc, mul_comm (q.z ^ 2), mul_left_inj']
    exact mul_ne_zero (pow_ne_zero _ hz1) (pow_ne_zero _ hz2)
  have ey : p.y * q.z ^ 3 = q.y * p.z ^ 3 ↔ y1 = y2 := by
    rw [hy1, hy2, mul_assoc, mul_assoc, mul_comm (q.z ^ 3), mul_left_inj']
    exact mul_ne_zero (pow_ne_zero _ hz1) (pow_ne_zero _ hz2)
  by_cases hx : x1 = x2
  · by_cases hy : y1 = y2
    · subst hx hy
      have e : epAdd p q = epDouble p := by
        have e1 := ex.2 rfl
        have e2 := ey.2 rfl
        have e1' : p.x * (q.z * q.z) = q.x * (p.z * p.z) := by linear_combination e1
        have e2' : p.y * (q.z * q.z) * q.z = q.y * (p.z * p.z) * p.z := by linear_combination e2
        simp [epAdd, epIsIdentity, hz1, hz2, e1', e2']
      rw [e]
      exact jrep_double hp'
    · subst hx
      have e1' : p.x * (q.z * q.z) = q.x * (p.z * p.z) := by linear_combination ex.2 rfl
      have e2' : ¬ p.y * (q.z * q.z) * q.z = q.y * (p.z * p.z) * p.z := fun h =>
        hy (ey.1 (by linear_combination h))
      have e : epAdd p q = epIdentity := by simp [epAdd, epIsIdentity, hz1, hz2, e1', e2']
      rw [e]
      have hs : (Point.some x1 y1 h1 + Point.some x1 y2 h2 : Group) = 0 := by
        refine Point.add_of_Y_eq rfl ?_
        rw [negY_curve]
        have hh := (equation_curve.1 h1.1).trans (equation_curve.1 h2.1).symm
        exact (sq_eq_sq_iff_eq_or_eq_neg.1 hh).resolve_left hy
      rw [hs, jrep_zero]
      rfl
  · obtain ⟨h, r, hh, hr, e⟩ := epAdd_of_ne hz1 hz2 (fun h => hx (ex.1 h))
    rw [e, jrep_iff]
    have hd : x2 - x1 ≠ 0 := sub_ne_zero.2 (Ne.symm hx)
    have hh' : h = (x2 - x1) * (p.z ^ 2 * q.z ^ 2) := by rw [hh, hx1, hx2]; ring
    have hr' : r = 2 * (y2 - y1) * (p.z ^ 3 * q.z ^ 3) := by rw [hr, hy1, hy2]; ring
    refine rep_add_ne h1 h2 hx ?_ ?_ ?_
    · show (2 * p.z * q.z * h) ^ 3 ≠ 0
      refine pow_ne_zero _ (mul_ne_zero (mul_ne_zero (mul_ne_zero two_ne hz1) hz2) ?_)
      rw [hh']
      exact mul_ne_zero hd (mul_ne_zero (pow_ne_zero _ hz1) (pow_ne_zero _ hz2))
    · simp only [hh', hr', hx1]; ring
    · simp only [hh', hr', hx1, hy1]; ring

theorem jrep_neg {p : Ep} {P : Group} (hp : JRep p P) : JRep (epNeg p) (-P) := by
  rcases P with _ | ⟨x, y, h⟩
  · exact hp
  · obtain ⟨hz, hx, hy⟩ := hp
    rw [Point.neg_some]
    refine ⟨hz, hx, ?_⟩
    rw [negY_curve]
    simp [epNeg, hy]

/-- C171: `Add`, `Double`, `Neg` and `Sub` on Jacobian coordinates are the group operations, for all points: equal,
opposite or infinite, and whatever the denominators. -/
theorem C171_group {p q : Ep} {P Q : Group} (hp : JRep p P) (hq : JRep q Q) :
    JRep (epAdd p q) (P + Q) ∧ JRep (epDouble p) (P + P) ∧ JRep (epNeg p) (-P) ∧ JRep (epSub p q) (P - Q) ∧
      JRep epIdentity 0 := by
  refine ⟨jrep_add hp hq, jrep_double hp, jrep_neg hp, ?_, rfl⟩
  rw [sub_eq_add_neg]
  exact jrep_add hp (jrep_neg hq)

theorem implements : Implements epOps Group JRep where
  identity := rfl
  double := jrep_double
  add := jrep_add

/-- Coordinates stand for at most one point. -/
theorem JRep.unique {p : Ep} {P Q : Group} (hP : JRep p P) (hQ : JRep p Q) : P = Q :=
  (jrep_iff.1 hP).unique (jrep_iff.1 hQ)

/-- Every point has coordinates. -/
theorem JRep.exists (P : Group) : ∃ p, JRep p P := by
  rcases P with _ | ⟨x, y, h⟩
  · exact ⟨epIdentity, rfl⟩
  · exact ⟨⟨x, y, 1⟩, one_ne_zero, by simp, by simp⟩

theorem no_point_zero {y : Fp} (h : (curve (0 : Fp) 5).Nonsingular 0 y) : y ≠ 0 := by
  rintro rfl
  have := equation_curve.1 h.1
  have h5 : ((5 : ℕ) : Fp) = 0 := by push_cast; linear_combination -this
  rw [ZMod.natCast_eq_zero_iff, Nat.dvd_iff_mod_eq_zero] at h5
  revert h5
  decide +kernel

theorem five_ne : (5 : Fp) ≠ 0 := by
  intro h
  have h5 : ((5 : ℕ) : Fp) = 0 := by push_cast; exact h
  rw [ZMod.natCast_eq_zero_iff, Nat.dvd_iff_mod_eq_zero] at h5
  revert h5
  decide +kernel

/-- `toAffine` of a finite point gives its coordinates, of infinity `(0, 0)` -/
theorem epToAffine_some {p : Ep} {x y : Fp} {h : (curve (0 : Fp) 5).Nonsingular x y} (hp : JRep p (.some x y h)) :
    epToAffine p = ⟨x, y, 1⟩ := by
  obtain ⟨hz, hx, hy⟩ := hp
  simp only [epToAffine, epIsIdentity, hz, decide_false, Bool.false_eq_true, if_false, fpInvert_eq, Proj.mk.injEq,
    and_true, hx, hy]
  constructor <;> field_simp

theorem epToAffine_zero {p : Ep} (hp : JRep p 0) : epToAffine p = ⟨0, 0, 1⟩ := by
  have hz : p.z = 0 := hp
  simp [epToAffine, epIsIdentity, hz]

/-- C171: `Equal` decides equality of the points, although it represents infinity by `(0, 0)`. -/
theorem C171_equal {p q : Ep} {P Q : Group} (hp : JRep p P) (hq : JRep q Q) : epEqual p q = true ↔ P = Q := by
  rcases P with _ | ⟨x1, y1, h1⟩ <;> rcases Q with _ | ⟨x2, y2, h2⟩
  · simp [epEqual, epToAffine_zero hp, epToAffine_zero hq]
  · simp only [epEqual, epToAffine_zero hp, epToAffine_some hq, Bool.and_eq_true, decide_eq_true_eq]
    constructor
    · rintro ⟨rfl, h⟩; exact absurd h.symm (no_point_zero h2)
    · intro h; cases h
  · simp only [epEqual, epToAffine_some hp, epToAffine_zero hq, Bool.and_eq_true, decide_eq_true_eq]
    constructor
    · rintro ⟨rfl, h⟩; exact absurd h (no_point_zero h1)
    · intro h; cases h
  · simp only [epEqual, epToAffine_some hp, epToAffine_some hq, Bool.and_eq_true, decide_eq_true_eq,
      Point.some.injEq]

/-- C171: `IsIdentity` recognises infinity. -/
theorem C171_isIdentity {p : Ep} {P : Group} (hp : JRep p P) : epIsIdentity p = true ↔ P = 0 := by
  rcases P with _ | ⟨x, y, h⟩
  · have hz : p.z = 0 := hp
    exact ⟨fun _ => rfl, fun _ => by simp [epIsIdentity, hz]⟩
  · have hz := hp.1
    simp only [epIsIdentity, hz, decide_false, Bool.false_eq_true, false_iff]
    intro h; cases h

/-- C171: there is no point of order two: `x³ + 5` has no root. -/
theorem no_root (x : Fp) : x ^ 3 + 0 * x + 5 ≠ 0 := by
  intro h
  refine Facts.noRoot pallasp 0 (pallasp - 5) 256
    (0, 0, 12942179359813130014250373982179319328589982086324135553423985136442302641857)
    (by decide +kernel) x ?_
  rw [Nat.cast_sub (by decide)]
  simp only [CharP.cast_eq_zero]
  push_cast
  linear_combination h

/-- C171: `IsOnCurve` accepts exactly the coordinates of points, infinity included. -/
theorem C171_isOnCurve (p : Ep) : epIsOnCurve p = true ↔ ∃ P : Group, JRep p P := by
  by_cases hz : p.z = 0
  · simp only [epIsOnCurve, hz, decide_true, Bool.true_or, true_iff]
    exact ⟨0, hz⟩
  · simp only [epIsOnCurve, hz, decide_false, Bool.false_or, decide_eq_true_eq]
    constructor
    · intro h
      have he : (p.y * p.z⁻¹ ^ 3) ^ 2 = (p.x * p.z⁻¹ ^ 2) ^ 3 + 0 * (p.x * p.z⁻¹ ^ 2) + 5 := by
        field_simp
        linear_combination h
      have hy : p.y * p.z⁻¹ ^ 3 ≠ 0 := by
        intro h0
        rw [h0] at he
        exact no_root (p.x * p.z⁻¹ ^ 2) (by linear_combination -he)
      refine ⟨.some _ _ (nonsingular_curve two_ne hy he), hz, ?_, ?_⟩ <;> field_simp
    · rintro ⟨P, hP⟩
      rcases P with _ | ⟨x, y, h⟩
      · exact absurd hP hz
      · obtain ⟨_, hx, hy⟩ := hP
        rw [hx, hy]
        linear_combination p.z ^ 6 * equation_curve.1 h.1

/-- C171: `Mul` multiplies by the scalar, for every point and every scalar. -/
theorem C171_mul {p : Ep} {P : Group} (hp : JRep p P) (s : Fq) : JRep (epMul p s) (s.val • P) := by
  have hv := leNat_fqBytes s
  have hl : (fqBytes s).length = 32 := by rw [fqBytes_eq, leBytes_length]
  unfold epMul
  generalize fqBytes s = bytes at hv hl ⊢
  rw [← hv]
  exact C52_mul implements hp bytes hl

/-- the lists of integers of any sign and size -/
theorem epPippenger_eq {points : List Ep} {scalars : List ℤ} (hne : points ≠ []) :
    pippenger epOps points scalars = .ok (epPippenger points scalars) := by
  unfold pippenger epPippenger
  by_cases h : points.length ≠ scalars.length
  · rw [if_pos h, if_pos h]
  · rw [if_neg h, if_neg h, if_neg hne]

/-- C171: `SumOfProducts` of lists of equal length is the sum of the products; the empty lists give the identity (the
generic function panics there, C50); lists of different lengths give a nil pointer. -/
theorem C171_sumOfProducts {points : List Ep} {Ps : List Group} (hp : List.Forall₂ JRep points Ps)
    (scalars : List Fq) :
    (points.length = scalars.length → ∃ r, epSumOfProducts points scalars = some r ∧
      JRep r ((List.zipWith (fun s P => s.val • P) scalars Ps).sum)) ∧
    (points.length ≠ scalars.length → epSumOfProducts points scalars = none) := by
  constructor
  · intro hl
    have hm : (scalars.map fun s => (leNat (fqBytes s) : ℤ)) = scalars.map fun s => (s.val : ℤ) := by
      simp only [leNat_fqBytes]
    unfold epSumOfProducts
    rw [hm]
    by_cases hne : points = []
    · subst hne
      cases hp
      have : scalars = [] := List.eq_nil_of_length_eq_zero hl.symm
      subst this
      refine ⟨epIdentity, by decide +kernel, rfl⟩
    · obtain ⟨r, h1, h2⟩ := C50_pippenger implements hp (scalars.map fun s => (s.val : ℤ))
        (by simpa using hl) hne (by
          intro s hs
          obtain ⟨t, -, rfl⟩ := List.mem_map.1 hs
          have := ZMod.val_lt t
          have h2 : pallasq < 2 ^ 258 := by decide +kernel
          constructor
          · positivity
          · exact_mod_cast lt_trans this h2)
      rw [epPippenger_eq hne] at h1
      refine ⟨r, by simpa using h1, ?_⟩
      unfold linComb at h2
      rw [List.zipWith_map_left] at h2
      simpa only [natCast_zsmul] using h2
  · intro hl
    unfold epSumOfProducts epPippenger
    rw [if_pos (by rwa [List.length_map])]

end Verif.Pallas
