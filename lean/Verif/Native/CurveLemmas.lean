import Mathlib.AlgebraicGeometry.EllipticCurve.Affine.Point
import Mathlib.Tactic.LinearCombination
import Mathlib.Tactic.FieldSimp
import Verif.Native.PointModel

/-!
# The complete addition formulas implement the group law
-/

set_option linter.unusedSectionVars false

namespace Verif.Native

open WeierstrassCurve.Affine

variable {F : Type} [Field F] [DecidableEq F]

/-- The curve `y² = x³ + a·x + b`. -/
abbrev curve (a b : F) : WeierstrassCurve.Affine F := ⟨0, 0, 0, a, b⟩

/-- Projective coordinates `p` stand for the point `P` of the curve: `z = 0` for the point at
infinity, otherwise `(x/z, y/z)` are the affine coordinates. -/
def Rep {a b : F} (p : Proj F) : (curve a b).Point → Prop
  | .zero => p.z = 0
  | .some x y _ => p.z ≠ 0 ∧ p.x = x * p.z ∧ p.y = y * p.z

theorem rep_zero {a b : F} {p : Proj F} : Rep p (0 : (curve a b).Point) ↔ p.z = 0 := Iff.rfl

theorem equation_curve {a b x y : F} : (curve a b).Equation x y ↔ y ^ 2 = x ^ 3 + a * x + b := by
  rw [equation_iff]; simp

theorem nonsingular_curve {a b x y : F} (h2 : (2 : F) ≠ 0) (hy : y ≠ 0)
    (h : y ^ 2 = x ^ 3 + a * x + b) : (curve a b).Nonsingular x y := by
  rw [nonsingular_iff]
  refine ⟨equation_curve.2 h, Or.inr ?_⟩
  simp only [zero_mul, sub_zero]
  intro e
  exact hy ((mul_eq_zero.1 (by linear_combination e : (2 : F) * y = 0)).resolve_left h2)

theorem negY_curve {a b x y : F} : (curve a b).negY x y = -y := by simp [negY]

/-- How the sum of two affine points with different abscissas is recognised. -/
theorem rep_add_ne {a b x1 y1 x2 y2 : F} (h1 : (curve a b).Nonsingular x1 y1)
    (h2 : (curve a b).Nonsingular x2 y2) (hx : x1 ≠ x2) {r : Proj F} (hz : r.z ≠ 0)
    (hX : r.x * (x1 - x2) ^ 2 = ((y1 - y2) ^ 2 - (x1 + x2) * (x1 - x2) ^ 2) * r.z)
    (hY : r.y * (x1 - x2) = -((y1 - y2) * (r.x - x1 * r.z) + (x1 - x2) * y1 * r.z)) :
    Rep r (Point.some x1 y1 h1 + Point.some x2 y2 h2) := by
  have hv : x1 - x2 ≠ 0 := sub_ne_zero.2 hx
  rw [Point.add_of_X_ne hx]
  have ex : r.x = (curve a b).addX x1 x2 ((curve a b).slope x1 x2 y1 y2) * r.z := by
    rw [slope_of_X_ne hx]
    simp only [addX]
    field_simp
    linear_combination hX
  refine ⟨hz, ex, ?_⟩
  rw [addY, negY_curve, negAddY, ]
  have := hY
  rw [slope_of_X_ne hx] at *
  have e : r.y = -((y1 - y2) / (x1 - x2) * (r.x - x1 * r.z) + y1 * r.z) := by
    field_simp
    linear_combination hY
  rw [e, ex]
  ring

/-- How the double of an affine point is recognised. -/
theorem rep_add_self {a b x y : F} (h : (curve a b).Nonsingular x y) (h2 : (2 : F) ≠ 0)
    (hy : y ≠ 0) {r : Proj F} (hz : r.z ≠ 0)
    (hX : r.x * (2 * y) ^ 2 = ((3 * x ^ 2 + a) ^ 2 - 2 * x * (2 * y) ^ 2) * r.z)
    (hY : r.y * (2 * y) = -((3 * x ^ 2 + a) * (r.x - x * r.z) + 2 * y * y * r.z)) :
    Rep r (Point.some x y h + Point.some x y h) := by
  have hyy : y ≠ (curve a b).negY x y := by
    rw [negY_curve]
    intro e
    exact hy ((mul_eq_zero.1 (by linear_combination e : (2 : F) * y = 0)).resolve_left h2)
  rw [Point.add_self_of_Y_ne hyy]
  have hs : (curve a b).slope x x y y = (3 * x ^ 2 + a) / (2 * y) := by
    rw [slope_of_Y_ne rfl hyy, negY_curve]
    simp only
    congr 1 <;> ring
  have ex : r.x = (curve a b).addX x x ((curve a b).slope x x y y) * r.z := by
    rw [hs]
    simp only [addX]
    field_simp
    linear_combination hX
  refine ⟨hz, ex, ?_⟩
  rw [addY, negY_curve, negAddY]
  rw [hs] at *
  have e : r.y = -((3 * x ^ 2 + a) / (2 * y) * (r.x - x * r.z) + y * r.z) := by
    field_simp
    linear_combination hY
  rw [e, ex]
  ring

/-- Without points of order two, the ordinate of `P - Q` is not zero. -/
theorem diff_ordinate_ne {a b x1 y1 x2 y2 : F} (h1 : y1 ^ 2 = x1 ^ 3 + a * x1 + b)
    (h2 : y2 ^ 2 = x2 ^ 3 + a * x2 + b) (hx : x1 ≠ x2) (hno : ∀ x : F, x ^ 3 + a * x + b ≠ 0) :
    (y1 + y2) * (x1 * (x1 - x2) ^ 2 - ((y1 + y2) ^ 2 - (x1 + x2) * (x1 - x2) ^ 2))
      - y1 * (x1 - x2) ^ 3 ≠ 0 := by
  intro hz
  have hv : x1 - x2 ≠ 0 := sub_ne_zero.2 hx
  have e := equation_add (W := curve a b) (x₁ := x1) (x₂ := x2) (y₁ := y1) (y₂ := -y2)
    (equation_curve.2 h1) (equation_curve.2 (by rw [neg_sq]; exact h2)) (fun h => hx h.1)
  rw [equation_curve] at e
  refine hno _ (e.symm.trans ?_)
  rw [slope_of_X_ne hx, addY, negY_curve, negAddY, addX]
  have : -((y1 - -y2) / (x1 - x2) * (((y1 - -y2) / (x1 - x2)) ^ 2 + 0 * ((y1 - -y2) / (x1 - x2)) - 0
      - x1 - x2 - x1) + y1) = 0 := by
    field_simp
    linear_combination hz
  rw [this]; ring

/-- raw result of the secp256k1 addition formula, before the identity is treated -/
def K256.raw (b : F) (p q : Proj F) : Proj F :=
  let xy := p.x * q.y + p.y * q.x
  let yz := p.y * q.z + p.z * q.y
  let xz := p.x * q.z + p.z * q.x
  let m := p.y * q.y - 3 * b * (p.z * q.z)
  let n := p.y * q.y + 3 * b * (p.z * q.z)
  ⟨xy * m - 3 * b * yz * xz, n * m + 9 * b * (p.x * q.x) * xz, yz * n + 3 * (p.x * q.x) * xy⟩

theorem K256.add_eq (b : F) (p q : Proj F) :
    K256.add b p q = selectIdentity p q (K256.raw b p q) := by
  unfold K256.add K256.raw
  simp only
  congr 2 <;> ring

/-- raw result of the P-256 addition formula -/
def P256.raw (b : F) (p q : Proj F) : Proj F :=
  let xy := p.x * q.y + p.y * q.x
  let yz := p.y * q.z + p.z * q.y
  let xz := p.x * q.z + p.z * q.x
  let m := p.y * q.y - 3 * (xz - b * (p.z * q.z))
  let n := p.y * q.y + 3 * (xz - b * (p.z * q.z))
  let c := 3 * (b * xz - 3 * (p.z * q.z) - p.x * q.x)
  let d := 3 * (p.x * q.x) - 3 * (p.z * q.z)
  ⟨n * xy - yz * c, n * m + d * c, m * yz + xy * d⟩

theorem P256.add_eq (b : F) (p q : Proj F) :
    P256.add b p q = selectIdentity p q (P256.raw b p q) := by
  unfold P256.add P256.raw
  simp only
  congr 2 <;> ring

/-- Conditions under which a raw addition formula gives the sum. -/
structure RawOk (a b : F) (raw : Proj F → Proj F → Proj F) : Prop where
  inv : ∀ x y z w : F, (raw ⟨x * z, y * z, z⟩ ⟨x * w, -y * w, w⟩).z = 0
  same : ∀ x y z w : F, y ^ 2 = x ^ 3 + a * x + b →
    let r := raw ⟨x * z, y * z, z⟩ ⟨x * w, y * w, w⟩
    r.z = (z * w) ^ 2 * (8 * y ^ 3) ∧
    r.x * (2 * y) ^ 2 = ((3 * x ^ 2 + a) ^ 2 - 2 * x * (2 * y) ^ 2) * r.z ∧
    r.y * (2 * y) = -((3 * x ^ 2 + a) * (r.x - x * r.z) + 2 * y * y * r.z)
  diff : ∀ x1 y1 z1 x2 y2 z2 : F, y1 ^ 2 = x1 ^ 3 + a * x1 + b → y2 ^ 2 = x2 ^ 3 + a * x2 + b →
    let r := raw ⟨x1 * z1, y1 * z1, z1⟩ ⟨x2 * z2, y2 * z2, z2⟩
    r.z = -(z1 * z2) ^ 2 * ((y1 + y2) * (x1 * (x1 - x2) ^ 2 - ((y1 + y2) ^ 2
      - (x1 + x2) * (x1 - x2) ^ 2)) - y1 * (x1 - x2) ^ 3) ∧
    r.x * (x1 - x2) ^ 2 = ((y1 - y2) ^ 2 - (x1 + x2) * (x1 - x2) ^ 2) * r.z ∧
    r.y * (x1 - x2) = -((y1 - y2) * (r.x - x1 * r.z) + (x1 - x2) * y1 * r.z)

theorem rep_add_of_rawOk {a b : F} {raw : Proj F → Proj F → Proj F} (ho : RawOk a b raw)
    (h2 : (2 : F) ≠ 0) (hno : ∀ x : F, x ^ 3 + a * x + b ≠ 0)
    {p q : Proj F} {P Q : (curve a b).Point} (hp : Rep p P) (hq : Rep q Q) :
    Rep (selectIdentity p q (raw p q)) (P + Q) := by
  rcases P with _ | ⟨x1, y1, h1⟩
  · have hz : p.z = 0 := hp
    have : selectIdentity p q (raw p q) = if q.z = 0 then p else q := by
      simp [selectIdentity, hz]
    rw [this]
    change Rep _ (0 + Q)
    rw [zero_add]
    split
    · next hqz =>
      rcases Q with _ | ⟨x2, y2, h2'⟩
      · exact hz
      · exact absurd hqz hq.1
    · exact hq
  rcases Q with _ | ⟨x2, y2, h2'⟩
  · have hz : q.z = 0 := hq
    have : selectIdentity p q (raw p q) = p := by simp [selectIdentity, hz]
    rw [this]
    change Rep _ (_ + 0)
    rwa [add_zero]
  obtain ⟨hz1, hx1, hy1⟩ := hp
  obtain ⟨hz2, hx2, hy2⟩ := hq
  have hsel : selectIdentity p q (raw p q) = raw p q := by simp [selectIdentity, hz1, hz2]
  rw [hsel]
  obtain ⟨px, py, z1⟩ := p
  obtain ⟨qx, qy, z2⟩ := q
  simp only at hz1 hx1 hy1 hz2 hx2 hy2
  subst hx1 hy1 hx2 hy2
  have e1 := equation_curve.1 h1.1
  have e2 := equation_curve.1 h2'.1
  have hzz : (z1 * z2) ^ 2 ≠ 0 := pow_ne_zero _ (mul_ne_zero hz1 hz2)
  have hy1 : y1 ≠ 0 := fun h => hno x1 (by rw [← e1, h]; ring)
  by_cases hx : x1 = x2
  · subst hx
    rcases eq_or_eq_neg_of_sq_eq_sq y1 y2 (by rw [e1, e2]) with hy | hy
    · subst hy
      obtain ⟨a1, a2, a3⟩ := ho.same x1 y1 z1 z2 e1
      have h8 : (8 : F) ≠ 0 := by
        rw [show (8 : F) = 2 ^ 3 by norm_num]; exact pow_ne_zero _ h2
      exact rep_add_self h1 h2 hy1 (by
        rw [a1]; exact mul_ne_zero hzz (mul_ne_zero h8 (pow_ne_zero _ hy1))) a2 a3
    · have : y2 = -y1 := by rw [hy, neg_neg]
      subst this
      rw [Point.add_of_Y_eq rfl (by rw [negY_curve, neg_neg])]
      exact ho.inv x1 y1 z1 z2
  · obtain ⟨a1, a2, a3⟩ := ho.diff x1 y1 z1 x2 y2 z2 e1 e2
    refine rep_add_ne h1 h2' hx ?_ a2 a3
    rw [a1]
    exact mul_ne_zero (neg_ne_zero.2 hzz) (diff_ordinate_ne e1 e2 hx hno)

theorem K256.rawOk (b : F) : RawOk 0 b (K256.raw b) where
  inv x y z w := by simp only [K256.raw]; ring
  same x y z w h := by
    have hb : b = y ^ 2 - x ^ 3 := by linear_combination -h
    subst hb
    simp only [K256.raw]
    refine ⟨by ring, by ring, by ring⟩
  diff x1 y1 z1 x2 y2 z2 h1 h2 := by
    have hb : b = y1 ^ 2 - x1 ^ 3 := by linear_combination -h1
    subst hb
    simp only [K256.raw]
    refine ⟨?_, ?_, ?_⟩
    · linear_combination (z1 * z2) ^ 2 * (-2 * y1 - y2) * h2
    · linear_combination (z1 * z2) ^ 2 * (3 * x1 ^ 3 * y2 + 3 * x1 ^ 2 * y1 * x2
        - 3 * x1 ^ 2 * x2 * y2 - 3 * x1 * y1 * x2 ^ 2 + 3 * y1 ^ 3 - 2 * y1 ^ 2 * y2
        - y1 * y2 ^ 2) * h2
    · linear_combination (z1 * z2) ^ 2 * (-9 * x1 ^ 4 + 12 * x1 * y1 ^ 2) * h2

theorem P256.rawOk (b : F) : RawOk (-3) b (P256.raw b) where
  inv x y z w := by simp only [P256.raw]; ring
  same x y z w h := by
    have hb : b = y ^ 2 - x ^ 3 + 3 * x := by linear_combination -h
    subst hb
    simp only [P256.raw]
    refine ⟨by ring, by ring, by ring⟩
  diff x1 y1 z1 x2 y2 z2 h1 h2 := by
    have hb : b = y1 ^ 2 - x1 ^ 3 + 3 * x1 := by linear_combination -h1
    subst hb
    simp only [P256.raw]
    refine ⟨?_, ?_, ?_⟩
    · linear_combination (z1 * z2) ^ 2 * (-2 * y1 - y2) * h2
    · linear_combination (z1 * z2) ^ 2 * (3 * x1 ^ 3 * y2 + 3 * x1 ^ 2 * y1 * x2
        - 3 * x1 ^ 2 * x2 * y2 - 3 * x1 * y1 * x2 ^ 2 - 3 * x1 * y1 - 3 * x1 * y2 + 3 * y1 ^ 3
        - 2 * y1 ^ 2 * y2 + 3 * y1 * x2 - y1 * y2 ^ 2 + 3 * x2 * y2) * h2
    · linear_combination (z1 * z2) ^ 2 * (-9 * x1 ^ 4 + 18 * x1 ^ 2 + 12 * x1 * y1 ^ 2 - 9) * h2

/-- both doubling formulas are the raw addition formula applied to equal arguments -/
theorem K256.double_eq (b : F) {x y z : F} (he : y ^ 2 = x ^ 3 + 0 * x + b) :
    K256.double b ⟨x * z, y * z, z⟩ = K256.raw b ⟨x * z, y * z, z⟩ ⟨x * z, y * z, z⟩ := by
  have hb : b = y ^ 2 - x ^ 3 := by linear_combination -he
  subst hb
  unfold K256.double K256.raw
  simp only [Proj.mk.injEq]
  refine ⟨?_, ?_, ?_⟩ <;> ring

theorem P256.double_eq (b : F) {x y z : F} (he : y ^ 2 = x ^ 3 + -3 * x + b) :
    P256.double b ⟨x * z, y * z, z⟩ = P256.raw b ⟨x * z, y * z, z⟩ ⟨x * z, y * z, z⟩ := by
  have hb : b = y ^ 2 - x ^ 3 + 3 * x := by linear_combination -he
  subst hb
  unfold P256.double P256.raw
  simp only [Proj.mk.injEq]
  refine ⟨?_, ?_, ?_⟩ <;> ring

end Verif.Native
