import Mathlib.Algebra.Field.Basic
import Mathlib.Algebra.Group.Even
import Mathlib.Algebra.CharP.Defs
import Mathlib.Tactic.FieldSimp
import Mathlib.Tactic.LinearCombination
import Mathlib.Tactic.Ring

/-!
# The group of a twisted Edwards curve

`-x² + y² = 1 + d x² y²` over a field in which `-1` is a square and `d` is not: the affine addition law is complete and makes
the points a commutative group.  This is the mathematics behind `filippo.io/edwards25519`, which Mathlib does not have; the
polynomial identities were found by division with remainder and are checked here.
-/

namespace Verif.Ed25519

/-- what the law needs of the field and of `d` -/
class Good {F : Type} [Field F] (d : F) : Prop where
  two : (2 : F) ≠ 0
  sqrt : ∃ i : F, i ^ 2 = -1
  nonsq : ¬ IsSquare d

/-- a point of the curve in affine coordinates -/
@[ext] structure Pt {F : Type} [Field F] (d : F) where
  x : F
  y : F
  eq : -x ^ 2 + y ^ 2 = 1 + d * x ^ 2 * y ^ 2

variable {F : Type} [Field F] {d : F}

theorem Good.ne_zero [h : Good d] : d ≠ 0 := fun h0 => h.nonsq (h0 ▸ ⟨0, by simp⟩)

/-- the denominators do not vanish -/
theorem complete [h : Good d] {x₁ y₁ x₂ y₂ : F} (h₁ : -x₁ ^ 2 + y₁ ^ 2 = 1 + d * x₁ ^ 2 * y₁ ^ 2)
    (h₂ : -x₂ ^ 2 + y₂ ^ 2 = 1 + d * x₂ ^ 2 * y₂ ^ 2) {e : F} (he : e ^ 2 = 1) : d * x₁ * x₂ * y₁ * y₂ ≠ e := by
  intro ht
  obtain ⟨i, hi⟩ := h.sqrt
  have h0 : d * x₁ * x₂ * y₁ * y₂ ≠ 0 := by
    rw [ht]; rintro rfl; simp at he
  have hx1 : x₁ ≠ 0 := by rintro rfl; simp at h0
  have hy1 : y₁ ≠ 0 := by rintro rfl; simp at h0
  have hx2 : x₂ ≠ 0 := by rintro rfl; simp at h0
  have key : ∀ s : F, s ^ 2 = 1 → (i * x₁ + s * e * y₁) ^ 2 = d * (x₁ * y₁) ^ 2 * (i * x₂ + s * y₂) ^ 2 := by
    intro s hs
    linear_combination h₁ - d * x₁ ^ 2 * y₁ ^ 2 * h₂ +
      (x₁ ^ 2 - d * x₁ ^ 2 * y₁ ^ 2 * x₂ ^ 2) * hi + (y₁ ^ 2 * e ^ 2 - d * x₁ ^ 2 * y₁ ^ 2 * y₂ ^ 2) * hs +
      (y₁ ^ 2 - 1) * he + (- 2 * i * s * x₁ * y₁ - e - d * x₁ * x₂ * y₁ * y₂) * ht
  have sq : ∀ s : F, s ^ 2 = 1 → i * x₂ + s * y₂ = 0 := by
    intro s hs
    by_contra hne
    have hk := key s hs
    refine h.nonsq ⟨(i * x₁ + s * e * y₁) / (x₁ * y₁ * (i * x₂ + s * y₂)), ?_⟩
    have hD : x₁ * y₁ * (i * x₂ + s * y₂) ≠ 0 := mul_ne_zero (mul_ne_zero hx1 hy1) hne
    rw [div_mul_div_comm, eq_div_iff (mul_ne_zero hD hD)]
    linear_combination -hk
  have s1 := sq 1 (by ring)
  have s2 := sq (-1) (by ring)
  have hi0 : i ≠ 0 := by
    rintro rfl
    have : (1 : F) = 0 := by linear_combination hi
    exact one_ne_zero this
  have : 2 * i * x₂ = 0 := by linear_combination s1 + s2
  exact mul_ne_zero (mul_ne_zero h.two hi0) hx2 this

theorem den_pos [Good d] (P Q : Pt d) : 1 + d * P.x * Q.x * P.y * Q.y ≠ 0 := fun h =>
  complete P.eq Q.eq (e := -1) (by ring) (by linear_combination h)

theorem den_neg [Good d] (P Q : Pt d) : 1 - d * P.x * Q.x * P.y * Q.y ≠ 0 := fun h =>
  complete P.eq Q.eq (e := 1) (by ring) (by linear_combination -h)

theorem closure_identity {x₁ y₁ x₂ y₂ : F} (h₁ : -x₁ ^ 2 + y₁ ^ 2 = 1 + d * x₁ ^ 2 * y₁ ^ 2)
    (h₂ : -x₂ ^ 2 + y₂ ^ 2 = 1 + d * x₂ ^ 2 * y₂ ^ 2) :
    -((x₁ * y₂ + y₁ * x₂) ^ 2 * (1 - d * x₁ * x₂ * y₁ * y₂) ^ 2) +
      (y₁ * y₂ + x₁ * x₂) ^ 2 * (1 + d * x₁ * x₂ * y₁ * y₂) ^ 2 =
    (1 + d * x₁ * x₂ * y₁ * y₂) ^ 2 * (1 - d * x₁ * x₂ * y₁ * y₂) ^ 2 +
      d * (x₁ * y₂ + y₁ * x₂) ^ 2 * (y₁ * y₂ + x₁ * x₂) ^ 2 := by
  linear_combination (d ^ 3 * x₁ ^ 2 * y₁ ^ 2 * x₂ ^ 4 * y₂ ^ 4 + (-1) * d ^ 2 * x₁ ^ 2 * x₂ ^ 4 * y₂ ^ 4 + d ^ 2 * y₁ ^ 2 * x₂ ^ 4 * y₂ ^ 4
      + (-1) * d ^ 2 * x₂ ^ 4 * y₂ ^ 4 + (-1) * d * x₁ ^ 2 * x₂ ^ 4 * y₂ ^ 2 + d * x₁ ^ 2 * x₂ ^ 2 * y₂ ^ 4 + d * y₁ ^ 2 * x₂
      ^ 4 * y₂ ^ 2 + (-1) * d * y₁ ^ 2 * x₂ ^ 2 * y₂ ^ 4 + (-2) * d * x₂ ^ 4 * y₂ ^ 4 + (-2) * d * x₂ ^ 2 * y₂ ^ 2 + (-2) *
      x₂ ^ 4 * y₂ ^ 2 + x₂ ^ 4 + (2) * x₂ ^ 2 * y₂ ^ 4 + (-4) * x₂ ^ 2 * y₂ ^ 2 + y₂ ^ 4) * h₁ +
    (d * x₁ ^ 4 * x₂ ^ 2 * y₂ ^ 2 + (2) * d * x₁ ^ 2 * x₂ ^ 2 * y₂ ^ 2 + d * y₁ ^ 4 * x₂ ^ 2 * y₂ ^ 2 + (-2) * d * y₁ ^ 2 *
      x₂ ^ 2 * y₂ ^ 2 + d * x₂ ^ 2 * y₂ ^ 2 + (2) * x₁ ^ 2 * x₂ ^ 2 * y₂ ^ 2 + (-1) * x₁ ^ 2 * x₂ ^ 2 + x₁ ^ 2 * y₂ ^ 2 +
      (-2) * y₁ ^ 2 * x₂ ^ 2 * y₂ ^ 2 + y₁ ^ 2 * x₂ ^ 2 + (-1) * y₁ ^ 2 * y₂ ^ 2 + (2) * x₂ ^ 2 * y₂ ^ 2 + (-1) * x₂ ^ 2 + y₂
      ^ 2 + (1)) * h₂

theorem frac_eq {a b m n : F} (hm : m ≠ 0) (hn : n ≠ 0)
    (h : -(a ^ 2 * n ^ 2) + b ^ 2 * m ^ 2 = m ^ 2 * n ^ 2 + d * a ^ 2 * b ^ 2) :
    -(a / m) ^ 2 + (b / n) ^ 2 = 1 + d * (a / m) ^ 2 * (b / n) ^ 2 := by
  field_simp
  linear_combination h

/-- the sum of two points -/
def Pt.add [Good d] (P Q : Pt d) : Pt d where
  x := (P.x * Q.y + P.y * Q.x) / (1 + d * P.x * Q.x * P.y * Q.y)
  y := (P.y * Q.y + P.x * Q.x) / (1 - d * P.x * Q.x * P.y * Q.y)
  eq := by
    have hp := den_pos P Q
    have hm := den_neg P Q
    have h := closure_identity P.eq Q.eq
    exact frac_eq hp hm h

instance [Good d] : Add (Pt d) := ⟨Pt.add⟩
instance : Zero (Pt d) := ⟨⟨0, 1, by ring⟩⟩
instance : Neg (Pt d) := ⟨fun P => ⟨-P.x, P.y, by linear_combination P.eq⟩⟩

theorem add_x [Good d] (P Q : Pt d) : (P + Q).x = (P.x * Q.y + P.y * Q.x) / (1 + d * P.x * Q.x * P.y * Q.y) := rfl
theorem add_y [Good d] (P Q : Pt d) : (P + Q).y = (P.y * Q.y + P.x * Q.x) / (1 - d * P.x * Q.x * P.y * Q.y) := rfl
@[simp] theorem zero_x : (0 : Pt d).x = 0 := rfl
@[simp] theorem zero_y : (0 : Pt d).y = 1 := rfl
@[simp] theorem neg_x (P : Pt d) : (-P).x = -P.x := rfl
@[simp] theorem neg_y (P : Pt d) : (-P).y = P.y := rfl

theorem assoc_x {x₁ y₁ x₂ y₂ x₃ y₃ : F} (h₁ : -x₁ ^ 2 + y₁ ^ 2 = 1 + d * x₁ ^ 2 * y₁ ^ 2)
    (h₂ : -x₂ ^ 2 + y₂ ^ 2 = 1 + d * x₂ ^ 2 * y₂ ^ 2) (h₃ : -x₃ ^ 2 + y₃ ^ 2 = 1 + d * x₃ ^ 2 * y₃ ^ 2) :
    ((x₁ * y₂ + y₁ * x₂) * (1 - d * x₁ * x₂ * y₁ * y₂) * y₃ + (y₁ * y₂ + x₁ * x₂) * (1 + d * x₁ * x₂ * y₁ * y₂) * x₃) *
      ((1 + d * x₂ * x₃ * y₂ * y₃) * (1 - d * x₂ * x₃ * y₂ * y₃) +
        d * x₁ * y₁ * (x₂ * y₃ + y₂ * x₃) * (y₂ * y₃ + x₂ * x₃)) =
    (x₁ * (y₂ * y₃ + x₂ * x₃) * (1 + d * x₂ * x₃ * y₂ * y₃) + y₁ * (x₂ * y₃ + y₂ * x₃) * (1 - d * x₂ * x₃ * y₂ * y₃)) *
      ((1 + d * x₁ * x₂ * y₁ * y₂) * (1 - d * x₁ * x₂ * y₁ * y₂) +
        d * (x₁ * y₂ + y₁ * x₂) * (y₁ * y₂ + x₁ * x₂) * x₃ * y₃) := by
  linear_combination ((-1) * d ^ 2 * x₁ * x₂ ^ 4 * y₂ ^ 3 * x₃ ^ 2 * y₃ + (-1) * d ^ 2 * x₁ * x₂ ^ 3 * y₂ ^ 4 * x₃ * y₃ ^ 2 + d ^ 2 * y₁ * x₂
      ^ 4 * y₂ ^ 3 * x₃ * y₃ ^ 2 + d ^ 2 * y₁ * x₂ ^ 3 * y₂ ^ 4 * x₃ ^ 2 * y₃ + (-1) * d * x₁ * x₂ ^ 4 * y₂ * x₃ ^ 2 * y₃ +
      (-1) * d * x₁ * x₂ ^ 3 * y₂ ^ 2 * x₃ ^ 3 + (-1) * d * x₁ * x₂ ^ 3 * y₂ ^ 2 * x₃ + d * x₁ * x₂ ^ 2 * y₂ ^ 3 * y₃ ^ 3 +
      (-1) * d * x₁ * x₂ ^ 2 * y₂ ^ 3 * y₃ + d * x₁ * x₂ * y₂ ^ 4 * x₃ * y₃ ^ 2 + d * y₁ * x₂ ^ 4 * y₂ * x₃ * y₃ ^ 2 + d * y₁
      * x₂ ^ 3 * y₂ ^ 2 * y₃ ^ 3 + (-1) * d * y₁ * x₂ ^ 3 * y₂ ^ 2 * y₃ + (-1) * d * y₁ * x₂ ^ 2 * y₂ ^ 3 * x₃ ^ 3 + (-1) * d
      * y₁ * x₂ ^ 2 * y₂ ^ 3 * x₃ + (-1) * d * y₁ * x₂ * y₂ ^ 4 * x₃ ^ 2 * y₃) * h₁ +
    (d ^ 2 * x₁ ^ 2 * y₁ * x₂ ^ 2 * y₂ * x₃ ^ 3 * y₃ ^ 2 + (-1) * d ^ 2 * x₁ ^ 2 * y₁ * x₂ * y₂ ^ 2 * x₃ ^ 2 * y₃ ^ 3 + (-1)
      * d ^ 2 * x₁ * y₁ ^ 2 * x₂ ^ 2 * y₂ * x₃ ^ 2 * y₃ ^ 3 + d ^ 2 * x₁ * y₁ ^ 2 * x₂ * y₂ ^ 2 * x₃ ^ 3 * y₃ ^ 2 + d * x₁ ^
      3 * x₂ ^ 2 * y₂ * x₃ ^ 2 * y₃ + d * x₁ ^ 3 * x₂ * y₂ ^ 2 * x₃ * y₃ ^ 2 + d * x₁ ^ 3 * x₂ * x₃ ^ 3 * y₃ ^ 2 + d * x₁ ^ 3
      * y₂ * x₃ ^ 2 * y₃ ^ 3 + (-1) * d * x₁ ^ 2 * y₁ * x₂ ^ 2 * y₂ * x₃ * y₃ ^ 2 + (-1) * d * x₁ ^ 2 * y₁ * x₂ * y₂ ^ 2 * x₃
      ^ 2 * y₃ + d * x₁ ^ 2 * y₁ * x₂ * x₃ ^ 2 * y₃ ^ 3 + d * x₁ ^ 2 * y₁ * y₂ * x₃ ^ 3 * y₃ ^ 2 + (-1) * d * x₁ * y₁ ^ 2 *
      x₂ ^ 2 * y₂ * x₃ ^ 2 * y₃ + (-1) * d * x₁ * y₁ ^ 2 * x₂ * y₂ ^ 2 * x₃ * y₃ ^ 2 + (-1) * d * x₁ * y₁ ^ 2 * x₂ * x₃ ^ 3 *
      y₃ ^ 2 + (-1) * d * x₁ * y₁ ^ 2 * y₂ * x₃ ^ 2 * y₃ ^ 3 + d * x₁ * x₂ ^ 2 * y₂ * x₃ ^ 2 * y₃ + d * x₁ * x₂ * y₂ ^ 2 * x₃
      * y₃ ^ 2 + d * x₁ * x₂ * x₃ ^ 3 * y₃ ^ 2 + d * x₁ * y₂ * x₃ ^ 2 * y₃ ^ 3 + d * y₁ ^ 3 * x₂ ^ 2 * y₂ * x₃ * y₃ ^ 2 + d *
      y₁ ^ 3 * x₂ * y₂ ^ 2 * x₃ ^ 2 * y₃ + (-1) * d * y₁ ^ 3 * x₂ * x₃ ^ 2 * y₃ ^ 3 + (-1) * d * y₁ ^ 3 * y₂ * x₃ ^ 3 * y₃ ^
      2 + (-1) * d * y₁ * x₂ ^ 2 * y₂ * x₃ * y₃ ^ 2 + (-1) * d * y₁ * x₂ * y₂ ^ 2 * x₃ ^ 2 * y₃ + d * y₁ * x₂ * x₃ ^ 2 * y₃ ^
      3 + d * y₁ * y₂ * x₃ ^ 3 * y₃ ^ 2 + x₁ ^ 3 * x₂ * x₃ ^ 3 + (-1) * x₁ ^ 3 * x₂ * x₃ * y₃ ^ 2 + x₁ ^ 3 * x₂ * x₃ + x₁ ^ 3
      * y₂ * x₃ ^ 2 * y₃ + (-1) * x₁ ^ 3 * y₂ * y₃ ^ 3 + x₁ ^ 3 * y₂ * y₃ + x₁ ^ 2 * y₁ * x₂ * x₃ ^ 2 * y₃ + (-1) * x₁ ^ 2 *
      y₁ * x₂ * y₃ ^ 3 + x₁ ^ 2 * y₁ * x₂ * y₃ + x₁ ^ 2 * y₁ * y₂ * x₃ ^ 3 + (-1) * x₁ ^ 2 * y₁ * y₂ * x₃ * y₃ ^ 2 + x₁ ^ 2 *
      y₁ * y₂ * x₃ + (-1) * x₁ * y₁ ^ 2 * x₂ * x₃ ^ 3 + x₁ * y₁ ^ 2 * x₂ * x₃ * y₃ ^ 2 + (-1) * x₁ * y₁ ^ 2 * x₂ * x₃ + (-1)
      * x₁ * y₁ ^ 2 * y₂ * x₃ ^ 2 * y₃ + x₁ * y₁ ^ 2 * y₂ * y₃ ^ 3 + (-1) * x₁ * y₁ ^ 2 * y₂ * y₃ + x₁ * x₂ * x₃ ^ 3 + (-1) *
      x₁ * x₂ * x₃ * y₃ ^ 2 + x₁ * x₂ * x₃ + x₁ * y₂ * x₃ ^ 2 * y₃ + (-1) * x₁ * y₂ * y₃ ^ 3 + x₁ * y₂ * y₃ + (-1) * y₁ ^ 3 *
      x₂ * x₃ ^ 2 * y₃ + y₁ ^ 3 * x₂ * y₃ ^ 3 + (-1) * y₁ ^ 3 * x₂ * y₃ + (-1) * y₁ ^ 3 * y₂ * x₃ ^ 3 + y₁ ^ 3 * y₂ * x₃ * y₃
      ^ 2 + (-1) * y₁ ^ 3 * y₂ * x₃ + y₁ * x₂ * x₃ ^ 2 * y₃ + (-1) * y₁ * x₂ * y₃ ^ 3 + y₁ * x₂ * y₃ + y₁ * y₂ * x₃ ^ 3 +
      (-1) * y₁ * y₂ * x₃ * y₃ ^ 2 + y₁ * y₂ * x₃) * h₂ +
    ((-1) * d * x₁ ^ 2 * y₁ * x₂ ^ 2 * y₂ * x₃ + d * x₁ ^ 2 * y₁ * x₂ * y₂ ^ 2 * y₃ + d * x₁ * y₁ ^ 2 * x₂ ^ 2 * y₂ * y₃ +
      (-1) * d * x₁ * y₁ ^ 2 * x₂ * y₂ ^ 2 * x₃ + (-1) * x₁ ^ 3 * x₂ ^ 3 * x₃ + (-1) * x₁ ^ 3 * x₂ ^ 2 * y₂ * y₃ + x₁ ^ 3 *
      x₂ * y₂ ^ 2 * x₃ + (-1) * x₁ ^ 3 * x₂ * x₃ + x₁ ^ 3 * y₂ ^ 3 * y₃ + (-1) * x₁ ^ 3 * y₂ * y₃ + (-1) * x₁ ^ 2 * y₁ * x₂ ^
      3 * y₃ + (-1) * x₁ ^ 2 * y₁ * x₂ ^ 2 * y₂ * x₃ + x₁ ^ 2 * y₁ * x₂ * y₂ ^ 2 * y₃ + (-1) * x₁ ^ 2 * y₁ * x₂ * y₃ + x₁ ^ 2
      * y₁ * y₂ ^ 3 * x₃ + (-1) * x₁ ^ 2 * y₁ * y₂ * x₃ + x₁ * y₁ ^ 2 * x₂ ^ 3 * x₃ + x₁ * y₁ ^ 2 * x₂ ^ 2 * y₂ * y₃ + (-1) *
      x₁ * y₁ ^ 2 * x₂ * y₂ ^ 2 * x₃ + x₁ * y₁ ^ 2 * x₂ * x₃ + (-1) * x₁ * y₁ ^ 2 * y₂ ^ 3 * y₃ + x₁ * y₁ ^ 2 * y₂ * y₃ +
      (-1) * x₁ * x₂ ^ 3 * x₃ + (-1) * x₁ * x₂ ^ 2 * y₂ * y₃ + x₁ * x₂ * y₂ ^ 2 * x₃ + (-1) * x₁ * x₂ * x₃ + x₁ * y₂ ^ 3 * y₃
      + (-1) * x₁ * y₂ * y₃ + y₁ ^ 3 * x₂ ^ 3 * y₃ + y₁ ^ 3 * x₂ ^ 2 * y₂ * x₃ + (-1) * y₁ ^ 3 * x₂ * y₂ ^ 2 * y₃ + y₁ ^ 3 *
      x₂ * y₃ + (-1) * y₁ ^ 3 * y₂ ^ 3 * x₃ + y₁ ^ 3 * y₂ * x₃ + (-1) * y₁ * x₂ ^ 3 * y₃ + (-1) * y₁ * x₂ ^ 2 * y₂ * x₃ + y₁
      * x₂ * y₂ ^ 2 * y₃ + (-1) * y₁ * x₂ * y₃ + y₁ * y₂ ^ 3 * x₃ + (-1) * y₁ * y₂ * x₃) * h₃

theorem assoc_y {x₁ y₁ x₂ y₂ x₃ y₃ : F} (h₁ : -x₁ ^ 2 + y₁ ^ 2 = 1 + d * x₁ ^ 2 * y₁ ^ 2)
    (h₂ : -x₂ ^ 2 + y₂ ^ 2 = 1 + d * x₂ ^ 2 * y₂ ^ 2) (h₃ : -x₃ ^ 2 + y₃ ^ 2 = 1 + d * x₃ ^ 2 * y₃ ^ 2) :
    ((y₁ * y₂ + x₁ * x₂) * (1 + d * x₁ * x₂ * y₁ * y₂) * y₃ + (x₁ * y₂ + y₁ * x₂) * (1 - d * x₁ * x₂ * y₁ * y₂) * x₃) *
      ((1 + d * x₂ * x₃ * y₂ * y₃) * (1 - d * x₂ * x₃ * y₂ * y₃) -
        d * x₁ * y₁ * (x₂ * y₃ + y₂ * x₃) * (y₂ * y₃ + x₂ * x₃)) =
    (y₁ * (y₂ * y₃ + x₂ * x₃) * (1 + d * x₂ * x₃ * y₂ * y₃) + x₁ * (x₂ * y₃ + y₂ * x₃) * (1 - d * x₂ * x₃ * y₂ * y₃)) *
      ((1 + d * x₁ * x₂ * y₁ * y₂) * (1 - d * x₁ * x₂ * y₁ * y₂) -
        d * (x₁ * y₂ + y₁ * x₂) * (y₁ * y₂ + x₁ * x₂) * x₃ * y₃) := by
  linear_combination (d ^ 2 * x₁ * x₂ ^ 4 * y₂ ^ 3 * x₃ * y₃ ^ 2 + d ^ 2 * x₁ * x₂ ^ 3 * y₂ ^ 4 * x₃ ^ 2 * y₃ + (-1) * d ^ 2 * y₁ * x₂ ^ 4 *
      y₂ ^ 3 * x₃ ^ 2 * y₃ + (-1) * d ^ 2 * y₁ * x₂ ^ 3 * y₂ ^ 4 * x₃ * y₃ ^ 2 + d * x₁ * x₂ ^ 4 * y₂ * x₃ * y₃ ^ 2 + d * x₁
      * x₂ ^ 3 * y₂ ^ 2 * y₃ ^ 3 + (-1) * d * x₁ * x₂ ^ 3 * y₂ ^ 2 * y₃ + (-1) * d * x₁ * x₂ ^ 2 * y₂ ^ 3 * x₃ ^ 3 + (-1) * d
      * x₁ * x₂ ^ 2 * y₂ ^ 3 * x₃ + (-1) * d * x₁ * x₂ * y₂ ^ 4 * x₃ ^ 2 * y₃ + (-1) * d * y₁ * x₂ ^ 4 * y₂ * x₃ ^ 2 * y₃ +
      (-1) * d * y₁ * x₂ ^ 3 * y₂ ^ 2 * x₃ ^ 3 + (-1) * d * y₁ * x₂ ^ 3 * y₂ ^ 2 * x₃ + d * y₁ * x₂ ^ 2 * y₂ ^ 3 * y₃ ^ 3 +
      (-1) * d * y₁ * x₂ ^ 2 * y₂ ^ 3 * y₃ + d * y₁ * x₂ * y₂ ^ 4 * x₃ * y₃ ^ 2) * h₁ +
    (d ^ 2 * x₁ ^ 2 * y₁ * x₂ ^ 2 * y₂ * x₃ ^ 2 * y₃ ^ 3 + (-1) * d ^ 2 * x₁ ^ 2 * y₁ * x₂ * y₂ ^ 2 * x₃ ^ 3 * y₃ ^ 2 + (-1)
      * d ^ 2 * x₁ * y₁ ^ 2 * x₂ ^ 2 * y₂ * x₃ ^ 3 * y₃ ^ 2 + d ^ 2 * x₁ * y₁ ^ 2 * x₂ * y₂ ^ 2 * x₃ ^ 2 * y₃ ^ 3 + (-1) * d
      * x₁ ^ 3 * x₂ ^ 2 * y₂ * x₃ * y₃ ^ 2 + (-1) * d * x₁ ^ 3 * x₂ * y₂ ^ 2 * x₃ ^ 2 * y₃ + d * x₁ ^ 3 * x₂ * x₃ ^ 2 * y₃ ^
      3 + d * x₁ ^ 3 * y₂ * x₃ ^ 3 * y₃ ^ 2 + d * x₁ ^ 2 * y₁ * x₂ ^ 2 * y₂ * x₃ ^ 2 * y₃ + d * x₁ ^ 2 * y₁ * x₂ * y₂ ^ 2 *
      x₃ * y₃ ^ 2 + d * x₁ ^ 2 * y₁ * x₂ * x₃ ^ 3 * y₃ ^ 2 + d * x₁ ^ 2 * y₁ * y₂ * x₃ ^ 2 * y₃ ^ 3 + d * x₁ * y₁ ^ 2 * x₂ ^
      2 * y₂ * x₃ * y₃ ^ 2 + d * x₁ * y₁ ^ 2 * x₂ * y₂ ^ 2 * x₃ ^ 2 * y₃ + (-1) * d * x₁ * y₁ ^ 2 * x₂ * x₃ ^ 2 * y₃ ^ 3 +
      (-1) * d * x₁ * y₁ ^ 2 * y₂ * x₃ ^ 3 * y₃ ^ 2 + (-1) * d * x₁ * x₂ ^ 2 * y₂ * x₃ * y₃ ^ 2 + (-1) * d * x₁ * x₂ * y₂ ^ 2
      * x₃ ^ 2 * y₃ + d * x₁ * x₂ * x₃ ^ 2 * y₃ ^ 3 + d * x₁ * y₂ * x₃ ^ 3 * y₃ ^ 2 + (-1) * d * y₁ ^ 3 * x₂ ^ 2 * y₂ * x₃ ^
      2 * y₃ + (-1) * d * y₁ ^ 3 * x₂ * y₂ ^ 2 * x₃ * y₃ ^ 2 + (-1) * d * y₁ ^ 3 * x₂ * x₃ ^ 3 * y₃ ^ 2 + (-1) * d * y₁ ^ 3 *
      y₂ * x₃ ^ 2 * y₃ ^ 3 + d * y₁ * x₂ ^ 2 * y₂ * x₃ ^ 2 * y₃ + d * y₁ * x₂ * y₂ ^ 2 * x₃ * y₃ ^ 2 + d * y₁ * x₂ * x₃ ^ 3 *
      y₃ ^ 2 + d * y₁ * y₂ * x₃ ^ 2 * y₃ ^ 3 + x₁ ^ 3 * x₂ * x₃ ^ 2 * y₃ + (-1) * x₁ ^ 3 * x₂ * y₃ ^ 3 + x₁ ^ 3 * x₂ * y₃ +
      x₁ ^ 3 * y₂ * x₃ ^ 3 + (-1) * x₁ ^ 3 * y₂ * x₃ * y₃ ^ 2 + x₁ ^ 3 * y₂ * x₃ + x₁ ^ 2 * y₁ * x₂ * x₃ ^ 3 + (-1) * x₁ ^ 2
      * y₁ * x₂ * x₃ * y₃ ^ 2 + x₁ ^ 2 * y₁ * x₂ * x₃ + x₁ ^ 2 * y₁ * y₂ * x₃ ^ 2 * y₃ + (-1) * x₁ ^ 2 * y₁ * y₂ * y₃ ^ 3 +
      x₁ ^ 2 * y₁ * y₂ * y₃ + (-1) * x₁ * y₁ ^ 2 * x₂ * x₃ ^ 2 * y₃ + x₁ * y₁ ^ 2 * x₂ * y₃ ^ 3 + (-1) * x₁ * y₁ ^ 2 * x₂ *
      y₃ + (-1) * x₁ * y₁ ^ 2 * y₂ * x₃ ^ 3 + x₁ * y₁ ^ 2 * y₂ * x₃ * y₃ ^ 2 + (-1) * x₁ * y₁ ^ 2 * y₂ * x₃ + x₁ * x₂ * x₃ ^
      2 * y₃ + (-1) * x₁ * x₂ * y₃ ^ 3 + x₁ * x₂ * y₃ + x₁ * y₂ * x₃ ^ 3 + (-1) * x₁ * y₂ * x₃ * y₃ ^ 2 + x₁ * y₂ * x₃ + (-1)
      * y₁ ^ 3 * x₂ * x₃ ^ 3 + y₁ ^ 3 * x₂ * x₃ * y₃ ^ 2 + (-1) * y₁ ^ 3 * x₂ * x₃ + (-1) * y₁ ^ 3 * y₂ * x₃ ^ 2 * y₃ + y₁ ^
      3 * y₂ * y₃ ^ 3 + (-1) * y₁ ^ 3 * y₂ * y₃ + y₁ * x₂ * x₃ ^ 3 + (-1) * y₁ * x₂ * x₃ * y₃ ^ 2 + y₁ * x₂ * x₃ + y₁ * y₂ *
      x₃ ^ 2 * y₃ + (-1) * y₁ * y₂ * y₃ ^ 3 + y₁ * y₂ * y₃) * h₂ +
    ((-1) * d * x₁ ^ 2 * y₁ * x₂ ^ 2 * y₂ * y₃ + d * x₁ ^ 2 * y₁ * x₂ * y₂ ^ 2 * x₃ + d * x₁ * y₁ ^ 2 * x₂ ^ 2 * y₂ * x₃ +
      (-1) * d * x₁ * y₁ ^ 2 * x₂ * y₂ ^ 2 * y₃ + (-1) * x₁ ^ 3 * x₂ ^ 3 * y₃ + (-1) * x₁ ^ 3 * x₂ ^ 2 * y₂ * x₃ + x₁ ^ 3 *
      x₂ * y₂ ^ 2 * y₃ + (-1) * x₁ ^ 3 * x₂ * y₃ + x₁ ^ 3 * y₂ ^ 3 * x₃ + (-1) * x₁ ^ 3 * y₂ * x₃ + (-1) * x₁ ^ 2 * y₁ * x₂ ^
      3 * x₃ + (-1) * x₁ ^ 2 * y₁ * x₂ ^ 2 * y₂ * y₃ + x₁ ^ 2 * y₁ * x₂ * y₂ ^ 2 * x₃ + (-1) * x₁ ^ 2 * y₁ * x₂ * x₃ + x₁ ^ 2
      * y₁ * y₂ ^ 3 * y₃ + (-1) * x₁ ^ 2 * y₁ * y₂ * y₃ + x₁ * y₁ ^ 2 * x₂ ^ 3 * y₃ + x₁ * y₁ ^ 2 * x₂ ^ 2 * y₂ * x₃ + (-1) *
      x₁ * y₁ ^ 2 * x₂ * y₂ ^ 2 * y₃ + x₁ * y₁ ^ 2 * x₂ * y₃ + (-1) * x₁ * y₁ ^ 2 * y₂ ^ 3 * x₃ + x₁ * y₁ ^ 2 * y₂ * x₃ +
      (-1) * x₁ * x₂ ^ 3 * y₃ + (-1) * x₁ * x₂ ^ 2 * y₂ * x₃ + x₁ * x₂ * y₂ ^ 2 * y₃ + (-1) * x₁ * x₂ * y₃ + x₁ * y₂ ^ 3 * x₃
      + (-1) * x₁ * y₂ * x₃ + y₁ ^ 3 * x₂ ^ 3 * x₃ + y₁ ^ 3 * x₂ ^ 2 * y₂ * y₃ + (-1) * y₁ ^ 3 * x₂ * y₂ ^ 2 * x₃ + y₁ ^ 3 *
      x₂ * x₃ + (-1) * y₁ ^ 3 * y₂ ^ 3 * y₃ + y₁ ^ 3 * y₂ * y₃ + (-1) * y₁ * x₂ ^ 3 * x₃ + (-1) * y₁ * x₂ ^ 2 * y₂ * y₃ + y₁
      * x₂ * y₂ ^ 2 * x₃ + (-1) * y₁ * x₂ * x₃ + y₁ * y₂ ^ 3 * y₃ + (-1) * y₁ * y₂ * y₃) * h₃

/-- cancelling two common denominators -/
theorem div_eq_of_scaled {a b a' b' k k' : F} (hb : b ≠ 0) (hb' : b' ≠ 0) (hk : k ≠ 0) (hk' : k' ≠ 0)
    (h : (k * a) * (k' * b') = (k' * a') * (k * b)) : a / b = a' / b' := by
  rw [div_eq_div_iff hb hb']
  have hkk : k * k' ≠ 0 := mul_ne_zero hk hk'
  exact mul_left_cancel₀ hkk (by linear_combination h)

theorem add_assoc' [Good d] (P Q R : Pt d) : P + Q + R = P + (Q + R) := by
  have p1 := den_pos P Q
  have m1 := den_neg P Q
  have p2 := den_pos Q R
  have m2 := den_neg Q R
  have hx1 : (P + Q).x * (1 + d * P.x * Q.x * P.y * Q.y) = P.x * Q.y + P.y * Q.x := by rw [add_x, div_mul_cancel₀ _ p1]
  have hy1 : (P + Q).y * (1 - d * P.x * Q.x * P.y * Q.y) = P.y * Q.y + P.x * Q.x := by rw [add_y, div_mul_cancel₀ _ m1]
  have hx2 : (Q + R).x * (1 + d * Q.x * R.x * Q.y * R.y) = Q.x * R.y + Q.y * R.x := by rw [add_x, div_mul_cancel₀ _ p2]
  have hy2 : (Q + R).y * (1 - d * Q.x * R.x * Q.y * R.y) = Q.y * R.y + Q.x * R.x := by rw [add_y, div_mul_cancel₀ _ m2]
  have p3 := den_pos (P + Q) R
  have m3 := den_neg (P + Q) R
  have p4 := den_pos P (Q + R)
  have m4 := den_neg P (Q + R)
  have hk : (1 + d * P.x * Q.x * P.y * Q.y) * (1 - d * P.x * Q.x * P.y * Q.y) ≠ 0 := mul_ne_zero p1 m1
  have hk' : (1 + d * Q.x * R.x * Q.y * R.y) * (1 - d * Q.x * R.x * Q.y * R.y) ≠ 0 := mul_ne_zero p2 m2
  have hxy1 : ((1 + d * P.x * Q.x * P.y * Q.y) * (1 - d * P.x * Q.x * P.y * Q.y)) * ((P + Q).x * (P + Q).y) =
      (P.x * Q.y + P.y * Q.x) * (P.y * Q.y + P.x * Q.x) := by rw [← hx1, ← hy1]; ring
  have hxy2 : ((1 + d * Q.x * R.x * Q.y * R.y) * (1 - d * Q.x * R.x * Q.y * R.y)) * ((Q + R).x * (Q + R).y) =
      (Q.x * R.y + Q.y * R.x) * (Q.y * R.y + Q.x * R.x) := by rw [← hx2, ← hy2]; ring
  ext
  · rw [add_x (P + Q) R, add_x P (Q + R)]
    refine div_eq_of_scaled p3 p4 hk hk' ?_
    have h := assoc_x P.eq Q.eq R.eq
    have a1 : (1 + d * P.x * Q.x * P.y * Q.y) * (1 - d * P.x * Q.x * P.y * Q.y) * ((P + Q).x * R.y + (P + Q).y * R.x) =
        (P.x * Q.y + P.y * Q.x) * (1 - d * P.x * Q.x * P.y * Q.y) * R.y +
          (P.y * Q.y + P.x * Q.x) * (1 + d * P.x * Q.x * P.y * Q.y) * R.x := by
      rw [← hx1, ← hy1]; ring
    have a2 : (1 + d * Q.x * R.x * Q.y * R.y) * (1 - d * Q.x * R.x * Q.y * R.y) * (P.x * (Q + R).y + P.y * (Q + R).x) =
        P.x * (Q.y * R.y + Q.x * R.x) * (1 + d * Q.x * R.x * Q.y * R.y) +
          P.y * (Q.x * R.y + Q.y * R.x) * (1 - d * Q.x * R.x * Q.y * R.y) := by
      rw [← hx2, ← hy2]; ring
    have b1 : (1 + d * P.x * Q.x * P.y * Q.y) * (1 - d * P.x * Q.x * P.y * Q.y) *
        (1 + d * (P + Q).x * R.x * (P + Q).y * R.y) =
        (1 + d * P.x * Q.x * P.y * Q.y) * (1 - d * P.x * Q.x * P.y * Q.y) +
          d * (P.x * Q.y + P.y * Q.x) * (P.y * Q.y + P.x * Q.x) * R.x * R.y := by
      linear_combination d * R.x * R.y * hxy1
    have b2 : (1 + d * Q.x * R.x * Q.y * R.y) * (1 - d * Q.x * R.x * Q.y * R.y) *
        (1 + d * P.x * (Q + R).x * P.y * (Q + R).y) =
        (1 + d * Q.x * R.x * Q.y * R.y) * (1 - d * Q.x * R.x * Q.y * R.y) +
          d * P.x * P.y * (Q.x * R.y + Q.y * R.x) * (Q.y * R.y + Q.x * R.x) := by
      linear_combination d * P.x * P.y * hxy2
    rw [a1, a2, b1, b2]
    exact h
  · rw [add_y (P + Q) R, add_y P (Q + R)]
    refine div_eq_of_scaled m3 m4 hk hk' ?_
    have h := assoc_y P.eq Q.eq R.eq
    have a1 : (1 + d * P.x * Q.x * P.y * Q.y) * (1 - d * P.x * Q.x * P.y * Q.y) * ((P + Q).y * R.y + (P + Q).x * R.x) =
        (P.y * Q.y + P.x * Q.x) * (1 + d * P.x * Q.x * P.y * Q.y) * R.y +
          (P.x * Q.y + P.y * Q.x) * (1 - d * P.x * Q.x * P.y * Q.y) * R.x := by
      rw [← hx1, ← hy1]; ring
    have a2 : (1 + d * Q.x * R.x * Q.y * R.y) * (1 - d * Q.x * R.x * Q.y * R.y) * (P.y * (Q + R).y + P.x * (Q + R).x) =
        P.y * (Q.y * R.y + Q.x * R.x) * (1 + d * Q.x * R.x * Q.y * R.y) +
          P.x * (Q.x * R.y + Q.y * R.x) * (1 - d * Q.x * R.x * Q.y * R.y) := by
      rw [← hx2, ← hy2]; ring
    have b1 : (1 + d * P.x * Q.x * P.y * Q.y) * (1 - d * P.x * Q.x * P.y * Q.y) *
        (1 - d * (P + Q).x * R.x * (P + Q).y * R.y) =
        (1 + d * P.x * Q.x * P.y * Q.y) * (1 - d * P.x * Q.x * P.y * Q.y) -
          d * (P.x * Q.y + P.y * Q.x) * (P.y * Q.y + P.x * Q.x) * R.x * R.y := by
      linear_combination -(d * R.x * R.y) * hxy1
    have b2 : (1 + d * Q.x * R.x * Q.y * R.y) * (1 - d * Q.x * R.x * Q.y * R.y) *
        (1 - d * P.x * (Q + R).x * P.y * (Q + R).y) =
        (1 + d * Q.x * R.x * Q.y * R.y) * (1 - d * Q.x * R.x * Q.y * R.y) -
          d * P.x * P.y * (Q.x * R.y + Q.y * R.x) * (Q.y * R.y + Q.x * R.x) := by
      linear_combination -(d * P.x * P.y) * hxy2
    rw [a1, a2, b1, b2]
    exact h

/-- the points form a commutative group -/
instance instGroup [Good d] : AddCommGroup (Pt d) where
  add_assoc := add_assoc'
  zero_add P := by ext <;> simp [add_x, add_y]
  add_zero P := by ext <;> simp [add_x, add_y]
  neg_add_cancel P := by
    have hm := den_neg (-P) P
    have hp := den_pos (-P) P
    simp only [neg_x, neg_y] at hm hp
    ext
    · rw [add_x]
      simp only [neg_x, neg_y, zero_x]
      rw [div_eq_zero_iff]; left; ring
    · rw [add_y]
      simp only [neg_x, neg_y, zero_y]
      rw [div_eq_one_iff_eq hm]
      linear_combination P.eq
  add_comm P Q := by
    ext
    · rw [add_x, add_x]; congr 1 <;> ring
    · rw [add_y, add_y]; congr 1 <;> ring
  nsmul := nsmulRec
  zsmul := zsmulRec

end Verif.Ed25519
