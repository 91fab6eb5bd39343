import Mathlib.Algebra.Field.ZMod
import Mathlib.FieldTheory.Finite.Basic
import Mathlib.Tactic.NormNum.Prime
import Verif.Native.AlgoLemmas
import Verif.Native.CurveLemmas

/-!
# Properties of the native points and of the multiplication algorithms

* C50 `sumOfProductsPippenger`, C51 `EllipticPoint.SumOfProducts`, C52 `EllipticPoint.Mul`
* C56 the secp256k1 and P-256 formulas implement the group law
* C110 what `ToAffine`, `IsOnCurve`, `Equal`, `SetBigInt` decide
-/

set_option linter.unusedSectionVars false
set_option exponentiation.threshold 600

namespace Verif.Native

/-! ## C56: the group law -/

section Law
variable {F : Type} [Field F] [DecidableEq F]

/-- C56: for secp256k1-shaped curves `y² = x³ + b` without points of order two, the native `Add`
applied to coordinates of `P` and `Q` (any `P`, `Q`: equal, opposite, infinite) gives coordinates of
`P + Q` in Mathlib's chord-and-tangent group. -/
theorem C56_k256_add {b : F} (h2 : (2 : F) ≠ 0) (hno : ∀ x : F, x ^ 3 + 0 * x + b ≠ 0)
    {p q : Proj F} {P Q : (curve 0 b).Point} (hp : Rep p P) (hq : Rep q Q) :
    Rep (K256.add b p q) (P + Q) := by
  rw [K256.add_eq]
  exact rep_add_of_rawOk (K256.rawOk b) h2 hno hp hq

/-- C56: `Double`. -/
theorem C56_k256_double {b : F} (h2 : (2 : F) ≠ 0) (hno : ∀ x : F, x ^ 3 + 0 * x + b ≠ 0)
    {p : Proj F} {P : (curve 0 b).Point} (hp : Rep p P) : Rep (K256.double b p) (P + P) := by
  have hadd := rep_add_of_rawOk (K256.rawOk b) h2 hno hp hp
  rcases P with _ | ⟨x, y, h⟩
  · have hz : p.z = 0 := hp
    change Rep _ (0 + 0)
    rw [add_zero, rep_zero]
    simp [K256.double, hz]
  · obtain ⟨hz, hx, hy⟩ := hp
    obtain ⟨px, py, z⟩ := p
    simp only at hz hx hy
    subst hx hy
    rw [K256.double_eq b (equation_curve.1 h.1)]
    simpa [selectIdentity, hz] using hadd

/-- C56 for P-256 (`a = -3`): `Add`. -/
theorem C56_p256_add {b : F} (h2 : (2 : F) ≠ 0) (hno : ∀ x : F, x ^ 3 + -3 * x + b ≠ 0)
    {p q : Proj F} {P Q : (curve (-3) b).Point} (hp : Rep p P) (hq : Rep q Q) :
    Rep (P256.add b p q) (P + Q) := by
  rw [P256.add_eq]
  exact rep_add_of_rawOk (P256.rawOk b) h2 hno hp hq

/-- C56 for P-256: `Double`. -/
theorem C56_p256_double {b : F} (h2 : (2 : F) ≠ 0) (hno : ∀ x : F, x ^ 3 + -3 * x + b ≠ 0)
    {p : Proj F} {P : (curve (-3) b).Point} (hp : Rep p P) : Rep (P256.double b p) (P + P) := by
  have hadd := rep_add_of_rawOk (P256.rawOk b) h2 hno hp hp
  rcases P with _ | ⟨x, y, h⟩
  · have hz : p.z = 0 := hp
    change Rep _ (0 + 0)
    rw [add_zero, rep_zero]
    simp [P256.double, hz]
  · obtain ⟨hz, hx, hy⟩ := hp
    obtain ⟨px, py, z⟩ := p
    simp only at hz hx hy
    subst hx hy
    rw [P256.double_eq b (equation_curve.1 h.1)]
    simpa [selectIdentity, hz] using hadd

instance : Fact (Nat.Prime 7) := ⟨by norm_num⟩

/-- curves without points of order two exist; the sum of `(0, 3)` with its opposite is infinity -/
example : (∀ x : ZMod 7, x ^ 3 + 0 * x + 2 ≠ 0) ∧ (∀ x : ZMod 7, x ^ 3 + -3 * x + 1 ≠ 0) ∧
    (3 : ZMod 7) ^ 2 = 0 ^ 3 + 0 * 0 + 2 ∧ (1 : ZMod 7) ^ 2 = 0 ^ 3 + -3 * 0 + 1 ∧
    K256.add (2 : ZMod 7) ⟨0, 3, 1⟩ ⟨0, 4, 1⟩ = ⟨0, 3, 0⟩ ∧
    K256.add (2 : ZMod 7) ⟨0, 3, 1⟩ ⟨0, 3, 1⟩ = K256.double (2 : ZMod 7) ⟨0, 3, 1⟩ := by
  decide +kernel

theorem K256.implements {b : F} (h2 : (2 : F) ≠ 0) (hno : ∀ x : F, x ^ 3 + 0 * x + b ≠ 0) :
    Implements (K256.ops b) (curve 0 b).Point Rep where
  identity := rfl
  double := C56_k256_double h2 hno
  add := C56_k256_add h2 hno

theorem P256.implements {b : F} (h2 : (2 : F) ≠ 0) (hno : ∀ x : F, x ^ 3 + -3 * x + b ≠ 0) :
    Implements (P256.ops b) (curve (-3) b).Point Rep where
  identity := rfl
  double := C56_p256_double h2 hno
  add := C56_p256_add h2 hno

/-- C56: `Neg` is the inverse. -/
theorem C56_neg {a b : F} {p : Proj F} {P : (curve a b).Point} (hp : Rep p P) :
    Rep (neg p) (-P) := by
  rcases P with _ | ⟨x, y, h⟩
  · exact hp
  · obtain ⟨hz, hx, hy⟩ := hp
    rw [WeierstrassCurve.Affine.Point.neg_some]
    refine ⟨hz, hx, ?_⟩
    rw [negY_curve]
    simp [neg, hy]

/-- Coordinates stand for at most one point. -/
theorem Rep.unique {a b : F} {p : Proj F} {P Q : (curve a b).Point} (hP : Rep p P)
    (hQ : Rep p Q) : P = Q := by
  rcases P with _ | ⟨x1, y1, h1⟩ <;> rcases Q with _ | ⟨x2, y2, h2⟩
  · rfl
  · exact absurd hP hQ.1
  · exact absurd hQ hP.1
  · obtain ⟨hz, hx, hy⟩ := hP
    obtain ⟨_, hx', hy'⟩ := hQ
    have e1 := mul_right_cancel₀ hz (hx.symm.trans hx')
    have e2 := mul_right_cancel₀ hz (hy.symm.trans hy')
    subst e1 e2
    rfl

/-- Every point has coordinates. -/
theorem Rep.exists {a b : F} (P : (curve a b).Point) : ∃ p, Rep p P := by
  rcases P with _ | ⟨x, y, h⟩
  · exact ⟨identity, rfl⟩
  · exact ⟨⟨x, y, 1⟩, one_ne_zero, by simp, by simp⟩

/-- C110: `Equal` on coordinates decides equality of the points, whatever the denominators. -/
theorem C110_equal {a b : F} {p q : Proj F} {P Q : (curve a b).Point} (hp : Rep p P)
    (hq : Rep q Q) : equal p q = true ↔ P = Q := by
  rcases P with _ | ⟨x1, y1, h1⟩ <;> rcases Q with _ | ⟨x2, y2, h2⟩
  · have : p.z = 0 := hp
    have : q.z = 0 := hq
    simp [equal, *]
  · have : p.z = 0 := hp
    have h := hq.1
    simp [equal, *]
  · have : q.z = 0 := hq
    have h := hp.1
    simp [equal, *]
  · obtain ⟨hz, hx, hy⟩ := hp
    obtain ⟨hz', hx', hy'⟩ := hq
    have e1 : x1 * p.z * q.z = x2 * q.z * p.z ↔ x1 = x2 := by
      rw [mul_assoc, mul_assoc, mul_comm q.z, mul_left_inj' (mul_ne_zero hz hz')]
    have e2 : y1 * p.z * q.z = y2 * q.z * p.z ↔ y1 = y2 := by
      rw [mul_assoc, mul_assoc, mul_comm q.z, mul_left_inj' (mul_ne_zero hz hz')]
    simp only [equal, hz, hz', hx, hy, hx', hy', e1, e2, decide_false, Bool.and_self,
      Bool.not_false, Bool.true_and, Bool.false_or, Bool.and_eq_true, decide_eq_true_eq,
      WeierstrassCurve.Affine.Point.some.injEq]

/-- C110: `ToAffine` gives coordinates of the same point, with `z = 1` unless it is infinity. -/
theorem C110_toAffine {a b : F} {p : Proj F} {P : (curve a b).Point} (hp : Rep p P) :
    Rep (toAffine p) P ∧ ((toAffine p).z = 1 ∨ toAffine p = identity ∧ P = 0) := by
  rcases P with _ | ⟨x, y, h⟩
  · have hz : p.z = 0 := hp
    have : toAffine p = identity := by simp [toAffine, invert, hz, identity]
    rw [this]
    exact ⟨rfl, Or.inr ⟨rfl, rfl⟩⟩
  · obtain ⟨hz, hx, hy⟩ := hp
    have : toAffine p = ⟨x, y, 1⟩ := by simp [toAffine, invert, hz, hx, hy]
    rw [this]
    exact ⟨⟨one_ne_zero, by simp, by simp⟩, Or.inl rfl⟩

/-- the same point with two different denominators -/
example : equal (⟨0, 3, 1⟩ : Proj (ZMod 7)) ⟨0, 6, 2⟩ = true ∧
    equal (⟨0, 3, 1⟩ : Proj (ZMod 7)) ⟨0, 3, 2⟩ = false := by decide +kernel

/-- C110: on a curve without 2-torsion and with `b ≠ 0`, `IsOnCurve` accepts exactly the
coordinates of finite points: the identity, which is a point, is reported not to be on the curve. -/
theorem C110_isOnCurve {a b : F} (h2 : (2 : F) ≠ 0) (hno : ∀ x : F, x ^ 3 + a * x + b ≠ 0)
    (p : Proj F) : isOnCurve a b p = true ↔ ∃ P : (curve a b).Point, Rep p P ∧ P ≠ 0 := by
  have hb : b ≠ 0 := by simpa using hno 0
  by_cases hz : p.z = 0
  · have e : isOnCurve a b p = false := by
      simp [isOnCurve, toAffine, invert, hz, rhsEq, hb.symm]
    rw [e]
    constructor
    · intro h; cases h
    · rintro ⟨P, hP, h0⟩
      exact absurd (hP.unique (Q := 0) hz) h0
  · have e : toAffine p = ⟨p.x * p.z⁻¹, p.y * p.z⁻¹, 1⟩ := by simp [toAffine, invert, hz]
    simp only [isOnCurve, e, rhsEq, decide_eq_true_eq]
    constructor
    · intro h
      have he : (p.y * p.z⁻¹) ^ 2 = (p.x * p.z⁻¹) ^ 3 + a * (p.x * p.z⁻¹) + b := by
        linear_combination h
      have hy : p.y * p.z⁻¹ ≠ 0 := by
        intro h0
        rw [h0] at he
        exact hno (p.x * p.z⁻¹) (by linear_combination -he)
      refine ⟨.some _ _ (nonsingular_curve h2 hy he), ⟨hz, ?_, ?_⟩, ?_⟩
      · field_simp
      · field_simp
      · intro h0; cases h0
    · rintro ⟨P, hP, h0⟩
      rcases P with _ | ⟨x, y, h⟩
      · exact absurd rfl h0
      · obtain ⟨_, hx, hy⟩ := hP
        have ex : p.x * p.z⁻¹ = x := by rw [hx]; field_simp
        have ey : p.y * p.z⁻¹ = y := by rw [hy]; field_simp
        rw [ex, ey]
        linear_combination equation_curve.1 h.1

/-- C110: `IsOnCurve` of the identity is false. -/
theorem C110_identity_not_on_curve {a b : F} (hb : b ≠ 0) :
    isOnCurve a b (identity : Proj F) = false := by
  simp [isOnCurve, toAffine, invert, identity, rhsEq, hb.symm]

/-- C110: `SetBigInt` succeeds exactly for coordinates that reduce to `(0, 0)`, giving the identity,
or to a solution of the curve equation, giving that point with `z = 1`. Only the residues count. -/
theorem C110_setBigInt {a b : F} (hb : b ≠ 0) (toF : ℤ → F) (x y : ℤ) (r : Proj F) :
    setBigInt a b toF x y = .ok r ↔
      (toF x = 0 ∧ toF y = 0 ∧ r = ⟨0, 0, 0⟩) ∨
      (toF y ^ 2 = toF x ^ 3 + a * toF x + b ∧ r = ⟨toF x, toF y, 1⟩) := by
  unfold setBigInt
  by_cases hid : toF x = 0 ∧ toF y = 0
  · obtain ⟨hx, hy⟩ := hid
    simp only [hx, hy, and_self, decide_true, if_true]
    rw [Go.guard_bind_eq_ok]
    constructor
    · rintro ⟨_, h⟩
      left
      exact ⟨trivial, trivial, by cases h; rfl⟩
    · rintro (⟨_, _, h⟩ | ⟨h, _⟩)
      · exact ⟨by simp, by rw [h]⟩
      · exact absurd (by simpa using h.symm) hb
  · simp only [hid, decide_false, if_false, Bool.false_eq_true]
    rw [Go.guard_bind_eq_ok]
    have e : isOnCurve a b (⟨toF x, toF y, 1⟩ : Proj F) = true ↔
        toF y ^ 2 = toF x ^ 3 + a * toF x + b := by
      simp only [isOnCurve, toAffine, invert, one_ne_zero, if_false, inv_one, mul_one, if_true,
        rhsEq, decide_eq_true_eq]
      constructor <;> intro h <;> linear_combination h
    constructor
    · rintro ⟨hg, h⟩
      right
      refine ⟨e.1 ?_, by cases h; rfl⟩
      simpa using hg
    · rintro (⟨h1, h3, _⟩ | ⟨h, hr⟩)
      · exact absurd ⟨h1, h3⟩ hid
      · exact ⟨by simp [e.2 h], by rw [hr]⟩

end Law

/-! ## C52, C51, C50: the multiplication algorithms -/

section Mul
variable {α A : Type} [AddCommGroup A] {o : PtOps α} {rep : α → A → Prop}

/-- C52: `Mul` with the 32 little-endian bytes of `n` gives `n • P`, for any point type whose
`Double` and `Add` implement a commutative group. -/
theorem C52_mul (h : Implements o A rep) {p : α} {P : A} (hp : rep p P) (bytes : List UInt8)
    (hl : bytes.length = 32) : rep (mul o p bytes) (leNat bytes • P) := by
  rw [← mul_grp P bytes hl]
  exact mul_rel h hp bytes

/-- `Σ nᵢ • Pᵢ` -/
def linComb (ns : List ℤ) (Ps : List A) : A := (List.zipWith (fun n P => n • P) ns Ps).sum

theorem sum_zipWith_map {σ : Type} (f : σ → ℕ) (ss : List σ) (Ps : List A) :
    ((List.zip ss Ps).map fun it => f it.1 • it.2).sum = linComb (ss.map fun s => (f s : ℤ)) Ps := by
  unfold linComb
  rw [List.zipWith_map_left]
  congr 1
  rw [List.zip, List.map_zipWith]
  congr 1
  funext s P
  simp

theorem window_sop (scalars : List (List UInt8)) (Ps : List A) (j : ℕ) :
    (sumBuckets (grpOps A) (fillBuckets (grpOps A) 16
      (List.zipWith (fun s p => ((sopIndex s j).toNat, p)) scalars Ps)).tail (0, 0)).2
      = ((List.zip scalars Ps).map fun it => (leNat it.1 / 16 ^ j % 16) • it.2).sum := by
  rw [sumBuckets_grp, wsum_fill_tail]
  · rw [List.map_zipWith, List.zip, List.map_zipWith]
    simp only [sopIndex_eq]
  · intro it hit
    obtain ⟨i, hi, he⟩ := List.mem_iff_getElem.1 hit
    rw [List.getElem_zipWith] at he
    rw [← he]
    simp only [sopIndex_eq]
    exact Nat.mod_lt _ (by norm_num)

/-- C51: lists of equal length with 32-byte scalars: `SumOfProducts` returns `Σ nᵢ • Pᵢ` (the
identity for empty lists). -/
theorem C51_sumOfProducts (h : Implements o A rep) {points : List α} {Ps : List A}
    (hp : List.Forall₂ rep points Ps) (scalars : List (List UInt8))
    (hlen : points.length = scalars.length) (h32 : ∀ s ∈ scalars, s.length = 32) :
    ∃ r, sumOfProducts o points scalars = .ok r ∧
      rep r (linComb (scalars.map fun s => (leNat s : ℤ)) Ps) := by
  unfold sumOfProducts
  rw [Go.guard_true (by exact hlen), Go.ok_bind]
  refine ⟨_, rfl, ?_⟩
  have hrel : List.Forall₂ rep
      ((List.range 64).map fun j => (sumBuckets o (fillBuckets o 16
        (List.zipWith (fun s p => ((sopIndex s j).toNat, p)) scalars points)).tail
          (o.identity, o.identity)).2)
      ((List.range 64).map fun j => (sumBuckets (grpOps A) (fillBuckets (grpOps A) 16
        (List.zipWith (fun s p => ((sopIndex s j).toNat, p)) scalars Ps)).tail (0, 0)).2) := by
    refine map_rel _ fun j => ?_
    have hf := fillBuckets_rel h 16 (zip_rel (fun s => (sopIndex s j).toNat) hp scalars)
    refine (sumBuckets_rel h ?_).2
    revert hf
    generalize fillBuckets o 16 _ = l1
    generalize fillBuckets (grpOps A) 16 _ = l2
    intro hf
    cases hf with
    | nil => exact .nil
    | cons _ ht => exact ht
  have := joinWindows_rel h 4 hrel
  have e : joinWindows (grpOps A) 4
      ((List.range 64).map fun j => (sumBuckets (grpOps A) (fillBuckets (grpOps A) 16
        (List.zipWith (fun s p => ((sopIndex s j).toNat, p)) scalars Ps)).tail (0, 0)).2)
      = linComb (scalars.map fun s => (leNat s : ℤ)) Ps := by
    rw [joinWindows_grp]
    simp only [window_sop]
    rw [foldr_digits (2 ^ 4) (fun s j => leNat s / 16 ^ j % 16), ← sum_zipWith_map]
    congr 1
    refine List.map_congr_left fun it hit => ?_
    have : it.1.length = 32 := h32 _ (List.of_mem_zip hit).1
    show (List.foldr (fun j acc => 16 * acc + leNat it.1 / 16 ^ j % 16) 0 (List.range 64)) • _ = _
    rw [horner_digits 16 (leNat it.1) 64, Nat.mod_eq_of_lt]
    have hlt := leNat_lt it.1
    rw [this] at hlt
    calc _ < 256 ^ 32 := hlt
      _ = 16 ^ 64 := by norm_num
  rw [← e]
  exact this

/-- C51: lists of different length give an error. -/
theorem C51_mismatch (points : List α) (scalars : List (List UInt8))
    (hlen : points.length ≠ scalars.length) : sumOfProducts o points scalars = Go.err := by
  unfold sumOfProducts
  rw [Go.guard_false (by exact hlen)]
  rfl

theorem window_pip (scalars : List ℤ) (Ps : List A) (j : ℕ) :
    (sumBuckets (grpOps A) (fillBuckets (grpOps A) 63
      (((List.zipWith (fun s p => (pipIndex s j, p)) scalars Ps).filter (·.1 ≠ 0)).map
        fun it => (it.1 - 1, it.2))) (0, 0)).2
      = ((List.zip scalars Ps).map fun it => (pipIndex it.1 j) • it.2).sum := by
  have hlt : ∀ s : ℤ, pipIndex s j < 64 := by
    intro s
    unfold pipIndex
    have := Int.emod_lt_of_pos (s / 2 ^ (6 * j)) (show (0 : ℤ) < 64 by norm_num)
    have := Int.emod_nonneg (s / 2 ^ (6 * j)) (show (64 : ℤ) ≠ 0 by norm_num)
    omega
  rw [sumBuckets_grp, wsum_fill]
  · rw [List.zip]
    generalize hz : List.zipWith (fun s p => (pipIndex s j, p)) scalars Ps = items
    have e : (List.zipWith Prod.mk scalars Ps).map (fun it => (pipIndex it.1 j) • it.2)
        = items.map fun it => it.1 • it.2 := by
      rw [← hz, List.map_zipWith, List.map_zipWith]
    rw [e]
    clear e hz
    induction items with
    | nil => rfl
    | cons it items ih =>
      rw [List.filter_cons]
      by_cases h0 : it.1 = 0
      · simp only [h0, ne_eq, not_true_eq_false, decide_false, Bool.false_eq_true, if_false,
          List.map_cons, zero_nsmul, List.sum_cons, zero_add]
        exact ih
      · simp only [h0, ne_eq, not_false_eq_true, decide_true, if_true, List.map_cons,
          List.sum_cons]
        rw [Nat.sub_add_cancel (Nat.one_le_iff_ne_zero.2 h0)]
        congr 1
  · intro it hit
    obtain ⟨it', hit', rfl⟩ := List.mem_map.1 hit
    obtain ⟨hm, h0⟩ := List.mem_filter.1 hit'
    obtain ⟨i, hi, he⟩ := List.mem_iff_getElem.1 hm
    rw [List.getElem_zipWith] at he
    have := hlt (scalars[i]'(by simp at hi; omega))
    rw [← he] at h0 ⊢
    simp only [ne_eq, decide_not, Bool.not_eq_eq_eq_not, Bool.not_true, decide_eq_false_iff_not]
      at h0 ⊢
    omega

theorem pipIndex_nat (s : ℤ) (j : ℕ) (hj : j < 43) :
    pipIndex s j = (s % 2 ^ 258).toNat / 64 ^ j % 64 := by
  unfold pipIndex
  have h1 : ((s % 2 ^ 258).toNat : ℤ) = s % 2 ^ 258 :=
    Int.toNat_of_nonneg (Int.emod_nonneg _ (by norm_num))
  have h2 : (2 : ℤ) ^ (6 * j) = 64 ^ j := by rw [pow_mul]; norm_num
  have h3 : (2 : ℤ) ^ 258 = 64 ^ j * 64 * 64 ^ (42 - j) := by
    rw [← pow_succ, ← pow_add, show j + 1 + (42 - j) = 43 by omega]; norm_num
  have e : s / 64 ^ j % 64 = s % 2 ^ 258 / 64 ^ j % 64 := by
    rw [h3]
    have h64 : (0 : ℤ) < 64 ^ j := by positivity
    conv_lhs => rw [← Int.emod_add_mul_ediv s (64 ^ j * 64 * 64 ^ (42 - j))]
    rw [show s % (64 ^ j * 64 * 64 ^ (42 - j))
        + 64 ^ j * 64 * 64 ^ (42 - j) * (s / (64 ^ j * 64 * 64 ^ (42 - j)))
        = s % (64 ^ j * 64 * 64 ^ (42 - j))
        + (64 * (64 ^ (42 - j) * (s / (64 ^ j * 64 * 64 ^ (42 - j))))) * 64 ^ j by ring,
      Int.add_mul_ediv_right _ _ h64.ne']
    omega
  rw [h2, e, ← h1]
  norm_cast

/-- C50: for lists of equal, non-zero length `sumOfProductsPippenger` returns
`Σ (nᵢ mod 2^258) • Pᵢ`, hence `Σ nᵢ • Pᵢ` for the scalars of the library, which are non-negative and
below `2^256`. -/
theorem C50_pippenger_mod (h : Implements o A rep) {points : List α} {Ps : List A}
    (hp : List.Forall₂ rep points Ps) (scalars : List ℤ)
    (hlen : points.length = scalars.length) (hne : points ≠ []) :
    ∃ r, pippenger o points scalars = .ok (some r) ∧
      rep r (linComb (scalars.map fun s => s % 2 ^ 258) Ps) := by
  unfold pippenger
  rw [if_neg (by simpa using hlen), if_neg hne]
  refine ⟨_, rfl, ?_⟩
  have hrel : List.Forall₂ rep
      ((List.range 43).map fun j => (sumBuckets o (fillBuckets o 63
        (((List.zipWith (fun s p => (pipIndex s j, p)) scalars points).filter (·.1 ≠ 0)).map
          fun it => (it.1 - 1, it.2))) (o.identity, o.identity)).2)
      ((List.range 43).map fun j => (sumBuckets (grpOps A) (fillBuckets (grpOps A) 63
        (((List.zipWith (fun s p => (pipIndex s j, p)) scalars Ps).filter (·.1 ≠ 0)).map
          fun it => (it.1 - 1, it.2))) (0, 0)).2) := by
    refine map_rel _ fun j => ?_
    exact (sumBuckets_rel h (fillBuckets_rel h 63
      (filter_rel (zip_rel (fun s => pipIndex s j) hp scalars)))).2
  have := joinWindows_rel h 6 hrel
  have e : joinWindows (grpOps A) 6
      ((List.range 43).map fun j => (sumBuckets (grpOps A) (fillBuckets (grpOps A) 63
        (((List.zipWith (fun s p => (pipIndex s j, p)) scalars Ps).filter (·.1 ≠ 0)).map
          fun it => (it.1 - 1, it.2))) (0, 0)).2)
      = linComb (scalars.map fun s => s % 2 ^ 258) Ps := by
    rw [joinWindows_grp]
    simp only [window_pip]
    rw [foldr_digits (2 ^ 6) pipIndex]
    have : (scalars.map fun s => s % 2 ^ 258)
        = scalars.map fun s => (((s % 2 ^ 258).toNat : ℕ) : ℤ) := by
      refine List.map_congr_left fun s _ => ?_
      exact (Int.toNat_of_nonneg (Int.emod_nonneg _ (by norm_num))).symm
    rw [this, ← sum_zipWith_map]
    congr 1
    refine List.map_congr_left fun it _ => ?_
    congr 1
    have hfold : ∀ l : List ℕ, (∀ j ∈ l, j < 43) →
        l.foldr (fun j acc => 2 ^ 6 * acc + pipIndex it.1 j) 0
        = l.foldr (fun j acc => 64 * acc + (it.1 % 2 ^ 258).toNat / 64 ^ j % 64) 0 := by
      intro l hl
      induction l with
      | nil => rfl
      | cons j l ih =>
        rw [List.foldr_cons, List.foldr_cons, ih fun k hk => hl k (List.mem_cons_of_mem _ hk),
          pipIndex_nat _ _ (hl j List.mem_cons_self)]
        norm_num
    rw [hfold _ (fun j hj => List.mem_range.1 hj), horner_digits, Nat.mod_eq_of_lt]
    have := Int.emod_lt_of_pos it.1 (show (0 : ℤ) < 2 ^ 258 by norm_num)
    have := Int.emod_nonneg it.1 (show (2 : ℤ) ^ 258 ≠ 0 by norm_num)
    have e64 : (64 : ℕ) ^ 43 = 2 ^ 258 := by norm_num
    rw [e64]
    zify
    rw [Int.toNat_of_nonneg this]
    assumption
  rw [← e]
  exact this

/-- C50 -/
theorem C50_pippenger (h : Implements o A rep) {points : List α} {Ps : List A}
    (hp : List.Forall₂ rep points Ps) (scalars : List ℤ)
    (hlen : points.length = scalars.length) (hne : points ≠ [])
    (hs : ∀ s ∈ scalars, 0 ≤ s ∧ s < 2 ^ 258) :
    ∃ r, pippenger o points scalars = .ok (some r) ∧ rep r (linComb scalars Ps) := by
  obtain ⟨r, h1, h2⟩ := C50_pippenger_mod h hp scalars hlen hne
  refine ⟨r, h1, ?_⟩
  have : (scalars.map fun s => s % 2 ^ 258) = scalars := by
    conv_rhs => rw [← List.map_id scalars]
    refine List.map_congr_left fun s hm => ?_
    exact Int.emod_eq_of_lt (hs s hm).1 (hs s hm).2
  rwa [this] at h2

/-- C50: `nil` exactly for lists of different length; empty lists panic. -/
theorem C50_nil_iff (points : List α) (scalars : List ℤ) :
    (pippenger o points scalars = .ok none ↔ points.length ≠ scalars.length) ∧
    pippenger o ([] : List α) [] = Go.crash := by
  refine ⟨?_, rfl⟩
  unfold pippenger
  by_cases h : points.length = scalars.length
  · rw [if_neg (by simpa using h)]
    constructor
    · intro h'
      split at h' <;> cases h'
    · intro h'
      exact absurd h h'
  · rw [if_pos h]
    exact ⟨fun _ => h, fun _ => rfl⟩

end Mul

/-- any commutative group implements itself: this covers the point types whose operations are
imported (Ed25519, Pallas, BLS12-381) -/
theorem grpOps_implements (A : Type) [AddCommGroup A] : Implements (grpOps A) A (fun p P => p = P) where
  identity := rfl
  double := by rintro p P rfl; rfl
  add := by rintro p P q Q rfl rfl; rfl

/-- an instance of the multiplication theorems with three points of the additive group of integers
and large scalars -/
example : ∃ r, pippenger (grpOps ℤ) [3, 5, 0] [2 ^ 200 + 1, 7, 2 ^ 257] = .ok (some r) ∧
    r = (2 ^ 200 + 1) * 3 + 7 * 5 := by
  obtain ⟨r, h, hr⟩ := C50_pippenger (grpOps_implements ℤ) (points := [3, 5, 0]) (Ps := [3, 5, 0])
    (List.forall₂_same.2 fun _ _ => rfl) [2 ^ 200 + 1, 7, 2 ^ 257] rfl (by simp) (by norm_num)
  exact ⟨r, h, by rw [hr]; simp [linComb]⟩

example : mul (grpOps ℤ) 5 (leBytes 32 (2 ^ 255 + 77)) = (2 ^ 255 + 77) * 5 := by
  have := C52_mul (grpOps_implements ℤ) (p := 5) (P := 5) rfl (leBytes 32 (2 ^ 255 + 77))
    (leBytes_length _ _)
  rw [leNat_leBytes _ _ (by norm_num)] at this
  rw [this]; norm_num

end Verif.Native
