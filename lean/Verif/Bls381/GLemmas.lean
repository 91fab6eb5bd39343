import Verif.Bls381.GModel
import Verif.Bls381.GtProps
import Verif.Native.PointProps
import Verif.Native.CurveFacts

/-!
# The formulas of `G1` and `G2` implement the group law
-/

set_option linter.unusedSectionVars false

namespace Verif.Bls381

open Verif.Primes Verif.Native WeierstrassCurve.Affine

section Generic
variable {F : Type} [Field F] [DecidableEq F]

/-- The coordinates `p` stand for the point `P` of `y² = x³ + b`: `(x/z, y/z)` for an affine point, and
`(0 : y : 0)` with `y ≠ 0` for the point at infinity. -/
def GRep {b : F} (p : Proj F) (P : (curve 0 b).Point) : Prop :=
  Rep p P ∧ (p.z = 0 → p.x = 0 ∧ p.y ≠ 0)

/-- what is needed of a field with its `MulBy3b` -/
structure GOk (b : F) (m3b : F → F) : Prop where
  two : (2 : F) ≠ 0
  noTwoTorsion : ∀ x : F, x ^ 3 + b ≠ 0
  m3b_eq : ∀ x, m3b x = 3 * b * x

variable {b : F} {m3b : F → F}

theorem GOk.no (h : GOk b m3b) (x : F) : x ^ 3 + 0 * x + b ≠ 0 := by
  rw [zero_mul, add_zero]; exact h.noTwoTorsion x

theorem gAdd_eq (h : GOk b m3b) (p q : Proj F) : gAdd m3b p q = K256.raw b p q := by
  unfold gAdd K256.raw
  simp only [h.m3b_eq]
  congr 1 <;> ring

theorem gRep_zero {p : Proj F} : GRep p (0 : (curve 0 b).Point) ↔ p.x = 0 ∧ p.y ≠ 0 ∧ p.z = 0 := by
  constructor
  · rintro ⟨h1, h2⟩
    exact ⟨(h2 h1).1, (h2 h1).2, h1⟩
  · rintro ⟨h1, h2, h3⟩
    exact ⟨h3, fun _ => ⟨h1, h2⟩⟩

theorem gRep_some {p : Proj F} {x y : F} {hn} :
    GRep p (Point.some x y hn : (curve 0 b).Point) ↔ p.z ≠ 0 ∧ p.x = x * p.z ∧ p.y = y * p.z :=
  ⟨fun h => h.1, fun h => ⟨h, fun h0 => absurd h0 h.1⟩⟩

theorem GRep.unique {p : Proj F} {P Q : (curve 0 b).Point} (hP : GRep p P) (hQ : GRep p Q) : P = Q :=
  Rep.unique hP.1 hQ.1

theorem GRep.exists (P : (curve 0 b).Point) : ∃ p, GRep p P := by
  rcases P with _ | ⟨x, y, h⟩
  · exact ⟨gIdentity, gRep_zero.2 ⟨rfl, one_ne_zero, rfl⟩⟩
  · exact ⟨⟨x, y, 1⟩, gRep_some.2 ⟨one_ne_zero, by simp, by simp⟩⟩

theorem GRep.z_eq_zero {p : Proj F} {P : (curve 0 b).Point} (hP : GRep p P) : p.z = 0 ↔ P = 0 := by
  rcases P with _ | ⟨x, y, h⟩
  · exact ⟨fun _ => rfl, fun _ => hP.1⟩
  · exact ⟨fun h0 => absurd h0 hP.1.1, fun h0 => by cases h0⟩

/-- an ordinate is never zero -/
theorem GRep.y_ne (h : GOk b m3b) {p : Proj F} {P : (curve 0 b).Point} (hP : GRep p P) : p.y ≠ 0 := by
  rcases P with _ | ⟨x, y, hn⟩
  · exact (gRep_zero.1 hP).2.1
  · obtain ⟨hz, -, hy⟩ := gRep_some.1 hP
    rw [hy]
    refine mul_ne_zero (fun h0 => h.no x ?_) hz
    rw [← equation_curve.1 hn.1, h0]; ring

theorem gRep_identity : GRep (gIdentity : Proj F) (0 : (curve 0 b).Point) :=
  gRep_zero.2 ⟨rfl, one_ne_zero, rfl⟩

/-- twice an affine point is not a point of order two -/
theorem double_ordinate_ne (h : GOk b m3b) {x y : F} (he : y ^ 2 = x ^ 3 + b) :
    y ^ 4 + 18 * b * y ^ 2 - 27 * b ^ 2 ≠ 0 := by
  intro h0
  have hy : y ≠ 0 := fun hy => h.noTwoTorsion x (by rw [← he, hy]; ring)
  have h4 : (4 : F) * y ^ 2 ≠ 0 := by
    rw [show (4 : F) = 2 ^ 2 by norm_num]
    exact mul_ne_zero (pow_ne_zero _ h.two) (pow_ne_zero _ hy)
  refine h.noTwoTorsion ((9 * x ^ 4 - 8 * x * y ^ 2) / (4 * y ^ 2)) ?_
  have hb : b = y ^ 2 - x ^ 3 := by linear_combination -he
  rw [div_pow, div_add' _ _ _ (pow_ne_zero _ h4), div_eq_zero_iff]
  left
  subst hb
  linear_combination (y ^ 4 + 18 * (y ^ 2 - x ^ 3) * y ^ 2 - 27 * (y ^ 2 - x ^ 3) ^ 2) * h0

theorem gRep_add (h : GOk b m3b) {p q : Proj F} {P Q : (curve 0 b).Point} (hp : GRep p P) (hq : GRep q Q) :
    GRep (gAdd m3b p q) (P + Q) := by
  rw [gAdd_eq h]
  have hyp := hp.y_ne h
  have hyq := hq.y_ne h
  rcases P with _ | ⟨x1, y1, h1⟩
  · obtain ⟨hx, hy, hz⟩ := gRep_zero.1 hp
    change GRep _ (0 + Q)
    rw [zero_add]
    have e : K256.raw b p q = ⟨p.y ^ 2 * q.y * q.x, p.y ^ 2 * q.y * q.y, p.y ^ 2 * q.y * q.z⟩ := by
      simp only [K256.raw, hx, hz]; congr 1 <;> ring
    rw [e]
    have hc : p.y ^ 2 * q.y ≠ 0 := mul_ne_zero (pow_ne_zero _ hyp) hyq
    rcases Q with _ | ⟨x2, y2, h2⟩
    · obtain ⟨hx', hy', hz'⟩ := gRep_zero.1 hq
      exact gRep_zero.2 ⟨by simp [hx'], mul_ne_zero hc hy', by simp [hz']⟩
    · obtain ⟨hz', hx', hy'⟩ := gRep_some.1 hq
      refine gRep_some.2 ⟨mul_ne_zero hc hz', ?_, ?_⟩
      · simp only [hx']; ring
      · simp only [hy']; ring
  rcases Q with _ | ⟨x2, y2, h2⟩
  · obtain ⟨hx, hy, hz⟩ := gRep_zero.1 hq
    change GRep _ (_ + 0)
    rw [add_zero]
    have e : K256.raw b p q = ⟨q.y ^ 2 * p.y * p.x, q.y ^ 2 * p.y * p.y, q.y ^ 2 * p.y * p.z⟩ := by
      simp only [K256.raw, hx, hz]; congr 1 <;> ring
    rw [e]
    have hc : q.y ^ 2 * p.y ≠ 0 := mul_ne_zero (pow_ne_zero _ hyq) hyp
    obtain ⟨hz', hx', hy'⟩ := gRep_some.1 hp
    refine gRep_some.2 ⟨mul_ne_zero hc hz', ?_, ?_⟩
    · simp only [hx']; ring
    · simp only [hy']; ring
  obtain ⟨hz1, hx1, hy1⟩ := gRep_some.1 hp
  obtain ⟨hz2, hx2, hy2⟩ := gRep_some.1 hq
  have hr := rep_add_of_rawOk (K256.rawOk b) h.two h.no hp.1 hq.1
  have hsel : selectIdentity p q (K256.raw b p q) = K256.raw b p q := by simp [selectIdentity, hz1, hz2]
  rw [hsel] at hr
  refine ⟨hr, fun h0 => ?_⟩
  have hzero : (Point.some x1 y1 h1 + Point.some x2 y2 h2 : (curve 0 b).Point) = 0 := by
    rcases hs : (Point.some x1 y1 h1 + Point.some x2 y2 h2 : (curve 0 b).Point) with _ | ⟨x, y, hn⟩
    · rfl
    · rw [hs] at hr; exact absurd h0 hr.1
  have hneg := eq_neg_of_add_eq_zero_right hzero
  rw [Point.neg_some, Point.some.injEq, negY_curve] at hneg
  obtain ⟨e1, e2⟩ := hneg
  have he := equation_curve.1 h1.1
  rw [zero_mul, add_zero] at he
  have hb : b = y1 ^ 2 - x1 ^ 3 := by linear_combination -he
  simp only [K256.raw, hx1, hy1, hx2, hy2, e1, e2]
  refine ⟨by ring, ?_⟩
  have := mul_ne_zero (pow_ne_zero 2 (mul_ne_zero hz1 hz2)) (double_ordinate_ne h he)
  intro h0
  apply this
  subst hb
  linear_combination h0

theorem gRep_double (h : GOk b m3b) {p : Proj F} {P : (curve 0 b).Point} (hp : GRep p P) :
    GRep (gDouble m3b p) (P + P) := by
  have hd := C56_k256_double h.two h.no hp.1
  rcases P with _ | ⟨x, y, hn⟩
  · obtain ⟨hx, hy, hz⟩ := gRep_zero.1 hp
    change GRep _ (0 + 0)
    rw [add_zero, gRep_zero]
    simp [gDouble, hz, sel]
  · obtain ⟨hz, hx, hy⟩ := gRep_some.1 hp
    have e : gDouble m3b p = K256.double b p := by
      unfold gDouble K256.double
      simp only [h.m3b_eq, hz, decide_false, sel, Bool.false_eq_true, if_false]
      congr 1 <;> ring
    rw [e]
    refine ⟨hd, fun h0 => absurd h0 ?_⟩
    have hyn := hp.y_ne h
    have : (K256.double b p).z = 8 * (p.y ^ 3 * p.z) := by simp only [K256.double]; ring
    rw [this, show (8 : F) = 2 ^ 3 by norm_num]
    exact mul_ne_zero (pow_ne_zero _ h.two) (mul_ne_zero (pow_ne_zero _ hyn) hz)

theorem gRep_neg {p : Proj F} {P : (curve 0 b).Point} (hp : GRep p P) : GRep (gNeg p) (-P) := by
  rcases P with _ | ⟨x, y, hn⟩
  · obtain ⟨hx, hy, hz⟩ := gRep_zero.1 hp
    change GRep _ (-0)
    rw [neg_zero, gRep_zero]
    simp [gNeg, sel, hx, hy, hz]
  · obtain ⟨hz, hx, hy⟩ := gRep_some.1 hp
    rw [Point.neg_some, gRep_some, negY_curve]
    simp [gNeg, sel, hx, hy, hz]

theorem gRep_sub (h : GOk b m3b) {p q : Proj F} {P Q : (curve 0 b).Point} (hp : GRep p P) (hq : GRep q Q) :
    GRep (gSub m3b p q) (P - Q) := by
  rw [sub_eq_add_neg]
  exact gRep_add h hp (gRep_neg hq)

theorem gImplements (h : GOk b m3b) : Implements (gOps m3b) (curve 0 b).Point GRep where
  identity := gRep_identity
  double := gRep_double h
  add := gRep_add h

theorem gRep_multiply (h : GOk b m3b) {p : Proj F} {P : (curve 0 b).Point} (hp : GRep p P)
    {bytes : List UInt8} (hl : bytes.length = 32) : GRep (gMultiply m3b p bytes) (leNat bytes • P) :=
  C52_mul (gImplements h) hp bytes hl

theorem mulByXLoop_rep (h : GOk b m3b) : ∀ (n : ℕ) (x : UInt64) {t r : Proj F} {T R : (curve 0 b).Point},
    x.toNat < 2 ^ n → GRep t T → GRep r R → GRep (mulByXLoop m3b n x t r) (R + (2 * x.toNat) • T) := by
  intro n
  induction n with
  | zero =>
    intro x t r T R hx ht hr
    have : x.toNat = 0 := by omega
    simpa [mulByXLoop, this] using hr
  | succ n ih =>
    intro x t r T R hx ht hr
    rw [mulByXLoop]
    by_cases h0 : x = 0
    · subst h0; simpa using hr
    · rw [if_pos h0]
      have hd := gRep_double h ht
      have hs : (x >>> 1).toNat = x.toNat / 2 := by
        rw [UInt64.toNat_shiftRight]; simp [Nat.shiftRight_eq_div_pow]
      have hb : ((x &&& 1) == 1) = decide (x.toNat % 2 = 1) := by
        rw [Bool.eq_iff_iff, beq_iff_eq, decide_eq_true_eq, ← UInt64.toNat_inj, UInt64.toNat_and]
        have : x.toNat &&& (1 : UInt64).toNat = x.toNat % 2 := Nat.and_two_pow_sub_one_eq_mod _ 1
        rw [this]; rfl
      have hlt : (x >>> 1).toNat < 2 ^ n := by rw [hs]; omega
      rw [hb]
      have hT : ∀ k : ℕ, k • (T + T) = (k * 2) • T := fun k => by rw [← two_nsmul, ← mul_nsmul']
      by_cases hbit : x.toNat % 2 = 1
      · have h2 := ih (x >>> 1) hlt hd (gRep_add h hr hd)
        simp only [sel, hbit, decide_true, if_true]
        convert h2 using 1
        rw [hs, hT, add_assoc, ← two_nsmul T, ← add_nsmul]
        congr 2
        omega
      · have h2 := ih (x >>> 1) hlt hd hr
        simp only [sel, hbit, decide_false, Bool.false_eq_true, if_false]
        convert h2 using 1
        rw [hs, hT]
        congr 2
        omega

theorem gRep_mulByX (h : GOk b m3b) {p : Proj F} {P : (curve 0 b).Point} (hp : GRep p P) :
    GRep (gMulByX m3b p) ((-0xd201000000010000 : ℤ) • P) := by
  have h1 := mulByXLoop_rep h 64 (paramX >>> 1) (by decide) hp gRep_identity
  have h2 : 2 * (paramX >>> 1).toNat = 0xd201000000010000 := by decide
  rw [h2, zero_add] at h1
  have h3 := gRep_neg h1
  rwa [← natCast_zsmul, ← neg_zsmul] at h3

theorem leNat_fqModulus : leNat fqModulusBytes = blsr := by decide +kernel

theorem gInSubgroup_iff (h : GOk b m3b) {p : Proj F} {P : (curve 0 b).Point} (hp : GRep p P) :
    gInSubgroup m3b p = true ↔ blsr • P = 0 := by
  have h1 := gRep_multiply h hp (bytes := fqModulusBytes) rfl
  rw [leNat_fqModulus] at h1
  rw [gInSubgroup, decide_eq_true_eq, h1.z_eq_zero]

theorem gToAffine_rep {p : Proj F} {P : (curve 0 b).Point} (hp : GRep p P) :
    (P = 0 ∧ gToAffine p = ⟨0, 0, 0⟩) ∨ ∃ x y hn, P = Point.some x y hn ∧ gToAffine p = ⟨x, y, 1⟩ := by
  rcases P with _ | ⟨x, y, hn⟩
  · left
    obtain ⟨hx, hy, hz⟩ := gRep_zero.1 hp
    exact ⟨rfl, by simp [gToAffine, hz, sel]⟩
  · right
    obtain ⟨hz, hx, hy⟩ := gRep_some.1 hp
    refine ⟨x, y, hn, rfl, ?_⟩
    simp [gToAffine, hz, sel, hx, hy]

theorem gEqual_iff {p q : Proj F} {P Q : (curve 0 b).Point} (hp : GRep p P) (hq : GRep q Q) :
    gEqual p q = true ↔ P = Q := by
  rw [← C110_equal hp.1 hq.1]
  by_cases h1 : p.z = 0 <;> by_cases h2 : q.z = 0 <;> simp [gEqual, Native.equal, h1, h2]

theorem gIsOnCurve_iff (h : GOk b m3b) (p : Proj F) (h0 : p ≠ ⟨0, 0, 0⟩) :
    gIsOnCurve b p = true ↔ ∃ P : (curve 0 b).Point, GRep p P := by
  have e : gIsOnCurve b p = true ↔ p.y ^ 2 * p.z = p.x ^ 3 + b * p.z ^ 3 := by
    rw [gIsOnCurve, decide_eq_true_eq]
    constructor <;> intro h <;> linear_combination h
  rw [e]
  constructor
  · intro he
    by_cases hz : p.z = 0
    · have hx : p.x = 0 := by
        rw [hz] at he
        have : p.x ^ 3 = 0 := by linear_combination -he
        simpa using this
      refine ⟨0, gRep_zero.2 ⟨hx, fun hy => h0 ?_, hz⟩⟩
      obtain ⟨a, b, c⟩ := p
      simp only at hx hy hz
      rw [hx, hy, hz]
    · have he' : (p.y / p.z) ^ 2 = (p.x / p.z) ^ 3 + 0 * (p.x / p.z) + b := by
        field_simp
        linear_combination he
      have hy : p.y / p.z ≠ 0 := fun hy => h.no (p.x / p.z) (by rw [← he', hy]; ring)
      exact ⟨Point.some _ _ (nonsingular_curve h.two hy he'), gRep_some.2 ⟨hz, by field_simp, by field_simp⟩⟩
  · rintro ⟨P, hP⟩
    rcases P with _ | ⟨x, y, hn⟩
    · obtain ⟨hx, hy, hz⟩ := gRep_zero.1 hP
      rw [hx, hz]; ring
    · obtain ⟨hz, hx, hy⟩ := gRep_some.1 hP
      have := equation_curve.1 hn.1
      rw [hx, hy]
      linear_combination p.z ^ 3 * this

/-- the zero value of the struct is not a representative of the identity: it absorbs every sum -/
theorem gAdd_zeroValue (h : GOk b m3b) (q : Proj F) :
    gAdd m3b ⟨0, 0, 0⟩ q = ⟨0, 0, 0⟩ ∧ gAdd m3b q ⟨0, 0, 0⟩ = ⟨0, 0, 0⟩ := by
  constructor
  · simp [gAdd, h.m3b_eq]
  · simp [gAdd, h.m3b_eq]

end Generic

/-! ## The two curves -/

theorem curveG1B_eq : curveG1B = 4 := const_num (n := 4) (by decide +kernel)

theorem mulBy3b1_eq (x : Fq) : mulBy3b1 x = 3 * curveG1B * x := by
  rw [curveG1B_eq, mulBy3b1]; ring

theorem four_noncube (x : Fq) : x ^ 3 ≠ 4 := by
  intro h
  have h2 : (2 : Fq) ≠ 0 := by decide +kernel
  refine two_noncube (x ^ 2 / 2) ?_
  rw [div_pow, div_eq_iff (pow_ne_zero _ h2)]
  linear_combination (x ^ 3 + 4) * h

theorem g1NoTwo (x : Fq) : x ^ 3 + curveG1B ≠ 0 := by
  rw [curveG1B_eq]
  intro h
  exact four_noncube (-x) (by linear_combination -h)

theorem g1Ok : GOk curveG1B mulBy3b1 := ⟨by decide +kernel, g1NoTwo, mulBy3b1_eq⟩

theorem curveG2B_eq : curveG2B = ⟨4, 4⟩ := by
  rw [curveG2B, const_num (n := 4) (by decide +kernel)]; rfl

theorem curveG23B_eq : curveG23B = ⟨12, 12⟩ := by
  rw [curveG23B, const_num (n := 12) (by decide +kernel)]; rfl

theorem mulBy3b2_eq (x : Fp2 Fq) : mulBy3b2 x = 3 * curveG2B * x := by
  rw [mulBy3b2, curveG23B_eq, curveG2B_eq, show (3 : Fp2 Fq) * ⟨4, 4⟩ = ⟨12, 12⟩ by decide +kernel]
  exact mul_comm _ _

/-- the norm `A² + B²` -/
def norm2 (x : Fp2 Fq) : Fq := x.A * x.A + x.B * x.B

theorem norm2_mul (x y : Fp2 Fq) : norm2 (x * y) = norm2 x * norm2 y := by
  rw [Fp2.mul_def, Fp2.mul_eq]; simp only [norm2]; ring

theorem g2NoTwo (x : Fp2 Fq) : x ^ 3 + curveG2B ≠ 0 := by
  rw [curveG2B_eq]
  intro h
  have h1 : x * x * x = ⟨-4, -4⟩ := by
    have : (⟨-4, -4⟩ : Fp2 Fq) = -⟨4, 4⟩ := rfl
    rw [this]; linear_combination h
  have h2 := congrArg norm2 h1
  rw [norm2_mul, norm2_mul] at h2
  have h3 : norm2 ⟨-4, -4⟩ = 32 := by decide +kernel
  rw [h3] at h2
  have h4 : (2 : Fq) ≠ 0 := by decide +kernel
  refine four_noncube (norm2 x / 2) ?_
  rw [div_pow, div_eq_iff (pow_ne_zero _ h4)]
  linear_combination h2

theorem g2Ok : GOk curveG2B mulBy3b2 := ⟨Fp2.two_ne, g2NoTwo, mulBy3b2_eq⟩

/-- the curve of `G1` -/
abbrev E1 := (curve (0 : Fq) curveG1B).Point

/-- the curve of `G2` -/
abbrev E2 := (curve (0 : Fp2 Fq) curveG2B).Point

end Verif.Bls381
