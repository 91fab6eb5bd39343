import Verif.Bls381.PairModel
import Verif.Bls381.AteLemmas
import Verif.Common.GoList

/-!
# The loops of the pairing engine compute Miller's function
-/

set_option linter.unusedSectionVars false

namespace Verif.Bls381

open Verif.Primes Verif.Native WeierstrassCurve.Affine Tower

/-! ## The steps -/

/-- Jacobian coordinates: `(x/z², y/z³)` -/
def JRep (c : Proj (Fp2 Fq)) : E2 → Prop
  | .zero => False
  | .some x y _ => c.z ≠ 0 ∧ c.x = x * c.z ^ 2 ∧ c.y = y * c.z ^ 3

/-- the coefficients are those of the line through two points, times a number: with the slope `m`, the line is
`y - m x + (m x₁ - y₁)` -/
def IsLine (co : Coeffs) : E2 → E2 → Prop
  | .some x₁ y₁ _, .some x₂ y₂ _ => ¬ (x₁ = x₂ ∧ y₁ = -y₂) ∧ co.a ≠ 0 ∧
      co.b = -((curve 0 curveG2B).slope x₁ x₂ y₁ y₂ * co.a) ∧
      co.c = ((curve 0 curveG2B).slope x₁ x₂ y₁ y₂ * x₁ - y₁) * co.a
  | _, _ => False

theorem doublingStep_ok {c : Proj (Fp2 Fq)} {A : E2} (h : JRep c A) :
    IsLine (doublingStep c).1 A A ∧ JRep (doublingStep c).2 (A + A) := by
  rcases A with _ | ⟨x, y, hn⟩
  · exact h.elim
  obtain ⟨hz, hx, hy⟩ := h
  have hy0 : y ≠ 0 := by
    rintro rfl
    exact g2Ok.no x (by rw [← equation_curve.1 hn.1]; ring)
  have h2 : (2 : Fp2 Fq) * y ≠ 0 := mul_ne_zero g2Ok.two hy0
  have hne : y ≠ (curve (0 : Fp2 Fq) curveG2B).negY x y := by
    rw [negY_curve]
    intro h
    exact h2 (by linear_combination h)
  have hxy : ¬ (x = x ∧ y = (curve (0 : Fp2 Fq) curveG2B).negY x y) := fun h => hne h.2
  have hs : (curve (0 : Fp2 Fq) curveG2B).slope x x y y * (2 * y) = 3 * x ^ 2 := by
    rw [slope_of_Y_ne rfl hne, negY_curve, sub_neg_eq_add, ← two_mul, div_mul_cancel₀ _ h2]
    ring
  have hadd : ∃ hn', (Point.some x y hn : E2) + .some x y hn
      = .some ((curve 0 curveG2B).addX x x ((curve 0 curveG2B).slope x x y y))
        ((curve 0 curveG2B).addY x x y ((curve 0 curveG2B).slope x x y y)) hn' := ⟨_, Point.add_some hxy⟩
  obtain ⟨hn', hadd⟩ := hadd
  rw [hadd]
  simp only [IsLine, JRep]
  generalize (curve (0 : Fp2 Fq) curveG2B).slope x x y y = m at *
  have hax : (curve (0 : Fp2 Fq) curveG2B).addX x x m = m ^ 2 - 2 * x := by simp only [addX]; ring
  have hay : (curve (0 : Fp2 Fq) curveG2B).addY x x y m = m * (3 * x - m ^ 2) - y := by
    simp only [addY, negAddY, negY_curve, hax]; ring
  rw [hax, hay]
  have hZ : (doublingStep c).2.z = 2 * y * c.z ^ 4 := by
    simp only [doublingStep, hx, hy]; ring
  have hA : (doublingStep c).1.a = 4 * y * c.z ^ 6 := by
    simp only [doublingStep, hx, hy]; ring
  refine ⟨⟨fun h => h2 (by linear_combination h.2), ?_, ?_, ?_⟩, ?_, ?_, ?_⟩
  · rw [hA, show (4 : Fp2 Fq) * y = 2 * (2 * y) by ring]
    exact mul_ne_zero (mul_ne_zero g2Ok.two h2) (pow_ne_zero _ hz)
  · rw [hA]
    simp only [doublingStep, hx, hy]
    linear_combination (2 * c.z ^ 6) * hs
  · rw [hA]
    simp only [doublingStep, hx, hy]
    linear_combination (-2 * c.z ^ 6 * x) * hs
  · rw [hZ]; exact mul_ne_zero h2 (pow_ne_zero _ hz)
  · rw [hZ]
    simp only [doublingStep, hx, hy]
    linear_combination (-(c.z ^ 8 * (m * (2 * y) + 3 * x ^ 2))) * hs
  · rw [hZ]
    simp only [doublingStep, hx, hy]
    linear_combination (c.z ^ 12 * (((m * (2 * y)) ^ 2 + (m * (2 * y)) * (3 * x ^ 2) + 9 * x ^ 4) - 12 * x * y ^ 2)) * hs

theorem additionStep_ok {c : Proj (Fp2 Fq)} {A : E2} (h : JRep c A) {x₂ y₂ : Fp2 Fq} {h₂} {z : Fp2 Fq}
    (h1 : A ≠ .some x₂ y₂ h₂) (h2 : A ≠ -.some x₂ y₂ h₂) :
    IsLine (additionStep c ⟨x₂, y₂, z⟩).1 A (.some x₂ y₂ h₂) ∧
      JRep (additionStep c ⟨x₂, y₂, z⟩).2 (A + .some x₂ y₂ h₂) := by
  rcases A with _ | ⟨x, y, hn⟩
  · exact h.elim
  obtain ⟨hz, hx, hy⟩ := h
  have hxne : x ≠ x₂ := by
    rintro rfl
    rcases Y_eq_of_X_eq hn.1 h₂.1 rfl with h | h
    · subst h; exact h1 rfl
    · subst h; exact h2 (by rw [Point.neg_some])
  have hd : x - x₂ ≠ 0 := sub_ne_zero.2 hxne
  have hxy : ¬ (x = x₂ ∧ y = (curve (0 : Fp2 Fq) curveG2B).negY x₂ y₂) := fun h => hxne h.1
  have hs : (curve (0 : Fp2 Fq) curveG2B).slope x x₂ y y₂ * (x - x₂) = y - y₂ := by
    rw [slope_of_X_ne hxne, div_mul_cancel₀ _ hd]
  have hadd : ∃ hn', (Point.some x y hn : E2) + .some x₂ y₂ h₂
      = .some ((curve 0 curveG2B).addX x x₂ ((curve 0 curveG2B).slope x x₂ y y₂))
        ((curve 0 curveG2B).addY x x₂ y ((curve 0 curveG2B).slope x x₂ y y₂)) hn' := ⟨_, Point.add_some hxy⟩
  obtain ⟨hn', hadd⟩ := hadd
  rw [hadd]
  simp only [IsLine, JRep]
  generalize (curve (0 : Fp2 Fq) curveG2B).slope x x₂ y y₂ = m at *
  have hax : (curve (0 : Fp2 Fq) curveG2B).addX x x₂ m = m ^ 2 - x - x₂ := by simp only [addX]; ring
  have hay : (curve (0 : Fp2 Fq) curveG2B).addY x x₂ y m = m * (x - (m ^ 2 - x - x₂)) - y := by
    simp only [addY, negAddY, negY_curve, hax]; ring
  rw [hax, hay]
  have hy2 : y₂ = y - m * (x - x₂) := by linear_combination hs
  have hZ : (additionStep c ⟨x₂, y₂, z⟩).2.z = -2 * (x - x₂) * c.z ^ 3 := by
    simp only [additionStep, hx, hy]; ring
  have hA : (additionStep c ⟨x₂, y₂, z⟩).1.a = -4 * (x - x₂) * c.z ^ 3 := by
    simp only [additionStep, hx, hy]; ring
  have n2 : (-2 : Fp2 Fq) ≠ 0 := neg_ne_zero.2 g2Ok.two
  refine ⟨⟨fun h => hxne h.1, ?_, ?_, ?_⟩, ?_, ?_, ?_⟩
  · rw [hA, show (-4 : Fp2 Fq) = -2 * 2 by ring]
    exact mul_ne_zero (mul_ne_zero (mul_ne_zero n2 g2Ok.two) hd) (pow_ne_zero _ hz)
  · rw [hA, hy2]
    simp only [additionStep, hx, hy]
    ring
  · rw [hA, hy2]
    simp only [additionStep, hx, hy]
    ring
  · rw [hZ]; exact mul_ne_zero (mul_ne_zero n2 hd) (pow_ne_zero _ hz)
  · rw [hZ, hy2]
    simp only [additionStep, hx, hy]
    ring
  · rw [hZ, hy2]
    simp only [additionStep, hx, hy]
    ring

/-! ## The lists of coefficients -/

/-- affine coordinates -/
def aff {F : Type} [Field F] {b : F} : (curve 0 b).Point → Proj F
  | .zero => ⟨0, 0, 0⟩
  | .some x y _ => ⟨x, y, 1⟩

theorem toAffine_eq {F : Type} [Field F] [DecidableEq F] {b : F} {p : Proj F} {P : (curve 0 b).Point} (h : GRep p P) :
    gToAffine p = aff P := by
  rcases P with _ | ⟨x, y, hn⟩
  · obtain ⟨-, -, hz⟩ := gRep_zero.1 h
    simp [gToAffine, aff, hz, sel]
  · obtain ⟨hz, hx, hy⟩ := gRep_some.1 h
    simp [gToAffine, aff, hz, hx, hy, sel]

theorem aff_z {F : Type} [Field F] [DecidableEq F] {b : F} (P : (curve 0 b).Point) : (aff P).z = 0 ↔ P = 0 := by
  rcases P with _ | ⟨x, y, hn⟩
  · exact ⟨fun _ => rfl, fun _ => rfl⟩
  · exact ⟨fun h => absurd h one_ne_zero, fun h => by cases h⟩

/-- what is written from bit `n` on -/
def gen (q : Proj (Fp2 Fq)) : ℕ → Proj (Fp2 Fq) → List Coeffs
  | 0, c => [(doublingStep c).1]
  | i + 1, c =>
    if paramBit i = true then
      (doublingStep c).1 :: (additionStep (doublingStep c).2 q).1 :: gen q i (additionStep (doublingStep c).2 q).2
    else (doublingStep c).1 :: gen q i (doublingStep c).2

/-- the number of lines -/
def genLen : ℕ → ℕ
  | 0 => 1
  | i + 1 => if paramBit i = true then genLen i + 2 else genLen i + 1

theorem gen_length (q : Proj (Fp2 Fq)) (n : ℕ) (c : Proj (Fp2 Fq)) : (gen q n c).length = genLen n := by
  induction n generalizing c with
  | zero => rfl
  | succ n ih =>
    rw [gen, genLen]
    split <;> simp [ih]

theorem store_ok {cfs : List Coeffs} {k : ℕ} (h : k < cfs.length) (c : Coeffs) : store cfs k c = .ok (cfs.set k c) :=
  if_pos h

theorem load_ok {cfs : List Coeffs} {k : ℕ} {c : Coeffs} (h : cfs[k]? = some c) : load cfs k = .ok c := by
  rw [load, h]

theorem coeffLoop_ok (q : Proj (Fp2 Fq)) (n : ℕ) : ∀ (c : Proj (Fp2 Fq)) (cfs : List Coeffs) (k : ℕ),
    k + genLen n ≤ cfs.length → ∃ cfs', coeffLoop q n true c cfs k = .ok cfs' ∧ cfs'.length = cfs.length ∧
      (∀ j < k, cfs'[j]? = cfs[j]?) ∧ ∀ i < genLen n, cfs'[k + i]? = (gen q n c)[i]? := by
  induction n with
  | zero =>
    intro c cfs k hk
    have hk' : k < cfs.length := by simp only [genLen] at hk; omega
    refine ⟨_, store_ok hk' _, by simp, fun j hj => by rw [List.getElem?_set_ne (by omega)], fun i hi => ?_⟩
    obtain rfl : i = 0 := by simp only [genLen] at hi; omega
    simp [gen, hk']
  | succ n ih =>
    intro c cfs k hk
    rw [genLen] at hk
    have hk' : k < cfs.length := by split at hk <;> omega
    rw [coeffLoop]
    simp only [Bool.true_eq_false, if_false, store_ok hk', Go.ok_bind]
    by_cases hb : paramBit n = true
    · rw [if_pos hb] at hk
      have hk2 : k + 1 < (cfs.set k (doublingStep c).1).length := by simp; omega
      simp only [hb, if_true, store_ok hk2, Go.ok_bind]
      obtain ⟨cfs', h1, h2, h3, h4⟩ := ih (additionStep (doublingStep c).2 q).2
        ((cfs.set k (doublingStep c).1).set (k + 1) (additionStep (doublingStep c).2 q).1) (k + 1 + 1) (by simp; omega)
      refine ⟨cfs', h1, by simp [h2], fun j hj => ?_, fun i hi => ?_⟩
      · rw [h3 j (by omega), List.getElem?_set_ne (by omega), List.getElem?_set_ne (by omega)]
      · rw [genLen, if_pos hb] at hi
        rw [gen, if_pos hb]
        match i, hi with
        | 0, _ =>
          rw [Nat.add_zero, h3 k (by omega), List.getElem?_set_ne (by omega)]
          simp [hk']
        | 1, _ =>
          rw [h3 (k + 1) (by omega), List.getElem?_set_self hk2]
          simp
        | i + 2, hi =>
          have := h4 i (by omega)
          rw [show k + (i + 2) = k + 1 + 1 + i by omega, this]
          simp
    · rw [if_neg hb] at hk
      rw [Bool.not_eq_true] at hb
      simp only [hb, Bool.false_eq_true, if_false]
      obtain ⟨cfs', h1, h2, h3, h4⟩ := ih (doublingStep c).2 (cfs.set k (doublingStep c).1) (k + 1) (by simp; omega)
      refine ⟨cfs', h1, by simp [h2], fun j hj => ?_, fun i hi => ?_⟩
      · rw [h3 j (by omega), List.getElem?_set_ne (by omega)]
      · rw [genLen, hb, if_neg (by simp)] at hi
        rw [gen, hb, if_neg (by simp)]
        match i, hi with
        | 0, _ =>
          rw [Nat.add_zero, h3 k (by omega)]
          simp [hk']
        | i + 1, hi =>
          have := h4 i (by omega)
          rw [show k + (i + 1) = k + 1 + i by omega, this]
          simp

/-- the slice is exactly as long as needed -/
theorem genLen_total : genLen 62 = coefficientsG2 := by decide +kernel

theorem coeffLoop_skip (q c : Proj (Fp2 Fq)) (cfs : List Coeffs) (k : ℕ) :
    coeffLoop q 64 false c cfs k = coeffLoop q 62 true c cfs k := by
  rw [coeffLoop, coeffLoop]
  simp only [if_true, Bool.false_or, show paramBit 63 = false by decide +kernel, show paramBit 62 = true by decide +kernel]

/-- the coefficients kept for a point -/
theorem prepare_ok {Q : E2} (hQ : Q ≠ 0) : ∃ cfs, prepare (aff Q) = .ok ⟨false, cfs⟩ ∧
    ∀ i < genLen 62, cfs[0 + i]? = (gen (aff Q) 62 (aff Q))[i]? := by
  have hz : decide ((aff Q).z = 0) = false := by rw [decide_eq_false_iff_not, aff_z]; exact hQ
  obtain ⟨cfs, h1, h2, h3, h4⟩ := coeffLoop_ok (aff Q) 62 (aff Q) (List.replicate coefficientsG2 ⟨0, 0, 0⟩) 0
    (by rw [genLen_total, List.length_replicate]; omega)
  refine ⟨cfs, ?_, h4⟩
  rw [prepare, hz]
  simp only [sel, Bool.false_eq_true, if_false, coeffLoop_skip, h1, Go.ok_bind, Go.pure_eq_ok]

/-! ## Miller's loop -/

section Loop
variable {K : Type} [Field K] [DecidableEq K] (T : Tower Fq K)

theorem fr6_vert (A : E2) (xP : Fq) :
    T.fr6 (vert (T.iota2 A) (T.s1.c ^ 2 * T.s1.σ xP)) = vert (T.iota2 A) (T.s1.c ^ 2 * T.s1.σ xP) := by
  rcases A with _ | ⟨x, y, h⟩
  · exact map_one T.fr6
  · simp only [iota2, SMap.hom_some, vert]
    simp only [s1, s2, map_sub, map_mul, map_pow, map_inv₀, fr6_w, fr6_phi, map_one, e2Hom_apply, fr6_e2, inv_neg]
    ring

/-- the value the code multiplies with is the line, up to factors the final power kills -/
theorem pairEll_ok {co : Coeffs} {A B : E2} (h : IsLine co A B) {P : E1} (hP : P ≠ 0) {f : Fp12 Fq} (hf : f ≠ Fp12.zero) :
    pairEll f co (aff P) ≠ Fp12.zero ∧
      chi (T.e12 (pairEll f co (aff P))) = chi (T.e12 f) * chi (ellP (T.iota2 A) (T.iota2 B) (T.iota1 P)) := by
  have hne := ellP_ne (T.apart P A) (T.apart P B) (by rw [← map_add]; exact T.apart P _)
  have hap : Apart (T.iota2 A + T.iota2 B) (T.iota1 P) := by rw [← map_add]; exact T.apart P _
  rcases P with _ | ⟨xP, yP, hn⟩
  · exact absurd rfl hP
  rcases A with _ | ⟨x₁, y₁, h₁⟩
  · exact h.elim
  rcases B with _ | ⟨x₂, y₂, h₂⟩
  · exact h.elim
  obtain ⟨hxy, ha, hb, hc⟩ := h
  have hw := T.w_ne
  have hv : vert (T.iota2 (.some x₁ y₁ h₁) + T.iota2 (.some x₂ y₂ h₂)) (T.s1.c ^ 2 * T.s1.σ xP) ≠ 0 := hap.vert_ne
  have hfix : T.fr6 (vert (T.iota2 (.some x₁ y₁ h₁) + T.iota2 (.some x₂ y₂ h₂)) (T.s1.c ^ 2 * T.s1.σ xP))
      = vert (T.iota2 (.some x₁ y₁ h₁) + T.iota2 (.some x₂ y₂ h₂)) (T.s1.c ^ 2 * T.s1.σ xP) := by
    rw [← map_add]; exact fr6_vert T _ _
  have hline : T.e12 (pairEll f co (aff (Point.some xP yP hn))) = T.e12 f * (T.e2 co.a * T.w ^ 3 *
      (ellP (T.iota2 (.some x₁ y₁ h₁)) (T.iota2 (.some x₂ y₂ h₂)) (T.iota1 (.some xP yP hn)) *
        vert (T.iota2 (.some x₁ y₁ h₁) + T.iota2 (.some x₂ y₂ h₂)) (T.s1.c ^ 2 * T.s1.σ xP))) := by
    have e : ellP (T.iota2 (.some x₁ y₁ h₁)) (T.iota2 (.some x₂ y₂ h₂)) (T.iota1 (.some xP yP hn)) =
        line (T.iota2 (.some x₁ y₁ h₁)) (T.iota2 (.some x₂ y₂ h₂)) (T.s1.c ^ 2 * T.s1.σ xP) (T.s1.c ^ 3 * T.s1.σ yP)
          / vert (T.iota2 (.some x₁ y₁ h₁) + T.iota2 (.some x₂ y₂ h₂)) (T.s1.c ^ 2 * T.s1.σ xP) := rfl
    rw [e, div_mul_cancel₀ _ hv, iota2, SMap.hom_some, SMap.hom_some,
      line_some (fun h => hxy (by have := T.s2.vertical.1 h; rwa [negY_curve] at this)), T.s2.slope]
    simp only [pairEll, aff, e12_mulByABD, e2_mul0]
    generalize (curve (0 : Fp2 Fq) curveG2B).slope x₁ x₂ y₁ y₂ = m at *
    have eb : T.e2 co.b = -(T.e2 m * T.e2 co.a) := by
      rw [hb]
      exact (T.e2_neg _).trans (by rw [← T.e2_mul]; rfl)
    have ec : T.e2 co.c = (T.e2 m * T.e2 x₁ - T.e2 y₁) * T.e2 co.a := by
      rw [hc, ← e2Hom_apply, ← e2Hom_apply, ← e2Hom_apply, ← e2Hom_apply, ← e2Hom_apply, map_mul, map_sub, map_mul]
    rw [eb, ec]
    simp only [s1, s2, e2Hom_apply, ← T.hw]
    field_simp
    ring
  have hkill : chi (T.e2 co.a * T.w ^ 3 *
      (ellP (T.iota2 (.some x₁ y₁ h₁)) (T.iota2 (.some x₂ y₂ h₂)) (T.iota1 (.some xP yP hn)) *
        vert (T.iota2 (.some x₁ y₁ h₁) + T.iota2 (.some x₂ y₂ h₂)) (T.s1.c ^ 2 * T.s1.σ xP)))
      = chi (ellP (T.iota2 (.some x₁ y₁ h₁)) (T.iota2 (.some x₂ y₂ h₂)) (T.iota1 (.some xP yP hn))) := by
    rw [map_mul, map_mul, map_mul, T.chi_e2 ha, T.chi_w3, T.chi_fixed hv hfix, one_mul, one_mul, mul_one]
  refine ⟨fun h0 => ?_, by rw [hline, map_mul, hkill]⟩
  rw [← T.e12_eq_zero, hline] at h0
  refine mul_ne_zero (fun h => hf (T.e12_eq_zero.1 h)) (mul_ne_zero (mul_ne_zero (fun h => ha (T.e2_eq_zero.1 h))
    (pow_ne_zero _ hw)) (mul_ne_zero hne hv)) h0

/-- the engine that holds given points -/
def engineOf (ds : List (E1 × E2)) : Engine := ds.map fun d => (aff d.1, aff d.2)

/-- with given coefficients -/
def prepsOf (cf : E2 → List Coeffs) (ds : List (E1 × E2)) : List Prepared := ds.map fun d => ⟨false, cf d.2⟩

variable (cf : E2 → List Coeffs)

theorem lineAll_ok (cIdx : ℕ) (A B : E1 × E2 → E2) (ds : List (E1 × E2)) (h : ∀ d ∈ ds, d.1 ≠ 0 ∧
    ∃ co, (cf d.2)[cIdx]? = some co ∧ IsLine co (A d) (B d)) : ∀ f : Fp12 Fq, f ≠ Fp12.zero →
    ∃ f', lineAll (engineOf ds) (prepsOf cf ds) cIdx f = .ok f' ∧ f' ≠ Fp12.zero ∧
      chi (T.e12 f') = chi (T.e12 f) * (ds.map fun d => chi (ellP (T.iota2 (A d)) (T.iota2 (B d)) (T.iota1 d.1))).prod := by
  induction ds with
  | nil => exact fun f hf => ⟨f, rfl, hf, by simp⟩
  | cons d ds ih =>
    intro f hf
    obtain ⟨hP, co, h1, h2⟩ := h d (by simp)
    obtain ⟨h3, h4⟩ := pairEll_ok T h2 hP hf
    obtain ⟨f', h5, h6, h7⟩ := ih (fun d' hd' => h d' (by simp [hd'])) _ h3
    refine ⟨f', ?_, h6, ?_⟩
    · rw [← h5]
      have hz : decide ((aff d.1).z = 0) = false := by rw [decide_eq_false_iff_not, aff_z]; exact hP
      simp only [lineAll, engineOf, prepsOf, List.map_cons, List.zip_cons_cons, List.foldlM_cons, load_ok h1, Go.ok_bind,
        hz, Bool.or_false, sel, Bool.false_eq_true, if_false, Go.pure_eq_ok]
    · rw [h7, h4, List.map_cons, List.prod_cons, mul_assoc]

/-- the points that may be paired: not at infinity, the second one of order `r` -/
def Good (ds : List (E1 × E2)) : Prop := ∀ d ∈ ds, d.1 ≠ 0 ∧ d.2 ≠ 0 ∧ blsr • d.2 = 0

/-- the coefficients from `cIdx` on are those of the loop from bit `n` on, started at the multiples by `k` -/
def Inv (n cIdx k : ℕ) (ds : List (E1 × E2)) : Prop := ∀ d ∈ ds, ∃ c, JRep c (k • d.2) ∧
  ∀ i < genLen n, (cf d.2)[cIdx + i]? = (gen (aff d.2) n c)[i]?

/-- Miller's functions of all pairs -/
def millers (k : ℕ) (ds : List (E1 × E2)) : K := (ds.map fun d => chi (miller k (T.iota2 d.2) (T.iota1 d.1))).prod

theorem millers_double (k : ℕ) (ds : List (E1 × E2)) : millers T (2 * k) ds = millers T k ds ^ 2 *
    (ds.map fun d => chi (ellP (T.iota2 (k • d.2)) (T.iota2 (k • d.2)) (T.iota1 d.1))).prod := by
  rw [millers, millers, pow_two, ← List.prod_map_mul, ← List.prod_map_mul]
  congr 2
  funext d
  rw [two_mul, miller_add T.chi_kills (T.sep d.1) (T.mem_H2 d.2), map_nsmul]

theorem millers_succ (k : ℕ) (ds : List (E1 × E2)) : millers T (k + 1) ds = millers T k ds *
    (ds.map fun d => chi (ellP (T.iota2 (k • d.2)) (T.iota2 d.2) (T.iota1 d.1))).prod := by
  rw [millers, millers, ← List.prod_map_mul]
  congr 2
  funext d
  rw [miller_succ, map_mul, map_nsmul]

theorem smul_ne {Q : E2} (hQ : Q ≠ 0) (hr : blsr • Q = 0) {k : ℕ} (h0 : 0 < k) (hk : k < blsr) : k • Q ≠ 0 := by
  intro h
  have h1 : addOrderOf Q = blsr := by
    have := fact_blsr
    exact addOrderOf_eq_prime hr hQ
  have := addOrderOf_dvd_of_nsmul_eq_zero h
  rw [h1] at this
  exact absurd (Nat.le_of_dvd h0 this) (by omega)

/-- the multiple the loop arrives at -/
def fin : ℕ → ℕ → ℕ
  | 0, k => k
  | n + 1, k => fin n (2 * k + (if paramBit n = true then 1 else 0))

/-- the doubling line -/
theorem step_double {n cIdx k : ℕ} {ds : List (E1 × E2)} (hg : Good ds) (hi : Inv cf n cIdx k ds) {f : Fp12 Fq}
    (hf : f ≠ Fp12.zero) (hM : chi (T.e12 f) = millers T k ds ^ 2) :
    ∃ f', lineAll (engineOf ds) (prepsOf cf ds) cIdx f = .ok f' ∧ f' ≠ Fp12.zero ∧ chi (T.e12 f') = millers T (2 * k) ds := by
  obtain ⟨f', h1, h2, h3⟩ := lineAll_ok T cf cIdx (fun d => k • d.2) (fun d => k • d.2) ds (fun d hd => by
    obtain ⟨c, hc, hl⟩ := hi d hd
    have h0 : 0 < genLen n := by cases n <;> simp [genLen]; split <;> omega
    refine ⟨(hg d hd).1, (doublingStep c).1, ?_, (doublingStep_ok hc).1⟩
    rw [show cIdx = cIdx + 0 from rfl, hl 0 h0]
    cases n with
    | zero => rfl
    | succ n => rw [gen]; split <;> rfl) f hf
  exact ⟨f', h1, h2, by rw [h3, hM, millers_double]⟩

theorem big_r : (2 : ℕ) ^ 64 < blsr := by decide +kernel

theorem add_hyps {Q : E2} (hQ : Q ≠ 0) (hr : blsr • Q = 0) {k : ℕ} (h1 : 1 ≤ k) (hk : 2 * k + 1 < blsr) :
    k • Q + k • Q ≠ Q ∧ k • Q + k • Q ≠ -Q := by
  rw [← two_nsmul, ← mul_nsmul']
  constructor
  · intro h
    have : (2 * k - 1) • Q = 0 := by
      have h2 : (2 * k - 1) • Q + Q = Q := by rw [← succ_nsmul]; convert h using 2; omega
      simpa using h2
    exact smul_ne hQ hr (by omega) (by omega) this
  · intro h
    have : (2 * k + 1) • Q = 0 := by rw [succ_nsmul, h, neg_add_cancel]
    exact smul_ne hQ hr (by omega) hk this

theorem millerBits_ok (n : ℕ) : ∀ (cIdx k : ℕ) (ds : List (E1 × E2)) (f : Fp12 Fq), Good ds → Inv cf n cIdx k ds → 1 ≤ k →
    (k + 1) * 2 ^ n ≤ 2 ^ 63 → f ≠ Fp12.zero → chi (T.e12 f) = millers T k ds ^ 2 →
    ∃ f' cIdx', millerBits (engineOf ds) (prepsOf cf ds) n true cIdx f = .ok (f', cIdx') ∧ f' ≠ Fp12.zero ∧
      Inv cf 0 cIdx' (fin n k) ds ∧ chi (T.e12 f') = millers T (fin n k) ds ^ 2 := by
  induction n with
  | zero => exact fun cIdx k ds f _ hi _ _ hf hM => ⟨f, cIdx, rfl, hf, hi, hM⟩
  | succ n ih =>
    intro cIdx k ds f hg hi h1 hk hf hM
    obtain ⟨f', e1, hf', hM'⟩ := step_double T cf hg hi hf hM
    have hsq : ∀ {g : Fp12 Fq}, g ≠ Fp12.zero → g.square ≠ Fp12.zero := by
      intro g hg h0
      rw [← T.e12_eq_zero, e12_square] at h0
      exact hg (T.e12_eq_zero.1 (pow_eq_zero_iff (by norm_num) |>.1 h0))
    have hkr : 2 * k + 1 < blsr := by
      have h2 := big_r
      have h3 : k + 1 ≤ (k + 1) * 2 ^ (n + 1) := Nat.le_mul_of_pos_right _ (by positivity)
      omega
    rw [millerBits, fin]
    simp only [Bool.true_eq_false, if_false, e1, Go.ok_bind]
    by_cases hb : paramBit n = true
    · simp only [hb, if_true]
      obtain ⟨f'', e2, hf'', hM''⟩ := lineAll_ok T cf (cIdx + 1) (fun d => (2 * k) • d.2) (fun d => d.2) ds (fun d hd => by
        obtain ⟨c, hc, hl⟩ := hi d hd
        obtain ⟨gP, gQ, gr⟩ := hg d hd
        have h2 := hl 1 (by rw [genLen, if_pos hb]; omega)
        rw [gen, if_pos hb] at h2
        refine ⟨gP, _, h2, ?_⟩
        obtain ⟨a1, a2⟩ := add_hyps gQ gr h1 hkr
        have h3 := (doublingStep_ok hc).2
        obtain ⟨P, Q⟩ := d
        rcases Q with _ | ⟨x, y, hn⟩
        · exact absurd rfl gQ
        · have := (additionStep_ok (z := 1) h3 a1 a2).1
          dsimp only at this ⊢
          rw [two_mul, add_nsmul]
          exact this) f' hf'
      simp only [e2, Go.ok_bind]
      refine ih (cIdx + 1 + 1) (2 * k + 1) ds f''.square hg ?_ (by omega) ?_ (hsq hf'') ?_
      · intro d hd
        obtain ⟨c, hc, hl⟩ := hi d hd
        obtain ⟨gP, gQ, gr⟩ := hg d hd
        obtain ⟨a1, a2⟩ := add_hyps gQ gr h1 hkr
        have h3 := (doublingStep_ok hc).2
        refine ⟨(additionStep (doublingStep c).2 (aff d.2)).2, ?_, fun i hi' => ?_⟩
        · obtain ⟨P, Q⟩ := d
          rcases Q with _ | ⟨x, y, hn⟩
          · exact absurd rfl gQ
          · have := (additionStep_ok (z := 1) h3 a1 a2).2
            dsimp only at this ⊢
            rw [succ_nsmul, two_mul, add_nsmul]
            exact this
        · have h2 := hl (i + 2) (by rw [genLen, if_pos hb]; omega)
          rw [gen, if_pos hb] at h2
          rw [show cIdx + 1 + 1 + i = cIdx + (i + 2) by omega, h2]
          rfl
      · calc (2 * k + 1 + 1) * 2 ^ n = (k + 1) * 2 ^ (n + 1) := by rw [pow_succ]; ring
          _ ≤ 2 ^ 63 := hk
      · rw [e12_square, map_pow, hM'', hM', millers_succ]
    · rw [Bool.not_eq_true] at hb
      simp only [hb, Bool.false_eq_true, if_false, Nat.add_zero]
      refine ih (cIdx + 1) (2 * k) ds f'.square hg ?_ (by omega) ?_ (hsq hf') ?_
      · intro d hd
        obtain ⟨c, hc, hl⟩ := hi d hd
        refine ⟨(doublingStep c).2, ?_, fun i hi' => ?_⟩
        · rw [two_mul, add_nsmul]; exact (doublingStep_ok hc).2
        · have h2 := hl (i + 1) (by rw [genLen, hb, if_neg (by simp)]; omega)
          rw [gen, hb, if_neg (by simp)] at h2
          rw [show cIdx + 1 + i = cIdx + (i + 1) by omega, h2]
          rfl
      · refine le_trans ?_ hk
        rw [pow_succ]
        calc (2 * k + 1) * 2 ^ n ≤ (2 * k + 2) * 2 ^ n := Nat.mul_le_mul_right _ (by omega)
          _ = (k + 1) * (2 ^ n * 2) := by ring
      · rw [e12_square, map_pow, hM']

/-- the loops together arrive at the curve parameter -/
theorem fin_absX : 2 * fin 62 1 = absX := by decide +kernel

theorem millerBits_skip (e : Engine) (coeffs : List Prepared) (cIdx : ℕ) (f : Fp12 Fq) :
    millerBits e coeffs 64 false cIdx f = millerBits e coeffs 62 true cIdx f := by
  rw [millerBits, millerBits]
  simp only [if_true, Bool.false_or, show paramBit 63 = false by decide +kernel, show paramBit 62 = true by decide +kernel]

theorem e12_conj (x : Fp12 Fq) : T.e12 x.conj = T.fr6 (T.e12 x) := (T.fr6_conj x).symm

theorem prod_map_inv {α : Type} (g : α → K) (l : List α) : (l.map g).prod⁻¹ = (l.map fun x => (g x)⁻¹).prod := by
  induction l with
  | nil => simp
  | cons a l ih => rw [List.map_cons, List.map_cons, List.prod_cons, List.prod_cons, mul_inv, ih]

/-- what the engine returns -/
theorem pairing_ok {ds : List (E1 × E2)} (hg : Good ds) :
    ∃ g, enginePairing (engineOf ds) = .ok g ∧ T.e12 g = (ds.map fun d => T.ate d.1 d.2).prod := by
  rw [enginePairing]
  split
  · next h =>
    have : ds = [] := by simpa [engineOf] using h
    subst this
    exact ⟨_, rfl, by simp⟩
  have hex : ∀ Q : E2, ∃ cfs, Q ≠ 0 → prepare (aff Q) = .ok ⟨false, cfs⟩ ∧
      ∀ i < genLen 62, cfs[0 + i]? = (gen (aff Q) 62 (aff Q))[i]? := by
    intro Q
    by_cases hQ : Q = 0
    · exact ⟨[], fun h => absurd hQ h⟩
    · obtain ⟨cfs, h⟩ := prepare_ok hQ
      exact ⟨cfs, fun _ => h⟩
  choose cf hcf using hex
  have hc : computeCoeffs (engineOf ds) = .ok (prepsOf cf ds) := by
    rw [computeCoeffs, Go.mapM_eq_ok, engineOf, prepsOf, List.forall₂_map_left_iff, List.forall₂_map_right_iff,
      List.forall₂_same]
    exact fun d hd => (hcf d.2 (hg d hd).2.1).1
  have hinv : Inv cf 62 0 1 ds := by
    intro d hd
    obtain ⟨P, Q⟩ := d
    refine ⟨aff Q, ?_, (hcf Q (hg _ hd).2.1).2⟩
    rw [one_nsmul]
    rcases Q with _ | ⟨x, y, hn⟩
    · exact absurd rfl (hg _ hd).2.1
    · exact ⟨one_ne_zero, by simp [aff], by simp [aff]⟩
  have hone : (Fp12.one : Fp12 Fq) ≠ Fp12.zero := by decide +kernel
  have hM1 : chi (T.e12 Fp12.one) = millers T 1 ds ^ 2 := by
    have : millers T 1 ds = 1 := by
      rw [millers]
      have : (ds.map fun d => chi (miller 1 (T.iota2 d.2) (T.iota1 d.1))) = ds.map fun _ => (1 : K) := by
        refine List.map_congr_left fun d _ => ?_
        rw [miller_one (T.apart d.1 d.2), map_one]
      rw [this]; simp
    rw [this, e12_one, map_one, one_pow]
  obtain ⟨f1, cIdx, e1, hf1, hi1, hM⟩ := millerBits_ok T cf 62 0 1 ds Fp12.one hg hinv le_rfl (by norm_num) hone hM1
  obtain ⟨f2, e2, hf2, hM2⟩ := step_double T cf hg hi1 hf1 hM
  rw [fin_absX] at hM2
  have hf3 : f2.conj ≠ Fp12.zero := by
    intro h
    rw [← T.e12_eq_zero, e12_conj, map_eq_zero] at h
    exact hf2 (T.e12_eq_zero.1 h)
  refine ⟨finalExponentiation f2.conj f2.conj, ?_, ?_⟩
  · rw [hc]
    simp only [Go.ok_bind, millerLoop, millerBits_skip, e1, e2, Go.pure_eq_ok]
  · rw [C152_final T _ hf3, ← chi_apply, e12_conj, T.chi_fr6 (fun h => hf2 (T.e12_eq_zero.1 h)), hM2, millers]
    simp only [ate]
    exact prod_map_inv _ _

end Loop

end Verif.Bls381
