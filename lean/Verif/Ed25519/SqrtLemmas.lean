import Mathlib.NumberTheory.LegendreSymbol.Basic
import Verif.Ed25519.PointModel

/-!
# The square root of a ratio and the decoding of points
-/

set_option exponentiation.threshold 1000

namespace Verif.Ed25519

open Primes Verif.Curves.Ed

section
variable {p : ℕ} [hpF : Fact p.Prime]

/-- modulo a prime that is 5 modulo 8 the candidate is a root up to a fourth root of one -/
theorem ratio_core {k : ℕ} (hp : p = 8 * k + 5) {u v : ZMod p} (hu : u ≠ 0) (hv : v ≠ 0) :
    v * (u * (v ^ 2 * v) * (u * (v ^ 2 * v) * (v ^ 2) ^ 2) ^ k) ^ 2 = u * (u * v ^ 7) ^ (2 * k + 1) ∧
    (IsSquare (u / v) → ((u * v ^ 7) ^ (2 * k + 1)) ^ 2 = 1) ∧
    (¬ IsSquare (u / v) → ((u * v ^ 7) ^ (2 * k + 1)) ^ 2 = -1) := by
  have hw : u * v ^ 7 ≠ 0 := mul_ne_zero hu (pow_ne_zero _ hv)
  have hsq : IsSquare (u / v) ↔ IsSquare (u * v ^ 7) := by
    constructor
    · rintro ⟨r, hr⟩
      refine ⟨r * v ^ 4, ?_⟩
      have : u = r * r * v := by rw [← hr, div_mul_cancel₀ _ hv]
      rw [this]; ring
    · rintro ⟨r, hr⟩
      refine ⟨r / v ^ 4, ?_⟩
      field_simp
      linear_combination hr
  have he : (u * v ^ 7) ^ (p / 2) = ((u * v ^ 7) ^ (2 * k + 1)) ^ 2 := by
    rw [← pow_mul]; congr 1; omega
  refine ⟨?_, fun h => ?_, fun h => ?_⟩
  · have e : u * (v ^ 2 * v) * (v ^ 2) ^ 2 = u * v ^ 7 := by ring
    rw [e, mul_pow _ (_ ^ k), ← pow_mul, mul_comm k 2, pow_succ]
    ring
  · rw [← he]; exact (ZMod.euler_criterion p hw).1 (hsq.1 h)
  · rw [← he]
    rcases ZMod.pow_div_two_eq_neg_one_or_one p hw with h1 | h1
    · exact absurd (hsq.2 ((ZMod.euler_criterion p hw).2 h1)) h
    · exact h1

/-- the product of two non-squares is a square -/
theorem isSquare_mul_of_not {a b : ZMod p} (ha : ¬ IsSquare a) (hb : ¬ IsSquare b) : IsSquare (a * b) := by
  have ha0 : a ≠ 0 := by rintro rfl; exact ha ⟨0, by simp⟩
  have hb0 : b ≠ 0 := by rintro rfl; exact hb ⟨0, by simp⟩
  rw [ZMod.euler_criterion p (mul_ne_zero ha0 hb0), mul_pow]
  rw [ZMod.euler_criterion p ha0] at ha
  rw [ZMod.euler_criterion p hb0] at hb
  rw [(ZMod.pow_div_two_eq_neg_one_or_one p ha0).resolve_left ha,
    (ZMod.pow_div_two_eq_neg_one_or_one p hb0).resolve_left hb]
  ring

theorem val_neg_parity (hodd : p % 2 = 1) {x : ZMod p} (hx : x ≠ 0) : (-x).val % 2 = 1 - x.val % 2 := by
  have : NeZero p := ⟨hpF.out.pos.ne'⟩
  have : NeZero x := ⟨hx⟩
  rw [ZMod.val_neg_of_ne_zero]
  have := ZMod.val_lt x
  omega

end

theorem edp_eq : edp = 8 * exp22523 + 5 := by decide +kernel

theorem edp_odd : edp % 2 = 1 := by decide +kernel

theorem neg_parity {x : Fp} (hx : x ≠ 0) : (-x).val % 2 = 1 - x.val % 2 := val_neg_parity edp_odd hx

theorem feAbs_even (x : Fp) : (feAbs x).val % 2 = 0 := by
  unfold feAbs
  split_ifs with h
  · have : x ≠ 0 := by rintro rfl; simp at h
    rw [neg_parity this, h]
  · omega

theorem feAbs_sq (x : Fp) : (feAbs x) ^ 2 = x ^ 2 := by
  unfold feAbs
  split_ifs
  · ring
  · rfl

theorem sqrtM1_eq : sqrtM1 = -iEd := by
  have h : ((limbs51 [533094393274173, 2016890930128738, 18285341111199, 134597186663265, 1486323764102114] + iN : ℕ) : Fp)
      = 0 := (ZMod.natCast_eq_zero_iff _ _).2 (Nat.dvd_of_mod_eq_zero (by decide +kernel))
  rw [Nat.cast_add] at h
  rw [sqrtM1, iEd]
  exact eq_neg_of_add_eq_zero_left h

theorem sqrtM1_sq : sqrtM1 ^ 2 = -1 := by rw [sqrtM1_eq, neg_sq, iEd_sq]

/-- the branches of `sqrtRatio`, for a candidate `r` -/
theorem select_core {F : Type} [Field F] [DecidableEq F] (h2 : (2 : F) ≠ 0) {i : F} (hi : i ^ 2 = -1) {u v r t : F}
    (hu : u ≠ 0) (hc : v * r ^ 2 = u * t) :
    (t ^ 2 = 1 → (decide (v * r ^ 2 = u) || decide (v * r ^ 2 = -u)) = true ∧
      v * (if decide (v * r ^ 2 = -u) || decide (v * r ^ 2 = -u * i) then r * i else r) ^ 2 = u) ∧
    (t ^ 2 = -1 → (decide (v * r ^ 2 = u) || decide (v * r ^ 2 = -u)) = false ∧
      v * (if decide (v * r ^ 2 = -u) || decide (v * r ^ 2 = -u * i) then r * i else r) ^ 2 = i * u) := by
  have n1 : (1 : F) ≠ -1 := fun h => h2 (by linear_combination h)
  have e1 : v * r ^ 2 = u ↔ t = 1 := by
    rw [hc]; exact ⟨fun h => mul_left_cancel₀ hu (by rw [h, mul_one]), fun h => by rw [h, mul_one]⟩
  have e2 : v * r ^ 2 = -u ↔ t = -1 := by
    rw [hc]; exact ⟨fun h => mul_left_cancel₀ hu (by rw [h]; ring), fun h => by rw [h]; ring⟩
  have e3 : v * r ^ 2 = -u * i ↔ t = -i := by
    rw [hc]; exact ⟨fun h => mul_left_cancel₀ hu (by rw [h]; ring), fun h => by rw [h]; ring⟩
  simp only [e1, e2, e3, Bool.or_eq_true, decide_eq_true_eq]
  constructor
  · intro ht
    rcases mul_self_eq_one_iff.1 ((pow_two t).symm.trans ht) with rfl | rfl
    · have : ¬ ((1 : F) = -1 ∨ (1 : F) = -i) := by
        rintro (h | h)
        · exact n1 h
        · exact n1 (by linear_combination (1 - i) * h + hi)
      rw [if_neg this]
      refine ⟨Or.inl rfl, by rw [hc, mul_one]⟩
    · rw [if_pos (Or.inl rfl)]
      refine ⟨Or.inr rfl, ?_⟩
      linear_combination (i ^ 2) * hc - u * hi
  · intro ht
    have t1 : t ≠ 1 := by rintro rfl; exact n1 (by linear_combination ht)
    have t2 : t ≠ -1 := by rintro rfl; exact n1 (by linear_combination ht)
    refine ⟨by simp [t1, t2], ?_⟩
    rcases sq_eq_sq_iff_eq_or_eq_neg.1 (ht.trans hi.symm) with rfl | rfl
    · have : ¬ (t = -1 ∨ t = -t) := by
        rintro (h | h)
        · exact t2 h
        · have : t = 0 := (mul_eq_zero.1 (by linear_combination h : (2 : F) * t = 0)).resolve_left h2
          rw [this] at hi
          have h0 : (1 : F) = 0 := by linear_combination hi
          exact one_ne_zero h0
      rw [if_neg this, hc]
      ring
    · rw [if_pos (Or.inr rfl)]
      linear_combination (i ^ 2) * hc - u * i * hi

/-- `sqrtRatio` decides whether the ratio is a square and finds the even root -/
theorem sqrtRatio_spec (u v : Fp) (hv : v ≠ 0) :
    (sqrtRatio u v).1.val % 2 = 0 ∧ ((sqrtRatio u v).2 = true ↔ IsSquare (u / v)) ∧
    (IsSquare (u / v) → v * (sqrtRatio u v).1 ^ 2 = u) ∧
    (¬ IsSquare (u / v) → v * (sqrtRatio u v).1 ^ 2 = sqrtM1 * u) := by
  have hk : edp = 8 * exp22523 + 5 := edp_eq
  unfold sqrtRatio
  refine ⟨by simp only [feAbs_even], ?_⟩
  simp only [feAbs_sq]
  generalize exp22523 = k at hk ⊢
  by_cases hu : u = 0
  · subst hu
    have hsq : IsSquare ((0 : Fp) / v) := ⟨0, by simp⟩
    simp [hsq]
  · obtain ⟨hc, h1, h2⟩ := ratio_core hk hu hv
    obtain ⟨s1, s2⟩ := select_core two_ne sqrtM1_sq hu hc
    by_cases hsq : IsSquare (u / v)
    · obtain ⟨a, b⟩ := s1 (h1 hsq)
      exact ⟨⟨fun _ => hsq, fun _ => a⟩, fun _ => b, fun h => absurd hsq h⟩
    · obtain ⟨a, b⟩ := s2 (h2 hsq)
      exact ⟨⟨fun h => (by rw [a] at h; cases h), fun h => absurd h hsq⟩, fun h => absurd h hsq, fun _ => b⟩

theorem sqrtRatio_zero (u : Fp) : sqrtRatio u 0 = (0, decide (u = 0)) := by
  have hk : exp22523 ≠ 0 := by decide +kernel
  unfold sqrtRatio
  generalize exp22523 = k at hk ⊢
  by_cases hu : u = 0
  · subst hu; simp [feAbs]
  · have h1 : ¬ (0 : Fp) = u := fun h => hu h.symm
    simp [feAbs, hu, h1]

/-! ## Decoding -/

theorem libFromXY_eq_ok {x y : Fp} {P : EdPt} : libFromXY x y = .ok P ↔ P.x = x ∧ P.y = y := by
  unfold libFromXY
  split_ifs with h
  · constructor
    · intro e; cases e; exact ⟨rfl, rfl⟩
    · rintro ⟨rfl, rfl⟩; rfl
  · constructor
    · intro e; cases e
    · rintro ⟨rfl, rfl⟩; exact absurd P.eq h

theorem den_ne (y : Fp) : dEd * y ^ 2 + 1 ≠ 0 := by rw [add_comm]; exact den_x y

theorem x_sq' (P : EdPt) : P.x ^ 2 = (P.y ^ 2 - 1) / (dEd * P.y ^ 2 + 1) := by rw [x_sq, add_comm]

/-- a square ratio gives a point -/
theorem root_on_curve {x y : Fp} (h : (dEd * y ^ 2 + 1) * x ^ 2 = y ^ 2 - 1) : -x ^ 2 + y ^ 2 = 1 + dEd * x ^ 2 * y ^ 2 := by
  linear_combination -h

theorem sign_lt {b : List UInt8} (h : b.length = 32) : leNat b / 2 ^ 255 = 0 ∨ leNat b / 2 ^ 255 = 1 := by
  have := leNat_lt b
  rw [h] at this
  have h2 : leNat b / 2 ^ 255 < 2 := by
    rw [Nat.div_lt_iff_lt_mul (by decide)]
    calc leNat b < 256 ^ 32 := this
      _ = 2 * 2 ^ 255 := by decide +kernel
  omega

/-- what `SetBytes` accepts -/
theorem libPointSetBytes_eq_ok {b : List UInt8} {P : EdPt} : libPointSetBytes b = .ok P ↔
    b.length = 32 ∧ P.y = feSetBytes b ∧ (P.x = 0 ∨ P.x.val % 2 = leNat b / 2 ^ 255) := by
  unfold libPointSetBytes
  by_cases hl : b.length = 32
  swap
  · rw [Go.guard_false hl]
    exact ⟨fun h => (by cases h), fun h => absurd h.1 hl⟩
  rw [Go.guard_true hl, Go.ok_bind]
  simp only [hl, true_and]
  obtain ⟨h0, h1, h2, -⟩ := sqrtRatio_spec (feSetBytes b ^ 2 - 1) (dEd * feSetBytes b ^ 2 + 1) (den_ne _)
  generalize sqrtRatio (feSetBytes b ^ 2 - 1) (dEd * feSetBytes b ^ 2 + 1) = c at h0 h1 h2 ⊢
  obtain ⟨r, w⟩ := c
  simp only at h0 h1 h2 ⊢
  rcases w with _ | _
  · rw [Go.guard_false (by simp)]
    constructor
    · intro h; cases h
    · rintro ⟨hy, -⟩
      refine absurd (h1.2 ⟨P.x, ?_⟩) (by simp)
      rw [← hy, ← x_sq', pow_two]
  · rw [Go.guard_true rfl, Go.ok_bind, libFromXY_eq_ok]
    have hr := h2 (h1.1 rfl)
    have hneg : r ≠ 0 → (-r).val % 2 = 1 := fun hne => by rw [neg_parity hne, h0]
    constructor
    · rintro ⟨hx, hy⟩
      refine ⟨hy, ?_⟩
      rw [hx]
      by_cases hr0 : r = 0
      · left; subst hr0; split_ifs <;> simp
      · right
        rcases sign_lt hl with hs | hs
        · rw [if_neg (by rw [hs]; decide), h0, hs]
        · rw [if_pos hs, hneg hr0, hs]
    · rintro ⟨hy, hx⟩
      refine ⟨?_, hy⟩
      have hsq : P.x ^ 2 = r ^ 2 := by
        refine mul_left_cancel₀ (den_ne (feSetBytes b)) ?_
        rw [hr, x_sq', hy, mul_div_cancel₀ _ (den_ne (feSetBytes b))]
      rcases hx with hx | hx
      · have hr0 : r = 0 := by
          rw [hx] at hsq
          exact pow_eq_zero_iff (two_ne_zero) |>.1 (by rw [← hsq]; ring)
        rw [hx, hr0]; split_ifs <;> simp
      · rcases sq_eq_sq_iff_eq_or_eq_neg.1 hsq with e | e
        · rw [e, h0] at hx
          rw [if_neg (by rw [← hx]; decide), e]
        · by_cases hr0 : r = 0
          · rw [e, hr0]; split_ifs <;> simp
          · rw [e, hneg hr0] at hx
            rw [if_pos hx.symm, e]

theorem libPointSetBytes_total (b : List UInt8) : libPointSetBytes b ≠ Go.crash := by
  unfold libPointSetBytes libFromXY
  by_cases hl : b.length = 32
  · rw [Go.guard_true hl, Go.ok_bind]
    simp only []
    generalize sqrtRatio _ _ = c
    obtain ⟨r, w⟩ := c
    cases w
    · rw [Go.guard_false (by simp)]; intro h; cases h
    · rw [Go.guard_true rfl, Go.ok_bind]
      split_ifs <;> (intro h; cases h)
  · rw [Go.guard_false hl]; intro h; cases h

end Verif.Ed25519
