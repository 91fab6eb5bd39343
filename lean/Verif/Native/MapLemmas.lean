import Mathlib.NumberTheory.LegendreSymbol.Basic
import Verif.Common.Pocklington
import Verif.Native.CurveLemmas

/-!
# The simplified SWU map and polynomial evaluation
-/

namespace Verif.Native

/-- What RFC 9380, 6.6.2 asks of `map_to_curve_simple_swu` for `y² = x³ + A x + B`: `x1` is given by the inverse of
`Z² u⁴ + Z u²`, the abscissa is `x1` if it belongs to a point and `Z u² x1` otherwise, and the ordinate has the
sign of `u`. -/
structure IsSwu {F : Type} [Field F] (A B Z : F) (sgn : F → Bool) (u x y : F) : Prop where
  abscissa : ∃ x1 : F, (Z ^ 2 * u ^ 4 + Z * u ^ 2 = 0 → x1 = B / (Z * A)) ∧
    (Z ^ 2 * u ^ 4 + Z * u ^ 2 ≠ 0 → x1 = -B / A * (1 + 1 / (Z ^ 2 * u ^ 4 + Z * u ^ 2))) ∧
    (IsSquare (x1 ^ 3 + A * x1 + B) → x = x1) ∧ (¬ IsSquare (x1 ^ 3 + A * x1 + B) → x = Z * u ^ 2 * x1)
  equation : y ^ 2 = x ^ 3 + A * x + B
  sign : y ≠ 0 → sgn y = sgn u

/-- The specification determines the point. -/
theorem IsSwu.unique {F : Type} [Field F] {A B Z : F} {sgn : F → Bool} (hs : ∀ y ≠ 0, sgn (-y) = !sgn y)
    {u x y x' y' : F} (h : IsSwu A B Z sgn u x y) (h' : IsSwu A B Z sgn u x' y') : x = x' ∧ y = y' := by
  obtain ⟨x1, a1, a2, a3, a4⟩ := h.abscissa
  obtain ⟨x1', b1, b2, b3, b4⟩ := h'.abscissa
  have e1 : x1 = x1' := by
    by_cases h0 : Z ^ 2 * u ^ 4 + Z * u ^ 2 = 0
    · rw [a1 h0, b1 h0]
    · rw [a2 h0, b2 h0]
  subst e1
  have e : x = x' := by
    by_cases h0 : IsSquare (x1 ^ 3 + A * x1 + B)
    · rw [a3 h0, b3 h0]
    · rw [a4 h0, b4 h0]
  subst e
  refine ⟨rfl, ?_⟩
  have e2 : y ^ 2 = y' ^ 2 := h.equation.trans h'.equation.symm
  rcases sq_eq_sq_iff_eq_or_eq_neg.1 e2 with h1 | h1
  · exact h1
  · by_cases h0 : y' = 0
    · rw [h1, h0, neg_zero]
    · have s1 := h'.sign h0
      have s2 := h.sign (by rw [h1]; exact neg_ne_zero.2 h0)
      rw [h1, hs _ h0, s1] at s2
      cases hq : sgn u <;> simp [hq] at s2

section Core
variable {p : ℕ} [hp : Fact p.Prime]

omit hp in
theorem odd_half (h4 : p % 4 = 3) : 2 * ((p - 3) / 4) + 1 = p / 2 := by omega

/-- the root computed with the exponent `(p - 3) / 4` -/
theorem root_core (h4 : p % 4 = 3) {n d : ZMod p} (hd : d ≠ 0) {y1 : ZMod p}
    (hy : y1 = (d ^ 2 * (n * d)) ^ ((p - 3) / 4) * (n * d)) :
    (IsSquare (n / d) → y1 ^ 2 * d = n) ∧ (¬ IsSquare (n / d) → y1 ^ 2 * d = -n ∧ y1 ^ 2 * d ≠ n) := by
  have hpow : y1 ^ 2 * d = (d ^ 2 * (n * d)) ^ (p / 2) * n := by
    rw [hy, ← odd_half h4, mul_pow, ← pow_mul, mul_comm _ 2, pow_succ]; ring
  have hsq : d ^ 2 * (n * d) = (d ^ 2) ^ 2 * (n / d) := by field_simp
  rcases eq_or_ne n 0 with hn | hn
  · refine ⟨fun _ => by rw [hpow, hn, mul_zero], fun h => absurd ?_ h⟩
    rw [hn, zero_div]; exact IsSquare.zero
  · have hne : d ^ 2 * (n * d) ≠ 0 := mul_ne_zero (pow_ne_zero _ hd) (mul_ne_zero hn hd)
    have key : IsSquare (n / d) ↔ IsSquare (d ^ 2 * (n * d)) := by
      rw [hsq]
      constructor
      · rintro ⟨r, hr⟩; exact ⟨d ^ 2 * r, by rw [hr]; ring⟩
      · rintro ⟨r, hr⟩
        refine ⟨r / d ^ 2, ?_⟩
        have : d ^ 2 ≠ 0 := pow_ne_zero _ hd
        field_simp at hr ⊢
        linear_combination hr
    have hec := ZMod.euler_criterion p hne
    constructor
    · intro h
      rw [hpow, hec.1 (key.1 h), one_mul]
    · intro h
      have h1 : (d ^ 2 * (n * d)) ^ (p / 2) = -1 := by
        rcases ZMod.pow_div_two_eq_neg_one_or_one p hne with h1 | h1
        · exact absurd (key.2 (hec.2 h1)) h
        · exact h1
      have h2 : y1 ^ 2 * d = -n := by rw [hpow, h1]; ring
      refine ⟨h2, fun h3 => hn ?_⟩
      have h22 : (2 : ZMod p) ≠ 0 := by
        have : ((2 : ℕ) : ZMod p) ≠ 0 := by
          rw [Ne, ZMod.natCast_eq_zero_iff]
          intro hdv
          have := Nat.le_of_dvd (by norm_num) hdv
          omega
        exact_mod_cast this
      have : 2 * n = 0 := by linear_combination h2 - h3
      exact (mul_eq_zero.1 this).resolve_left h22

/-- the two branches of the map, before the sign is fixed -/
theorem swu_core (h4 : p % 4 = 3) {A B Z c2 : ZMod p} (hA : A ≠ 0) (hZ : Z ≠ 0) (hc : c2 ^ 2 = -Z ^ 3)
    (hex : IsSquare ((B / (Z * A)) ^ 3 + A * (B / (Z * A)) + B)) {u t s x1n xd n d y1 : ZMod p}
    (ht : t = Z * u ^ 2) (hs : s = t ^ 2 + t) (hx1 : x1n = (s + 1) * B)
    (hxd : xd = if -A * s = 0 then Z * A else -A * s) (hn : n = x1n ^ 3 + A * x1n * xd ^ 2 + B * xd ^ 3)
    (hd : d = xd ^ 3) (hy : y1 = (d ^ 2 * (n * d)) ^ ((p - 3) / 4) * (n * d)) :
    xd ≠ 0 ∧
    (Z ^ 2 * u ^ 4 + Z * u ^ 2 = 0 → x1n / xd = B / (Z * A)) ∧
    (Z ^ 2 * u ^ 4 + Z * u ^ 2 ≠ 0 → x1n / xd = -B / A * (1 + 1 / (Z ^ 2 * u ^ 4 + Z * u ^ 2))) ∧
    (IsSquare ((x1n / xd) ^ 3 + A * (x1n / xd) + B) → y1 ^ 2 * d = n ∧
      y1 ^ 2 = (x1n / xd) ^ 3 + A * (x1n / xd) + B) ∧
    (¬ IsSquare ((x1n / xd) ^ 3 + A * (x1n / xd) + B) → y1 ^ 2 * d ≠ n ∧
      (y1 * c2 * u ^ 2 * u) ^ 2 = (t * x1n / xd) ^ 3 + A * (t * x1n / xd) + B) := by
  have hs' : Z ^ 2 * u ^ 4 + Z * u ^ 2 = s := by rw [hs, ht]; ring
  have hz : -A * s = 0 ↔ s = 0 := by simp [hA]
  have hxd0 : xd ≠ 0 := by
    rw [hxd]
    split
    · exact mul_ne_zero hZ hA
    · assumption
  have hd0 : d ≠ 0 := by rw [hd]; exact pow_ne_zero _ hxd0
  have hg : n / d = (x1n / xd) ^ 3 + A * (x1n / xd) + B := by rw [hn, hd]; field_simp
  obtain ⟨r1, r2⟩ := root_core h4 hd0 hy
  rw [hg] at r1 r2
  have hu : ∀ {y g : ZMod p}, y ^ 2 * d = g * d → y ^ 2 = g := fun h => mul_right_cancel₀ hd0 h
  have c1 : s = 0 → x1n / xd = B / (Z * A) := fun h => by
    rw [hx1, hxd, if_pos (hz.2 h), h, zero_add, one_mul]
  refine ⟨hxd0, fun h => c1 (hs' ▸ h), fun h => ?_, fun h => ⟨r1 h, hu ?_⟩, fun h => ⟨(r2 h).2, hu ?_⟩⟩
  · rw [hs'] at h ⊢
    rw [hx1, hxd, if_neg (fun h0 => h (hz.1 h0))]
    field_simp
  · rw [r1 h, ← hg, div_mul_cancel₀ _ hd0]
  · have hs0 : s ≠ 0 := fun h0 => h (by rw [c1 h0]; exact hex)
    have hxd' : xd = -A * s := by rw [hxd, if_neg (fun h0 => hs0 (hz.1 h0))]
    have e1 : (y1 * c2 * u ^ 2 * u) ^ 2 * d = t ^ 3 * n := by
      have := (r2 h).1
      rw [ht]
      linear_combination c2 ^ 2 * u ^ 6 * this - n * u ^ 6 * hc
    have e2 : ((t * x1n / xd) ^ 3 + A * (t * x1n / xd) + B) * d
        = (t * x1n) ^ 3 + A * (t * x1n) * xd ^ 2 + B * xd ^ 3 := by rw [hd]; field_simp
    rw [e1, e2, hn, hx1, hxd', hs]
    ring

end Core

theorem not_isSquare_of_powMod {p : ℕ} [hp : Fact p.Prime] (h2 : p % 2 = 1) {fuel a : ℕ} (hf : p < 2 ^ fuel)
    (h : Pock.powMod p fuel a (p / 2) 1 = p - 1) : ¬ IsSquare ((a : ℕ) : ZMod p) := by
  have h1 := Pock.powMod_eq p fuel a (p / 2) 1 (lt_of_le_of_lt (Nat.div_le_self _ _) hf)
  have hp2 := hp.out.two_le
  rw [h, Nat.cast_sub (by omega), ZMod.natCast_self, Nat.cast_one, one_mul, zero_sub] at h1
  have h22 : (-1 : ZMod p) ≠ 1 := by
    have : Fact (2 < p) := ⟨by omega⟩
    exact ZMod.neg_one_ne_one
  have h0 : ((a : ℕ) : ZMod p) ≠ 0 := by
    intro h0
    rw [h0, zero_pow (by omega)] at h1
    exact neg_ne_zero.2 one_ne_zero h1
  rw [ZMod.euler_criterion p h0, ← h1]
  exact h22

/-! ## Polynomials given by lists of coefficients -/

section Poly
variable {R : Type} [CommRing R]

/-- the value at `x` of the polynomial with the coefficients `l`, lowest first -/
def evalL (l : List R) (x : R) : R := l.foldr (fun c acc => c + x * acc) 0

theorem evalL_nil (x : R) : evalL [] x = 0 := rfl
theorem evalL_cons (c : R) (l : List R) (x : R) : evalL (c :: l) x = c + x * evalL l x := rfl

/-- coefficients in `ℕ`, modulo `m` -/
def addN (m : ℕ) : List ℕ → List ℕ → List ℕ
  | [], l => l
  | l, [] => l
  | a :: l, b :: k => (a + b) % m :: addN m l k

def smulN (m c : ℕ) (l : List ℕ) : List ℕ := l.map fun a => c * a % m

def mulN (m : ℕ) : List ℕ → List ℕ → List ℕ
  | [], _ => []
  | a :: l, k => addN m (smulN m a k) (0 :: mulN m l k)

def castL (m : ℕ) (l : List ℕ) : List (ZMod m) := l.map fun a => ((a : ℕ) : ZMod m)

variable {m : ℕ}

theorem evalL_castL_cons (a : ℕ) (l : List ℕ) (x : ZMod m) :
    evalL (castL m (a :: l)) x = a + x * evalL (castL m l) x := rfl

theorem evalL_addN (a b : List ℕ) (x : ZMod m) :
    evalL (castL m (addN m a b)) x = evalL (castL m a) x + evalL (castL m b) x := by
  induction a generalizing b with
  | nil => rw [addN]; simp [castL, evalL]
  | cons c l ih =>
    cases b with
    | nil => rw [addN]; simp [castL, evalL]; simp
    | cons d k =>
      rw [addN, evalL_castL_cons, evalL_castL_cons, evalL_castL_cons, ih, ZMod.natCast_mod]
      push_cast
      ring

theorem evalL_smulN (c : ℕ) (l : List ℕ) (x : ZMod m) :
    evalL (castL m (smulN m c l)) x = c * evalL (castL m l) x := by
  induction l with
  | nil => simp [smulN, castL, evalL]
  | cons a l ih =>
    change evalL (castL m (c * a % m :: smulN m c l)) x = _
    rw [evalL_castL_cons, evalL_castL_cons, ih, ZMod.natCast_mod]
    push_cast
    ring

theorem evalL_mulN (a b : List ℕ) (x : ZMod m) :
    evalL (castL m (mulN m a b)) x = evalL (castL m a) x * evalL (castL m b) x := by
  induction a with
  | nil => simp [mulN, castL, evalL]
  | cons c l ih =>
    rw [mulN, evalL_addN, evalL_smulN, evalL_castL_cons, evalL_castL_cons, ih, Nat.cast_zero]
    ring

end Poly

end Verif.Native
