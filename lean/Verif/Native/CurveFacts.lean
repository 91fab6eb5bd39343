import Verif.Common.Primes
import Verif.Native.CurveLemmas
import Mathlib.FieldTheory.Finite.Basic
import Mathlib.GroupTheory.OrderOfElement

/-!
# Evaluation of facts about the concrete curves by the kernel

* a cubic without roots modulo a prime: `x^p - x` is invertible modulo the cubic;
* multiples of a point: the projective formulas on representatives in `ℕ`.
-/

set_option linter.unusedSectionVars false
set_option exponentiation.threshold 1000

namespace Verif.Native.Facts

open Verif.Pock (force force_eq)

/-! ## Roots of `x³ - A·x - B` -/

/-- product of `c0 + c1·x + c2·x²` modulo `x³ = A·x + B` -/
def mulTri (p A B : ℕ) (u v : ℕ × ℕ × ℕ) : ℕ × ℕ × ℕ :=
  match u, v with
  | (u0, u1, u2), (v0, v1, v2) =>
    force ((u1 * v2 + u2 * v1) % p) fun d3 => force (u2 * v2 % p) fun d4 =>
    force ((u0 * v0 + B * d3) % p) fun c0 =>
    force ((u0 * v1 + u1 * v0 + A * d3 + B * d4) % p) fun c1 =>
    force ((u0 * v2 + u1 * v1 + u2 * v0 + A * d4) % p) fun c2 => (c0, c1, c2)

/-- value at `x` -/
def evalTri (p : ℕ) (x : ZMod p) (u : ℕ × ℕ × ℕ) : ZMod p := u.1 + u.2.1 * x + u.2.2 * x ^ 2

theorem evalTri_mul {p A B : ℕ} {x : ZMod p} (hx : x ^ 3 = A * x + B) (u v : ℕ × ℕ × ℕ) :
    evalTri p x (mulTri p A B u v) = evalTri p x u * evalTri p x v := by
  obtain ⟨u0, u1, u2⟩ := u
  obtain ⟨v0, v1, v2⟩ := v
  simp only [mulTri, force_eq, evalTri, ZMod.natCast_mod]
  push_cast
  simp only [ZMod.natCast_mod]
  push_cast
  linear_combination (-((u1 : ZMod p) * v2 + u2 * v1) - (u2 : ZMod p) * v2 * x) * hx

/-- `acc * u ^ e` -/
def powTri (p A B : ℕ) : (fuel : ℕ) → (u : ℕ × ℕ × ℕ) → (e : ℕ) → (acc : ℕ × ℕ × ℕ) → ℕ × ℕ × ℕ
  | 0, _, _, acc => acc
  | fuel + 1, u, e, acc =>
    match (if e % 2 = 1 then mulTri p A B acc u else acc), mulTri p A B u u with
    | (a0, a1, a2), (u0, u1, u2) =>
      force (e / 2) fun e => powTri p A B fuel (u0, u1, u2) e (a0, a1, a2)

theorem evalTri_pow {p A B : ℕ} {x : ZMod p} (hx : x ^ 3 = A * x + B) (fuel : ℕ) :
    ∀ u e acc, e < 2 ^ fuel →
      evalTri p x (powTri p A B fuel u e acc) = evalTri p x acc * evalTri p x u ^ e := by
  induction fuel with
  | zero =>
    intro u e acc he
    have : e = 0 := by simpa using he
    subst this
    simp [powTri]
  | succ fuel ih =>
    intro u e acc he
    have hlt : e / 2 < 2 ^ fuel := by rw [pow_succ] at he; omega
    simp only [powTri, force_eq]
    rw [ih _ _ _ hlt]
    show evalTri p x (if e % 2 = 1 then mulTri p A B acc u else acc)
      * evalTri p x (mulTri p A B u u) ^ (e / 2) = _
    rw [evalTri_mul hx]
    rcases Nat.mod_two_eq_zero_or_one e with h | h
    · rw [if_neg (by omega)]
      conv_rhs => rw [← Nat.div_add_mod e 2, h, add_zero, pow_mul, pow_two]
    · rw [if_pos h, evalTri_mul hx]
      conv_rhs => rw [← Nat.div_add_mod e 2, h, pow_succ, pow_mul, pow_two]
      ring

/-- `(x^p - x)·w = 1` modulo the cubic -/
def noRootCheck (p A B fuel : ℕ) (w : ℕ × ℕ × ℕ) : Bool :=
  let r := powTri p A B fuel (0, 1, 0) p (1, 0, 0)
  p < 2 ^ fuel && mulTri p A B (r.1, r.2.1 + (p - 1), r.2.2) w == (1, 0, 0)

theorem noRoot (p A B fuel : ℕ) [hp : Fact p.Prime] (w : ℕ × ℕ × ℕ)
    (h : noRootCheck p A B fuel w = true) (x : ZMod p) : x ^ 3 ≠ A * x + B := by
  intro hx
  simp only [noRootCheck, Bool.and_eq_true, decide_eq_true_eq, beq_iff_eq] at h
  obtain ⟨hlt, h⟩ := h
  have hr := evalTri_pow hx fuel (0, 1, 0) p (1, 0, 0) hlt
  have h1 := evalTri_mul hx ((powTri p A B fuel (0, 1, 0) p (1, 0, 0)).1,
    (powTri p A B fuel (0, 1, 0) p (1, 0, 0)).2.1 + (p - 1),
    (powTri p A B fuel (0, 1, 0) p (1, 0, 0)).2.2) w
  rw [h] at h1
  generalize powTri p A B fuel (0, 1, 0) p (1, 0, 0) = r at hr h1
  have hxp : evalTri p x (1, 0, 0) * evalTri p x (0, 1, 0) ^ p = x := by
    simp [evalTri, ZMod.pow_card]
  rw [hxp] at hr
  have h0 : evalTri p x (r.1, r.2.1 + (p - 1), r.2.2) = 0 := by
    have hm : ((p - 1 : ℕ) : ZMod p) = -1 := by
      rw [Nat.cast_sub hp.out.one_lt.le]; simp
    simp only [evalTri] at hr ⊢
    rw [Nat.cast_add, hm]
    linear_combination hr
  rw [h0, zero_mul] at h1
  simp [evalTri] at h1

/-! ## Multiples of a point -/

/-- the coordinates with the given representatives -/
def castP (p : ℕ) (t : ℕ × ℕ × ℕ) : Proj (ZMod p) := ⟨t.1, t.2.1, t.2.2⟩

/-- `K256.raw` on representatives -/
def k256Raw (p b : ℕ) (s t : ℕ × ℕ × ℕ) : ℕ × ℕ × ℕ :=
  match s, t with
  | (x1, y1, z1), (x2, y2, z2) =>
    force ((x1 * y2 + y1 * x2) % p) fun xy => force ((y1 * z2 + z1 * y2) % p) fun yz =>
    force ((x1 * z2 + z1 * x2) % p) fun xz => force (y1 * y2 % p) fun yy =>
    force (3 * b * (z1 * z2) % p) fun bzz => force (x1 * x2 % p) fun xx =>
    force (yy + (p - bzz)) fun m => force (yy + bzz) fun n =>
    force ((xy * m + (p - 3 * b * yz * xz % p)) % p) fun x =>
    force ((n * m + 9 * b * xx * xz) % p) fun y =>
    force ((yz * n + 3 * xx * xy) % p) fun z => (x, y, z)

/-- `P256.raw` on representatives -/
def p256Raw (p b : ℕ) (s t : ℕ × ℕ × ℕ) : ℕ × ℕ × ℕ :=
  match s, t with
  | (x1, y1, z1), (x2, y2, z2) =>
    force ((x1 * y2 + y1 * x2) % p) fun xy => force ((y1 * z2 + z1 * y2) % p) fun yz =>
    force ((x1 * z2 + z1 * x2) % p) fun xz => force (y1 * y2 % p) fun yy =>
    force (z1 * z2 % p) fun zz => force (x1 * x2 % p) fun xx =>
    force (3 * (xz + (p - b * zz % p)) % p) fun k =>
    force (yy + (p - k)) fun m => force (yy + k) fun n =>
    force (3 * (b * xz + 3 * (p - zz) + (p - xx)) % p) fun c =>
    force ((3 * xx + 3 * (p - zz)) % p) fun d =>
    force ((n * xy + (p - yz * c % p)) % p) fun x =>
    force ((n * m + d * c) % p) fun y =>
    force ((m * yz + xy * d) % p) fun z => (x, y, z)

theorem cast_sub_mod {p : ℕ} (hp : 0 < p) (c : ℕ) : ((p - c % p : ℕ) : ZMod p) = -c := by
  rw [Nat.cast_sub (Nat.mod_lt _ hp).le, ZMod.natCast_mod]; simp

theorem castP_k256Raw {p : ℕ} [hf : Fact p.Prime] (b : ℕ) (s t : ℕ × ℕ × ℕ) :
    castP p (k256Raw p b s t) = K256.raw (b : ZMod p) (castP p s) (castP p t) := by
  have hp := hf.out.pos
  obtain ⟨x1, y1, z1⟩ := s
  obtain ⟨x2, y2, z2⟩ := t
  simp only [k256Raw, force_eq, castP, K256.raw, ZMod.natCast_mod, Proj.mk.injEq]
  refine ⟨?_, ?_, ?_⟩ <;>
  · simp only [Nat.cast_add, Nat.cast_mul, cast_sub_mod hp, ZMod.natCast_mod]
    push_cast
    ring

theorem castP_p256Raw {p : ℕ} [hf : Fact p.Prime] (b : ℕ) (s t : ℕ × ℕ × ℕ) :
    castP p (p256Raw p b s t) = P256.raw (b : ZMod p) (castP p s) (castP p t) := by
  have hp := hf.out.pos
  obtain ⟨x1, y1, z1⟩ := s
  obtain ⟨x2, y2, z2⟩ := t
  simp only [p256Raw, force_eq, castP, P256.raw, ZMod.natCast_mod, Proj.mk.injEq]
  refine ⟨?_, ?_, ?_⟩ <;>
  · simp only [Nat.cast_add, Nat.cast_mul, cast_sub_mod hp, ZMod.natCast_mod]
    push_cast
    ring

/-- addition with the identity cases -/
def addN (p : ℕ) (raw : ℕ × ℕ × ℕ → ℕ × ℕ × ℕ → ℕ × ℕ × ℕ) (s t : ℕ × ℕ × ℕ) : ℕ × ℕ × ℕ :=
  if t.2.2 % p = 0 then s else if s.2.2 % p = 0 then t else raw s t

/-- `acc + n • base` -/
def ladder (add : ℕ × ℕ × ℕ → ℕ × ℕ × ℕ → ℕ × ℕ × ℕ) :
    (fuel : ℕ) → (base : ℕ × ℕ × ℕ) → (n : ℕ) → (acc : ℕ × ℕ × ℕ) → ℕ × ℕ × ℕ
  | 0, _, _, acc => acc
  | fuel + 1, base, n, acc =>
    match (if n % 2 = 1 then add acc base else acc), add base base with
    | (a0, a1, a2), (u0, u1, u2) =>
      force (n / 2) fun n => ladder add fuel (u0, u1, u2) n (a0, a1, a2)

section
variable {p : ℕ} [hp : Fact p.Prime] {a b : ZMod p} {rawN : ℕ × ℕ × ℕ → ℕ × ℕ × ℕ → ℕ × ℕ × ℕ}
  {raw : Proj (ZMod p) → Proj (ZMod p) → Proj (ZMod p)}

theorem rep_addN (hc : ∀ s t, castP p (rawN s t) = raw (castP p s) (castP p t))
    (ho : RawOk a b raw) (h2 : (2 : ZMod p) ≠ 0) (hno : ∀ x : ZMod p, x ^ 3 + a * x + b ≠ 0)
    {s t : ℕ × ℕ × ℕ} {P Q : (curve a b).Point} (hs : Rep (castP p s) P) (ht : Rep (castP p t) Q) :
    Rep (castP p (addN p rawN s t)) (P + Q) := by
  have h := rep_add_of_rawOk ho h2 hno hs ht
  have e : castP p (addN p rawN s t)
      = selectIdentity (castP p s) (castP p t) (raw (castP p s) (castP p t)) := by
    have hz : ∀ u : ℕ × ℕ × ℕ, u.2.2 % p = 0 ↔ (castP p u).z = 0 := fun u => by
      rw [← Nat.dvd_iff_mod_eq_zero]; exact (ZMod.natCast_eq_zero_iff _ _).symm
    unfold addN selectIdentity
    simp only [← hz]
    split_ifs
    · rfl
    · rfl
    · exact hc s t
  rw [e]; exact h

theorem rep_ladder (hc : ∀ s t, castP p (rawN s t) = raw (castP p s) (castP p t))
    (ho : RawOk a b raw) (h2 : (2 : ZMod p) ≠ 0) (hno : ∀ x : ZMod p, x ^ 3 + a * x + b ≠ 0)
    (fuel : ℕ) : ∀ (base acc : ℕ × ℕ × ℕ) (n : ℕ) (B A : (curve a b).Point), n < 2 ^ fuel →
      Rep (castP p base) B → Rep (castP p acc) A →
      Rep (castP p (ladder (addN p rawN) fuel base n acc)) (A + n • B) := by
  induction fuel with
  | zero =>
    intro base acc n B A hn _ hA
    have : n = 0 := by simpa using hn
    subst this
    simpa [ladder] using hA
  | succ fuel ih =>
    intro base acc n B A hn hB hA
    have hlt : n / 2 < 2 ^ fuel := by rw [pow_succ] at hn; omega
    simp only [ladder, force_eq]
    have hd := rep_addN hc ho h2 hno hB hB
    rcases Nat.mod_two_eq_zero_or_one n with h | h
    · rw [if_neg (by omega)]
      have := ih _ _ _ _ _ hlt hd hA
      rw [← two_nsmul, ← mul_nsmul] at this
      convert this using 2
      congr 1
      omega
    · rw [if_pos h]
      have := ih _ _ _ _ _ hlt hd (rep_addN hc ho h2 hno hA hB)
      rw [← two_nsmul, ← mul_nsmul, add_assoc] at this
      convert this using 2
      rw [← succ_nsmul']
      congr 1
      omega

/-- The multiple computed by the ladder is the point at infinity. -/
theorem nsmul_eq_zero (hc : ∀ s t, castP p (rawN s t) = raw (castP p s) (castP p t))
    (ho : RawOk a b raw) (h2 : (2 : ZMod p) ≠ 0) (hno : ∀ x : ZMod p, x ^ 3 + a * x + b ≠ 0)
    (fuel n : ℕ) (hn : n < 2 ^ fuel) (g : ℕ × ℕ × ℕ) (G : (curve a b).Point)
    (hg : Rep (castP p g) G)
    (h : (ladder (addN p rawN) fuel g n (0, 0, 0)).2.2 % p = 0) : n • G = 0 := by
  have hr := rep_ladder hc ho h2 hno fuel g (0, 0, 0) n G 0 hn hg (by
    rw [rep_zero]; simp [castP])
  rw [zero_add] at hr
  rcases hG : n • G with _ | ⟨x, y, hxy⟩
  · rfl
  · rw [hG] at hr
    refine absurd ?_ hr.1
    exact (ZMod.natCast_eq_zero_iff _ _).2 (Nat.dvd_of_mod_eq_zero h)

end

end Verif.Native.Facts
