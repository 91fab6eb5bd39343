import Mathlib.Tactic.Ring
import Mathlib.Tactic.NormNum
import Mathlib.Algebra.Order.Ring.Nat
import Verif.Native.LimbModel

/-!
# Lemmas about 64-bit words
-/

namespace Verif.Native

set_option exponentiation.threshold 600

theorem borrow_eq {a b : ℕ} (ha : a < 2 ^ 32) (hb : b < 2 ^ 32) :
    (2 ^ 64 - b + a) % 2 ^ 64 / 2 ^ 32 % 2 = if a < b then 1 else 0 := by
  split <;> omega

/-- the state of the comparison: `gt` and `lt` are the 0/1 flags -/
def flags : Ordering → UInt64 × UInt64
  | .lt => (0, 1)
  | .eq => (0, 0)
  | .gt => (1, 0)

theorem borrowBit_eq {a b : UInt64} (ha : a.toNat < 2 ^ 32) (hb : b.toNat < 2 ^ 32) (m : Bool) :
    borrowBit (a - b) (if m then 1 else 0) = if a.toNat < b.toNat ∧ m = false then 1 else 0 := by
  have key : ((a - b) >>> 32 &&& 1) = if a.toNat < b.toNat then 1 else 0 := by
    apply UInt64.toNat_inj.1
    rw [UInt64.toNat_and, UInt64.toNat_shiftRight, UInt64.toNat_sub]
    show ((2 ^ 64 - b.toNat + a.toNat) % 2 ^ 64) >>> 32 &&& (2 ^ 1 - 1) = _
    rw [Nat.and_two_pow_sub_one_eq_mod, Nat.shiftRight_eq_div_pow, pow_one, borrow_eq ha hb]
    split <;> rfl
  unfold borrowBit
  rw [key]
  cases m <;> by_cases h : a.toNat < b.toNat <;> simp only [h, if_true, if_false] <;> decide

theorem hi_lt (x : UInt64) : (x >>> 32).toNat < 2 ^ 32 := by
  rw [UInt64.toNat_shiftRight]
  show x.toNat >>> 32 < 2 ^ 32
  rw [Nat.shiftRight_eq_div_pow]
  have := x.toNat_lt
  omega

theorem hi_eq (x : UInt64) : (x >>> 32).toNat = x.toNat / 2 ^ 32 := by
  rw [UInt64.toNat_shiftRight]
  show x.toNat >>> 32 = _
  rw [Nat.shiftRight_eq_div_pow]

theorem lo_eq (x : UInt64) : (x &&& 0xffffffff).toNat = x.toNat % 2 ^ 32 := by
  rw [UInt64.toNat_and]
  show x.toNat &&& (2 ^ 32 - 1) = _
  rw [Nat.and_two_pow_sub_one_eq_mod]

theorem cmpStep_eq (o : Ordering) (l r : UInt64) :
    cmpStep (flags o) l r = flags (o.then (compare l.toNat r.toNat)) := by
  have hr := hi_lt r
  have hl := hi_lt l
  have hr' : (r &&& 0xffffffff).toNat < 2 ^ 32 := by rw [lo_eq]; exact Nat.mod_lt _ (by norm_num)
  have hl' : (l &&& 0xffffffff).toNat < 2 ^ 32 := by rw [lo_eq]; exact Nat.mod_lt _ (by norm_num)
  have b0 := fun m => borrowBit_eq hr hl m
  have b1 := fun m => borrowBit_eq hl hr m
  have b2 := fun m => borrowBit_eq hr' hl' m
  have b3 := fun m => borrowBit_eq hl' hr' m
  have e0 := b0 false
  have e0' := b0 true
  have e1 := b1 false
  have e1' := b1 true
  have e2 := b2 false
  have e2' := b2 true
  have e3 := b3 false
  have e3' := b3 true
  simp only [Bool.false_eq_true, if_false, if_true, and_true, and_false, Bool.true_eq_false]
    at e0 e0' e1 e1' e2 e2' e3 e3'
  rw [hi_eq, hi_eq] at e0 e1
  rw [lo_eq, lo_eq] at e2 e3
  have z : (0 : UInt64) ||| 0 = 0 := by decide
  have o1 : (1 : UInt64) ||| 0 = 1 := by decide
  have o2 : (0 : UInt64) ||| 1 = 1 := by decide
  have oo : (1 : UInt64) ||| 1 = 1 := by decide
  unfold cmpStep
  cases o
  · simp only [flags, Ordering.then, e0', e1, z]
    split <;> simp only [oo, o1, e2', z, e3] <;> split <;> simp only [oo, o1]
  · rcases lt_trichotomy l.toNat r.toNat with h | h | h
    · have hc : compare l.toNat r.toNat = .lt := Nat.compare_eq_lt.2 h
      have h1 : ¬ r.toNat / 2 ^ 32 < l.toNat / 2 ^ 32 := by omega
      simp only [flags, Ordering.then, hc, e0, h1, if_false, z]
      by_cases h2 : l.toNat / 2 ^ 32 < r.toNat / 2 ^ 32
      · simp only [e1, h2, if_true, o2, e2', z]
        simp only [e3]
        split <;> simp only [oo, o1]
      · have h3 : ¬ r.toNat % 2 ^ 32 < l.toNat % 2 ^ 32 := by omega
        have h4 : l.toNat % 2 ^ 32 < r.toNat % 2 ^ 32 := by omega
        simp only [e1, h2, if_false, z, e2, h3, e3, h4, if_true, o2]
    · have hc : compare l.toNat r.toNat = .eq := Nat.compare_eq_eq.2 h
      rw [hc]
      simp only [flags, Ordering.then, e0, e1, h, lt_self_iff_false, if_false, z, e2, e3]
    · have hc : compare l.toNat r.toNat = .gt := Nat.compare_eq_gt.2 h
      have h1 : ¬ l.toNat / 2 ^ 32 < r.toNat / 2 ^ 32 := by omega
      simp only [flags, Ordering.then, hc, e0]
      by_cases h2 : r.toNat / 2 ^ 32 < l.toNat / 2 ^ 32
      · simp only [h2, if_true, o2, e1', z, e2]
        split
        · simp only [show (1 : UInt64) ||| 1 = 1 by decide, e3', z]
        · simp only [o1, e3', z]
      · have h4 : r.toNat % 2 ^ 32 < l.toNat % 2 ^ 32 := by omega
        simp only [h2, if_false, z, e1, h1, e2, h4, if_true, o2, e3']
  · simp only [flags, Ordering.then, e0]
    split <;> simp only [oo, o1, e1', z, e2] <;> split <;> simp only [oo, o1, e3', z]

theorem Limbs.val_lt (l : Limbs) : l.val < 2 ^ 256 := by
  have h0 := l.l0.toNat_lt
  have h1 := l.l1.toNat_lt
  have h2 := l.l2.toNat_lt
  have h3 := l.l3.toNat_lt
  unfold Limbs.val
  omega

theorem Limbs.val_ofNat {n : ℕ} (h : n < 2 ^ 256) : (Limbs.ofNat n).val = n := by
  unfold Limbs.val Limbs.ofNat
  simp only [UInt64.toNat_ofNat']
  omega

theorem Limbs.val_inj {l m : Limbs} : l.val = m.val ↔ l = m := by
  constructor
  · intro h
    obtain ⟨a0, a1, a2, a3⟩ := l
    obtain ⟨b0, b1, b2, b3⟩ := m
    have h0 := a0.toNat_lt
    have h1 := a1.toNat_lt
    have h2 := a2.toNat_lt
    have h0' := b0.toNat_lt
    have h1' := b1.toNat_lt
    have h2' := b2.toNat_lt
    simp only [Limbs.val] at h
    simp only [Limbs.mk.injEq, ← UInt64.toNat_inj]
    omega
  · rintro rfl; rfl

theorem Limbs.ofNat_val (l : Limbs) : Limbs.ofNat l.val = l :=
  Limbs.val_inj.1 (Limbs.val_ofNat l.val_lt)

theorem sign_ne_zero (t : UInt64) : (t ||| (0 - t)) >>> 63 = 1 ↔ t ≠ 0 := by
  rw [← UInt64.toNat_inj, UInt64.toNat_shiftRight, UInt64.toNat_or, UInt64.toNat_sub]
  show (t.toNat ||| (2 ^ 64 - t.toNat + 0) % 2 ^ 64) >>> 63 = 1 ↔ _
  rw [Nat.shiftRight_or_distrib, Nat.shiftRight_eq_div_pow, Nat.shiftRight_eq_div_pow]
  have ht := t.toNat_lt
  by_cases h : t = 0
  · subst h; simp
  · have h' : t.toNat ≠ 0 := by
      intro e
      exact h (UInt64.toNat_inj.1 e)
    have : t.toNat / 2 ^ 63 = 0 ∧ (2 ^ 64 - t.toNat + 0) % 2 ^ 64 / 2 ^ 63 = 1 ∨
        t.toNat / 2 ^ 63 = 1 ∧ ((2 ^ 64 - t.toNat + 0) % 2 ^ 64 / 2 ^ 63 = 0 ∨
          (2 ^ 64 - t.toNat + 0) % 2 ^ 64 / 2 ^ 63 = 1) := by omega
    rcases this with ⟨e1, e2⟩ | ⟨e1, e2 | e2⟩ <;> rw [e1, e2] <;> simp [h]

theorem zeroFlag_eq (t : UInt64) : zeroFlag t = if t = 0 then 1 else 0 := by
  unfold zeroFlag
  by_cases h : t = 0
  · rw [if_neg (by rw [sign_ne_zero]; exact not_not.2 h), if_pos h]; rfl
  · rw [if_pos ((sign_ne_zero t).2 h), if_neg h]; rfl

theorem or_eq_zero {a b : UInt64} : a ||| b = 0 ↔ a = 0 ∧ b = 0 := by
  simp only [← UInt64.toNat_inj, UInt64.toNat_or]
  show a.toNat ||| b.toNat = 0 ↔ a.toNat = 0 ∧ b.toNat = 0
  exact Nat.or_eq_zero_iff

theorem xor_eq_zero {a b : UInt64} : a ^^^ b = 0 ↔ a = b := by
  simp only [← UInt64.toNat_inj, UInt64.toNat_xor]
  show a.toNat ^^^ b.toNat = 0 ↔ _
  constructor
  · intro h
    have := congrArg (· ^^^ b.toNat) h
    simpa [Nat.xor_assoc] using this
  · intro h
    rw [h, Nat.xor_self]

/-- the result a flag state stands for -/
def ordInt : Ordering → ℤ
  | .lt => -1
  | .eq => 0
  | .gt => 1

theorem then_compare (l m : Limbs) :
    (((Ordering.eq.then (compare l.l3.toNat m.l3.toNat)).then (compare l.l2.toNat m.l2.toNat)).then
      (compare l.l1.toNat m.l1.toNat)).then (compare l.l0.toNat m.l0.toNat)
      = compare l.val m.val := by
  obtain ⟨a0, a1, a2, a3⟩ := l
  obtain ⟨b0, b1, b2, b3⟩ := m
  have h0 := a0.toNat_lt
  have h1 := a1.toNat_lt
  have h2 := a2.toNat_lt
  have h0' := b0.toNat_lt
  have h1' := b1.toNat_lt
  have h2' := b2.toNat_lt
  simp only [Limbs.val]
  generalize hX : a0.toNat + 2 ^ 64 * (a1.toNat + 2 ^ 64 * (a2.toNat + 2 ^ 64 * a3.toNat)) = X
  generalize hY : b0.toNat + 2 ^ 64 * (b1.toNat + 2 ^ 64 * (b2.toNat + 2 ^ 64 * b3.toNat)) = Y
  rcases lt_trichotomy a3.toNat b3.toNat with h | h | h
  · rw [Nat.compare_eq_lt.2 h, Nat.compare_eq_lt.2 (show X < Y by omega)]; rfl
  · rw [Nat.compare_eq_eq.2 h]
    rcases lt_trichotomy a2.toNat b2.toNat with h | h | h
    · rw [Nat.compare_eq_lt.2 h, Nat.compare_eq_lt.2 (show X < Y by omega)]; rfl
    · rw [Nat.compare_eq_eq.2 h]
      rcases lt_trichotomy a1.toNat b1.toNat with h | h | h
      · rw [Nat.compare_eq_lt.2 h, Nat.compare_eq_lt.2 (show X < Y by omega)]; rfl
      · rw [Nat.compare_eq_eq.2 h]
        rcases lt_trichotomy a0.toNat b0.toNat with h | h | h
        · rw [Nat.compare_eq_lt.2 h, Nat.compare_eq_lt.2 (show X < Y by omega)]; rfl
        · rw [Nat.compare_eq_eq.2 h, Nat.compare_eq_eq.2 (show X = Y by omega)]; rfl
        · rw [Nat.compare_eq_gt.2 h, Nat.compare_eq_gt.2 (show Y < X by omega)]; rfl
      · rw [Nat.compare_eq_gt.2 h, Nat.compare_eq_gt.2 (show Y < X by omega)]; rfl
    · rw [Nat.compare_eq_gt.2 h, Nat.compare_eq_gt.2 (show Y < X by omega)]; rfl
  · rw [Nat.compare_eq_gt.2 h, Nat.compare_eq_gt.2 (show Y < X by omega)]; rfl

theorem cmpHelper_eq (l m : Limbs) : cmpHelper l m = ordInt (compare l.val m.val) := by
  unfold cmpHelper
  have h0 : ((0, 0) : UInt64 × UInt64) = flags .eq := rfl
  simp only [h0, cmpStep_eq, then_compare]
  cases compare l.val m.val <;> rfl

/-! ### Exponentiation -/

theorem expBit_eq (e : UInt64) {j : ℕ} (hj : j < 64) :
    expBit e j = decide (e.toNat / 2 ^ j % 2 = 1) := by
  unfold expBit
  congr 1
  rw [← UInt64.toNat_inj, UInt64.toNat_and, UInt64.toNat_shiftRight, UInt64.toNat_ofNat']
  show (e.toNat >>> (j % 2 ^ 64 % 64) &&& (2 ^ 1 - 1) = 1) = _
  rw [Nat.and_two_pow_sub_one_eq_mod, Nat.shiftRight_eq_div_pow, pow_one,
    Nat.mod_eq_of_lt (show j < 2 ^ 64 by omega), Nat.mod_eq_of_lt hj]

theorem powLimb_eq {M : Type} [CommMonoid M] (base : M) (e : UInt64) : ∀ n, n ≤ 64 → ∀ res,
    powLimb (· * ·) base e n res = res ^ 2 ^ n * base ^ (e.toNat % 2 ^ n) := by
  intro n
  induction n with
  | zero => intro _ res; simp [powLimb, Nat.mod_one]
  | succ n ih =>
    intro hn res
    rw [powLimb]
    rw [ih (by omega), expBit_eq e (by omega)]
    have hm : e.toNat % 2 ^ (n + 1) = e.toNat % 2 ^ n + 2 ^ n * (e.toNat / 2 ^ n % 2) := by
      rw [pow_succ, Nat.mod_mul]
    rw [hm]
    rcases Nat.mod_two_eq_zero_or_one (e.toNat / 2 ^ n) with h | h
    · rw [h]
      simp only [zero_ne_one, decide_false, Bool.false_eq_true, if_false, mul_zero, add_zero]
      rw [← pow_two, ← pow_mul, ← pow_succ']
    · rw [h]
      simp only [decide_true, if_true, mul_one]
      rw [mul_pow, ← pow_two, ← pow_mul, ← pow_succ', mul_assoc, ← pow_add, add_comm (2 ^ n)]

theorem pow_eq {M : Type} [CommMonoid M] (base : M) (e : Limbs) :
    pow (· * ·) 1 base e = base ^ e.val := by
  unfold pow
  simp only [powLimb_eq base _ 64 le_rfl, one_pow, one_mul, Nat.mod_eq_of_lt (UInt64.toNat_lt _)]
  simp only [← pow_mul, ← pow_add]
  congr 1
  unfold Limbs.val
  ring

/-- the loop does the same on representations -/
theorem powLimb_map {M N : Type} (f : M → N) (mulM : M → M → M) (mulN : N → N → N)
    (h : ∀ x y, mulN (f x) (f y) = f (mulM x y)) (base : M) (e : UInt64) :
    ∀ n res, powLimb mulN (f base) e n (f res) = f (powLimb mulM base e n res) := by
  intro n
  induction n with
  | zero => intro res; rfl
  | succ n ih =>
    intro res
    rw [powLimb, powLimb]
    simp only [h]
    rw [← ih]
    split <;> rfl

theorem pow_map {M N : Type} (f : M → N) (mulM : M → M → M) (mulN : N → N → N)
    (h : ∀ x y, mulN (f x) (f y) = f (mulM x y)) (one base : M) (e : Limbs) :
    pow mulN (f one) (f base) e = f (pow mulM one base e) := by
  unfold pow
  simp only [powLimb_map f mulM mulN h]

theorem pow2k_eq {M : Type} [CommMonoid M] (k : ℕ) : ∀ x : M, pow2k (· * ·) x k = x ^ 2 ^ k := by
  induction k with
  | zero => intro x; simp [pow2k]
  | succ k ih => intro x; rw [pow2k, ih, ← pow_two, ← pow_mul, ← pow_succ']

end Verif.Native
