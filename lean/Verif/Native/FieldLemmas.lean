import Verif.Native.FieldModel
import Verif.Native.LimbProps
import Verif.Common.Primes
import Mathlib.FieldTheory.Finite.Basic

/-!
# Lemmas on inversion chains and Tonelli–Shanks
-/

set_option linter.unusedSectionVars false
set_option exponentiation.threshold 1000

namespace Verif.Native

open Verif.Pock (force force_eq)

/-! ## Chains commute with homomorphisms -/

section Map
variable {M N : Type} (f : M → N) (mulM : M → M → M) (mulN : N → N → N)
  (h : ∀ x y, mulN (f x) (f y) = f (mulM x y))
include h

theorem pow2k_map (k : ℕ) : ∀ x, pow2k mulN (f x) k = f (pow2k mulM x k) := by
  induction k with
  | zero => intro x; rfl
  | succ k ih => intro x; rw [pow2k, h, ih]; rfl

theorem k256FpChain_map (x : M) : k256FpChain mulN (f x) = f (k256FpChain mulM x) := by
  simp only [k256FpChain, pow2k_map f mulM mulN h, h]

theorem k256FqChain_map (x : M) : k256FqChain mulN (f x) = f (k256FqChain mulM x) := by
  simp only [k256FqChain, pow2k_map f mulM mulN h, h]

theorem p256FqChain_map (x : M) : p256FqChain mulN (f x) = f (p256FqChain mulM x) := by
  simp only [p256FqChain, pow2k_map f mulM mulN h, h]

theorem blsFqChain_map (x : M) : blsFqChain mulN (f x) = f (blsFqChain mulM x) := by
  simp only [blsFqChain, pow2k_map f mulM mulN h, h]

theorem loopN_map (x : M) (n : ℕ) : ∀ t, loopN (fun t => mulN (mulN t t) (f x)) n (f t)
    = f (loopN (fun t => mulM (mulM t t) x) n t) := by
  induction n with
  | zero => intro t; rfl
  | succ n ih => intro t; rw [loopN, h, h, ih]; rfl

theorem p256FpLoop_map (x t : M) (n : ℕ) : ∀ r, p256FpLoop mulN (f x) (f t) n (f r)
    = f (p256FpLoop mulM x t n r) := by
  induction n with
  | zero => intro r; rfl
  | succ n ih =>
    intro r
    rw [p256FpLoop, p256FpLoop, ← ih]
    congr 1
    simp only [p256FpStep, h]
    split_ifs <;> rfl

theorem p256FpChain_map (x : M) : p256FpChain mulN (f x) = f (p256FpChain mulM x) := by
  simp only [p256FpChain, loopN_map f mulM mulN h, p256FpLoop_map f mulM mulN h]

end Map

/-! ## The exponents of the chains -/

theorem pow2k_add (k : ℕ) : ∀ n : ℕ, pow2k (· + ·) n k = n * 2 ^ k := by
  induction k with
  | zero => intro n; simp [pow2k]
  | succ k ih => intro n; rw [pow2k, ih]; ring

theorem k256FpChain_exp : k256FpChain (· + ·) 1 = Primes.k256p - 2 := by
  simp only [k256FpChain, pow2k_add]; decide +kernel
theorem k256FqChain_exp : k256FqChain (· + ·) 1 = Primes.k256q - 2 := by
  simp only [k256FqChain, pow2k_add]; decide +kernel
theorem p256FqChain_exp : p256FqChain (· + ·) 1 = Primes.p256q - 2 := by
  simp only [p256FqChain, pow2k_add]; decide +kernel
theorem blsFqChain_exp : blsFqChain (· + ·) 1 = Primes.blsr - 2 := by
  simp only [blsFqChain, pow2k_add]; decide +kernel
theorem p256FpChain_exp : p256FpChain (· + ·) 1 = Primes.p256p - 2 := by
  decide +kernel

/-! ## On limbs -/

section Limb
variable {P : FieldParams} (hP : P.Ok)
include hP

theorem powSeq_mul (x : P.Ring) (a b : ℕ) :
    montMul P (encode P (x ^ a)) (encode P (x ^ b)) = encode P (x ^ (a + b)) := by
  rw [montMul_encode hP, pow_add]

theorem encode_val_eq (x : P.Ring) : (encode P x).val = (x * 2 ^ 256).val :=
  Limbs.val_ofNat (hP.val_lt _)

theorem encode_val_zero (x : P.Ring) : (encode P x).val = 0 ↔ x = 0 := by
  have := hP.neZero
  rw [encode_val_eq hP, ZMod.val_eq_zero]
  constructor
  · intro h
    rw [← hP.cancel x, h, zero_mul]
  · rintro rfl; rw [zero_mul]

theorem encode_natCast (n : ℕ) : encode P (n : P.Ring) = Limbs.ofNat (n * 2 ^ 256 % P.modulus.val) := by
  unfold encode
  rw [show (n : P.Ring) * 2 ^ 256 = ((n * 2 ^ 256 : ℕ) : P.Ring) by push_cast; ring, ZMod.val_natCast]

theorem toMont_val (l : Limbs) : toMont P l = encode P (l.val : P.Ring) := rfl

theorem invertWith_encode (hp : P.modulus.val.Prime) {n : ℕ} (hn : n = P.modulus.val - 2) (out : Limbs)
    (x : P.Ring) : invertWith (encode P (x ^ n)) out (encode P x)
      = if x = 0 then (0, out) else (1, encode P x⁻¹) := by
  have : Fact P.modulus.val.Prime := ⟨hp⟩
  unfold invertWith
  simp only [(C54_equal (encode P x) (encode P x)).2.2, encode_val_zero hP]
  by_cases hx : x = 0
  · simp [hx]
  · simp only [hx, if_false, if_true]
    congr 2
    have h1 : x ^ (P.modulus.val - 1) = 1 := ZMod.pow_card_sub_one_eq_one hx
    have h2 : P.modulus.val - 1 = n + 1 := by have := hp.two_le; omega
    rw [h2, pow_succ] at h1
    exact eq_inv_of_mul_eq_one_left h1

theorem sqrtWith_encode (z out : Limbs) (y a : P.Ring) (hz : z = encode P y) :
    sqrtWith P z out (encode P a) = if y ^ 2 = a then (1, z) else (0, out) := by
  subst hz
  unfold sqrtWith
  rw [montMul_encode hP]
  simp only [(C54_equal _ _).1, encode_inj hP, ← pow_two]
  by_cases h : y ^ 2 = a
  · simp [h]
  · simp [h]

end Limb

/-! ## Tonelli–Shanks -/

section TS
variable {M N : Type} (f : M → N) (mulM : M → M → M) (mulN : N → N → N)
  (isOneM : M → Bool) (isOneN : N → Bool) (h : ∀ x y, mulN (f x) (f y) = f (mulM x y))
  (ho : ∀ x, isOneN (f x) = isOneM x)
include h ho

theorem tsLoop_map (n : ℕ) : ∀ z t c, (tsLoop mulN isOneN n (f z, f t, f c)).1
    = f (tsLoop mulM isOneM n (z, t, c)).1 := by
  induction n with
  | zero => intros; rfl
  | succ n ih =>
    intro z t c
    rw [tsLoop, tsLoop]
    simp only [tsStep, pow2k_map f mulM mulN h, ho, h, ← apply_ite f]
    exact ih _ _ _

theorem tsRoot_map (one c5 : M) (c3 : Limbs) (s : ℕ) (a : M) :
    tsRoot mulN isOneN (f one) (f c5) c3 s (f a) = f (tsRoot mulM isOneM one c5 c3 s a) := by
  unfold tsRoot
  simp only [pow_map f mulM mulN h, h]
  exact tsLoop_map f mulM mulN isOneM isOneN h ho _ _ _ _

end TS

section TSField
variable {F : Type} [Field F] (isOne : F → Bool) (ho : ∀ b, isOne b = true ↔ b = 1)

theorem tsLoop_zero (n : ℕ) : ∀ t c : F, (tsLoop (· * ·) isOne n (0, t, c)).1 = 0 := by
  induction n with
  | zero => intros; rfl
  | succ n ih =>
    intro t c
    rw [tsLoop]
    simp only [tsStep, zero_mul, ite_self]
    exact ih _ _

include ho

theorem tsLoop_sq (n : ℕ) : ∀ z t c a : F, z ^ 2 = a * t → t ^ 2 ^ n = 1 → c ^ 2 ^ n = -1 →
    (tsLoop (· * ·) isOne n (z, t, c)).1 ^ 2 = a := by
  induction n with
  | zero =>
    intro z t c a hz ht _
    rw [pow_zero, pow_one] at ht
    rw [tsLoop, hz, ht, mul_one]
  | succ n ih =>
    intro z t c a hz ht hc
    rw [tsLoop]
    simp only [tsStep, Nat.add_sub_cancel, pow2k_eq]
    have hc' : (c * c) ^ 2 ^ n = -1 := by rw [← pow_two, ← pow_mul, ← pow_succ', hc]
    have hb : t ^ 2 ^ n = 1 ∨ t ^ 2 ^ n = -1 := by
      rw [← sq_eq_one_iff, ← pow_mul, ← pow_succ, ht]
    by_cases h1 : t ^ 2 ^ n = 1
    · simp only [(ho _).2 h1, if_true]
      exact ih _ _ _ _ hz h1 hc'
    · have hf : isOne (t ^ 2 ^ n) = false := by
        rw [Bool.eq_false_iff]; exact fun hh => h1 ((ho _).1 hh)
      simp only [hf]
      refine ih _ _ _ _ ?_ ?_ hc'
      · show (z * c) ^ 2 = a * (t * (c * c))
        rw [mul_pow, hz]; ring
      · show (t * (c * c)) ^ 2 ^ n = 1
        rw [mul_pow, hc', hb.resolve_left h1]; ring

end TSField

theorem tsRoot_sq {p : ℕ} [hp : Fact p.Prime] (isOne : ZMod p → Bool) (ho : ∀ b, isOne b = true ↔ b = 1)
    (c5 : ZMod p) (c3 : Limbs) (s : ℕ) (hs : 1 ≤ s) (h3 : p - 1 = 2 ^ s * (2 * c3.val + 1))
    (h5 : c5 ^ 2 ^ (s - 1) = -1) (a : ZMod p) :
    (tsRoot (· * ·) isOne 1 c5 c3 s a) ^ 2 = a ↔ IsSquare a := by
  constructor
  · intro h; exact ⟨_, by rw [← pow_two]; exact h.symm⟩
  intro h
  unfold tsRoot
  simp only [pow_eq]
  by_cases h0 : a = 0
  · subst h0
    simp only [mul_zero]
    rw [tsLoop_zero]; ring
  refine tsLoop_sq isOne ho _ _ _ _ _ ?_ ?_ h5
  · ring
  · obtain ⟨r, rfl⟩ := h
    have hr : r ≠ 0 := by rintro rfl; simp at h0
    have h1 : r ^ (p - 1) = 1 := ZMod.pow_card_sub_one_eq_one hr
    obtain ⟨s, rfl⟩ : ∃ k, s = k + 1 := ⟨s - 1, by omega⟩
    rw [h3] at h1
    calc ((r * r) ^ c3.val * (r * r) ^ c3.val * (r * r)) ^ 2 ^ (s + 1 - 1)
        = r ^ (2 ^ (s + 1) * (2 * c3.val + 1)) := by
          rw [Nat.add_sub_cancel, ← pow_two r, ← pow_mul, ← pow_add, ← pow_add, ← pow_mul]
          congr 1; ring
      _ = 1 := h1

/-- repeated squaring modulo `m`, evaluated eagerly -/
def sqMod (m : ℕ) : ℕ → ℕ → ℕ
  | 0, x => x
  | k + 1, x => force (x * x % m) fun y => sqMod m k y

theorem sqMod_eq (m k : ℕ) : ∀ x, (sqMod m k x : ZMod m) = (x : ZMod m) ^ 2 ^ k := by
  induction k with
  | zero => intro x; simp [sqMod]
  | succ k ih =>
    intro x
    rw [sqMod, force_eq, ih, ZMod.natCast_mod, Nat.cast_mul, ← pow_two, ← pow_mul, ← pow_succ']

theorem sq_eq_neg_one {m k x : ℕ} (hm : 0 < m) (h : sqMod m k x = m - 1) :
    (x : ZMod m) ^ 2 ^ k = -1 := by
  rw [← sqMod_eq, h, Nat.cast_sub hm]; simp

/-! ## Comparison in the Pasta fields -/

/-- the verdict of `Cmp` on one pair of limbs: the sign of the wrapped difference -/
def signOrd (l r : ℕ) : Ordering :=
  if l = r then .eq else if (r + 2 ^ 64 - l) % 2 ^ 64 < 2 ^ 63 then .lt else .gt

theorem top_bit (a b : UInt64) :
    ((a - b) >>> 63) = if 2 ^ 63 ≤ (a.toNat + 2 ^ 64 - b.toNat) % 2 ^ 64 then 1 else 0 := by
  apply UInt64.toNat_inj.1
  rw [UInt64.toNat_shiftRight, UInt64.toNat_sub]
  have ha := a.toNat_lt
  have hb := b.toNat_lt
  show ((2 ^ 64 - b.toNat + a.toNat) % 2 ^ 64) >>> 63 = _
  rw [Nat.shiftRight_eq_div_pow]
  split
  · show _ = 1
    omega
  · show _ = 0
    omega

theorem pastaCmpStep_eq (o : Ordering) (l r : UInt64) :
    pastaCmpStep (flags o) l r = flags (o.then (signOrd l.toNat r.toNat)) := by
  have hl := l.toNat_lt
  have hr := r.toNat_lt
  unfold pastaCmpStep
  rw [top_bit, top_bit]
  unfold signOrd
  by_cases he : l.toNat = r.toNat
  · rw [if_neg (by omega), if_neg (by omega), if_pos he]
    cases o <;> decide
  · rw [if_neg he]
    by_cases h1 : (r.toNat + 2 ^ 64 - l.toNat) % 2 ^ 64 < 2 ^ 63
    · rw [if_neg (by omega), if_pos (by omega), if_pos h1]
      cases o <;> decide
    · rw [if_pos (by omega), if_neg h1]
      split <;> cases o <;> decide

theorem pastaCmp_eq (l m : Limbs) : pastaCmp l m = ordInt
    ((((Ordering.eq.then (signOrd l.l3.toNat m.l3.toNat)).then (signOrd l.l2.toNat m.l2.toNat)).then
      (signOrd l.l1.toNat m.l1.toNat)).then (signOrd l.l0.toNat m.l0.toNat)) := by
  unfold pastaCmp
  have h0 : ((0, 0) : UInt64 × UInt64) = flags .eq := rfl
  simp only [h0, pastaCmpStep_eq]
  generalize ((((Ordering.eq.then (signOrd l.l3.toNat m.l3.toNat)).then (signOrd l.l2.toNat m.l2.toNat)).then
      (signOrd l.l1.toNat m.l1.toNat)).then (signOrd l.l0.toNat m.l0.toNat)) = o
  cases o <;> rfl

theorem signOrd_eq {l r : ℕ} (_hl : l < 2 ^ 64) (_hr : r < 2 ^ 64) (h1 : l < r + 2 ^ 63)
    (h2 : r < l + 2 ^ 63) : signOrd l r = compare l r := by
  unfold signOrd
  rcases lt_trichotomy l r with h | h | h
  · rw [Nat.compare_eq_lt.2 h, if_neg (by omega), if_pos (by omega)]
  · rw [Nat.compare_eq_eq.2 h, if_pos h]
  · rw [Nat.compare_eq_gt.2 h, if_neg (by omega), if_neg (by omega)]

theorem ordInt_lt (o : Ordering) : ordInt o = -1 ↔ o = .lt := by cases o <;> decide

theorem then_lt (a b : Ordering) : a.then b = .lt ↔ a = .lt ∨ (a = .eq ∧ b = .lt) := by
  cases a <;> cases b <;> decide

theorem then_eq (a b : Ordering) : a.then b = .eq ↔ a = .eq ∧ b = .eq := by
  cases a <;> cases b <;> decide

theorem signOrd_isLt (l r : ℕ) :
    signOrd l r = .lt ↔ l ≠ r ∧ (r + 2 ^ 64 - l) % 2 ^ 64 < 2 ^ 63 := by
  unfold signOrd
  split_ifs with h1 h2
  · exact ⟨fun h => by (cases h), fun h => absurd h1 h.1⟩
  · exact ⟨fun _ => ⟨h1, h2⟩, fun _ => rfl⟩
  · exact ⟨fun h => by (cases h), fun h => absurd h.2 h2⟩

theorem signOrd_isEq (l r : ℕ) : signOrd l r = .eq ↔ l = r := by
  unfold signOrd
  split_ifs with h1 h2 <;> simp [h1]

/-- when `Cmp` answers -1 -/
theorem pastaCmp_lt (l m : Limbs) : pastaCmp l m = -1 ↔
    (l.l3.toNat ≠ m.l3.toNat ∧ (m.l3.toNat + 2 ^ 64 - l.l3.toNat) % 2 ^ 64 < 2 ^ 63) ∨
    (l.l3.toNat = m.l3.toNat ∧ l.l2.toNat ≠ m.l2.toNat ∧
      (m.l2.toNat + 2 ^ 64 - l.l2.toNat) % 2 ^ 64 < 2 ^ 63) ∨
    (l.l3.toNat = m.l3.toNat ∧ l.l2.toNat = m.l2.toNat ∧ l.l1.toNat ≠ m.l1.toNat ∧
      (m.l1.toNat + 2 ^ 64 - l.l1.toNat) % 2 ^ 64 < 2 ^ 63) ∨
    (l.l3.toNat = m.l3.toNat ∧ l.l2.toNat = m.l2.toNat ∧ l.l1.toNat = m.l1.toNat ∧
      l.l0.toNat ≠ m.l0.toNat ∧ (m.l0.toNat + 2 ^ 64 - l.l0.toNat) % 2 ^ 64 < 2 ^ 63) := by
  rw [pastaCmp_eq, ordInt_lt, then_lt, then_lt, then_lt, then_lt]
  simp only [then_eq, signOrd_isLt, signOrd_isEq, true_and, reduceCtorEq, false_or]
  tauto

end Verif.Native
