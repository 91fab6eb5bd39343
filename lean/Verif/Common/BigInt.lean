import Verif.Common.Go
import Mathlib.Data.Int.GCD
import Mathlib.Data.ZMod.Basic
import Mathlib.Data.ZMod.Units
import Mathlib.Tactic.Linarith
import Mathlib.Tactic.Positivity
import Mathlib.Tactic.Ring

/-!
# The part of Go's `math/big` used by the library

`*big.Int` values are integers, nil pointers are `none`.  These definitions describe the documented
behaviour of the standard library (which is trusted, not verified).
-/

namespace Verif.Big

/-- `new(big.Int).Mod(x, m)`: Euclidean remainder, panics for `m = 0`. -/
def mod (x m : ℤ) : Go ℤ := if m = 0 then Go.crash else .ok (x % m)

/-- `new(big.Int).ModInverse(g, n)` for `n ≠ 0`: the inverse in `[0, |n|)` or nil. -/
def modInverse (g n : ℤ) : Option ℤ :=
  if Int.gcd g n = 1 then some (Int.gcdA g n % n) else none

/-- `new(big.Int).Exp(x, y, m)`; `m = 0` stands for a nil or zero modulus.  The result is nil
when `y < 0` and `x` has no inverse. -/
def exp (x y m : ℤ) : Option ℤ :=
  if m = 0 then some (if y ≤ 0 then 1 else x ^ y.toNat)
  else if 0 ≤ y then some (x ^ y.toNat % m)
  else (modInverse x m).map fun i => i ^ (-y).toNat % m

theorem modInverse_eq_some {g n i : ℤ} (hn : 0 < n) :
    modInverse g n = some i ↔ 0 ≤ i ∧ i < n ∧ g * i ≡ 1 [ZMOD n] := by
  unfold modInverse
  have key : Int.gcd g n = 1 → g * (Int.gcdA g n % n) ≡ 1 [ZMOD n] := by
    intro h
    have hb := Int.gcd_eq_gcd_ab g n
    rw [h] at hb
    have e1 : g * (Int.gcdA g n % n) ≡ g * Int.gcdA g n [ZMOD n] :=
      (Int.mod_modEq _ _).mul_left _
    refine e1.trans ?_
    rw [Int.modEq_iff_dvd]
    exact ⟨Int.gcdB g n, by push_cast at hb; linarith⟩
  constructor
  · intro h
    split at h
    · rename_i hg
      obtain rfl := Option.some.inj h
      exact ⟨Int.emod_nonneg _ hn.ne', Int.emod_lt_of_pos _ hn, key hg⟩
    · exact absurd h (by simp)
  · rintro ⟨h0, h1, h2⟩
    have hg : Int.gcd g n = 1 := by
      have hd : (Int.gcd g n : ℤ) ∣ 1 := by
        have a1 : (Int.gcd g n : ℤ) ∣ g * i := (Int.gcd_dvd_left _ _).mul_right _
        have a2 : (Int.gcd g n : ℤ) ∣ 1 - g * i :=
          (Int.gcd_dvd_right _ _).trans (Int.modEq_iff_dvd.1 h2)
        have := dvd_add a1 a2
        simpa using this
      have := Int.eq_one_of_dvd_one (by positivity) hd
      exact_mod_cast this
    rw [if_pos hg]
    congr 1
    have k := key hg
    -- uniqueness of the inverse
    have e : Int.gcdA g n % n ≡ i [ZMOD n] := by
      have a1 : i * (g * (Int.gcdA g n % n)) ≡ i * 1 [ZMOD n] := k.mul_left _
      have a2 : (g * i) * (Int.gcdA g n % n) ≡ 1 * (Int.gcdA g n % n) [ZMOD n] := h2.mul_right _
      have a3 : i * (g * (Int.gcdA g n % n)) = (g * i) * (Int.gcdA g n % n) := by ring
      rw [a3] at a1
      simpa using a2.symm.trans a1
    have := e
    unfold Int.ModEq at this
    rwa [Int.emod_emod_of_dvd _ dvd_rfl, Int.emod_eq_of_lt h0 h1] at this

theorem modInverse_eq_none {g n : ℤ} : modInverse g n = none ↔ Int.gcd g n ≠ 1 := by
  unfold modInverse; split <;> simp_all

theorem modInverse_isSome {g n : ℤ} : (modInverse g n).isSome ↔ Int.gcd g n = 1 := by
  unfold modInverse; split <;> simp_all

/-! ### `ZMod` view -/

theorem modInverse_cast {g : ℤ} {n : ℕ} (hn : 0 < n) {u : (ZMod n)ˣ} (hu : (g : ZMod n) = u) :
    ∃ i, modInverse g n = some i ∧ 0 ≤ i ∧ i < n ∧ (i : ZMod n) = ((u⁻¹ : (ZMod n)ˣ) : ZMod n) := by
  have : NeZero n := ⟨hn.ne'⟩
  refine ⟨(((u⁻¹ : (ZMod n)ˣ) : ZMod n).val : ℤ), ?_, by positivity, ?_, by simp⟩
  · rw [modInverse_eq_some (by exact_mod_cast hn)]
    refine ⟨by positivity, by exact_mod_cast ZMod.val_lt _, ?_⟩
    rw [← ZMod.intCast_eq_intCast_iff]
    push_cast
    rw [ZMod.natCast_zmod_val, hu]
    simp
  · exact_mod_cast ZMod.val_lt _

/-- On units `big.Int.Exp` is the integer power, for exponents of either sign. -/
theorem exp_cast {x y : ℤ} {n : ℕ} (hn : 0 < n) {u : (ZMod n)ˣ} (hu : (x : ZMod n) = u) :
    ∃ r, exp x y n = some r ∧ 0 ≤ r ∧ r < n ∧ (r : ZMod n) = ((u ^ y : (ZMod n)ˣ) : ZMod n) := by
  have hn0 : (n : ℤ) ≠ 0 := by exact_mod_cast hn.ne'
  have hnp : (0 : ℤ) < n := by exact_mod_cast hn
  unfold exp
  rw [if_neg hn0]
  by_cases hy : 0 ≤ y
  · rw [if_pos hy]
    refine ⟨_, rfl, Int.emod_nonneg _ hn0, Int.emod_lt_of_pos _ hnp, ?_⟩
    rw [ZMod.intCast_mod]
    push_cast
    rw [hu]
    lift y to ℕ using hy
    simp
  · rw [if_neg hy]
    obtain ⟨i, hi, _, _, hc⟩ := modInverse_cast hn hu
    rw [hi]
    refine ⟨_, rfl, Int.emod_nonneg _ hn0, Int.emod_lt_of_pos _ hnp, ?_⟩
    rw [ZMod.intCast_mod]
    push_cast
    rw [hc]
    obtain ⟨k, hk⟩ : ∃ k : ℕ, y = -k := ⟨(-y).toNat, by omega⟩
    subst hk
    simp

/-- Non-negative exponents need no invertibility. -/
theorem exp_nonneg {x y : ℤ} {n : ℕ} (hn : 0 < n) (hy : 0 ≤ y) :
    ∃ r, exp x y n = some r ∧ 0 ≤ r ∧ r < n ∧ (r : ZMod n) = (x : ZMod n) ^ y.toNat := by
  have hn0 : (n : ℤ) ≠ 0 := by exact_mod_cast hn.ne'
  have hnp : (0 : ℤ) < n := by exact_mod_cast hn
  unfold exp
  rw [if_neg hn0, if_pos hy]
  refine ⟨_, rfl, Int.emod_nonneg _ hn0, Int.emod_lt_of_pos _ hnp, ?_⟩
  rw [ZMod.intCast_mod]
  push_cast
  rfl

/-- Two canonical representatives with the same residue are equal. -/
theorem eq_of_cast {n : ℕ} {a b : ℤ} (ha : 0 ≤ a) (ha' : a < n) (hb : 0 ≤ b) (hb' : b < n)
    (h : (a : ZMod n) = b) : a = b := by
  rw [ZMod.intCast_eq_intCast_iff] at h
  unfold Int.ModEq at h
  rwa [Int.emod_eq_of_lt ha ha', Int.emod_eq_of_lt hb hb'] at h

end Verif.Big
