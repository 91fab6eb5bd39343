import Verif.Bls381.LimbModel
import Mathlib.Tactic.Ring
import Mathlib.Tactic.LinearCombination
import Mathlib.Tactic.NormNum
import Mathlib.Data.ZMod.Basic

/-!
# What the word and limb operations compute
-/

namespace Verif.Bls381

theorem toNat_lt (x : UInt64) : x.toNat < 2 ^ 64 := x.toNat_lt

theorem ofNat_toNat (n : ℕ) : (UInt64.ofNat n).toNat = n % 2 ^ 64 := by simp

theorem add64_eq (x y c : UInt64) :
    (add64 x y c).1.toNat + 2 ^ 64 * (add64 x y c).2.toNat = x.toNat + y.toNat + c.toNat := by
  have hx := toNat_lt x
  have hy := toNat_lt y
  have hc := toNat_lt c
  simp only [add64, ofNat_toNat]
  omega

theorem mul64_eq (x y : UInt64) :
    (mul64 x y).2.toNat + 2 ^ 64 * (mul64 x y).1.toNat = x.toNat * y.toNat := by
  have hx := toNat_lt x
  have hy := toNat_lt y
  have h : x.toNat * y.toNat < 2 ^ 64 * 2 ^ 64 := by
    calc x.toNat * y.toNat ≤ x.toNat * 2 ^ 64 := Nat.mul_le_mul_left _ hy.le
      _ < 2 ^ 64 * 2 ^ 64 := by
        exact Nat.mul_lt_mul_of_pos_right hx (by norm_num)
  have h2 : x.toNat * y.toNat / 2 ^ 64 < 2 ^ 64 := by
    rw [Nat.div_lt_iff_lt_mul (by norm_num)]; exact h
  simp only [mul64, ofNat_toNat]
  rw [Nat.mod_eq_of_lt h2]
  omega

/-- `mac` is exact -/
theorem mac_eq (a b c d : UInt64) :
    (mac a b c d).1.toNat + 2 ^ 64 * (mac a b c d).2.toNat
      = a.toNat + b.toNat * c.toNat + d.toNat := by
  have h1 := mul64_eq b c
  have h2 := add64_eq a d 0
  have hb := toNat_lt b
  have hc := toNat_lt c
  have ha := toNat_lt a
  have hd := toNat_lt d
  have hprod : b.toNat * c.toNat ≤ (2 ^ 64 - 1) * (2 ^ 64 - 1) :=
    Nat.mul_le_mul (by omega) (by omega)
  simp only [mac]
  generalize mul64 b c = m at h1 ⊢
  generalize add64 a d 0 = s at h2 ⊢
  have h3 := add64_eq m.1 0 s.2
  generalize add64 m.1 0 s.2 = t1 at h3 ⊢
  have h4 := add64_eq m.2 s.1 0
  generalize add64 m.2 s.1 0 = t2 at h4 ⊢
  have h5 := add64_eq t1.1 0 t2.2
  generalize add64 t1.1 0 t2.2 = t3 at h5 ⊢
  have z : (0 : UInt64).toNat = 0 := rfl
  rw [z] at h2 h3 h4 h5
  have b1 := toNat_lt t2.1
  have b2 := toNat_lt t3.1
  have b3 := toNat_lt t1.1
  have b4 := toNat_lt m.1
  have b5 := toNat_lt m.2
  have b6 := toNat_lt s.1
  omega

/-- the top bit -/
theorem top_eq (z : UInt64) : (z >>> 63).toNat = z.toNat / 2 ^ 63 := by
  rw [UInt64.toNat_shiftRight, Nat.shiftRight_eq_div_pow]; rfl

theorem topBit (z : UInt64) : (z >>> 63) = if z.toNat < 2 ^ 63 then 0 else 1 := by
  apply UInt64.toNat_inj.mp
  rw [top_eq]
  have := toNat_lt z
  split
  · rw [Nat.div_eq_of_lt ‹_›]; rfl
  · have : z.toNat / 2 ^ 63 = 1 := by omega
    rw [this]; rfl

theorem top_and (x y : UInt64) : (x &&& y) >>> 63 = (x >>> 63) &&& (y >>> 63) := UInt64.shiftRight_and
theorem top_or (x y : UInt64) : (x ||| y) >>> 63 = (x >>> 63) ||| (y >>> 63) := UInt64.shiftRight_or
theorem top_xor (x y : UInt64) : (x ^^^ y) >>> 63 = (x >>> 63) ^^^ (y >>> 63) := UInt64.shiftRight_xor

theorem top_not (x : UInt64) : (~~~x) >>> 63 = (1 : UInt64) - (x >>> 63) := by
  have hx := toNat_lt x
  have h : (~~~x).toNat = 2 ^ 64 - 1 - x.toNat := by
    rw [UInt64.toNat_not]; rfl
  rw [topBit, topBit, h]
  by_cases hlt : x.toNat < 2 ^ 63
  · rw [if_pos hlt, if_neg (by omega)]; rfl
  · rw [if_neg hlt, if_pos (by omega)]; rfl

theorem adc_sum (x y c : UInt64) : (adc x y c).1.toNat = (x.toNat + y.toNat + c.toNat) % 2 ^ 64 := by
  simp only [adc, UInt64.toNat_add]
  omega

/-- `adc` is exact when one of the three summands is a bit -/
theorem adc_eq (x y c : UInt64) (h : x.toNat ≤ 1 ∨ y.toNat ≤ 1 ∨ c.toNat ≤ 1) :
    (adc x y c).1.toNat + 2 ^ 64 * (adc x y c).2.toNat = x.toNat + y.toNat + c.toNat ∧
      (adc x y c).2.toNat ≤ 1 := by
  have hs := adc_sum x y c
  have hx := toNat_lt x
  have hy := toNat_lt y
  have hc := toNat_lt c
  have h2 : (adc x y c).2.toNat = (x.toNat + y.toNat + c.toNat) / 2 ^ 64 := by
    simp only [adc] at hs ⊢
    generalize x + y + c = s at hs ⊢
    simp only [top_or, top_and, top_not]
    simp only [topBit]
    have hlt := toNat_lt s
    by_cases h1 : x.toNat < 2 ^ 63 <;> by_cases h2 : y.toNat < 2 ^ 63 <;>
      by_cases h3 : c.toNat < 2 ^ 63 <;> by_cases h4 : s.toNat < 2 ^ 63 <;>
      simp only [h1, h2, h3, h4, if_true, if_false] <;>
      first
      | (exfalso; omega)
      | (symm; apply Nat.div_eq_of_lt; omega)
      | (symm; apply Nat.div_eq_of_lt_le <;> (simp; omega))
  rw [hs, h2]
  constructor <;> omega

theorem adc_comm (x y c : UInt64) : adc x y c = adc y x c := by
  simp only [adc, UInt64.add_comm x y, UInt64.and_comm x y, UInt64.or_comm x y]
  congr 1
  generalize (y &&& x ||| (y ||| x) &&& ~~~(y + x + c)) >>> 63 = A
  generalize (x &&& c ||| (x ||| c) &&& ~~~(y + x + c)) >>> 63 = B
  generalize (y &&& c ||| (y ||| c) &&& ~~~(y + x + c)) >>> 63 = C
  rw [UInt64.or_assoc, UInt64.or_comm B C, ← UInt64.or_assoc]

/-- `sbb` is exact for a borrow of 0 or 1 -/
theorem sbb_eq (x y b : UInt64) (h : b.toNat ≤ 1) :
    (sbb x y b).1.toNat + y.toNat + b.toNat = x.toNat + 2 ^ 64 * (sbb x y b).2.toNat ∧
      (sbb x y b).2.toNat ≤ 1 := by
  have hx := toNat_lt x
  have hy := toNat_lt y
  have hs : (sbb x y b).1.toNat = (2 ^ 64 + 2 ^ 64 + x.toNat - y.toNat - b.toNat) % 2 ^ 64 := by
    simp only [sbb, UInt64.toNat_sub, UInt64.toNat_add]
    omega
  have h2 : (sbb x y b).2.toNat = if x.toNat < y.toNat + b.toNat then 1 else 0 := by
    simp only [sbb] at hs ⊢
    generalize x - (y + b) = s at hs ⊢
    simp only [top_or, top_and, top_not, top_xor]
    simp only [topBit]
    have hlt := toNat_lt s
    by_cases h1 : x.toNat < 2 ^ 63 <;> by_cases h2 : y.toNat < 2 ^ 63 <;>
      by_cases h4 : s.toNat < 2 ^ 63 <;>
      simp only [h1, h2, h4, if_true, if_false] <;>
      first
      | (exfalso; omega)
      | (rw [if_pos (by omega)]; rfl)
      | (rw [if_neg (by omega)]; rfl)
  rw [hs, h2]
  split <;> constructor <;> omega

end Verif.Bls381
