import Verif.Common.Codec
import Mathlib.Data.ZMod.Basic
import Mathlib.Algebra.Field.ZMod
import Mathlib.Tactic.NormNum.Prime
import Mathlib.Tactic.FinCases

/-!
A small concrete scalar field with a byte codec, used only by the `example`s which show
that the hypotheses of the theorems can be met.
-/

namespace Verif.Toy

/-- The toy scalar field. -/
abbrev K := ZMod 257

instance : Fact (Nat.Prime 257) := ⟨by norm_num⟩

/-- two-byte big-endian codec of `ZMod 257` -/
def codec : ScalarCodec K where
  enc x := [UInt8.ofNat (x.val / 256), UInt8.ofNat (x.val % 256)]
  dec b := match b with
    | [a, c] => if a.toNat * 256 + c.toNat < 257 then
        some ((a.toNat * 256 + c.toNat : ℕ) : K) else none
    | _ => none
  dec_enc x := by
    have hx : x.val < 257 := x.val_lt
    have e1 : (UInt8.ofNat (x.val / 256)).toNat = x.val / 256 := by
      rw [UInt8.toNat_ofNat']; exact Nat.mod_eq_of_lt (by omega)
    have e2 : (UInt8.ofNat (x.val % 256)).toNat = x.val % 256 := by
      rw [UInt8.toNat_ofNat']; exact Nat.mod_eq_of_lt (by omega)
    have e3 : x.val / 256 * 256 + x.val % 256 = x.val := by omega
    simp only [e1, e2, e3, hx, if_true]
    rw [ZMod.natCast_zmod_val]
  enc_dec b x h := by
    match b, h with
    | [a, c], h =>
      simp only at h
      split at h
      · rename_i hlt
        have : x = ((a.toNat * 256 + c.toNat : ℕ) : K) := by simpa using h.symm
        subst this
        have hc := c.toNat_lt
        rw [ZMod.val_natCast, Nat.mod_eq_of_lt hlt]
        have d1 : (a.toNat * 256 + c.toNat) / 256 = a.toNat := by omega
        have d2 : (a.toNat * 256 + c.toNat) % 256 = c.toNat := by omega
        rw [d1, d2]; simp
      · exact absurd h (by simp)

theorem byteInj : ByteInj K := by
  intro n h0 h1 h
  rw [ZMod.natCast_eq_zero_iff] at h
  exact absurd (Nat.le_of_dvd h0 h) (by omega)

end Verif.Toy
