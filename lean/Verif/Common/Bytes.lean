import Mathlib.Data.Nat.Digits.Lemmas
import Mathlib.Data.List.DropRight
import Mathlib.Data.Int.Basic

/-!
# Integers as bytes (semantics of `math/big`)
-/

namespace Verif

/-- `new(big.Int).SetBytes(bs)`: big-endian value. -/
def beNat (bs : List UInt8) : ℕ := bs.foldl (fun a b => a * 256 + b.toNat) 0

/-- little-endian value -/
def leNat (bs : List UInt8) : ℕ := bs.foldr (fun b a => b.toNat + 256 * a) 0

/-- `big.Int.Bytes()` of a non-negative integer: minimal big-endian bytes. -/
def natBytes (n : ℕ) : List UInt8 := ((Nat.digits 256 n).map UInt8.ofNat).reverse

/-- `big.Int.Bytes()`: magnitude only, the sign is dropped. -/
def intBytes (z : ℤ) : List UInt8 := natBytes z.natAbs

/-- `n` as exactly `len` little-endian bytes (value taken modulo `256^len`). -/
def leBytes : ℕ → ℕ → List UInt8
  | 0, _ => []
  | len + 1, n => UInt8.ofNat n :: leBytes len (n / 256)

/-- `n` as exactly `len` big-endian bytes (`big.Int.FillBytes` when it fits). -/
def beBytes (len n : ℕ) : List UInt8 := (leBytes len n).reverse

theorem beNat_eq_leNat_reverse (bs : List UInt8) : beNat bs = leNat bs.reverse := by
  unfold beNat leNat
  rw [List.foldr_reverse]
  congr 1
  funext a b
  omega

theorem leNat_cons (b : UInt8) (bs : List UInt8) : leNat (b :: bs) = b.toNat + 256 * leNat bs := rfl

theorem leNat_eq_ofDigits (bs : List UInt8) : leNat bs = Nat.ofDigits 256 (bs.map UInt8.toNat) := by
  induction bs with
  | nil => rfl
  | cons b bs ih => rw [leNat_cons, ih, List.map_cons, Nat.ofDigits_cons]

theorem leNat_lt (bs : List UInt8) : leNat bs < 256 ^ bs.length := by
  induction bs with
  | nil => simp [leNat]
  | cons b bs ih =>
    rw [leNat_cons, List.length_cons, pow_succ]
    have := b.toNat_lt
    omega

theorem beNat_lt (bs : List UInt8) : beNat bs < 256 ^ bs.length := by
  rw [beNat_eq_leNat_reverse]
  simpa using leNat_lt bs.reverse

theorem leBytes_length (len n : ℕ) : (leBytes len n).length = len := by
  induction len generalizing n with
  | zero => rfl
  | succ k ih => simp [leBytes, ih]

theorem beBytes_length (len n : ℕ) : (beBytes len n).length = len := by
  simp [beBytes, leBytes_length]

theorem leNat_leBytes (len n : ℕ) (h : n < 256 ^ len) : leNat (leBytes len n) = n := by
  induction len generalizing n with
  | zero => simp at h; simp [leBytes, leNat, h]
  | succ k ih =>
    rw [leBytes, leNat_cons, ih]
    · rw [UInt8.toNat_ofNat']; omega
    · rw [pow_succ] at h; omega

theorem leBytes_leNat (bs : List UInt8) : leBytes bs.length (leNat bs) = bs := by
  induction bs with
  | nil => rfl
  | cons b bs ih =>
    have hb := b.toNat_lt
    rw [List.length_cons, leBytes, leNat_cons]
    have h1 : (b.toNat + 256 * leNat bs) / 256 = leNat bs := by omega
    rw [h1, ih]
    congr 1
    apply UInt8.toNat_inj.1
    rw [UInt8.toNat_ofNat']; omega

theorem beNat_beBytes (len n : ℕ) (h : n < 256 ^ len) : beNat (beBytes len n) = n := by
  rw [beNat_eq_leNat_reverse, beBytes, List.reverse_reverse, leNat_leBytes len n h]

theorem beBytes_beNat (bs : List UInt8) : beBytes bs.length (beNat bs) = bs := by
  rw [beNat_eq_leNat_reverse, beBytes]
  have := leBytes_leNat bs.reverse
  rw [List.length_reverse] at this
  rw [this, List.reverse_reverse]

theorem beNat_natBytes (n : ℕ) : beNat (natBytes n) = n := by
  rw [beNat_eq_leNat_reverse, natBytes, List.reverse_reverse, leNat_eq_ofDigits, List.map_map]
  conv_rhs => rw [← Nat.ofDigits_digits 256 n]
  congr 1
  conv_rhs => rw [← List.map_id (Nat.digits 256 n)]
  refine List.map_congr_left fun d hd => ?_
  have := Nat.digits_lt_base (by norm_num) hd
  simp only [Function.comp, id, UInt8.toNat_ofNat']
  exact Nat.mod_eq_of_lt this

theorem natBytes_injective : Function.Injective natBytes := fun a b h => by
  rw [← beNat_natBytes a, h, beNat_natBytes]

/-- re-encoding strips leading zero bytes -/
theorem natBytes_beNat (bs : List UInt8) : natBytes (beNat bs) = bs.dropWhile (· = 0) := by
  rw [beNat_eq_leNat_reverse]
  have key : ∀ l : List UInt8, ((Nat.digits 256 (leNat l)).map UInt8.ofNat) =
      (l.reverse.dropWhile (· = 0)).reverse := by
    intro l
    induction l with
    | nil => simp [leNat]
    | cons b l ih =>
      rw [leNat_cons, List.reverse_cons]
      have hb := b.toNat_lt
      by_cases h0 : b.toNat + 256 * leNat l = 0
      · have hb0 : b = 0 := UInt8.toNat_inj.1 (by simp; omega)
        have hl0 : leNat l = 0 := by omega
        rw [h0]
        rw [hl0] at ih
        simp only [Nat.digits_zero, List.map_nil] at ih ⊢
        have h2 : (l.reverse.dropWhile (· = 0)) = [] := by
          have := congrArg List.reverse ih
          simpa using this.symm
        rw [List.dropWhile_append, h2, hb0]
        simp
      · rw [Nat.digits_add 256 (by norm_num) _ _ hb (by omega), List.map_cons, ih,
          List.dropWhile_append]
        rcases hd : (l.reverse.dropWhile (· = 0)) with _ | ⟨c, cs⟩
        · simp only [hd] at ih
          have hl0 : leNat l = 0 := by
            have : Nat.digits 256 (leNat l) = [] := by simpa using ih
            exact Nat.digits_eq_nil_iff_eq_zero.1 this
          have hb0 : b ≠ 0 := by
            rintro rfl
            simp at h0; omega
          simp only [hd]; simp [hb0]
        · simp only [hd]; simp
  rw [natBytes, key]
  simp

end Verif
