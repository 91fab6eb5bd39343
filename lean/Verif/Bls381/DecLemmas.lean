import Verif.Bls381.RowLemmas
import Verif.Bls381.FpModel
import Verif.Common.Primes
import Mathlib.Tactic.FieldSimp

/-!
# From limbs to residues
-/

namespace Verif.Bls381

/-- canonical limbs: the right number of them, value below the modulus -/
def Canon (p n : ℕ) (a : List UInt64) : Prop := a.length = n ∧ limbVal a < p

/-- the residue that limbs in Montgomery form stand for -/
def dec (p n : ℕ) (a : List UInt64) : ZMod p := (limbVal a : ZMod p) * (2 ^ (64 * n) : ZMod p)⁻¹

structure FieldMod (inv : UInt64) (m : List UInt64) (p n : ℕ) : Prop where
  good : GoodMod inv m
  val : limbVal m = p
  len : m.length = n
  odd : p % 2 = 1

section
variable {inv : UInt64} {m : List UInt64} {p n : ℕ} [hp : Fact p.Prime] (H : FieldMod inv m p n)

include H

theorem two_pow_ne : (2 ^ (64 * n) : ZMod p) ≠ 0 := by
  apply pow_ne_zero
  intro h
  have h2 : ((2 : ℕ) : ZMod p) = 0 := by exact_mod_cast h
  rw [ZMod.natCast_eq_zero_iff] at h2
  have := (Nat.dvd_prime Nat.prime_two).mp h2
  have hodd := H.odd
  rcases this with h | h
  · exact hp.out.one_lt.ne' h
  · omega

theorem dec_of_modEq {v r : List UInt64} (h : (2 ^ 64) ^ n * limbVal v ≡ limbVal r [MOD p]) :
    (limbVal v : ZMod p) = (limbVal r : ZMod p) * (2 ^ (64 * n) : ZMod p)⁻¹ := by
  have h1 := (ZMod.natCast_eq_natCast_iff _ _ p).mpr h
  push_cast at h1
  have hne := two_pow_ne (p := p) H
  rw [← h1, pow_mul]
  rw [pow_mul] at hne
  field_simp
  ring

theorem dec_inj {a b : List UInt64} (ha : Canon p n a) (hb : Canon p n b) (h : dec p n a = dec p n b) :
    a = b := by
  have hne := inv_ne_zero (two_pow_ne (p := p) H)
  have h1 : (limbVal a : ZMod p) = limbVal b := mul_right_cancel₀ hne h
  rw [ZMod.natCast_eq_natCast_iff'] at h1
  rw [Nat.mod_eq_of_lt ha.2, Nat.mod_eq_of_lt hb.2] at h1
  exact limbVal_inj (ha.1.trans hb.1.symm) h1

theorem mul_gen {x y : List UInt64} (hx : x.length = n) (hy : Canon p n y) :
    Canon p n (mulMod inv m x y) ∧ dec p n (mulMod inv m x y) = dec p n x * dec p n y := by
  have hv := H.val
  have hl := H.len
  have hxlt := limbVal_lt x
  rw [hx] at hxlt
  obtain ⟨h1, h2, h3⟩ := mulMod_spec inv m x y H.good (hx.trans hl.symm) (hy.1.trans hl.symm)
    (by
      rw [hv, hl, Nat.mul_comm p]
      have h0 : 0 < p := hp.out.pos
      calc limbVal x * limbVal y ≤ limbVal x * p := Nat.mul_le_mul_left _ hy.2.le
        _ < (2 ^ 64) ^ n * p := Nat.mul_lt_mul_of_pos_right hxlt h0)
  rw [hv] at h2 h3
  rw [hl] at h1 h3
  refine ⟨⟨h1, h2⟩, ?_⟩
  have h4 := (ZMod.natCast_eq_natCast_iff _ _ p).mpr h3
  push_cast at h4
  have hne := two_pow_ne (p := p) H
  simp only [dec]
  rw [pow_mul] at hne ⊢
  field_simp
  linear_combination h4

theorem square_gen {x : List UInt64} (hx : Canon p n x) :
    Canon p n (squareMod inv m x) ∧ dec p n (squareMod inv m x) = dec p n x * dec p n x := by
  have hv := H.val
  have hl := H.len
  have hxlt := limbVal_lt x
  rw [hx.1] at hxlt
  obtain ⟨h1, h2, h3⟩ := squareMod_spec inv m x H.good (hx.1.trans hl.symm)
    (by
      rw [hv, hl, Nat.mul_comm p]
      have h0 : 0 < p := hp.out.pos
      calc limbVal x * limbVal x ≤ limbVal x * p := Nat.mul_le_mul_left _ hx.2.le
        _ < (2 ^ 64) ^ n * p := Nat.mul_lt_mul_of_pos_right hxlt h0)
  rw [hv] at h2 h3
  rw [hl] at h1 h3
  refine ⟨⟨h1, h2⟩, ?_⟩
  have h4 := (ZMod.natCast_eq_natCast_iff _ _ p).mpr h3
  push_cast at h4
  have hne := two_pow_ne (p := p) H
  simp only [dec]
  rw [pow_mul] at hne ⊢
  field_simp
  linear_combination h4

theorem fromMont_gen {a : List UInt64} (ha : a.length = n) :
    Canon p n (fromMontgomery inv m a) ∧
      limbVal (fromMontgomery inv m a) = (dec p n a).val := by
  obtain ⟨h1, h2, h3⟩ := fromMontgomery_spec inv m a H.good (ha.trans H.len.symm)
  rw [H.val] at h2 h3
  rw [H.len] at h1 h3
  refine ⟨⟨h1, h2⟩, ?_⟩
  have h4 := dec_of_modEq H h3
  rw [dec, ← h4, ZMod.val_natCast, Nat.mod_eq_of_lt h2]

theorem add_gen {x y : List UInt64} (hx : Canon p n x) (hy : Canon p n y) :
    Canon p n (addMod m x y) ∧ dec p n (addMod m x y) = dec p n x + dec p n y := by
  have hs := H.good.small
  rw [H.val, H.len] at hs
  have h1 := addMod_eq m x y (hx.1.trans hy.1.symm) (hy.1.trans H.len.symm)
    (by rw [H.len]; have := hx.2; have := hy.2; omega)
  rw [H.val] at h1
  have h2 := addMod_length m x y (hx.1.trans hy.1.symm) (hy.1.trans H.len.symm)
  have hx2 := hx.2
  have hy2 := hy.2
  refine ⟨⟨h2.trans H.len, by rw [h1]; split <;> omega⟩, ?_⟩
  simp only [dec]
  rw [h1, ← add_mul]
  congr 1
  split
  · push_cast; rfl
  · rw [Nat.cast_sub (by omega), ZMod.natCast_self]; push_cast; ring

theorem sub_gen {x y : List UInt64} (hx : Canon p n x) (hy : Canon p n y) :
    Canon p n (subMod m x y) ∧ dec p n (subMod m x y) = dec p n x - dec p n y := by
  have hx2 := hx.2
  have hy2 := hy.2
  have h1 := subMod_eq m x y (hx.1.trans hy.1.symm) (hy.1.trans H.len.symm)
    (by rw [H.val]; omega)
  rw [H.val] at h1
  have h2 := subMod_length m x y (hx.1.trans hy.1.symm) (hy.1.trans H.len.symm)
  refine ⟨⟨h2.trans H.len, by rw [h1]; split <;> omega⟩, ?_⟩
  simp only [dec]
  rw [h1, ← sub_mul]
  congr 1
  split
  · rw [Nat.cast_sub (by omega)]; push_cast; rw [ZMod.natCast_self]; ring
  · rw [Nat.cast_sub (by omega)]

omit hp in
/-- `modulus - a` for a canonical `a` -/
theorem sbb_modulus {a : List UInt64} (ha : Canon p n a) :
    (sbbRow m a 0).1.length = n ∧ limbVal (sbbRow m a 0).1 = p - limbVal a := by
  have hl : m.length = a.length := H.len.trans ha.1.symm
  have hb := sbbRow_borrow m a hl
  rw [H.val, if_neg (by have := ha.2; omega)] at hb
  obtain ⟨h1, -⟩ := sbbRow_eq m a 0 hl (by decide)
  have hz : (0 : UInt64).toNat = 0 := rfl
  rw [hb, hz, H.val] at h1
  refine ⟨(sbbRow_length _ _ _ hl).trans ha.1, by omega⟩

end

/-! ## masks -/

theorem or_eq_zero64 (a b : UInt64) : a ||| b = 0 ↔ a = 0 ∧ b = 0 := UInt64.or_eq_zero_iff

theorem topNegOr (t : UInt64) : (t ||| ((0 : UInt64) - t)) >>> 63 = if t = 0 then 0 else 1 := by
  rw [top_or, topBit, topBit]
  by_cases h : t = 0
  · subst h; rfl
  · rw [if_neg h]
    have ht : t.toNat ≠ 0 := fun h' => h (UInt64.toNat_inj.mp h')
    have hlt := toNat_lt t
    have hn : ((0 : UInt64) - t).toNat = 2 ^ 64 - t.toNat := by
      rw [UInt64.toNat_sub]
      have hz : (0 : UInt64).toNat = 0 := rfl
      rw [hz]; omega
    rw [hn]
    by_cases h1 : t.toNat < 2 ^ 63
    · rw [if_pos h1, if_neg (by omega)]; rfl
    · rw [if_neg h1]
      split <;> rfl

theorem fullMask_eq (t : UInt64) : fullMask t = if t = 0 then 0 else (0 : UInt64) - 1 := by
  rw [fullMask, topNegOr]
  split <;> rfl

theorem zeroFlag_eq (t : UInt64) : zeroFlag t = if t = 0 then 1 else 0 := by
  rw [zeroFlag, topNegOr]
  by_cases h : t = 0
  · simp [h]
  · simp [h]

theorem orAll_aux (l : List UInt64) (a : UInt64) : l.foldl (· ||| ·) a = 0 ↔ a = 0 ∧ limbVal l = 0 := by
  induction l generalizing a with
  | nil => simp
  | cons x xs ih =>
    rw [List.foldl_cons, ih, or_eq_zero64, limbVal_cons]
    have : x = 0 ↔ x.toNat = 0 := ⟨fun h => by rw [h]; rfl, fun h => UInt64.toNat_inj.mp h⟩
    rw [this]
    constructor
    · rintro ⟨⟨h1, h2⟩, h3⟩; exact ⟨h1, by omega⟩
    · rintro ⟨h1, h2⟩; exact ⟨⟨h1, by omega⟩, by omega⟩

theorem orAll_eq_zero (l : List UInt64) : orAll l = 0 ↔ limbVal l = 0 := by
  rw [orAll, orAll_aux]; simp

theorem isZero_eq (l : List UInt64) : isZero l = if limbVal l = 0 then 1 else 0 := by
  rw [isZero, zeroFlag_eq]
  simp only [orAll_eq_zero]

theorem isNonZero_eq (l : List UInt64) : isNonZero l = if limbVal l = 0 then 0 else 1 := by
  rw [isNonZero, zeroFlag_eq]
  simp only [orAll_eq_zero]
  split <;> rfl

theorem xor_zero_iff (x y : List UInt64) (h : x.length = y.length) :
    limbVal (List.zipWith (· ^^^ ·) x y) = 0 ↔ x = y := by
  induction x generalizing y with
  | nil => cases y with
    | nil => simp
    | cons y ys => cases h
  | cons x xs ih => cases y with
    | nil => cases h
    | cons y ys =>
      have ih' := ih ys (by simpa using h)
      rw [List.zipWith_cons_cons, limbVal_cons]
      constructor
      · intro h0
        have h1 : (x ^^^ y).toNat = 0 := by omega
        have h2 : limbVal (List.zipWith (· ^^^ ·) xs ys) = 0 := by omega
        have h3 : x ^^^ y = 0 := UInt64.toNat_inj.mp h1
        rw [UInt64.xor_eq_zero_iff.mp h3, ih'.mp h2]
      · intro h0
        rw [List.cons.injEq] at h0
        rw [h0.1, ih'.mpr h0.2, UInt64.xor_self]; rfl

theorem equal_eq (x y : List UInt64) (h : x.length = y.length) : equal x y = if x = y then 1 else 0 := by
  rw [equal, zeroFlag_eq]
  simp only [orAll_eq_zero, xor_zero_iff x y h]

theorem cmove_zero (x y : List UInt64) (h : x.length = y.length) : cmove x y 0 = x := by
  have hm : UInt64.ofInt (-0) = 0 := by decide
  simp only [cmove, hm, UInt64.and_zero, UInt64.xor_zero]
  induction x generalizing y with
  | nil => simp
  | cons a as ih => cases y with
    | nil => cases h
    | cons b bs => rw [List.zipWith_cons_cons, ih bs (by simpa using h)]

theorem cmove_one (x y : List UInt64) (h : x.length = y.length) : cmove x y 1 = y := by
  have hm : UInt64.ofInt (-1) = -1 := by decide
  simp only [cmove, hm, UInt64.and_neg_one]
  induction x generalizing y with
  | nil => cases y with
    | nil => simp
    | cons b bs => cases h
  | cons a as ih => cases y with
    | nil => cases h
    | cons b bs =>
      rw [List.zipWith_cons_cons, ih bs (by simpa using h), ← UInt64.xor_assoc, UInt64.xor_self,
        UInt64.zero_xor]

theorem map_mask (t : List UInt64) (u : UInt64) :
    t.map (· &&& fullMask u) = if u = 0 then t.map fun _ => 0 else t := by
  rw [fullMask_eq]
  split
  · exact map_and_zero t
  · exact map_and_ones t

/-! ## words and bytes -/

theorem leNat_append (a b : List UInt8) : leNat (a ++ b) = leNat a + 256 ^ a.length * leNat b := by
  induction a with
  | nil => simp [leNat]
  | cons x xs ih =>
    rw [List.cons_append, leNat_cons, leNat_cons, ih, List.length_cons, pow_succ]; ring

theorem wordsLE_length (n : ℕ) (b : List UInt8) : (wordsLE n b).length = n := by
  induction n generalizing b with
  | zero => rfl
  | succ k ih => rw [wordsLE, List.length_cons, ih]

theorem wordsLE_val (n : ℕ) (b : List UInt8) (h : b.length = 8 * n) : limbVal (wordsLE n b) = leNat b := by
  induction n generalizing b with
  | zero =>
    have : b = [] := by simpa using h
    subst this; rfl
  | succ k ih =>
    have ht : (b.take 8).length = 8 := by rw [List.length_take]; omega
    have hlt := leNat_lt (b.take 8)
    rw [ht] at hlt
    rw [wordsLE, limbVal_cons, ih _ (by rw [List.length_drop]; omega), ofNat_toNat]
    conv_rhs => rw [← List.take_append_drop 8 b, leNat_append, ht]
    rw [Nat.mod_eq_of_lt (by calc _ < 256 ^ 8 := hlt
      _ = 2 ^ 64 := by norm_num)]
    norm_num

theorem wordsLE_take (n : ℕ) (b : List UInt8) : wordsLE n (b.take (8 * n)) = wordsLE n b := by
  induction n generalizing b with
  | zero => rfl
  | succ k ih =>
    rw [wordsLE, wordsLE, List.take_take, List.drop_take, Nat.min_eq_left (by omega)]
    have : 8 * (k + 1) - 8 = 8 * k := by omega
    rw [this, ih]

theorem bytesLE_length (l : List UInt64) : (bytesLE l).length = 8 * l.length := by
  induction l with
  | nil => rfl
  | cons x xs ih =>
    rw [bytesLE, List.flatMap_cons, List.length_append, leBytes_length, ← bytesLE, ih, List.length_cons]
    ring

theorem bytesLE_val (l : List UInt64) : leNat (bytesLE l) = limbVal l := by
  induction l with
  | nil => rfl
  | cons x xs ih =>
    rw [bytesLE, List.flatMap_cons, leNat_append, ← bytesLE, ih, leBytes_length, limbVal_cons,
      leNat_leBytes _ _ (by have := toNat_lt x; norm_num at this ⊢; exact this)]
    norm_num

theorem bytesLE_eq (l : List UInt64) : bytesLE l = leBytes (8 * l.length) (limbVal l) := by
  rw [← bytesLE_val, ← bytesLE_length, leBytes_leNat]

end Verif.Bls381
