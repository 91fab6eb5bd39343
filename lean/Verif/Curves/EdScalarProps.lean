import Verif.Curves.EdScalarModel
import Mathlib.Tactic.Ring
import Mathlib.Tactic.FieldSimp
import Mathlib.Algebra.Group.Even
import Mathlib.Algebra.Field.ZMod

/-!
# `ScalarEd25519`: every method

* C178 the methods of the scalars of Ed25519, with the places where they differ from those of the other curves
-/

set_option exponentiation.threshold 600
set_option maxRecDepth 10000

namespace Verif.Curves.Ed

open Primes

theorem edl_lt : edl < 256 ^ 32 := by norm_num [edl]

theorem bytes_val (s : Fl) : leNat (libBytes s) = s.val :=
  leNat_leBytes _ _ (lt_trans (ZMod.val_lt s) edl_lt)

theorem setCanonical_ok (b : List UInt8) (v : Fl) :
    libSetCanonical b = .ok v ↔ b.length = 32 ∧ leNat b < edl ∧ v = ((leNat b : ℕ) : Fl) := by
  unfold libSetCanonical
  rw [Go.guard_bind_eq_ok, Go.guard_bind_eq_ok]
  simp only [Except.ok.injEq]
  exact and_congr_right fun _ => and_congr_right fun _ => eq_comm

theorem setCanonical_bytes (s : Fl) : libSetCanonical (libBytes s) = .ok s := by
  rw [setCanonical_ok, bytes_val]
  exact ⟨leBytes_length _ _, ZMod.val_lt s, (ZMod.natCast_zmod_val s).symm⟩

/-- C178: the field operations, for all elements. -/
theorem C178_ring (x y z : Fl) : scZero = 0 ∧ scOne = .ok 1 ∧ scAdd x (some y) = some (x + y) ∧
    scSub x (some y) = some (x - y) ∧ scMul x (some y) = some (x * y) ∧ scSquare x = x ^ 2 ∧ scDouble x = 2 * x ∧
    scCube x = x ^ 3 ∧ scMulAdd x (some y) (some z) = some (x * y + z) ∧ scNeg x = -x := by
  refine ⟨rfl, ?_, rfl, rfl, rfl, (pow_two x).symm, (two_mul x).symm, ?_, rfl, rfl⟩
  · rw [scOne, setCanonical_ok]
    have h : leNat (1 :: List.replicate 31 (0 : UInt8)) = 1 := by decide +kernel
    rw [h]
    exact ⟨by simp, by norm_num [edl], by rw [Nat.cast_one]⟩
  · rw [scCube]; ring

/-- C178: `Invert` and `Div` for a non-zero element; for zero they return zero and no error. -/
theorem C178_div (x y : Fl) :
    (x ≠ 0 → ∃ i, x * i = 1 ∧ scInvert x = .ok i ∧ scDiv y (some x) = some (y * i)) ∧
    scInvert 0 = .ok 0 ∧ scDiv y (some 0) = some 0 := by
  refine ⟨fun h => ⟨x⁻¹, mul_inv_cancel₀ h, rfl, ?_⟩, ?_, ?_⟩
  · show some (x⁻¹ * y) = _
    rw [mul_comm]
  · show Except.ok (0 : Fl)⁻¹ = _
    rw [inv_zero]
  · show some ((0 : Fl)⁻¹ * y) = _
    rw [inv_zero, zero_mul]

theorem foldl_or_eq (l : List UInt8) (a : UInt8) : l.foldl (· ||| ·) a = 0 ↔ a = 0 ∧ ∀ x ∈ l, x = 0 := by
  induction l generalizing a with
  | nil => simp
  | cons b t ih =>
    rw [List.foldl_cons, ih]
    have : a ||| b = 0 ↔ a = 0 ∧ b = 0 := by
      rw [← UInt8.toNat_inj, ← UInt8.toNat_inj (b := 0), ← UInt8.toNat_inj (a := b), UInt8.toNat_or]
      exact Nat.or_eq_zero_iff
    rw [this]
    simp only [List.forall_mem_cons]
    exact and_assoc

theorem leNat_zero_iff (l : List UInt8) : leNat l = 0 ↔ ∀ x ∈ l, x = 0 := by
  induction l with
  | nil => simp [leNat]
  | cons b t ih =>
    rw [leNat_cons, List.forall_mem_cons, ← ih, ← UInt8.toNat_inj]
    show _ ↔ b.toNat = 0 ∧ _
    omega

theorem libBytes_cons (s : Fl) : libBytes s = UInt8.ofNat s.val :: leBytes 31 (s.val / 256) := rfl

theorem odd_head (n : ℕ) : (UInt8.ofNat n &&& 1 = (1 : UInt8) ↔ n % 2 = 1) ∧
    (UInt8.ofNat n &&& 1 = (0 : UInt8) ↔ n % 2 = 0) := by
  have h : (UInt8.ofNat n &&& (1 : UInt8)).toNat = n % 2 := by
    rw [UInt8.toNat_and, UInt8.toNat_ofNat']
    show n % 256 &&& 1 = _
    rw [Nat.and_one_is_mod]; omega
  constructor
  · rw [← UInt8.toNat_inj, h]; rfl
  · rw [← UInt8.toNat_inj, h]; rfl

/-- C178: `IsZero`, `IsOne`, `IsOdd` and `IsEven` decide what they say. -/
theorem C178_predicates (x : Fl) : (scIsZero x = true ↔ x = 0) ∧ (scIsOne x = true ↔ x = 1) ∧
    (scIsOdd x = true ↔ x.val % 2 = 1) ∧ (scIsEven x = true ↔ x.val % 2 = 0) := by
  have hz : scIsZero x = true ↔ x = 0 := by
    unfold scIsZero
    rw [beq_iff_eq, foldl_or_eq, ← leNat_zero_iff, bytes_val, ZMod.val_eq_zero]
    simp
  refine ⟨hz, ?_, ?_, ?_⟩
  · unfold scIsOne
    rw [Bool.and_eq_true, beq_iff_eq, beq_iff_eq, foldl_or_eq, ← leNat_zero_iff]
    have hv := bytes_val x
    have hl : (libBytes x).length = 32 := leBytes_length _ _
    generalize libBytes x = l at hv hl
    cases l with
    | nil => simp at hl
    | cons b t =>
      rw [leNat_cons] at hv
      have h1 : x = 1 ↔ x.val = 1 := by
        constructor
        · rintro rfl; exact ZMod.val_one _
        · intro h
          rw [← ZMod.natCast_zmod_val x, h, Nat.cast_one]
      rw [h1, ← hv]
      simp only [List.drop_succ_cons, List.drop_zero, List.headD_cons, true_and]
      rw [← UInt8.toNat_inj]
      have := b.toNat_lt
      show leNat t = 0 ∧ b.toNat = 1 ↔ _
      omega
  · unfold scIsOdd
    rw [decide_eq_true_eq, libBytes_cons]
    exact (odd_head _).1
  · unfold scIsEven
    rw [decide_eq_true_eq, libBytes_cons]
    exact (odd_head _).2

/-- C178: `Cmp` is 0 for equal elements and `-2` for all others: it never orders them, and does not tell a different element
from a scalar of another field. -/
theorem C178_cmp (x y : Fl) : (scCmp x (some y) = 0 ↔ x = y) ∧ (x ≠ y → scCmp x (some y) = -2) ∧ scCmp x none = -2 := by
  have h : scCmp x (some y) = if x = y then 0 else -2 := by
    show (if scIsZero (x - y) = true then (0 : ℤ) else -2) = _
    exact if_congr ((C178_predicates _).1.trans sub_eq_zero) rfl rfl
  rw [h]
  refine ⟨?_, fun hn => if_neg hn, rfl⟩
  split_ifs with hxy
  · simp [hxy]
  · simp [hxy]

theorem leNat_append (l m : List UInt8) : leNat (l ++ m) = leNat l + 256 ^ l.length * leNat m := by
  induction l with
  | nil => simp [leNat]
  | cons a t ih => rw [List.cons_append, leNat_cons, leNat_cons, ih, List.length_cons, pow_succ]; ring

theorem leNat_zeros (l : List UInt8) (n : ℕ) : leNat (l ++ List.replicate n 0) = leNat l := by
  rw [leNat_append, (leNat_zero_iff _).2 fun x hx => List.eq_of_mem_replicate hx, mul_zero, add_zero]

theorem low32 (u : UInt64) : leNat [u.toUInt8, (u >>> 8).toUInt8, (u >>> 16).toUInt8, (u >>> 24).toUInt8] =
    u.toNat % 2 ^ 32 := by
  simp only [leNat, List.foldr_cons, List.foldr_nil, UInt64.toNat_toUInt8, UInt64.toNat_shiftRight]
  have h8 : (8 : UInt64).toNat % 64 = 8 := rfl
  have h16 : (16 : UInt64).toNat % 64 = 16 := rfl
  have h24 : (24 : UInt64).toNat % 64 = 24 := rfl
  rw [h8, h16, h24, Nat.shiftRight_eq_div_pow, Nat.shiftRight_eq_div_pow, Nat.shiftRight_eq_div_pow]
  omega

theorem abs_toNat (v : Int64) : (if v < 0 then -v else v).toUInt64.toNat = v.toInt.natAbs := by
  have hlt : v < 0 ↔ v.toInt < 0 := by rw [Int64.lt_iff_toInt_lt]; rfl
  have e : ∀ w : Int64, w.toUInt64.toNat = w.toBitVec.toNat := fun _ => rfl
  have ei : v.toInt = v.toBitVec.toInt := rfl
  have hb := v.toBitVec.isLt
  have hc := BitVec.toInt_eq_toNat_cond v.toBitVec
  rw [ei]
  rw [ei] at hlt
  split_ifs with h <;> rw [hlt] at h
  · rw [e, Int64.toBitVec_neg, BitVec.toNat_neg]
    split_ifs at hc <;> omega
  · rw [e]
    split_ifs at hc <;> omega

/-- C178: `New` keeps the low 32 bits of the absolute value. -/
theorem C178_new (v : Int64) :
    scNew v = some (if v.toInt < 0 then -((v.toInt.natAbs % 2 ^ 32 : ℕ) : Fl) else ((v.toInt.natAbs % 2 ^ 32 : ℕ) : Fl)) := by
  have hlt : v < 0 ↔ v.toInt < 0 := by rw [Int64.lt_iff_toInt_lt]; rfl
  unfold scNew libSetUniform
  simp only []
  rw [Go.guard_true (by simp), Go.ok_bind, leNat_zeros, low32, abs_toNat]
  simp only []
  exact congrArg some (if_congr hlt rfl rfl)

/-- C178: so `New` is the integer it is given exactly when its absolute value is below `2^32`; `New(2^32)` is zero. -/
theorem C178_new_exact (v : Int64) : (scNew v = some (v.toInt : Fl) ↔ v.toInt.natAbs < 2 ^ 32) ∧
    scNew (Int64.ofInt (2 ^ 32)) = some 0 := by
  constructor
  · rw [C178_new]
    have hb : v.toInt.natAbs ≤ 2 ^ 63 := by
      have h1 := v.le_toInt
      have h2 := v.toInt_lt
      omega
    have hcast : ∀ a b : ℕ, a ≤ 2 ^ 63 → b ≤ 2 ^ 63 → (((a : ℕ) : Fl) = ((b : ℕ) : Fl) ↔ a = b) := by
      intro a b ha hb
      have hl : 2 ^ 63 < edl := by norm_num [edl]
      refine ⟨fun h => ?_, fun h => by rw [h]⟩
      rw [ZMod.natCast_eq_natCast_iff', Nat.mod_eq_of_lt (by omega), Nat.mod_eq_of_lt (by omega)] at h
      exact h
    have hv : (v.toInt : Fl) = if v.toInt < 0 then -((v.toInt.natAbs : ℕ) : Fl) else ((v.toInt.natAbs : ℕ) : Fl) := by
      split_ifs with h
      · rw [← Int.cast_natCast, ← Int.cast_neg]; congr 1; omega
      · rw [← Int.cast_natCast]; congr 1; omega
    rw [Option.some_inj, hv]
    have hm := hcast (v.toInt.natAbs % 2 ^ 32) v.toInt.natAbs (by omega) hb
    split_ifs with h
    · rw [neg_inj, hm]; omega
    · rw [hm]; omega
  · rw [C178_new]
    have : (Int64.ofInt (2 ^ 32)).toInt = 2 ^ 32 := by decide
    rw [this]
    norm_num

/-- C178: `BigInt` is the least residue; `SetBigInt` reduces every integer and refuses nil. -/
theorem C178_bigInt (x : Fl) (v : ℤ) : scBigInt x = x.val ∧ scSetBigInt (some v) = .ok (v : Fl) ∧
    scSetBigInt none = Go.err ∧ scSetBigInt (some (scBigInt x)) = .ok x := by
  have h1 : scBigInt x = x.val := by
    rw [scBigInt, beNat_eq_leNat_reverse, List.reverse_reverse, bytes_val]
  have h2 : ∀ v : ℤ, scSetBigInt (some v) = .ok (v : Fl) := by
    intro v
    have hpos : (0 : ℤ) < (edl : ℕ) := by norm_num [edl]
    have h0 := Int.emod_nonneg v hpos.ne'
    have h3 := Int.emod_lt_of_pos v hpos
    obtain ⟨n, hn⟩ := Int.eq_ofNat_of_zero_le h0
    have hlt : n < edl := by rw [hn] at h3; exact_mod_cast h3
    have hz : (v : Fl) = ((n : ℕ) : Fl) := by
      have h4 := ZMod.intCast_mod v edl
      rw [hn] at h4
      rw [← h4, Int.cast_natCast]
    show libSetCanonical (((natBytes (v % edl).toNat).reverse.take 32) ++
      List.replicate (32 - (natBytes (v % edl).toNat).length) 0) = _
    rw [hn, Int.toNat_natCast, hz]
    have hd : (natBytes n).length ≤ 32 := by
      rw [natBytes, List.length_reverse, List.length_map]
      exact (Nat.digits_length_le_iff (by norm_num) n).2 (lt_trans hlt edl_lt)
    have hle : leNat ((natBytes n).reverse ++ List.replicate (32 - (natBytes n).length) 0) = n := by
      rw [leNat_zeros, ← beNat_eq_leNat_reverse, beNat_natBytes]
    rw [List.take_of_length_le (by simpa using hd), setCanonical_ok, hle]
    exact ⟨by simp; omega, hlt, rfl⟩
  exact ⟨h1, h2 v, rfl, by rw [h1, h2, Int.cast_natCast, ZMod.natCast_zmod_val]⟩

/-- C178: `Sqrt` returns a root of a square; of a non-square it returns the element itself, without an error. -/
theorem C178_sqrt (modSqrt : ℤ → Option ℤ) (h1 : ∀ a r, modSqrt a = some r → ((r : Fl)) ^ 2 = (a : Fl))
    (h2 : ∀ a, modSqrt a = none ↔ ¬ IsSquare (a : Fl)) (x : Fl) :
    (IsSquare x → ∃ r, r ^ 2 = x ∧ scSqrt modSqrt x = .ok r) ∧ (¬ IsSquare x → scSqrt modSqrt x = .ok x) := by
  have hx : ((scBigInt x : ℤ) : Fl) = x := by
    rw [(C178_bigInt x 0).1, Int.cast_natCast, ZMod.natCast_zmod_val]
  constructor
  · intro hs
    cases hm : modSqrt (scBigInt x) with
    | none => rw [h2, hx] at hm; exact absurd hs hm
    | some r =>
      refine ⟨(r : Fl), by rw [h1 _ _ hm, hx], ?_⟩
      show scSetBigInt (some ((modSqrt (scBigInt x)).getD _)) = _
      rw [hm, Option.getD_some, (C178_bigInt x r).2.1]
  · intro hs
    have hm : modSqrt (scBigInt x) = none := by rw [h2, hx]; exact hs
    show scSetBigInt (some ((modSqrt (scBigInt x)).getD _)) = _
    rw [hm, Option.getD_none, (C178_bigInt x 0).2.2.2]

/-- C178: `Bytes` is the little-endian encoding in 32 bytes; `SetBytes` accepts exactly these encodings and inverts it. -/
theorem C178_bytes (x : Fl) (b : List UInt8) (v : Fl) : (scBytes x).length = 32 ∧ leNat (scBytes x) = x.val ∧
    scSetBytes (scBytes x) = .ok x ∧
    (scSetBytes b = .ok v ↔ b.length = 32 ∧ leNat b < edl ∧ v = ((leNat b : ℕ) : Fl)) ∧
    (scSetBytes b = .ok v → scBytes v = b) := by
  have hs : ∀ b v, scSetBytes b = .ok v ↔ b.length = 32 ∧ leNat b < edl ∧ v = ((leNat b : ℕ) : Fl) := by
    intro b v
    unfold scSetBytes
    rw [Go.guard_bind_eq_ok, setCanonical_ok]
    exact ⟨fun h => h.2, fun h => ⟨h.1, h⟩⟩
  refine ⟨leBytes_length _ _, bytes_val x, ?_, hs b v, fun h => ?_⟩
  · rw [hs, ← setCanonical_ok]
    exact setCanonical_bytes x
  · rw [hs] at h
    obtain ⟨hl, hlt, rfl⟩ := h
    show leBytes 32 _ = b
    rw [ZMod.val_natCast, Nat.mod_eq_of_lt hlt, ← hl, leBytes_leNat]

/-- C178: `SetBytesWide` accepts exactly 64 bytes, reduces them, and extends `SetBytes` by zeros at the end. -/
theorem C178_wide (b : List UInt8) (v : Fl) :
    (scSetBytesWide b = .ok v ↔ b.length = 64 ∧ v = ((leNat b : ℕ) : Fl)) ∧
    (scSetBytes b = .ok v → scSetBytesWide (b ++ List.replicate 32 0) = .ok v) := by
  have hw : ∀ b, scSetBytesWide b = .ok v ↔ b.length = 64 ∧ v = ((leNat b : ℕ) : Fl) := by
    intro b
    unfold scSetBytesWide libSetUniform
    rw [Go.guard_bind_eq_ok]
    simp only [Except.ok.injEq]
    exact and_congr_right fun _ => eq_comm
  refine ⟨hw b, fun h => ?_⟩
  rw [(C178_bytes 0 b v).2.2.2.1] at h
  rw [hw]
  refine ⟨by simp [h.1], ?_⟩
  rw [leNat_zeros, h.2.2]

/-- C178: `SetBytesClamping` reduces the clamped number, which is a multiple of eight between `2^254` and `2^255`. -/
theorem C178_clamping (b : List UInt8) (hb : b.length = 32) :
    scSetBytesClamping b = .ok ((leNat (clamp b) : ℕ) : Fl) ∧ (clamp b).length = 32 ∧ 8 ∣ leNat (clamp b) ∧
    2 ^ 254 ≤ leNat (clamp b) ∧ leNat (clamp b) < 2 ^ 255 := by
  have h1 : scSetBytesClamping b = .ok ((leNat (clamp b) : ℕ) : Fl) := by
    unfold scSetBytesClamping libSetClamped
    rw [Go.guard_true hb, Go.ok_bind]
  refine ⟨h1, ?_⟩
  cases b with
  | nil => simp at hb
  | cons a t =>
    have ht : t.length = 31 := by simpa using hb
    have hd : (t.drop 30).length = 1 := by simp [ht]
    have hm : (t.take 30).length = 30 := by simp [ht]
    obtain ⟨z, hz⟩ := List.length_eq_one_iff.1 hd
    have hc : clamp (a :: t) = (a &&& 248) :: (t.take 30 ++ [(z &&& 63) ||| 64]) := by
      simp [clamp, hz]
    rw [hc]
    have hlt := leNat_lt (t.take 30)
    rw [hm] at hlt
    have ha : (a &&& 248).toNat % 8 = 0 ∧ (a &&& 248).toNat < 256 := by
      have key : ∀ n < 256, (UInt8.ofNat n &&& 248).toNat % 8 = 0 ∧ (UInt8.ofNat n &&& 248).toNat < 256 := by
        decide +kernel
      have := key a.toNat a.toNat_lt
      rwa [UInt8.ofNat_toNat] at this
    have hzz : 64 ≤ ((z &&& 63) ||| 64).toNat ∧ ((z &&& 63) ||| 64).toNat < 128 := by
      have key : ∀ n < 256, 64 ≤ ((UInt8.ofNat n &&& 63) ||| 64).toNat ∧ ((UInt8.ofNat n &&& 63) ||| 64).toNat < 128 := by
        decide +kernel
      have := key z.toNat z.toNat_lt
      rwa [UInt8.ofNat_toNat] at this
    rw [leNat_cons, leNat_append, hm]
    have hs : leNat [(z &&& 63) ||| 64] = ((z &&& 63) ||| 64).toNat := by simp [leNat]
    rw [hs]
    generalize ((z &&& 63) ||| 64).toNat = zz at *
    generalize (a &&& 248).toNat = aa at *
    generalize leNat (t.take 30) = mm at *
    norm_num at *
    refine ⟨by omega, by omega, by omega, by omega⟩

/-- C178: the reduction destroys the multiple of eight: there is an input for which the scalar is odd. -/
theorem C178_clamping_odd : ∃ b v, b.length = 32 ∧ scSetBytesClamping b = .ok v ∧ scIsOdd v = true := by
  refine ⟨List.replicate 31 0 ++ [0x58], _, by simp, (C178_clamping _ (by simp)).1, ?_⟩
  have h : leNat (clamp (List.replicate 31 0 ++ [0x58])) = 11 * 2 ^ 251 := by decide +kernel
  rw [h, (C178_predicates _).2.2.1, ZMod.val_natCast]
  norm_num [edl]

/-- C178: `Hash` is never nil and reduces the 64 bytes of the hash; `Random` is `Hash` of the 64 bytes read. -/
theorem C178_hash (H : List UInt8 → List UInt8) (m : List UInt8) :
    scHash H m = some ((leNat (H m) : ℕ) : Fl) ∧ scRandom H none = none ∧
    ∀ r : List UInt8, r.length = 64 → scRandom H (some r) = scHash H r := by
  refine ⟨?_, rfl, fun r hr => by simp [scRandom, ← hr]⟩
  unfold scHash
  simp only []
  rw [setCanonical_bytes]

/-- C178: a nil argument or one of another type gives nil, in `MulAdd` too. -/
theorem C178_foreign (s t : Fl) (w : Option Fl) : scAdd s none = none ∧ scSub s none = none ∧ scMul s none = none ∧
    scDiv s none = none ∧ scMulAdd s (some t) none = none ∧ scMulAdd s none w = none := ⟨rfl, rfl, rfl, rfl, rfl, rfl⟩

/-- both cases of `Sqrt` occur: a function with the properties of `ModSqrt` exists, and two is not a square -/
example : (∃ modSqrt : ℤ → Option ℤ, (∀ a r, modSqrt a = some r → ((r : Fl)) ^ 2 = (a : Fl)) ∧
    (∀ a, modSqrt a = none ↔ ¬ IsSquare (a : Fl))) ∧ scNew (-3) = some (-3) ∧ (2 : Fl) ≠ 0 := by
  classical
  refine ⟨⟨fun a => if h : IsSquare (a : Fl) then some ((Classical.choose h).val : ℤ) else none, fun a r h => ?_, fun a => ?_⟩,
    ?_, ?_⟩
  · simp only at h
    split_ifs at h with hs
    rw [← Option.some_inj.1 h, Int.cast_natCast, ZMod.natCast_zmod_val, pow_two, ← Classical.choose_spec hs]
  · simp
  · rw [C178_new]
    have : (-3 : Int64).toInt = -3 := by decide
    rw [this]; norm_num
  · intro h
    have h2 : ((2 : ℕ) : Fl) = 0 := by exact_mod_cast h
    rw [ZMod.natCast_eq_zero_iff] at h2
    exact absurd (Nat.le_of_dvd (by norm_num) h2) (by norm_num [edl])

end Verif.Curves.Ed
