import Verif.Curves.GtScalarModel
import Verif.Bls381.GtProps
import Verif.Bls381.MapProps

/-!
# Property C185: the target group behind the `Scalar` interface
-/

namespace Verif.Curves.GtS

open Verif.Primes Verif.Bls381 Verif.Native Tower

set_option exponentiation.threshold 5000

variable {K : Type} [Field K] (T : Tower Fq K)

/-- on the group of order `r` every arithmetic method computes in one and the same multiplicative group: `Add` and `Mul` are its
product, `Sub` and `Div` its quotient, `Neg` and `Invert` its inverse, `Double` and `Square` the square, `Cube` the cube -/
theorem C185_group {a b c : Fp12 Fq} (ha : T.e12 a ^ blsr = 1) (hb : T.e12 b ^ blsr = 1) :
    (∃ x, add a (some b) = some x ∧ mul a (some b) = some x ∧ T.e12 x = T.e12 a * T.e12 b) ∧
    (∃ x, sub a (some b) = some x ∧ div a (some b) = some x ∧ T.e12 x = T.e12 a / T.e12 b) ∧
    (∃ x, mulAdd a (some b) (some c) = .ok (some x) ∧ T.e12 x = T.e12 a * T.e12 b * T.e12 c) ∧
    invert a = .ok (neg a) ∧ T.e12 (neg a) = (T.e12 a)⁻¹ ∧
    square a = double a ∧ T.e12 (double a) = T.e12 a ^ 2 ∧ T.e12 (cube a) = T.e12 a ^ 3 := by
  obtain ⟨h1, h2, h3, h4, h5, h6, h7, h8⟩ := C153_group T ha hb
  have hne : a ≠ Fp12.zero := by
    rintro rfl
    rw [e12_zero, zero_pow (by decide +kernel)] at ha
    exact zero_ne_one ha
  have hd : T.e12 (double a) = T.e12 a ^ 2 := by rw [double, h3, gtAdd, e12_mul, sq]
  refine ⟨⟨_, rfl, rfl, h1⟩, ⟨_, rfl, rfl, h6⟩, ⟨_, rfl, by rw [gtAdd, e12_mul, h1]⟩, ?_, h5, h4.trans h3.symm, hd, ?_⟩
  · obtain ⟨i1, i2⟩ := (C149_invert_fp12 Fp12.zero a).1 hne
    rw [invert, if_pos i1]
    refine congrArg Except.ok (T.e12_inj ?_)
    have := congrArg T.e12 i2
    rw [e12_mul, e12_one] at this
    rw [neg, h5]
    exact (inv_eq_of_mul_eq_one_right this).symm
  · rw [cube, gtAdd, e12_mul, h4, gtAdd, e12_mul]; ring

/-- the methods are not those of a field.  `Zero` absorbs under `Add`, and `One` is neutral for it; the difference of an element of
the group and itself is `One`; and `Mul` distributes over `Add` for the factor one alone -/
theorem C185_not_a_field (a : Fp12 Fq) :
    add a (some zero) = some zero ∧ add a (some one) = some a ∧ mul a (some one) = some a ∧
      (T.e12 a ^ blsr = 1 → sub a (some a) = some one) ∧ zero ≠ one ∧
      (∀ b c bc ab ac, a ≠ Fp12.zero → b ≠ Fp12.zero → c ≠ Fp12.zero → add b (some c) = some bc → mul a (some b) = some ab → mul a (some c) = some ac →
        (mul a (some bc) = add ab (some ac) ↔ a = one)) := by
  refine ⟨?_, ?_, ?_, fun ha => ?_, by decide +kernel, fun b c bc ab ac ha hb hc h1 h2 h3 => ?_⟩
  · exact congrArg some (T.e12_inj (by rw [gtAdd, e12_mul, zero, e12_zero, mul_zero]))
  · exact congrArg some (T.e12_inj (by rw [gtAdd, e12_mul, one, e12_one, mul_one]))
  · exact congrArg some (T.e12_inj (by rw [gtAdd, e12_mul, one, e12_one, mul_one]))
  · obtain ⟨-, -, -, -, -, -, h7, h8⟩ := C153_group T ha ha
    exact congrArg some (h8.trans h7)
  · obtain rfl := Option.some.inj h1
    obtain rfl := Option.some.inj h2
    obtain rfl := Option.some.inj h3
    have ne : ∀ {x : Fp12 Fq}, x ≠ Fp12.zero → T.e12 x ≠ 0 := fun h h0 => h (T.e12_eq_zero.1 h0)
    simp only [mul, add, Option.map_some, Option.some.injEq, one]
    have hi : ∀ {x y : Fp12 Fq}, x = y ↔ T.e12 x = T.e12 y := ⟨fun h => congrArg _ h, T.e12_inj⟩
    rw [hi, hi (y := Fp12.one)]
    simp only [gtAdd, e12_mul, e12_one]
    constructor
    · intro h
      have h0 : (T.e12 a * (T.e12 b * T.e12 c)) * T.e12 a = (T.e12 a * (T.e12 b * T.e12 c)) * 1 := by
        linear_combination -h
      exact mul_left_cancel₀ (mul_ne_zero (ne ha) (mul_ne_zero (ne hb) (ne hc))) h0
    · intro h; rw [h]; ring

/-- nil and foreign arguments give nil, and a panic in `MulAdd`; `Sqrt` returns nil without an error for every value; `Invert`
refuses exactly zero; `Cmp` tells equality only -/
theorem C185_errors (a b : Fp12 Fq) : add a none = none ∧ sub a none = none ∧ mul a none = none ∧ div a none = none ∧
    (∀ z, mulAdd a none z = Go.crash) ∧ mulAdd a (some b) none = .ok none ∧ cmp a none = -2 ∧ sqrt a = .ok none ∧
    (invert a = Go.err ↔ a = Fp12.zero) ∧ (cmp a (some b) = 0 ↔ a = b) ∧ (cmp a (some b) = -2 ↔ a ≠ b) := by
  refine ⟨rfl, rfl, rfl, rfl, fun _ => rfl, rfl, rfl, rfl, ?_, ?_, ?_⟩
  · constructor
    · intro h
      by_contra hne
      rw [invert, if_pos ((C149_invert_fp12 Fp12.zero a).1 hne).1] at h
      cases h
    · rintro rfl
      rw [invert, (C149_invert_fp12 Fp12.zero Fp12.zero).2 rfl]; rfl
  · rw [cmp, ← (C149_tests a b).2]
    split <;> simp_all
  · rw [cmp, Ne, ← (C149_tests a b).2]
    split <;> simp_all

/-- `SetBytes` accepts every length: what is missing is zero and what is too much is ignored -/
theorem C185_setBytes (b : List UInt8) : setBytes b = setBytes ((b.take 576) ++ List.replicate (576 - b.length) 0) ∧
    (∀ x, b.length ≤ 576 → setBytes b = .ok x → bytes x = b ++ List.replicate (576 - b.length) 0) ∧
    (∀ x, 576 ≤ b.length → setBytes b = .ok x → bytes x = b.take 576) := by
  have hl : (b.take 576 ++ List.replicate (576 - b.length) 0).length = 576 := by simp; omega
  have key : ∀ x, setBytes b = .ok x → bytes x = b.take 576 ++ List.replicate (576 - b.length) 0 := by
    intro x h
    rw [setBytes] at h
    split at h
    · rename_i hv
      obtain rfl := Except.ok.inj h
      exact C153_canonical hl hv
    · cases h
  refine ⟨?_, fun x hle h => ?_, fun x hle h => ?_⟩
  · rw [setBytes, setBytes, hl, List.take_of_length_le (le_of_eq hl), Nat.sub_self, List.replicate_zero, List.append_nil]
  · rw [key x h, List.take_of_length_le hle]
  · rw [key x h, Nat.sub_eq_zero_of_le hle, List.replicate_zero, List.append_nil]

/-- every value is read back from its bytes, also with anything after them; its bytes are 576 -/
theorem C185_roundtrip (x : Fp12 Fq) (extra : List UInt8) : (bytes x).length = 576 ∧
    setBytes (bytes x ++ extra) = .ok x ∧ setBigInt (some (bigInt x)) = .ok x ∧
    setBigInt (some (-bigInt x)) = .ok x ∧ Function.Injective bytes := by
  have hl := C153_bytes_length x
  have h0 : ∀ extra, setBytes (bytes x ++ extra) = .ok x := fun extra => by
    rw [setBytes, List.length_append, bytes, hl, List.take_left' hl, Nat.sub_eq_zero_of_le (by omega),
      List.replicate_zero, List.append_nil, C153_roundtrip]
    rfl
  have hb : beBytes 576 (beNat (gtBytes x)) = gtBytes x := by
    have := beBytes_beNat (gtBytes x)
    rwa [hl] at this
  have hlt : beNat (gtBytes x) < 256 ^ 576 := by
    have := beNat_lt (gtBytes x)
    rwa [hl] at this
  have h1 := h0 []
  rw [List.append_nil] at h1
  refine ⟨hl, h0 extra, ?_, ?_, C153_injective⟩
  · rw [setBigInt, bigInt, Int.natAbs_natCast, if_pos hlt, hb]; exact h1
  · rw [setBigInt, bigInt, Int.natAbs_neg, Int.natAbs_natCast, if_pos hlt, hb]; exact h1

/-- so encodings are malleable: the empty string and every string of up to 576 zeros are `Zero`, and the bytes of a value followed by
anything are accepted; a number that needs more than 576 bytes, or a nil one, panics -/
theorem C185_malleable : (∀ n ≤ 576, setBytes (List.replicate n 0) = .ok zero) ∧
    (∀ v : ℤ, 256 ^ 576 ≤ v.natAbs → setBigInt (some v) = Go.crash) ∧ setBigInt none = Go.crash ∧
    (∀ v : ℤ, v.natAbs < 256 ^ 576 → setBigInt (some v) ≠ Go.crash) := by
  refine ⟨fun n hn => ?_, fun v hv => ?_, rfl, fun v hv h => ?_⟩
  · rw [(C185_setBytes _).1, List.take_of_length_le (by simpa using hn), List.length_replicate, List.replicate_append_replicate,
      Nat.add_sub_cancel' hn, setBytes, List.length_replicate, List.take_of_length_le (List.length_replicate ..).le, Nat.sub_self,
      List.replicate_zero, List.append_nil, C153_accepts_zero]
    rfl
  · rw [setBigInt, if_neg (by omega)]
  · rw [setBigInt, if_pos hv, setBytes] at h
    split at h <;> cases h

/-- `SetBytesWide` reads two values and multiplies them; nothing is reduced -/
theorem C185_wide (x y : Fp12 Fq) : (∃ z, setBytesWide (bytes x ++ bytes y) = .ok z ∧ add x (some y) = some z) ∧
    (∀ b z, setBytesWide b = .ok z → ∃ x y, b = bytes x ++ bytes y ∧ add x (some y) = some z) := by
  refine ⟨⟨_, ?_, rfl⟩, fun b z h => ?_⟩
  · have hx := C153_bytes_length x
    have hy := C153_bytes_length y
    rw [setBytesWide, bytes, bytes, Go.guard_true (by rw [List.length_append, hx, hy]), List.take_left' hx, List.drop_left' hx,
      C153_roundtrip, C153_roundtrip]
    rfl
  · rw [setBytesWide] at h
    obtain ⟨h1, h⟩ := Go.guard_bind_eq_ok.1 h
    obtain ⟨h2, h⟩ := Go.guard_bind_eq_ok.1 h
    obtain ⟨h3, h⟩ := Go.guard_bind_eq_ok.1 h
    obtain rfl := Except.ok.inj h
    refine ⟨_, _, ?_, rfl⟩
    rw [bytes, bytes, C153_canonical (by simp; omega) h2, C153_canonical (by simp; omega) h3, List.take_append_drop]

/-- the number `New` writes into the leading bytes of the first coefficient -/
def newVal (n : ℤ) : ℕ :=
  (n % 256).toNat * 2 ^ 376 + (n / 256 % 256).toNat * 2 ^ 368 + (n / 65536 % 256).toNat * 2 ^ 360 + (n / 16777216 % 256).toNat * 2 ^ 352

theorem new_head (a b c d : UInt8) : leNat (([a, b, c, d] ++ List.replicate 44 0).reverse) =
    a.toNat * 2 ^ 376 + b.toNat * 2 ^ 368 + c.toNat * 2 ^ 360 + d.toNat * 2 ^ 352 := by
  have h : ([a, b, c, d] ++ List.replicate 44 0).reverse = List.replicate 44 0 ++ [d, c, b, a] := by simp
  rw [h, Bls381.leNat_append, List.length_replicate]
  have h0 : leNat (List.replicate 44 (0 : UInt8)) = 0 := by decide +kernel
  rw [h0]
  simp only [leNat, List.foldr_cons, List.foldr_nil]
  ring

theorem ofNat_byte (z : ℤ) : (UInt8.ofNat (z % 256).toNat).toNat = (z % 256).toNat := by
  rw [UInt8.toNat_ofNat']
  exact Nat.mod_eq_of_lt (by omega)

theorem new_coeffs (l : List UInt8) (hl : l.length = 4) : gtSetBytes Fp12.zero (l ++ List.replicate 572 0) =
    (⟨⟨⟨(fpSetBE 0 (l ++ List.replicate 44 0)).1, 0⟩, Fp2.zero, Fp2.zero⟩, Fp6.zero⟩, (fpSetBE 0 (l ++ List.replicate 44 0)).2) := by
  have h : l ++ List.replicate 572 0 = (l ++ List.replicate 44 0) ++ (fpBE 0 ++ (fpBE 0 ++ (fpBE 0 ++ (fpBE 0 ++ (fpBE 0 ++
      (fpBE 0 ++ (fpBE 0 ++ (fpBE 0 ++ (fpBE 0 ++ (fpBE 0 ++ (fpBE 0 ++ []))))))))))) := by
    rw [show fpBE 0 = List.replicate 48 0 by decide +kernel]
    simp only [List.append_assoc, List.replicate_append_replicate, List.append_nil]
  have h48 : (l ++ List.replicate 44 (0 : UInt8)).length = 48 := by simp [hl]
  rw [h, gtSetBytes]
  simp only [slice_zero _ _ h48, slice_zero _ _ (fpBE_length _), slice_cons _ _ _ (fpBE_length _), slice_cons _ _ _ h48, fpSetBE_fpBE, Bool.and_true]
  rfl

/-- `New` puts the low 32 bits of its argument into the leading bytes of the first coefficient, least significant first, instead of
making a small number of it; it is nil when that number is not below the prime -/
theorem C185_new (n : Int64) : (newVal n.toInt < blsp →
      new n = some ⟨⟨⟨(newVal n.toInt : Fq), 0⟩, Fp2.zero, Fp2.zero⟩, Fp6.zero⟩) ∧ (blsp ≤ newVal n.toInt → new n = none) := by
  have hv : ∀ l : List UInt8, l = [UInt8.ofNat ((n.toInt / 2 ^ 0) % 256).toNat, UInt8.ofNat ((n.toInt / 2 ^ 8) % 256).toNat,
      UInt8.ofNat ((n.toInt / 2 ^ 16) % 256).toNat, UInt8.ofNat ((n.toInt / 2 ^ 24) % 256).toNat] →
      leNat (l ++ List.replicate 44 0).reverse = newVal n.toInt := by
    rintro l rfl
    rw [new_head, ofNat_byte, ofNat_byte, ofNat_byte, ofNat_byte, newVal]
    norm_num
  rw [new]
  simp only []
  rw [new_coeffs _ rfl, fpSetBE, hv _ rfl]
  constructor
  · intro h
    rw [if_pos h]; rfl
  · intro h
    rw [if_neg (not_lt.2 h)]; rfl

/-- so `New(1)` is not one, no value of `New` is, and `New(27)` is nil -/
theorem C185_new_wrong : (∀ n x, new n = some x → isOne x = false) ∧ new 0 = some zero ∧ new 27 = none ∧ new 1 ≠ none := by
  have small : ∀ n : ℤ, ∀ m : ℕ, newVal n = 2 ^ 352 * m → m < 2 ^ 32 → ((newVal n : ℕ) : Fq) ≠ 1 := by
    intro n m hm hlt h1
    have h2 := (ZMod.natCast_eq_natCast_iff' (newVal n) 1 blsp).1 (by rw [h1]; norm_num)
    rw [hm] at h2
    have : ∀ k : ℕ, 2 ^ 352 * m % blsp = 1 % blsp → 2 ^ 352 * m = blsp * k + 1 → k < 10 → False := by
      intro k _ he hk
      have hp : (blsp * k + 1) % 2 ^ 352 = 0 := by rw [← he]; exact Nat.mul_mod_right _ _
      interval_cases k <;> revert hp <;> decide +kernel
    refine this (2 ^ 352 * m / blsp) h2 ?_ ?_
    · have h3 := Nat.div_add_mod (2 ^ 352 * m) blsp
      rw [h2, show 1 % blsp = 1 by decide +kernel] at h3
      exact h3.symm
    · refine (Nat.div_lt_iff_lt_mul (by decide +kernel)).2 ?_
      refine lt_of_lt_of_le (Nat.mul_lt_mul_of_pos_left hlt (by positivity)) (by decide +kernel)
  refine ⟨fun n x h => ?_, by decide +kernel, by decide +kernel, by decide +kernel⟩
  by_cases hlt : newVal n.toInt < blsp
  · rw [(C185_new n).1 hlt] at h
    obtain rfl := Option.some.inj h
    rw [isOne, Bool.eq_false_iff]
    intro h1
    obtain ⟨c, hc⟩ := (C149_isOne_iff _).1 h1
    have h3 := congrArg (fun y => y.A.A.A) hc
    refine small n.toInt ((n.toInt % 256).toNat * 2 ^ 24 + (n.toInt / 256 % 256).toNat * 2 ^ 16 + (n.toInt / 65536 % 256).toNat * 2 ^ 8
      + (n.toInt / 16777216 % 256).toNat) (by rw [newVal]; ring) ?_ h3
    have e1 : (n.toInt % 256).toNat < 256 := by omega
    have e2 : (n.toInt / 256 % 256).toNat < 256 := by omega
    have e3 : (n.toInt / 65536 % 256).toNat < 256 := by omega
    have e4 : (n.toInt / 16777216 % 256).toNat < 256 := by omega
    generalize (n.toInt % 256).toNat = w1 at *
    generalize (n.toInt / 256 % 256).toNat = w2 at *
    generalize (n.toInt / 65536 % 256).toNat = w3 at *
    generalize (n.toInt / 16777216 % 256).toNat = w4 at *
    omega
  · rw [(C185_new n).2 (not_lt.1 hlt)] at h
    cases h

/-- the coefficient `i` of `Random`: the expansion of the block read at place `i` -/
def coeff (sha256 : Hasher) (t : List UInt8) : Fq :=
  (beNat (sha256.expand t "BLS12381_XMD:SHA-256_SSWU_RO_".toUTF8.toList 64) : ℕ)

theorem fpRandom_ok (h : Hasher) (hlen : h.Ok) {r : Option (List UInt8)} {x : Fq} :
    fpRandom h r = .ok x ↔ ∃ t, r = some t ∧ t.length = 96 ∧ x = coeff h t := by
  rw [fpRandom]
  cases r with
  | none => exact ⟨fun h => (by cases h), fun ⟨t, h, _⟩ => (by cases h)⟩
  | some t =>
    rw [Go.ofOption, Go.ok_bind, Go.guard_bind_eq_ok, elem64_eq (hlen.expand_length _ _ (by omega))]
    constructor
    · rintro ⟨h1, h2⟩; exact ⟨t, rfl, h1, (Except.ok.inj h2).symm⟩
    · rintro ⟨t', h0, h1, rfl⟩; obtain rfl := Option.some.inj h0; exact ⟨h1, rfl⟩

/-- `Random` makes twelve reads of 96 bytes, fails when one of them fails or is short, and otherwise takes one coefficient from each: the
result is any element of the field, not one of the group -/
theorem C185_random (h : Hasher) (hlen : h.Ok) (reads : ℕ → Option (List UInt8)) (x : Fp12 Fq) :
    random h reads = some x ↔ ∃ t : ℕ → List UInt8, (∀ i < 12, reads i = some (t i) ∧ (t i).length = 96) ∧
      coeffs12 x = (List.range 12).map fun i => coeff h (t i) := by
  have e2 : ∀ k y, fp2Random h reads k = .ok y ↔ ∃ t u, reads k = some t ∧ t.length = 96 ∧ reads (k + 1) = some u ∧ u.length = 96 ∧
      y = ⟨coeff h t, coeff h u⟩ := by
    intro k y
    rw [fp2Random]
    constructor
    · intro hh
      obtain ⟨a, h1, hh⟩ := Go.bind_eq_ok.1 hh
      obtain ⟨b, h2, hh⟩ := Go.bind_eq_ok.1 hh
      obtain ⟨t, t1, t2, rfl⟩ := (fpRandom_ok h hlen).1 h1
      obtain ⟨u, u1, u2, rfl⟩ := (fpRandom_ok h hlen).1 h2
      exact ⟨t, u, t1, t2, u1, u2, (Except.ok.inj hh).symm⟩
    · rintro ⟨t, u, t1, t2, u1, u2, rfl⟩
      rw [(fpRandom_ok h hlen).2 ⟨t, t1, t2, rfl⟩, Go.ok_bind, (fpRandom_ok h hlen).2 ⟨u, u1, u2, rfl⟩]; rfl
  have e12 : random h reads = some x ↔ ∃ a b c a' b' c', fp2Random h reads 0 = .ok a ∧ fp2Random h reads 2 = .ok b ∧ fp2Random h reads 4 = .ok c ∧
      fp2Random h reads 6 = .ok a' ∧ fp2Random h reads 8 = .ok b' ∧ fp2Random h reads 10 = .ok c' ∧ x = ⟨⟨a, b, c⟩, ⟨a', b', c'⟩⟩ := by
    rw [random, fp12Random, fp6Random, fp6Random]
    simp only [Nat.zero_add, Nat.reduceAdd]
    rcases fp2Random h reads 0 with _ | a <;> rcases fp2Random h reads 2 with _ | b <;> rcases fp2Random h reads 4 with _ | c <;>
      rcases fp2Random h reads 6 with _ | a' <;> rcases fp2Random h reads 8 with _ | b' <;> rcases fp2Random h reads 10 with _ | c' <;>
      simp [Go.ok_bind, Go.error_bind, eq_comm]
  rw [e12]
  constructor
  · rintro ⟨a, b, c, a', b', c', h0, h2, h4, h6, h8, h10, rfl⟩
    obtain ⟨t0, t1, p0, q0, p1, q1, rfl⟩ := (e2 _ _).1 h0
    obtain ⟨t2, t3, p2, q2, p3, q3, rfl⟩ := (e2 _ _).1 h2
    obtain ⟨t4, t5, p4, q4, p5, q5, rfl⟩ := (e2 _ _).1 h4
    obtain ⟨t6, t7, p6, q6, p7, q7, rfl⟩ := (e2 _ _).1 h6
    obtain ⟨t8, t9, p8, q8, p9, q9, rfl⟩ := (e2 _ _).1 h8
    obtain ⟨t10, t11, p10, q10, p11, q11, rfl⟩ := (e2 _ _).1 h10
    refine ⟨fun i => [t0, t1, t2, t3, t4, t5, t6, t7, t8, t9, t10, t11].getD i [], fun i hi => ?_, rfl⟩
    interval_cases i <;> exact ⟨by assumption, by assumption⟩
  · rintro ⟨t, ht, hx⟩
    have g : ∀ k, k + 1 < 12 → fp2Random h reads k = .ok ⟨coeff h (t k), coeff h (t (k + 1))⟩ := fun k hk =>
      (e2 _ _).2 ⟨t k, t (k + 1), (ht k (by omega)).1, (ht k (by omega)).2, (ht _ hk).1, (ht _ hk).2, rfl⟩
    refine ⟨_, _, _, _, _, _, g 0 (by omega), g 2 (by omega), g 4 (by omega), g 6 (by omega), g 8 (by omega), g 10 (by omega), ?_⟩
    obtain ⟨⟨⟨x0, x1⟩, ⟨x2, x3⟩, ⟨x4, x5⟩⟩, ⟨⟨x6, x7⟩, ⟨x8, x9⟩, ⟨x10, x11⟩⟩⟩ := x
    simpa [coeffs12, List.range, List.range.loop, and_assoc] using hx

/-- `Hash` never fails and is a function of the message -/
theorem C185_hash (h : Hasher) (hlen : h.Ok) (shake : List UInt8 → ℕ → List UInt8)
    (hs : ∀ m i, (shake m i).length = 96) (m : List UInt8) : ∃ x, hash h shake m = some x ∧
      coeffs12 x = (List.range 12).map fun i => coeff h (shake m i) := by
  refine ⟨⟨⟨⟨coeff h (shake m 0), coeff h (shake m 1)⟩, ⟨coeff h (shake m 2), coeff h (shake m 3)⟩, ⟨coeff h (shake m 4), coeff h (shake m 5)⟩⟩,
    ⟨⟨coeff h (shake m 6), coeff h (shake m 7)⟩, ⟨coeff h (shake m 8), coeff h (shake m 9)⟩, ⟨coeff h (shake m 10), coeff h (shake m 11)⟩⟩⟩, ?_, rfl⟩
  exact (C185_random h hlen _ _).2 ⟨shake m, fun i _ => ⟨rfl, hs m i⟩, rfl⟩

theorem leBytes_snoc (k n : ℕ) : leBytes (k + 1) n = leBytes k n ++ [UInt8.ofNat (n / 256 ^ k)] := by
  induction k generalizing n with
  | zero => simp [leBytes]
  | succ k ih =>
    rw [leBytes, ih, leBytes, List.cons_append, Nat.div_div_eq_div_mul, pow_succ']

/-- the parity tests look at the most significant byte of the first coefficient: one is even -/
theorem C185_parity (x : Fp12 Fq) : (isOdd x = true ↔ x.A.A.A.val / 2 ^ 376 % 2 = 1) ∧ (isEven x = !isOdd x) ∧ isOdd one = false := by
  have hh : (gtBytes x).headD 0 = UInt8.ofNat (x.A.A.A.val / 2 ^ 376) := by
    have h1 : gtBytes x = fpBE x.A.A.A ++ ((coeffs12 x).drop 1).flatMap fpBE := rfl
    have h2 : ∀ v, (leBytes 48 v).reverse = UInt8.ofNat (v / 2 ^ 376) :: (leBytes 47 v).reverse := by
      intro v
      rw [leBytes_snoc, List.reverse_append]; norm_num
    rw [h1, fpBE, h2]; rfl
  have hlt : x.A.A.A.val / 2 ^ 376 < 256 := by
    refine (Nat.div_lt_iff_lt_mul (by positivity)).2 ((ZMod.val_lt _).trans (by decide +kernel))
  have hb : ∀ b : UInt8, (b &&& 1 = 1 ↔ b.toNat % 2 = 1) ∧ (b &&& 1 = 0 ↔ b.toNat % 2 = 0) := by
    intro b
    rw [← UInt8.toNat_inj, ← UInt8.toNat_inj, UInt8.toNat_and]
    exact ⟨by rw [show (1 : UInt8).toNat = 1 from rfl, Nat.and_one_is_mod], by
      rw [show (1 : UInt8).toNat = 1 from rfl, show (0 : UInt8).toNat = 0 from rfl, Nat.and_one_is_mod]⟩
  have ht : (UInt8.ofNat (x.A.A.A.val / 2 ^ 376)).toNat = x.A.A.A.val / 2 ^ 376 := by
    rw [UInt8.toNat_ofNat']; exact Nat.mod_eq_of_lt hlt
  refine ⟨?_, ?_, by decide +kernel⟩
  · rw [isOdd, decide_eq_true_iff, hh, (hb _).1, ht]
  · rw [isEven, isOdd, ← decide_not, decide_eq_decide, hh, (hb _).1, (hb _).2, ht]
    generalize x.A.A.A.val / 2 ^ 376 = w
    omega

/-- the generator and its powers meet the hypothesis -/
example : T.e12 gtGenerator ^ blsr = 1 ∧ gtGenerator ≠ one := ⟨C154_generator_in_group T, by decide +kernel⟩
example : ∃ a b : Fp12 Fq, a ≠ one ∧ a ≠ Fp12.zero ∧ b ≠ Fp12.zero := ⟨gtGenerator, gtGenerator, by decide +kernel, by decide +kernel, by decide +kernel⟩
example : ∃ x, setBytes [1, 2, 3] = .ok x ∧ bytes x = [1, 2, 3] ++ List.replicate 573 0 :=
  ⟨⟨⟨⟨((1 * 65536 + 2 * 256 + 3) * 2 ^ 360 : ℕ), 0⟩, ⟨0, 0⟩, ⟨0, 0⟩⟩, ⟨⟨0, 0⟩, ⟨0, 0⟩, ⟨0, 0⟩⟩⟩, by decide +kernel, by decide +kernel⟩
example : new 1 = some ⟨⟨⟨(2 ^ 376 : ℕ), 0⟩, ⟨0, 0⟩, ⟨0, 0⟩⟩, ⟨⟨0, 0⟩, ⟨0, 0⟩, ⟨0, 0⟩⟩⟩ := by decide +kernel
example : newVal 1 < blsp ∧ blsp ≤ newVal 27 := by decide +kernel
/-- a hasher and a reader for `Random` -/
example : (Hasher.xmd (fun _ => List.replicate 32 7) 32 64).Ok ∧
    ∃ x, random (Hasher.xmd (fun _ => List.replicate 32 7) 32 64) (fun i => some (List.replicate 96 (UInt8.ofNat i))) = some x := by
  have hok : (Hasher.xmd (fun _ => List.replicate 32 7) 32 64).Ok := ⟨by omega, fun _ => rfl⟩
  obtain ⟨x, hx, -⟩ := C185_hash _ hok (fun _ i => List.replicate 96 (UInt8.ofNat i)) (fun _ _ => List.length_replicate) []
  exact ⟨hok, x, hx⟩
example : isOdd gtGenerator = false ∧ isOdd ⟨⟨⟨(2 ^ 376 : ℕ), 0⟩, ⟨0, 0⟩, ⟨0, 0⟩⟩, ⟨⟨0, 0⟩, ⟨0, 0⟩, ⟨0, 0⟩⟩⟩ = true := by decide +kernel

end Verif.Curves.GtS
