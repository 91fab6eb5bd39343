import Verif.Legacy.ScalarModel
import Verif.Legacy.PointProps
import Verif.Legacy.CurveProps
import Verif.Curves.EdScalarProps

/-!
# C190: scalars of the older interface

Modulo the order they are a field; the curves differ in what they do with a division by zero, with negative and with unreduced integers.
-/

set_option exponentiation.threshold 1000

namespace Verif.Legacy
open Verif.Primes Verif.Curves.Ed

/-- the result is the representative of `v` -/
def Gives (q : ℕ) (r : Go ℤ) (v : ZMod q) : Prop := ∃ z, r = .ok z ∧ 0 ≤ z ∧ z < q ∧ (z : ZMod q) = v

/-- the operations are right for all integers -/
structure Ring (S : EcScalar) (q : ℕ) : Prop where
  add : ∀ x y : ℤ, Gives q (S.add x y) ((x : ZMod q) + y)
  sub : ∀ x y : ℤ, Gives q (S.sub x y) ((x : ZMod q) - y)
  neg : ∀ x : ℤ, Gives q (S.neg x) (-(x : ZMod q))
  mul : ∀ x y : ℤ, Gives q (S.mul x y) ((x : ZMod q) * y)
  div : ∀ x y : ℤ, (y : ZMod q) ≠ 0 → Gives q (S.div x y) ((x : ZMod q) * ((y : ZMod q))⁻¹)

section
variable {q : ℕ} [hq : Fact q.Prime]

theorem gives_mod (x : ℤ) (v : ZMod q) (h : (x : ZMod q) = v) : Gives q (Big.mod x q) v := by
  have hq0 : (0 : ℤ) < q := Int.ofNat_lt.2 hq.out.pos
  refine ⟨x % q, by rw [Big.mod, if_neg hq0.ne'], Int.emod_nonneg _ hq0.ne', Int.emod_lt_of_pos _ hq0, ?_⟩
  rw [← h, ZMod.intCast_mod]

theorem gives_val (v : ZMod q) : Gives q (.ok (v.val : ℤ)) v := by
  have : NeZero q := ⟨hq.out.ne_zero⟩
  exact ⟨_, rfl, Int.natCast_nonneg _, Int.ofNat_lt.2 (ZMod.val_lt v), by rw [Int.cast_natCast, ZMod.natCast_zmod_val]⟩

theorem modInverse_some {y : ℤ} (h : (y : ZMod q) ≠ 0) : ∃ i, Big.modInverse y q = some i ∧ (i : ZMod q) = ((y : ZMod q))⁻¹ := by
  obtain ⟨i, h1, -, -, h2⟩ := Big.modInverse_cast hq.out.pos (u := Units.mk0 _ h) rfl
  exact ⟨i, h1, by rw [h2]; simp⟩

theorem modInverse_none {y : ℤ} (h : (y : ZMod q) = 0) : Big.modInverse y q = none := by
  rw [Big.modInverse_eq_none]
  have hd : (q : ℤ) ∣ y := (ZMod.intCast_zmod_eq_zero_iff_dvd y q).1 h
  have : Int.gcd y q = q := by rw [Int.gcd_comm, Int.gcd_eq_natAbs_left hd]; simp
  rw [this]; exact hq.out.one_lt.ne'

/-- C190: `K256Scalar` and `P256Scalar`: right for all integers; a division by a multiple of the order panics -/
theorem C190_mod (q : ℕ) [hq : Fact q.Prime] : Ring (modScalar q) q ∧ (∀ x y : ℤ, (y : ZMod q) = 0 → (modScalar q).div x y = Go.crash) ∧
    (∀ x : ℤ, (modScalar q).isValid x = true ↔ 0 ≤ x ∧ x < q) := by
  refine ⟨⟨fun x y => ?_, fun x y => ?_, fun x => ?_, fun x y => ?_, fun x y h => ?_⟩, fun x y h => ?_, fun x => ?_⟩
  · exact gives_mod _ _ (by push_cast; rfl)
  · exact gives_mod _ _ (by push_cast; rfl)
  · exact gives_mod _ _ (by push_cast; simp)
  · exact gives_mod _ _ (by push_cast; rfl)
  · obtain ⟨i, h1, h2⟩ := modInverse_some h
    show Gives q (match Big.modInverse y q with | none => Go.crash | some t => Big.mod (x * t) q) _
    rw [h1]
    exact gives_mod _ _ (by push_cast; rw [h2])
  · show (match Big.modInverse y q with | none => Go.crash | some t => Big.mod (x * t) q) = _
    rw [modInverse_none h]
  · simp [modScalar]

end

/-- C190: `PallasScalar` likewise; but its `IsValid` accepts every negative integer -/
theorem C190_pallas : Ring pallasScalar pallasq ∧ (∀ x y : ℤ, (y : ZMod pallasq) = 0 → pallasScalar.div x y = Go.crash) ∧
    (∀ x : ℤ, pallasScalar.isValid x = true ↔ x < pallasq) := by
  have := fact_pallasq
  refine ⟨⟨fun x y => ?_, fun x y => ?_, fun x => ?_, fun x y => ?_, fun x y h => ?_⟩, fun x y h => ?_, fun x => ?_⟩
  · exact gives_mod _ _ (by push_cast; rfl)
  · exact gives_mod _ _ (by push_cast; rfl)
  · exact gives_mod _ _ (by push_cast; rfl)
  · exact gives_mod _ _ (by push_cast; rfl)
  · obtain ⟨i, h1, h2⟩ := modInverse_some h
    show Gives pallasq (match Big.modInverse y pallasq with | none => Go.crash | some t => Big.mod (t * x) pallasq) _
    rw [h1]
    exact gives_mod _ _ (by push_cast; rw [h2, mul_comm])
  · show (match Big.modInverse y pallasq with | none => Go.crash | some t => Big.mod (t * x) pallasq) = _
    rw [modInverse_none h]
  · exact decide_eq_true_iff

/-- C190: `Bls12381Scalar` likewise; a division by zero is no panic and no error but the dividend -/
theorem C190_bls : Ring blsScalar blsr ∧ (∀ x y : ℤ, (y : ZMod blsr) = 0 → Gives blsr (blsScalar.div x y) x) ∧
    (∀ x : ℤ, blsScalar.isValid x = true ↔ 0 ≤ x ∧ x < blsr) := by
  have := fact_blsr
  have : NeZero blsr := ⟨fact_blsr.out.ne_zero⟩
  refine ⟨⟨fun x y => gives_val _, fun x y => gives_val _, fun x => gives_val _, fun x y => gives_val _, fun x y h => ?_⟩,
    fun x y h => ?_, fun x => ?_⟩
  · show Gives blsr (.ok ((if (y : ZMod blsr) = 0 then (x : ZMod blsr) else x * (y : ZMod blsr)⁻¹).val : ℤ)) _
    rw [if_neg h]; exact gives_val _
  · show Gives blsr (.ok ((if (y : ZMod blsr) = 0 then (x : ZMod blsr) else x * (y : ZMod blsr)⁻¹).val : ℤ)) _
    rw [if_pos h]; exact gives_val _
  · show decide (((x : ZMod blsr).val : ℤ) = x) = true ↔ _
    rw [decide_eq_true_iff, ZMod.val_intCast]
    have hN : (0 : ℤ) < blsr := Int.ofNat_lt.2 fact_blsr.out.pos
    constructor
    · intro h
      rw [← h]; exact ⟨Int.emod_nonneg _ hN.ne', Int.emod_lt_of_pos _ hN⟩
    · rintro ⟨h1, h2⟩; exact Int.emod_eq_of_lt h1 h2

theorem edBigScalar_eq (x : ℤ) : edBigScalar x = if x.natAbs % 2 ^ 256 < edl then .ok ((x.natAbs % 2 ^ 256 : ℕ) : Fl) else Go.err := by
  obtain ⟨-, -, h3, h4⟩ := natScalar_eq (q := edl) (natBytes x.natAbs)
  rw [beNat_natBytes] at h3
  rw [edBigScalar, libSetCanonical, Go.guard_true h4, Go.ok_bind, h3]
  split
  · rename_i h; rw [Go.guard_true h]; rfl
  · rename_i h; rw [Go.guard_false h]; rfl

theorem edOut_eq (s : Fl) : edOut s = (s.val : ℤ) := by
  have hlt : s.val < 256 ^ 32 := lt_trans (ZMod.val_lt s) (by decide +kernel)
  rw [edOut, beNat_eq_leNat_reverse, List.reverse_reverse, libBytes, leNat_leBytes _ _ hlt]

/-- C190: `Ed25519Scalar` is right for reduced integers: a division by zero gives zero -/
theorem C190_ed {x y : ℤ} (hx0 : 0 ≤ x) (hx : x < edl) (hy0 : 0 ≤ y) (hy : y < edl) :
    Gives edl (edScalarOps.add x y) ((x : Fl) + y) ∧ Gives edl (edScalarOps.sub x y) ((x : Fl) - y) ∧
    Gives edl (edScalarOps.neg x) (-(x : Fl)) ∧ Gives edl (edScalarOps.mul x y) ((x : Fl) * y) ∧
    Gives edl (edScalarOps.div x y) ((x : Fl) * (y : Fl)⁻¹) := by
  have := fact_edl
  have key : ∀ z : ℤ, 0 ≤ z → z < edl → edBigScalar z = .ok (z : Fl) := by
    intro z h0 h1
    have hn : z.natAbs < edl := by omega
    rw [edBigScalar_eq, Nat.mod_eq_of_lt (lt_trans hn (by decide +kernel)), if_pos hn]
    congr 1
    rw [← Int.cast_natCast, Int.natAbs_of_nonneg h0]
  have out : ∀ s : Fl, Gives edl (.ok (edOut s)) s := fun s => by rw [edOut_eq]; exact gives_val s
  refine ⟨?_, ?_, ?_, ?_, ?_⟩
  · show Gives edl (do let a ← orPanic (edBigScalar x); let b ← orPanic (edBigScalar y); Except.ok (edOut (a + b))) _
    rw [key x hx0 hx, key y hy0 hy]; exact out _
  · show Gives edl (do let a ← orPanic (edBigScalar x); let b ← orPanic (edBigScalar y); Except.ok (edOut (a - b))) _
    rw [key x hx0 hx, key y hy0 hy]; exact out _
  · show Gives edl (do let a ← orPanic (edBigScalar x); Except.ok (edOut (-a))) _
    rw [key x hx0 hx]; exact out _
  · show Gives edl (do let a ← orPanic (edBigScalar x); let b ← orPanic (edBigScalar y); Except.ok (edOut (a * b))) _
    rw [key x hx0 hx, key y hy0 hy]; exact out _
  · show Gives edl (do let b ← orPanic (edBigScalar y); let a ← orPanic (edBigScalar x); Except.ok (edOut (a * libInvert b))) _
    rw [key x hx0 hx, key y hy0 hy]; exact out _

example : Gives edl (edScalarOps.add (edl - 1) 1) 0 ∧ Gives edl (edScalarOps.div 1 0) 0 := by
  have h := (C190_ed (x := edl - 1) (y := 1) (by decide +kernel) (by decide +kernel) (by decide +kernel) (by decide +kernel)).1
  have h' := (C190_ed (x := 1) (y := 0) (by decide +kernel) (by decide +kernel) (by decide +kernel) (by decide +kernel)).2.2.2.2
  constructor
  · obtain ⟨z, h1, h2, h3, h4⟩ := h
    refine ⟨z, h1, h2, h3, h4.trans ?_⟩
    rw [← Int.cast_add, sub_add_cancel, Int.cast_natCast, ZMod.natCast_self]
  · rwa [show ((1 : ℤ) : Fl) * ((0 : ℤ) : Fl)⁻¹ = 0 by have := fact_edl; simp] at h'

/-- C190: for other integers: the sign is dropped and all but the low 256 bits; it panics when they are not below the order.  `IsValid`
excludes neither negative integers, nor says anything of their size. -/
theorem C190_ed_other (x y : ℤ) : edScalarOps.neg x = edScalarOps.neg (-x) ∧ edScalarOps.add x y = edScalarOps.add (-x) y ∧
    edScalarOps.bytes x = edScalarOps.bytes (-x) ∧
    (edScalarOps.neg x = Go.crash ↔ edl ≤ x.natAbs % 2 ^ 256) ∧ (edScalarOps.bytes x = Go.crash ↔ edl ≤ x.natAbs % 2 ^ 256) ∧
    (edScalarOps.isValid x = true ↔ x < edl) := by
  have hn : edBigScalar (-x) = edBigScalar x := by rw [edBigScalar, edBigScalar, Int.natAbs_neg]
  refine ⟨?_, ?_, ?_, ?_, ?_, decide_eq_true_iff⟩
  · show (do let a ← orPanic (edBigScalar x); Except.ok (edOut (-a))) = (do let a ← orPanic (edBigScalar (-x)); Except.ok (edOut (-a)))
    rw [hn]
  · show (do let a ← orPanic (edBigScalar x); let b ← orPanic (edBigScalar y); Except.ok (edOut (a + b))) =
      (do let a ← orPanic (edBigScalar (-x)); let b ← orPanic (edBigScalar y); Except.ok (edOut (a + b)))
    rw [hn]
  · show (do let a ← orPanic (edBigScalar x); Except.ok (libBytes a).reverse) =
      (do let a ← orPanic (edBigScalar (-x)); Except.ok (libBytes a).reverse)
    rw [hn]
  · show (do let a ← orPanic (edBigScalar x); Except.ok (edOut (-a))) = _ ↔ _
    rw [edBigScalar_eq]
    by_cases h : x.natAbs % 2 ^ 256 < edl
    · rw [if_pos h]; exact ⟨fun e => (by cases e), fun e => absurd h (not_lt.2 e)⟩
    · rw [if_neg h]; exact ⟨fun _ => not_lt.1 h, fun _ => rfl⟩
  · show (do let a ← orPanic (edBigScalar x); Except.ok (libBytes a).reverse) = _ ↔ _
    rw [edBigScalar_eq]
    by_cases h : x.natAbs % 2 ^ 256 < edl
    · rw [if_pos h]; exact ⟨fun e => (by cases e), fun e => absurd h (not_lt.2 e)⟩
    · rw [if_neg h]; exact ⟨fun _ => not_lt.1 h, fun _ => rfl⟩

/-- minus one is valid, and minus one plus one is two -/
example : edScalarOps.isValid (-1) = true ∧ edScalarOps.add (-1) 1 = .ok 2 ∧ edScalarOps.isValid (-(2 : ℤ) ^ 253) = true ∧
    edScalarOps.neg (-(2 : ℤ) ^ 253) = Go.crash := by
  refine ⟨by decide +kernel, ?_, by decide +kernel, ?_⟩
  · have h := (C190_ed_other 1 1).2.1
    rw [← h]
    obtain ⟨z, hz, h0, h1, h2⟩ := (C190_ed (x := 1) (y := 1) (by decide +kernel) (by decide +kernel) (by decide +kernel) (by decide +kernel)).1
    rw [hz, Big.eq_of_cast (n := edl) (a := z) (b := 2) h0 h1 (by decide +kernel) (by decide +kernel) (by rw [h2]; push_cast; ring)]
  · rw [(C190_ed_other _ 0).2.2.2.1]; decide +kernel

/-- C190: `Bytes`: 32 bytes that read back, for valid scalars of all curves but Pallas, whose encoding has no fixed length and is empty for
zero.  Unreduced integers are written if they fit and panic otherwise, without their sign. -/
theorem C190_bytes (q : ℕ) (hq : q ≤ 2 ^ 256) {x : ℤ} (h0 : 0 ≤ x) :
    (x < q → ∃ b, (modScalar q).bytes x = .ok b ∧ b.length = 32 ∧ (beNat b : ℤ) = x ∧ (modScalar q).bytes (-x) = .ok b) ∧
    (x < blsr → ∃ b, blsScalar.bytes x = .ok b ∧ b.length = 32 ∧ (beNat b : ℤ) = x) ∧
    (x < edl → ∃ b, edScalarOps.bytes x = .ok b ∧ b.length = 32 ∧ (beNat b : ℤ) = x) ∧
    ((modScalar q).bytes x = Go.crash ↔ 2 ^ 256 ≤ x) ∧ (blsScalar.bytes x = Go.crash ↔ 2 ^ 256 ≤ x) ∧
    (∃ b, pallasScalar.bytes x = .ok b ∧ (beNat b : ℤ) = x ∧ ∀ n : ℕ, b.length ≤ n ↔ x < 256 ^ n) := by
  have e256 : (256 : ℕ) ^ 32 = 2 ^ 256 := by norm_num
  have key : x.natAbs < 256 ^ 32 → ∃ b, fillBytes 32 (some x) = .ok b ∧ b.length = 32 ∧ (beNat b : ℤ) = x ∧ fillBytes 32 (some (-x)) = .ok b := by
    intro h
    refine ⟨beBytes 32 x.natAbs, by rw [fillBytes, if_pos h], beBytes_length _ _, ?_, by rw [fillBytes, Int.natAbs_neg, if_pos h]⟩
    rw [beNat_beBytes _ _ h, Int.natAbs_of_nonneg h0]
  have lt : ∀ m : ℕ, m ≤ 2 ^ 256 → x < m → x.natAbs < 256 ^ 32 := fun m hm h => by
    rw [e256]; exact lt_of_lt_of_le (show x.natAbs < m by omega) hm
  have crash : fillBytes 32 (some x) = Go.crash ↔ 2 ^ 256 ≤ x := by
    rw [fillBytes, e256]
    by_cases h : x.natAbs < 2 ^ 256
    · rw [if_pos h]
      refine ⟨fun e => (by cases e), fun e => absurd h ?_⟩
      have : ((2 ^ 256 : ℕ) : ℤ) ≤ x := by push_cast; exact e
      omega
    · rw [if_neg h]
      refine ⟨fun _ => ?_, fun _ => rfl⟩
      have : ((2 ^ 256 : ℕ) : ℤ) ≤ x := by
        rw [← Int.natAbs_of_nonneg h0]; exact Int.ofNat_le.2 (not_lt.1 h)
      push_cast at this; exact this
  refine ⟨fun h => key (lt q hq h), fun h => ?_, fun h => ?_, crash, crash, intBytes x, rfl, ?_, fun n => ?_⟩
  · obtain ⟨b, h1, h2, h3, -⟩ := key (lt blsr (by decide +kernel) h)
    exact ⟨b, h1, h2, h3⟩
  · have hn : x.natAbs < edl := by omega
    refine ⟨(libBytes ((x.natAbs : ℕ) : Fl)).reverse, ?_, ?_, ?_⟩
    · show (do let a ← orPanic (edBigScalar x); Except.ok (libBytes a).reverse) = _
      rw [edBigScalar_eq, Nat.mod_eq_of_lt (lt_trans hn (by decide +kernel)), if_pos hn]; rfl
    · rw [List.length_reverse, libBytes, leBytes_length]
    · have := edOut_eq ((x.natAbs : ℕ) : Fl)
      rw [edOut, ZMod.val_cast_of_lt hn] at this
      rw [this, Int.natAbs_of_nonneg h0]
  · rw [intBytes, beNat_natBytes, Int.natAbs_of_nonneg h0]
  · rw [intBytes, Core.natBytes_length_le]
    conv_rhs => rw [← Int.natAbs_of_nonneg h0]
    exact_mod_cast Iff.rfl

example : pallasScalar.bytes 0 = .ok [] ∧ (modScalar k256q).bytes 0 = .ok (List.replicate 32 0) := by
  constructor <;> decide +kernel

/-- C190: the random scalars of the curves that draw them here: 48 bytes reduced for secp256k1 and P-256, which may be zero; for Ed25519 the
clamped hash of 64 bytes, which is never zero modulo the order but reaches only multiples of eight -/
theorem C190_random (q : ℕ) [Fact q.Prime] (b : List UInt8) (sha512 : List UInt8 → List UInt8) (hs : ∀ m, (sha512 m).length = 64) :
    (b.length = 48 → Gives q (modRandom q (some b)) (beNat b : ZMod q)) ∧ (b.length ≠ 48 → modRandom q (some b) = Go.err) ∧
    (b.length = 64 → ∃ n : ℕ, Gives edl (edRandom sha512 (some b)) (n : Fl) ∧ 8 ∣ n ∧ 2 ^ 254 ≤ n ∧ n < 2 ^ 255 ∧ (n : Fl) ≠ 0) ∧
    (b.length ≠ 64 → edRandom sha512 (some b) = Go.err) := by
  have := fact_edl
  refine ⟨fun h => ?_, fun h => ?_, fun h => ?_, fun h => ?_⟩
  · rw [modRandom, Go.guard_true h, Go.ok_bind]
    exact gives_mod _ _ (by push_cast; rfl)
  · rw [modRandom, Go.guard_false h]; rfl
  · have hl : ((sha512 b).take 32).length = 32 := by rw [List.length_take, hs]; rfl
    obtain ⟨-, -, h8, h1, h2⟩ := C178_clamping _ hl
    refine ⟨leNat (clamp ((sha512 b).take 32)), ?_, h8, h1, h2, fun h0 => ?_⟩
    · rw [edRandom, Go.guard_true h, Go.ok_bind, libSetClamped, Go.guard_true hl, Go.ok_bind, Go.ok_bind, edOut_eq]
      exact gives_val _
    · have hd := (ZMod.natCast_eq_zero_iff _ _).1 h0
      have hc : Nat.Coprime 8 edl := by decide +kernel
      have := Nat.le_of_dvd (lt_of_lt_of_le (by decide +kernel) h1) (hc.mul_dvd_of_dvd_of_dvd h8 hd)
      exact absurd (lt_of_le_of_lt this h2) (by decide +kernel)
  · rw [edRandom, Go.guard_false h]; rfl

example : modRandom k256q (some (beBytes 48 k256q)) = .ok 0 := by decide +kernel

end Verif.Legacy
