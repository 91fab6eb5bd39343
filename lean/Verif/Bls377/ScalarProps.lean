import Verif.Bls377.ScalarModel
import Verif.Common.Primes
import Verif.Native.MapHash

/-!
# C207: the scalars of BLS12-377
-/

namespace Verif.Bls377
open Verif.Native

theorem prime_x : Nat.Prime 9586122913090633729 := by
  refine Pock.prime_of_check _ 64 [(2, 46, 11)] (by decide +kernel) ?_
  simp only [List.forall_mem_cons, List.not_mem_nil, false_implies, implies_true, and_true]
  exact Primes.prime_2

/-- C207: the modulus of the scalars is prime; it is `x⁴ - x² + 1` for the parameter `x` of the curve -/
theorem C207_prime : Nat.Prime q ∧ q = 9586122913090633729 ^ 4 - 9586122913090633729 ^ 2 + 1 := by
  refine ⟨?_, by decide +kernel⟩
  refine Pock.prime_of_check _ 253 [(2, 47, 11), (9586122913090633729, 2, 2)] (by decide +kernel) ?_
  simp only [List.forall_mem_cons, List.not_mem_nil, false_implies, implies_true, and_true]
  exact ⟨Primes.prime_2, prime_x⟩

instance : Fact q.Prime := ⟨C207_prime.1⟩

/-- the scalar holds the reduced integer of the residue `x` -/
def Is (s : Sc) (x : ZMod q) : Prop := ∃ v : ℤ, s.value = some v ∧ 0 ≤ v ∧ v < q ∧ (v : ZMod q) = x

theorem q_pos : (0 : ℤ) < q := by decide +kernel

theorem is_mod (z : ℤ) : Is (.of (z % q)) (z : ZMod q) :=
  ⟨_, rfl, Int.emod_nonneg _ q_pos.ne', Int.emod_lt_of_pos _ q_pos, by rw [ZMod.intCast_mod]⟩

theorem Is.get {s : Sc} {x : ZMod q} (h : Is s x) : s.get = .ok (x.val : ℤ) := by
  obtain ⟨v, hv, h0, h1, rfl⟩ := h
  rw [Sc.get, hv]
  show Except.ok v = _
  rw [ZMod.val_intCast, Int.emod_eq_of_lt h0 h1]

theorem cast_val (x : ZMod q) : (((x.val : ℕ) : ℤ) : ZMod q) = x := by rw [Int.cast_natCast, ZMod.natCast_zmod_val]

/-- C207: a scalar that holds a residue is determined by it, and every residue is held -/
theorem C207_is (s t : Sc) (x y : ZMod q) (hs : Is s x) (ht : Is t y) : (s = t ↔ x = y) ∧ ∀ z : ZMod q, Is (.of z.val) z := by
  refine ⟨⟨?_, ?_⟩, fun z => ⟨_, rfl, by positivity, by exact_mod_cast ZMod.val_lt z, cast_val z⟩⟩
  · rintro rfl
    obtain ⟨v, hv, -, -, rfl⟩ := hs
    obtain ⟨w, hw, -, -, rfl⟩ := ht
    rw [hv] at hw
    rw [Option.some.inj hw]
  · rintro rfl
    obtain ⟨v, hv, v0, v1, e⟩ := hs
    obtain ⟨w, hw, w0, w1, rfl⟩ := ht
    obtain ⟨s⟩ := s
    obtain ⟨t⟩ := t
    dsimp only at hv hw
    rw [hv, hw, Big.eq_of_cast v0 v1 w0 w1 e]

theorem is_exp {s : Sc} {x : ZMod q} (h : Is s x) (n : ℕ) :
    ∃ v, s.get = .ok v ∧ Is ⟨Big.exp v n q⟩ (x ^ n) := by
  refine ⟨_, h.get, ?_⟩
  obtain ⟨r, h1, h2, h3, h4⟩ := Big.exp_nonneg (x := (x.val : ℤ)) (y := n) (n := q) (Nat.Prime.pos C207_prime.1) (Int.natCast_nonneg n)
  exact ⟨r, h1, h2, h3, by rw [h4, cast_val, Int.toNat_natCast]⟩

/-- C207: the constants, comparisons and the arithmetic of the field of `q` elements -/
theorem C207_field (s t u : Sc) (x y z : ZMod q) (hs : Is s x) (ht : Is t y) (hu : Is u z) :
    Is zero 0 ∧ Is one 1 ∧ isZero s = .ok (decide (x = 0)) ∧ isOne s = .ok (decide (x = 1)) ∧
    isOdd s = .ok (decide (x.val % 2 = 1)) ∧ isEven s = .ok (decide (x.val % 2 = 0)) ∧
    cmp s (.own t) = .ok (if x.val < y.val then -1 else if x = y then 0 else 1) ∧
    (∃ r, square s = .ok r ∧ Is r (x ^ 2)) ∧ (∃ r, cube s = .ok r ∧ Is r (x ^ 3)) ∧ (∃ r, double s = .ok r ∧ Is r (2 * x)) ∧
    (∃ r, neg s = .ok r ∧ Is r (-x)) ∧ (∃ r, add s (.own t) = .ok (some r) ∧ Is r (x + y)) ∧
    (∃ r, sub s (.own t) = .ok (some r) ∧ Is r (x - y)) ∧ (∃ r, mul s (.own t) = .ok (some r) ∧ Is r (x * y)) ∧
    (∃ r, mulAdd s (.own t) (.own u) = .ok (some r) ∧ Is r (x * y + z)) ∧ clone s = .ok s ∧ bigInt s = .ok x.val := by
  have hm : ∃ r, mul s (.own t) = .ok (some r) ∧ Is r (x * y) := by
    refine ⟨_, by unfold mul; dsimp only; rw [hs.get, ht.get]; rfl, ?_⟩
    have := is_mod ((x.val : ℤ) * (y.val : ℤ))
    rwa [Int.cast_mul, cast_val, cast_val] at this
  have hadd : ∀ {s t : Sc} {x y : ZMod q}, Is s x → Is t y → ∃ r, add s (.own t) = .ok (some r) ∧ Is r (x + y) := by
    intro s t x y hs ht
    refine ⟨_, by unfold add; dsimp only; rw [hs.get, ht.get]; rfl, ?_⟩
    have := is_mod ((x.val : ℤ) + (y.val : ℤ))
    rwa [Int.cast_add, cast_val, cast_val] at this
  refine ⟨⟨0, rfl, le_rfl, q_pos, Int.cast_zero⟩, ⟨1, rfl, zero_le_one, by decide +kernel, Int.cast_one⟩, ?_, ?_, ?_, ?_, ?_, ?_, ?_, ?_, ?_,
    hadd hs ht, ?_, hm, ?_, ?_, hs.get⟩
  · unfold isZero
    rw [hs.get, Go.ok_bind, Int.natAbs_natCast]
    simp only [ZMod.val_eq_zero]
  · unfold isOne
    rw [hs.get, Go.ok_bind, Int.natAbs_natCast]
    congr 2
    rw [← ZMod.val_one'' (n := q) (by decide +kernel)]
    exact propext (ZMod.val_injective q).eq_iff
  · unfold isOdd
    rw [hs.get, Go.ok_bind]
    congr 2
    exact propext (by omega)
  · unfold isEven
    rw [hs.get, Go.ok_bind]
    congr 2
    exact propext (by omega)
  · unfold cmp
    dsimp only
    rw [hs.get, ht.get]
    show Except.ok _ = _
    congr 1
    have e : ((x.val : ℤ) = (y.val : ℤ)) ↔ x = y := by
      rw [Int.natCast_inj]; exact (ZMod.val_injective q).eq_iff
    simp only [Int.ofNat_lt, e]
  · obtain ⟨v, hv, h⟩ := is_exp hs 2
    exact ⟨_, by unfold square; rw [hv]; rfl, h⟩
  · obtain ⟨v, hv, h⟩ := is_exp hs 3
    exact ⟨_, by unfold cube; rw [hv]; rfl, h⟩
  · refine ⟨_, by unfold double; rw [hs.get]; rfl, ?_⟩
    have := is_mod ((x.val : ℤ) + (x.val : ℤ))
    rw [Int.cast_add, cast_val] at this
    rwa [two_mul x]
  · refine ⟨_, by unfold neg; rw [hs.get]; rfl, ?_⟩
    have := is_mod (-(x.val : ℤ))
    rwa [Int.cast_neg, cast_val] at this
  · refine ⟨_, by unfold sub; dsimp only; rw [hs.get, ht.get]; rfl, ?_⟩
    have := is_mod ((x.val : ℤ) - (y.val : ℤ))
    rwa [Int.cast_sub, cast_val, cast_val] at this
  · obtain ⟨m, h1, h2⟩ := hm
    obtain ⟨r, h3, h4⟩ := hadd h2 hu
    exact ⟨r, by unfold mulAdd; rw [h1, Go.ok_bind]; exact h3, h4⟩
  · unfold clone
    rw [hs.get]
    obtain ⟨v, hv, h0, h1, rfl⟩ := hs
    obtain ⟨s⟩ := s
    dsimp only at hv
    rw [hv, ZMod.val_intCast, Int.emod_eq_of_lt h0 h1]
    rfl

/-- the methods on a scalar whose value is nil all panic -/
theorem nil_panics (modSqrt : ℤ → ℤ → Option ℤ) (s : Sc) (h : s.value = none) (t : Sc) :
    isZero s = Go.crash ∧ isOne s = Go.crash ∧ isOdd s = Go.crash ∧ isEven s = Go.crash ∧ cmp s (.own t) = Go.crash ∧ square s = Go.crash ∧
    cube s = Go.crash ∧ double s = Go.crash ∧ neg s = Go.crash ∧ invert s = Go.crash ∧ sqrt modSqrt s = Go.crash ∧ add s (.own t) = Go.crash ∧
    sub s (.own t) = Go.crash ∧ mul s (.own t) = Go.crash ∧ clone s = Go.crash ∧ bigInt s = Go.crash ∧ bytes s = Go.crash := by
  have hg : s.get = Go.crash := by rw [Sc.get, h]
  refine ⟨?_, ?_, ?_, ?_, ?_, ?_, ?_, ?_, ?_, ?_, ?_, ?_, ?_, ?_, ?_, ?_, ?_⟩
  · unfold isZero; rw [hg]; rfl
  · unfold isOne; rw [hg]; rfl
  · unfold isOdd; rw [hg]; rfl
  · unfold isEven; rw [hg]; rfl
  · unfold cmp; dsimp only; rw [hg]; rfl
  · unfold square; rw [hg]; rfl
  · unfold cube; rw [hg]; rfl
  · unfold double; rw [hg]; rfl
  · unfold neg; rw [hg]; rfl
  · unfold invert; rw [hg]; rfl
  · unfold sqrt; rw [hg]; rfl
  · unfold add; dsimp only; rw [hg]; rfl
  · unfold sub; dsimp only; rw [hg]; rfl
  · unfold mul; dsimp only; rw [hg]; rfl
  · unfold clone; rw [hg]; rfl
  · exact hg
  · unfold bytes; rw [hg]; rfl

theorem modInverse_zero : Big.modInverse 0 q = none := by
  rw [Big.modInverse_eq_none, Int.gcd_zero_left, Int.natAbs_natCast]
  exact C207_prime.1.one_lt.ne'

/-- C207: `Invert` and `Div` are those of the field except at zero: there `Invert` returns, without an error, a scalar on which every method
panics, and `Div` panics -/
theorem C207_invert (modSqrt : ℤ → ℤ → Option ℤ) (s t u : Sc) (x y : ZMod q) (hs : Is s x) (ht : Is t y) :
    (y ≠ 0 → (∃ r, invert t = .ok r ∧ Is r y⁻¹) ∧ ∃ r, div s (.own t) = .ok (some r) ∧ Is r (x / y)) ∧
    (y = 0 → div s (.own t) = Go.crash ∧ ∃ r, invert t = .ok r ∧ r.value = none ∧
      isZero r = Go.crash ∧ cmp r (.own u) = Go.crash ∧ square r = Go.crash ∧ add r (.own u) = Go.crash ∧ mul r (.own u) = Go.crash ∧
      invert r = Go.crash ∧ bytes r = Go.crash) := by
  constructor
  · intro hy
    obtain ⟨i, h1, h2, h3, h4⟩ := Big.modInverse_cast (n := q) (Nat.Prime.pos C207_prime.1) (u := Units.mk0 y hy) (g := (y.val : ℤ)) (cast_val y)
    have h4' : (i : ZMod q) = y⁻¹ := by rw [h4]; exact (Units.val_inv_eq_inv_val _)
    refine ⟨⟨_, by unfold invert; rw [ht.get]; rfl, i, h1, h2, h3, h4'⟩, _, by unfold div; dsimp only; rw [ht.get, Go.ok_bind, h1]; dsimp only; rw [hs.get]; rfl, ?_⟩
    have := is_mod (i * (x.val : ℤ))
    rw [Int.cast_mul, cast_val, h4'] at this
    rwa [div_eq_mul_inv, mul_comm x]
  · rintro rfl
    have hg : t.get = .ok 0 := by rw [ht.get, ZMod.val_zero]; rfl
    obtain ⟨r1, -, -, -, r5, r6, -, -, -, r10, -, r12, -, r14, -, -, r17⟩ := nil_panics modSqrt ⟨none⟩ rfl u
    refine ⟨by unfold div; dsimp only; rw [hg, Go.ok_bind, modInverse_zero], ⟨none⟩, by unfold invert; rw [hg, Go.ok_bind, modInverse_zero], rfl, r1, r5, r6, r12, r14,
      r10, r17⟩

/-- C207: `Sqrt`, when `ModSqrt` of the standard library finds a reduced root exactly of squares: for other values it returns, without an
error, a scalar on which every method panics -/
theorem C207_sqrt (modSqrt : ℤ → ℤ → Option ℤ)
    (hspec : ∀ v : ℤ, (∀ r, modSqrt v q = some r → 0 ≤ r ∧ r < q ∧ (r : ZMod q) ^ 2 = (v : ZMod q)) ∧ (modSqrt v q = none → ¬ IsSquare (v : ZMod q)))
    (s u : Sc) (x : ZMod q) (hs : Is s x) :
    (IsSquare x → ∃ r y, sqrt modSqrt s = .ok r ∧ Is r y ∧ y ^ 2 = x) ∧
    (¬ IsSquare x → ∃ r, sqrt modSqrt s = .ok r ∧ r.value = none ∧ isZero r = Go.crash ∧ mul r (.own u) = Go.crash ∧ bytes r = Go.crash) := by
  obtain ⟨h1, h2⟩ := hspec (x.val : ℤ)
  rw [cast_val] at h1 h2
  constructor
  · intro hx
    cases hm : modSqrt (x.val : ℤ) q with
    | none => exact absurd hx (h2 hm)
    | some r =>
      obtain ⟨e1, e2, e3⟩ := h1 r hm
      exact ⟨_, _, by unfold sqrt; rw [hs.get, Go.ok_bind, hm], ⟨r, rfl, e1, e2, rfl⟩, e3⟩
  · intro hx
    cases hm : modSqrt (x.val : ℤ) q with
    | none =>
      obtain ⟨r1, -, -, -, -, -, -, -, -, -, -, -, -, r14, -, -, r17⟩ := nil_panics modSqrt ⟨none⟩ rfl u
      exact ⟨_, by unfold sqrt; rw [hs.get, Go.ok_bind, hm], rfl, r1, r14, r17⟩
    | some r =>
      obtain ⟨-, -, e3⟩ := h1 r hm
      exact absurd ⟨(r : ZMod q), by rw [← e3]; ring⟩ hx

/-- C207: operands of another type: nil is returned, so `MulAdd` panics when its first factor is one -/
theorem C207_foreign (s : Sc) (y : Iface) : add s .other = .ok none ∧ sub s .other = .ok none ∧ mul s .other = .ok none ∧ div s .other = .ok none ∧
    cmp s .other = .ok (-2) ∧ mulAdd s .other y = Go.crash := ⟨rfl, rfl, rfl, rfl, rfl, rfl⟩

theorem emod_self_iff (v : ℤ) : v % (q : ℤ) = v ↔ 0 ≤ v ∧ v < q :=
  ⟨fun h => by rw [← h]; exact ⟨Int.emod_nonneg _ q_pos.ne', Int.emod_lt_of_pos _ q_pos⟩, fun ⟨h0, h1⟩ => Int.emod_eq_of_lt h0 h1⟩

/-- C207: encodings.  `Bytes` has 32 bytes, big-endian, and is read back.  `SetBytes` accepts exactly the strings, of any length, whose number
is below the order; `SetBytesWide` accepts 32 to 128 bytes and reduces; `SetBigInt` accepts the reduced integers. -/
theorem C207_bytes (s : Sc) (x : ZMod q) (hs : Is s x) :
    (∃ b, bytes s = .ok b ∧ b.length = 32 ∧ beNat b = x.val ∧ setBytes b = .ok s ∧ ∀ k, setBytes (List.replicate k 0 ++ b) = .ok s) ∧
    (∀ b r, setBytes b = .ok r ↔ beNat b < q ∧ Is r ((beNat b : ℕ) : ZMod q)) ∧
    (∀ b, ¬ beNat b < q → setBytes b = Go.err) ∧
    (∀ b r, setBytesWide b = .ok r ↔ 32 ≤ b.length ∧ b.length ≤ 128 ∧ Is r ((beNat b : ℕ) : ZMod q)) ∧
    (∀ v r, setBigInt (some v) = .ok r ↔ 0 ≤ v ∧ v < q ∧ Is r (v : ZMod q)) ∧ setBigInt none = Go.err := by
  have uniq : ∀ {r t : Sc} {z : ZMod q}, Is r z → Is t z → r = t := fun h1 h2 => ((C207_is _ _ _ _ h1 h2).1).2 rfl
  have hset : ∀ b r, setBytes b = .ok r ↔ beNat b < q ∧ Is r ((beNat b : ℕ) : ZMod q) := by
    intro b r
    unfold setBytes
    rw [Go.guard_bind_eq_ok, emod_self_iff]
    have hi := is_mod (beNat b : ℤ)
    rw [Int.cast_natCast] at hi
    constructor
    · rintro ⟨⟨-, h⟩, e⟩
      exact ⟨by exact_mod_cast h, by rw [← Except.ok.inj e]; exact hi⟩
    · rintro ⟨h, hr⟩
      exact ⟨⟨by positivity, by exact_mod_cast h⟩, by rw [uniq hi hr]⟩
  refine ⟨?_, hset, ?_, ?_, ?_, rfl⟩
  · have hlt : x.val < 256 ^ 32 := lt_trans (ZMod.val_lt x) (by decide +kernel)
    have hn : beNat (beBytes 32 x.val) = x.val := beNat_beBytes _ _ hlt
    have hz : ∀ k, beNat (List.replicate k (0 : UInt8) ++ beBytes 32 x.val) = x.val := by
      intro k
      induction k with
      | zero => simpa using hn
      | succ k ih =>
        rw [List.replicate_succ, List.cons_append]
        exact ih
    refine ⟨beBytes 32 x.val, ?_, beBytes_length _ _, hn, ?_, fun k => ?_⟩
    · unfold bytes
      rw [hs.get, Go.ok_bind, Int.natAbs_natCast, if_pos hlt]
    · rw [hset, hn, ZMod.natCast_zmod_val]
      exact ⟨ZMod.val_lt x, hs⟩
    · rw [hset, hz, ZMod.natCast_zmod_val]
      exact ⟨ZMod.val_lt x, hs⟩
  · intro b h
    unfold setBytes
    rw [Go.guard_false (by rw [emod_self_iff]; rintro ⟨-, h'⟩; exact h (by exact_mod_cast h'))]
    rfl
  · intro b r
    unfold setBytesWide
    rw [Go.guard_bind_eq_ok]
    have hi := is_mod (beNat b : ℤ)
    rw [Int.cast_natCast] at hi
    constructor
    · rintro ⟨h, e⟩
      exact ⟨by omega, by omega, by rw [← Except.ok.inj e]; exact hi⟩
    · rintro ⟨h1, h2, hr⟩
      exact ⟨by omega, by rw [uniq hi hr]⟩
  · intro v r
    show (do Go.guard (v % (q : ℤ) = v); Except.ok (Sc.of (v % q))) = _ ↔ _
    rw [Go.guard_bind_eq_ok, emod_self_iff]
    constructor
    · rintro ⟨⟨h0, h1⟩, e⟩
      exact ⟨h0, h1, by rw [← Except.ok.inj e]; exact is_mod v⟩
    · rintro ⟨h0, h1, hr⟩
      exact ⟨⟨h0, h1⟩, by rw [uniq (is_mod v) hr]⟩

/-- C207: `New` of an `int` is its residue -/
theorem C207_new (n : ℤ) (h : -2 ^ 63 ≤ n ∧ n < 2 ^ 63) : Is (new n) (n : ZMod q) := by
  unfold new
  split
  · exact is_mod n
  · exact ⟨n, rfl, by omega, lt_trans h.2 (by decide +kernel), rfl⟩

/-- C207: the copy of `expand_message_xmd` in this package is that of the native curves, hence that of the standard (C162), for domains of at
most 255 bytes; for longer ones it returns no error, and the length appended is that modulo 256 -/
theorem C207_xmd (H : List UInt8 → List UInt8) (size block : ℕ) (msg dst : List UInt8) (outLen : ℕ) (h : dst.length ≤ 255) :
    expandMsgXmd H size block msg dst outLen = Native.expandMsgXmd H size block msg dst outLen := by
  have : getDomainXmd H dst = dst := if_neg (by omega)
  simp only [Native.expandMsgXmd, this]
  rfl

/-- C207: `Hash` is 48 bytes of the expansion reduced; `Random` is the hash of a seed in which what the reader did not deliver is zero: a
reader that fails gives the same scalar every time, without an error -/
theorem C207_hash (H : List UInt8 → List UInt8) (msg : List UInt8) :
    Is (hash H msg) ((beNat (Native.expandMsgXmd H 32 64 msg hashDst 48) : ℕ) : ZMod q) ∧ random H none = none ∧
    (∀ read, ∃ s x, random H (some read) = some s ∧ Is s x) ∧ random H (some []) = some (hash H (List.replicate 64 0)) := by
  have hd : hashDst.length ≤ 255 := by decide +kernel
  have hi : ∀ m, Is (hash H m) ((beNat (expandMsgXmd H 32 64 m hashDst 48) : ℕ) : ZMod q) := fun m => by
    have := is_mod (beNat (expandMsgXmd H 32 64 m hashDst 48) : ℤ)
    rwa [Int.cast_natCast] at this
  refine ⟨?_, rfl, fun read => ⟨_, _, rfl, hi _⟩, rfl⟩
  rw [← C207_xmd H 32 64 msg hashDst 48 hd]
  exact hi msg

/-- 3 divided by 2 -/
example : ∃ r, div (.of 3) (.own (.of 2)) = .ok (some r) ∧ Is r (3 / 2) :=
  ((C207_invert (fun _ _ => none) (.of 3) (.of 2) zero 3 2 ⟨3, rfl, by norm_num, by decide +kernel, by norm_num⟩
    ⟨2, rfl, by norm_num, by decide +kernel, by norm_num⟩).1 (by decide +kernel)).2

/-- the inverse of zero is a scalar that cannot be used -/
example : invert zero = .ok ⟨none⟩ ∧ mul ⟨none⟩ (.own one) = Go.crash := by
  refine ⟨?_, rfl⟩
  show Except.ok (Sc.mk (Big.modInverse 0 q)) = _
  rw [modInverse_zero]

/-- a function meeting the hypothesis of `C207_sqrt` -/
example : ∃ modSqrt : ℤ → ℤ → Option ℤ, ∀ v : ℤ, (∀ r, modSqrt v q = some r → 0 ≤ r ∧ r < q ∧ (r : ZMod q) ^ 2 = (v : ZMod q)) ∧
    (modSqrt v q = none → ¬ IsSquare (v : ZMod q)) := by
  classical
  refine ⟨fun v _ => if h : IsSquare (v : ZMod q) then some (h.choose.val : ℤ) else none, fun v => ⟨fun r hr => ?_, fun hr hs => ?_⟩⟩
  · dsimp only at hr
    split at hr
    · rename_i h
      rw [← Option.some.inj hr]
      refine ⟨by positivity, by exact_mod_cast ZMod.val_lt _, ?_⟩
      rw [cast_val, sq]; exact h.choose_spec.symm
    · exact nomatch hr
  · dsimp only at hr
    rw [dif_pos hs] at hr
    exact nomatch hr

/-- 33 zero bytes are accepted as zero -/
example : setBytes (List.replicate 33 0) = .ok zero := by decide +kernel

end Verif.Bls377
