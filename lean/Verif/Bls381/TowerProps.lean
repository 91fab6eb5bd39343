import Verif.Bls381.CycloProps

/-!
# Properties C148 to C152: the extension fields and the final exponentiation

The specification is `Tower F K` (`TowerLemmas.lean`): a field `K` containing `F` and elements `u`, `v`, `w`
with `u² = -1`, `v³ = u + 1`, `w² = v`, in which every element is written in exactly one way as
`Σ (a + b u) vⁱ wʲ`; `T.e2`, `T.e6`, `T.e12` read the Go structs as such sums.
-/

namespace Verif.Bls381

open Verif.Primes Tower

set_option exponentiation.threshold 5000

variable {K : Type} [Field K] (T : Tower Fq K)

/-! ## C148: the arithmetic is that of a field -/

/-- the three-step extension the code describes exists: `-1` is no square, `u + 1` is no cube and `v` is no
square -/
theorem C148_tower_exists : ∃ (K : Type) (_ : Field K), Nonempty (Tower Fq K) :=
  tower_of neg_one_nonsquare two_nonsquare two_noncube

/-- two structs that stand for the same field element are equal, and every element has a struct -/
theorem C148_coordinates : Function.Bijective T.e12 := T.bij

theorem C148_fp2 (x y : Fp2 Fq) (a : Fq) :
    T.e2 (x.add y) = T.e2 x + T.e2 y ∧ T.e2 (x.sub y) = T.e2 x - T.e2 y ∧ T.e2 x.neg = -T.e2 x ∧
      T.e2 x.double = 2 * T.e2 x ∧ T.e2 (x.mul y) = T.e2 x * T.e2 y ∧ T.e2 x.square = T.e2 x ^ 2 ∧
      T.e2 x.mulByNonResidue = (T.u + 1) * T.e2 x ∧ T.e2 (x.mul0 a) = T.e2 x * T.φ a ∧
      T.e2 Fp2.zero = 0 ∧ T.e2 Fp2.one = 1 := by
  simp

theorem C148_fp6 (x y : Fp6 Fq) (a b : Fp2 Fq) :
    T.e6 (x.add y) = T.e6 x + T.e6 y ∧ T.e6 (x.sub y) = T.e6 x - T.e6 y ∧ T.e6 x.neg = -T.e6 x ∧
      T.e6 x.double = 2 * T.e6 x ∧ T.e6 (x.mul y) = T.e6 x * T.e6 y ∧ T.e6 x.square = T.e6 x ^ 2 ∧
      T.e6 x.mulByNonResidue = T.v * T.e6 x ∧ T.e6 (x.mulByB b) = T.e6 x * (T.e2 b * T.v) ∧
      T.e6 (x.mulByAB a b) = T.e6 x * (T.e2 a + T.e2 b * T.v) ∧ T.e6 Fp6.zero = 0 ∧ T.e6 Fp6.one = 1 := by
  simp

theorem C148_fp12 (x y : Fp12 Fq) (a b d : Fp2 Fq) :
    T.e12 (x.add y) = T.e12 x + T.e12 y ∧ T.e12 (x.sub y) = T.e12 x - T.e12 y ∧ T.e12 x.neg = -T.e12 x ∧
      T.e12 (x.mul y) = T.e12 x * T.e12 y ∧ T.e12 x.square = T.e12 x ^ 2 ∧
      T.e12 (x.mulByABD a b d) = T.e12 x * (T.e2 a + T.e2 b * T.v + T.e2 d * T.v * T.w) ∧
      T.e12 Fp12.zero = 0 ∧ T.e12 Fp12.one = 1 := by
  simp

/-- without the field `K`: multiplication of `fp12` structs is commutative, associative, distributes over
addition, and has no zero divisors -/
theorem C148_laws (x y z : Fp12 Fq) : x.mul y = y.mul x ∧ (x.mul y).mul z = x.mul (y.mul z) ∧
    x.mul (y.add z) = (x.mul y).add (x.mul z) ∧ x.square = x.mul x ∧ x.mul Fp12.one = x ∧
      (x.mul y = Fp12.zero → x = Fp12.zero ∨ y = Fp12.zero) := by
  obtain ⟨K, _, ⟨T⟩⟩ := C148_tower_exists
  refine ⟨T.e12_inj ?_, T.e12_inj ?_, T.e12_inj ?_, T.e12_inj ?_, T.e12_inj ?_, fun h => ?_⟩
  · simp [mul_comm]
  · simp [mul_assoc]
  · simp [mul_add]
  · simp [sq]
  · simp
  · have h1 := congrArg T.e12 h
    rw [e12_mul, e12_zero, mul_eq_zero, T.e12_eq_zero, T.e12_eq_zero] at h1
    exact h1

/-- a full element, in coordinates -/
example : (⟨⟨⟨1, 2⟩, ⟨3, 4⟩, ⟨5, 6⟩⟩, ⟨⟨7, 8⟩, ⟨9, 10⟩, ⟨11, 12⟩⟩⟩ : Fp12 Fq).mul
      ⟨⟨⟨1, 0⟩, ⟨0, 0⟩, ⟨0, 0⟩⟩, ⟨⟨1, 0⟩, ⟨0, 0⟩, ⟨0, 0⟩⟩⟩
    = ⟨⟨⟨0, 25⟩, ⟨10, 12⟩, ⟨14, 16⟩⟩, ⟨⟨8, 10⟩, ⟨12, 14⟩, ⟨16, 18⟩⟩⟩ := by decide +kernel

/-! ## C149: inversion and tests -/

theorem C149_invert_fp2 (f x : Fp2 Fq) :
    (x ≠ Fp2.zero → (Fp2.invert f x).2 = true ∧ x.mul (Fp2.invert f x).1 = Fp2.one) ∧
      (x = Fp2.zero → Fp2.invert f x = (f, false)) := by
  obtain ⟨K, _, ⟨T⟩⟩ := C148_tower_exists
  refine ⟨fun h => ?_, fun h => by rw [h, invert2_zero]⟩
  obtain ⟨h1, h2⟩ := T.invert2_ne f h
  exact ⟨h1, T.e2_inj (by rw [e2_mul, h2, e2_one, mul_inv_cancel₀ (fun h0 => h (T.e2_eq_zero.1 h0))])⟩

theorem C149_invert_fp6 (f x : Fp6 Fq) :
    (x ≠ Fp6.zero → (Fp6.invert f x).2 = true ∧ x.mul (Fp6.invert f x).1 = Fp6.one) ∧
      (x = Fp6.zero → Fp6.invert f x = (f, false)) := by
  obtain ⟨K, _, ⟨T⟩⟩ := C148_tower_exists
  refine ⟨fun h => ?_, fun h => by rw [h, invert6_zero]⟩
  obtain ⟨h1, h2⟩ := T.invert6_ne f h
  exact ⟨h1, T.e6_inj (by rw [e6_mul, h2, e6_one, mul_inv_cancel₀ (fun h0 => h (T.e6_eq_zero.1 h0))])⟩

theorem C149_invert_fp12 (f x : Fp12 Fq) :
    (x ≠ Fp12.zero → (Fp12.invert f x).2 = true ∧ x.mul (Fp12.invert f x).1 = Fp12.one) ∧
      (x = Fp12.zero → Fp12.invert f x = (f, false)) := by
  obtain ⟨K, _, ⟨T⟩⟩ := C148_tower_exists
  refine ⟨fun h => ?_, fun h => by rw [h, invert12_zero]⟩
  obtain ⟨h1, h2⟩ := T.invert12_ne f h
  exact ⟨h1, T.e12_inj (by rw [e12_mul, h2, e12_one, mul_inv_cancel₀ (fun h0 => h (T.e12_eq_zero.1 h0))])⟩

theorem C149_tests (x y : Fp12 Fq) :
    (x.isZero = true ↔ x = Fp12.zero) ∧ (x.equal y = true ↔ x = y) := ⟨fp12_isZero x, fp12_equal x y⟩

/-- `fp6.IsOne` never looks at `C`: exactly the elements `1 + c v²` pass, at both levels -/
theorem C149_isOne_iff (x : Fp12 Fq) :
    x.isOne = true ↔ ∃ c : Fp2 Fq, x = ⟨⟨Fp2.one, Fp2.zero, c⟩, Fp6.zero⟩ := by
  obtain ⟨⟨a, b, c⟩, d⟩ := x
  simp only [Fp12.isOne, Fp6.isOne, Bool.and_eq_true, fp2_isOne, fp2_isZero, fp6_isZero, Fp12.mk.injEq,
    Fp6.mk.injEq]
  constructor
  · rintro ⟨⟨⟨rfl, rfl⟩, -⟩, rfl⟩
    exact ⟨c, ⟨rfl, rfl, rfl⟩, rfl⟩
  · rintro ⟨c', ⟨rfl, rfl, rfl⟩, rfl⟩
    exact ⟨⟨⟨rfl, rfl⟩, rfl⟩, rfl⟩

theorem C149_isOne_wrong : ∃ x : Fp12 Fq, x.isOne = true ∧ x ≠ Fp12.one :=
  ⟨⟨⟨Fp2.one, Fp2.zero, Fp2.one⟩, Fp6.zero⟩, by decide +kernel, by decide +kernel⟩

/-- the flaw does not show for elements of norm one over `fp6`, among them every output of the final
exponentiation -/
theorem C149_isOne_norm_one {x : Fp12 Fq} (h : x.mul x.conj = Fp12.one) :
    x.isOne = true ↔ x = Fp12.one := by
  obtain ⟨K, _, ⟨T⟩⟩ := C148_tower_exists
  constructor
  · intro h1
    obtain ⟨c, rfl⟩ := (C149_isOne_iff x).1 h1
    have h2 := congrArg T.e12 h
    rw [e12_mul, e12_mul_conj, e12_one] at h2
    simp only [e6_zero] at h2
    have h3 : T.e6 ⟨Fp2.one, Fp2.zero, c⟩ ^ 2 = 1 := by linear_combination h2
    rcases mul_self_eq_one_iff.1 ((sq _).symm.trans h3) with h4 | h4
    · have := T.e6_inj (h4.trans T.e6_one.symm)
      rw [this]; rfl
    · have h5 : T.e6 ⟨Fp2.one, Fp2.zero, c⟩ = T.e6 Fp6.one.neg := by rw [h4, e6_neg, e6_one]
      have h6 := congrArg (fun y => y.A.A) (T.e6_inj h5)
      exact absurd (show (1 : Fq) = -1 from h6) (by decide +kernel)
  · rintro rfl; decide +kernel

example : (⟨⟨1, 2⟩, ⟨3, 4⟩, ⟨5, 6⟩⟩ : Fp6 Fq) ≠ Fp6.zero := by decide +kernel

/-- an element of norm one different from one: `-1` -/
example : Fp12.one.neg.mul Fp12.one.neg.conj = (Fp12.one : Fp12 Fq) ∧ Fp12.one.neg ≠ (Fp12.one : Fp12 Fq) := by
  decide +kernel

/-! ## C150: square roots and signs in `fp2` -/

/-- `Sqrt` reports exactly whether a root exists, returns one if so, and else leaves the receiver alone -/
theorem C150_sqrt (f a : Fp2 Fq) :
    ((fp2Sqrt f a).2 = true ↔ ∃ y : Fp2 Fq, y.mul y = a) ∧
      ((fp2Sqrt f a).2 = true → (fp2Sqrt f a).1.mul (fp2Sqrt f a).1 = a) ∧
      ((fp2Sqrt f a).2 = false → (fp2Sqrt f a).1 = f) := by
  obtain ⟨K, _, ⟨T⟩⟩ := C148_tower_exists
  have hsq : ∀ y : Fp2 Fq, y.square = y.mul y := fun y => T.e2_inj (by rw [e2_square, e2_mul, sq])
  have hcand : ∀ y : Fp2 Fq, y.mul y = a → (sqrtCand a).square = a := fun y hy => T.e2_cand hy
  rw [fp2Sqrt_eq]
  generalize sqrtCand a = c at hcand
  dsimp only
  rcases hb : c.square.equal a with _ | _
  · refine ⟨⟨fun h => absurd h (by decide), fun ⟨y, hy⟩ => ?_⟩, fun h => absurd h (by decide), fun _ => ?_⟩
    · rw [(fp2_equal _ _).2 (hcand y hy)] at hb
      exact hb.symm
    · rw [sel, if_neg (by decide)]
  · have hc := (fp2_equal _ _).1 hb
    rw [hsq] at hc
    refine ⟨⟨fun _ => ⟨c, hc⟩, fun _ => rfl⟩, fun _ => ?_, fun h => absurd h (by decide)⟩
    rw [sel, if_pos rfl, hc]

theorem val_neg_of_ne {x : Fq} (h : x ≠ 0) : (-x).val = blsp - x.val := by
  have : NeZero x := ⟨h⟩
  exact ZMod.val_neg_of_ne_zero x

theorem lex1_neg {x : Fq} (h : x ≠ 0) : lexLargest1 (-x) = !lexLargest1 x := by
  have h1 := val_neg_of_ne h
  have h2 := ZMod.val_lt x
  have hodd : blsp % 2 = 1 := by decide +kernel
  have h3 : x.val ≠ 0 := fun h0 => h ((ZMod.val_eq_zero x).1 h0)
  rw [lexLargest1, lexLargest1, neg_neg, h1, Bool.eq_iff_iff, decide_eq_true_eq, Bool.not_eq_true',
    decide_eq_false_iff_not]
  omega

theorem lex1_zero : lexLargest1 0 = false := by decide +kernel

theorem sgn1_neg {x : Fq} (h : x ≠ 0) : sgn0of1 (-x) = !sgn0of1 x := by
  have h1 := val_neg_of_ne h
  have h2 := ZMod.val_lt x
  have hodd : blsp % 2 = 1 := by decide +kernel
  rw [sgn0of1, sgn0of1, h1, Bool.eq_iff_iff, decide_eq_true_eq, Bool.not_eq_true',
    decide_eq_false_iff_not]
  omega

/-- of a non-zero element and its negative exactly one is lexicographically largest, and exactly one has sign
one; zero has neither -/
theorem C150_signs {x : Fp2 Fq} (h : x ≠ Fp2.zero) :
    lexLargest2 x.neg = !lexLargest2 x ∧ sgn0of2 x.neg = !sgn0of2 x := by
  obtain ⟨a, b⟩ := x
  have hab : a ≠ 0 ∨ b ≠ 0 := by
    by_contra hc
    rw [not_or, not_not, not_not] at hc
    exact h (by rw [hc.1, hc.2]; rfl)
  constructor
  · show (lexLargest1 (-b) || decide (-b = 0) && lexLargest1 (-a)) =
      !(lexLargest1 b || decide (b = 0) && lexLargest1 a)
    by_cases hb : b = 0
    · subst hb
      have ha := hab.resolve_right (by simp)
      simp [lex1_zero, lex1_neg ha]
    · rw [lex1_neg hb]; simp [hb]
  · show (sgn0of1 (-b) && decide (-a = 0) || sgn0of1 (-a) && !decide (-a = 0)) =
      !(sgn0of1 b && decide (a = 0) || sgn0of1 a && !decide (a = 0))
    by_cases ha : a = 0
    · subst ha
      have hb := hab.resolve_left (by simp)
      simp [sgn1_neg hb]
    · rw [sgn1_neg ha]; simp [ha]

theorem C150_signs_zero : lexLargest2 Fp2.zero = false ∧ sgn0of2 Fp2.zero = false := by decide +kernel

/-- `LexicographicallyLargest` compares `B` first, `Sgn0` looks at `A` first -/
theorem C150_signs_iff (x : Fp2 Fq) :
    (lexLargest2 x = true ↔ (blsp - 1) / 2 < x.B.val ∨ x.B = 0 ∧ (blsp - 1) / 2 < x.A.val) ∧
      (sgn0of2 x = true ↔ Odd x.A.val ∨ x.A = 0 ∧ Odd x.B.val) := by
  have hl : ∀ y : Fq, lexLargest1 y = true ↔ (blsp - 1) / 2 < y.val := by
    intro y
    by_cases hy : y = 0
    · subst hy; rw [lex1_zero, ZMod.val_zero]; simp
    · have h1 := val_neg_of_ne hy
      have h2 := ZMod.val_lt y
      have hodd : blsp % 2 = 1 := by decide +kernel
      rw [lexLargest1, h1, decide_eq_true_eq]
      omega
  constructor
  · simp only [lexLargest2, Bool.or_eq_true, Bool.and_eq_true, hl, decide_eq_true_eq]
  · simp only [sgn0of2, sgn0of1, Bool.or_eq_true, Bool.and_eq_true, decide_eq_true_eq, Nat.odd_iff,
      Bool.not_eq_true', decide_eq_false_iff_not]
    constructor
    · rintro (⟨h1, h2⟩ | ⟨h1, -⟩)
      · exact Or.inr ⟨h2, h1⟩
      · exact Or.inl h1
    · rintro (h1 | ⟨h1, h2⟩)
      · refine Or.inr ⟨h1, fun h0 => ?_⟩
        rw [h0, ZMod.val_zero] at h1
        exact absurd h1 (by decide)
      · exact Or.inl ⟨h2, h1⟩

/-- so a square and a sign determine the root -/
theorem C150_root_unique {x y : Fp2 Fq} (hsq : x.mul x = y.mul y)
    (hs : sgn0of2 x = sgn0of2 y ∨ lexLargest2 x = lexLargest2 y) : x = y := by
  obtain ⟨K, _, ⟨T⟩⟩ := C148_tower_exists
  have h1 := congrArg T.e2 hsq
  rw [e2_mul, e2_mul, mul_self_eq_mul_self_iff] at h1
  rcases h1 with h1 | h1
  · exact T.e2_inj h1
  · have h2 : x = y.neg := T.e2_inj (by rw [h1, e2_neg])
    by_cases hy : y = Fp2.zero
    · rw [h2, hy]; decide +kernel
    · obtain ⟨g1, g2⟩ := C150_signs hy
      rcases hs with hs | hs
      · rw [h2, g2] at hs; cases h : sgn0of2 y <;> simp [h] at hs
      · rw [h2, g1] at hs; cases h : lexLargest2 y <;> simp [h] at hs

/-- `-1` has a root in `fp2`; `3 + 4u = (2 + u)²` -/
example : (∃ y : Fp2 Fq, y.mul y = ⟨-1, 0⟩) ∧ (∃ y : Fp2 Fq, y.mul y = ⟨3, 4⟩) :=
  ⟨⟨⟨0, 1⟩, by decide +kernel⟩, ⟨⟨2, 1⟩, by decide +kernel⟩⟩

example : lexLargest2 ⟨0, -1⟩ = true ∧ sgn0of2 ⟨0, 1⟩ = true ∧ sgn0of2 ⟨0, -1⟩ = false := by decide +kernel

/-! ## C151: Frobenius -/

/-- the tabulated constants make the three `FrobeniusMap`s the `p`-th power map -/
theorem C151_frobenius (x : Fp2 Fq) (y : Fp6 Fq) (z : Fp12 Fq) :
    T.e2 x.conj = T.e2 x ^ blsp ∧ T.e6 (fp6Frob y) = T.e6 y ^ blsp ∧ T.e12 (fp12Frob z) = T.e12 z ^ blsp :=
  ⟨T.e2_frob x, T.e6_frob y, T.e12_frob z⟩

/-- hence it respects multiplication and addition of structs, and twelve applications are the identity -/
theorem C151_twelve (z : Fp12 Fq) : fp12Frob^[12] z = z := by
  obtain ⟨K, _, ⟨T⟩⟩ := C148_tower_exists
  apply T.e12_inj
  show T.e12 (fp12Frob (fp12Frob (fp12Frob (fp12Frob (fp12Frob (fp12Frob (fp12Frob (fp12Frob (fp12Frob
    (fp12Frob (fp12Frob (fp12Frob z)))))))))))) = _
  rw [e12_frob2, e12_frob2, e12_frob2, e12_frob2, e12_frob2, e12_frob2]
  rw [fr6_e12, fr6_e12]
  congr 1
  obtain ⟨a, ⟨⟨a, b⟩, ⟨c, d⟩, ⟨e, f⟩⟩⟩ := z
  simp [Fp12.conj, Fp6.neg, Fp2.neg]

theorem C151_conj (z : Fp12 Fq) : fp12Frob^[6] z = z.conj := by
  obtain ⟨K, _, ⟨T⟩⟩ := C148_tower_exists
  apply T.e12_inj
  show T.e12 (fp12Frob (fp12Frob (fp12Frob (fp12Frob (fp12Frob (fp12Frob z)))))) = _
  rw [e12_frob2, e12_frob2, e12_frob2, fr6_e12]

example : (⟨2, 3⟩ : Fp2 Fq).conj = ⟨2, -3⟩ := rfl

/-! ## C152: the cyclotomic subgroup and the final exponentiation -/

theorem fr2_pow_eq (z : K) : fr2 z = z ^ (blsp ^ 2) := by rw [fr2, ← pow_mul, sq]

theorem fr4_pow_eq (z : K) : fr2 (fr2 z) = z ^ (blsp ^ 4) := by
  rw [fr2_pow_eq, fr2_pow_eq, ← pow_mul]
  exact congrArg (z ^ ·) (by ring)

theorem cyc_iff (z : K) : Cyc z ↔ z ^ (blsp ^ 4 - blsp ^ 2 + 1) = 1 := by
  have hn : blsp ^ 4 = (blsp ^ 4 - blsp ^ 2) + blsp ^ 2 := by decide +kernel
  have hx : z ^ (blsp ^ 4) * z = z ^ (blsp ^ 4 - blsp ^ 2 + 1) * z ^ (blsp ^ 2) := by
    conv_lhs => rw [hn]
    rw [pow_add, pow_succ]; ring
  rw [Cyc, fr4_pow_eq, fr2_pow_eq, hx]
  constructor
  · rintro ⟨h0, h1⟩
    exact mul_right_cancel₀ (pow_ne_zero _ h0) (h1.trans (one_mul _).symm)
  · intro h
    refine ⟨?_, by rw [h, one_mul]⟩
    rintro rfl
    rw [zero_pow (by decide +kernel)] at h
    exact zero_ne_one h

/-- on elements of order dividing `p⁴ - p² + 1`: the special squaring squares, and conjugation inverts -/
theorem C152_cyclotomic {x : Fp12 Fq} (h : T.e12 x ^ (blsp ^ 4 - blsp ^ 2 + 1) = 1) :
    cyclotomicSquare x = x.square ∧ x.mul x.conj = Fp12.one ∧
      T.e12 (cyclotomicExp x) = T.e12 x ^ (-0xd201000000010000 : ℤ) := by
  have hc := (cyc_iff _).2 h
  refine ⟨T.e12_inj ?_, T.e12_inj ?_, Cyc.exp T hc⟩
  · rw [Cyc.square T hc, e12_square]
  · rw [e12_mul, Cyc.conj T hc, mul_inv_cancel₀ hc.1, e12_one]

/-- elsewhere the special squaring is not a squaring -/
theorem C152_not_square : cyclotomicSquare ⟨⟨⟨2, 0⟩, ⟨0, 0⟩, ⟨0, 0⟩⟩, ⟨⟨0, 0⟩, ⟨0, 0⟩, ⟨0, 0⟩⟩⟩
    ≠ Fp12.square ⟨⟨⟨2, 0⟩, ⟨0, 0⟩, ⟨0, 0⟩⟩, ⟨⟨(0 : Fq), 0⟩, ⟨0, 0⟩, ⟨0, 0⟩⟩⟩ := by decide +kernel

/-- `FinalExponentiation` raises to the power `3 (p¹² - 1) / r` (three times the exponent of the textbook) -/
theorem C152_final (gt : Fp12 Fq) {a : Fp12 Fq} (ha : a ≠ Fp12.zero) :
    T.e12 (finalExponentiation gt a) = T.e12 a ^ (3 * ((blsp ^ 12 - 1) / blsr)) := T.final_ne gt ha

/-- of zero it keeps the receiver -/
theorem C152_final_zero (gt : Fp12 Fq) : finalExponentiation gt Fp12.zero = gt := final_zero gt

include T in
theorem pow_card_sub {z : K} (hz : z ≠ 0) : z ^ (blsp ^ 12 - 1) = 1 := by
  obtain ⟨x, rfl⟩ := T.bij.2 z
  have h := congrArg T.e12 (C151_twelve x)
  have h2 : T.e12 (fp12Frob^[12] x) = T.e12 x ^ (blsp ^ 12) := by
    show T.e12 (fp12Frob (fp12Frob (fp12Frob (fp12Frob (fp12Frob (fp12Frob (fp12Frob (fp12Frob (fp12Frob
      (fp12Frob (fp12Frob (fp12Frob x)))))))))))) = _
    rw [e12_frob2, e12_frob2, e12_frob2, e12_frob2, e12_frob2, e12_frob2]
    simp only [fr2_pow_eq, ← pow_mul]
    exact congrArg (T.e12 x ^ ·) (by ring)
  rw [h2] at h
  have hn : blsp ^ 12 = blsp ^ 12 - 1 + 1 := by decide +kernel
  rw [hn, pow_succ] at h
  exact mul_right_cancel₀ hz (h.trans (one_mul _).symm)

/-- the result is an `r`-th root of unity, so lies in the group of order `r` -/
theorem C152_final_order (gt : Fp12 Fq) {a : Fp12 Fq} (ha : a ≠ Fp12.zero) :
    T.e12 (finalExponentiation gt a) ^ blsr = 1 := by
  have hA : T.e12 a ≠ 0 := fun h0 => ha (T.e12_eq_zero.1 h0)
  rw [C152_final T gt ha, ← pow_mul]
  have hn : 3 * ((blsp ^ 12 - 1) / blsr) * blsr = (blsp ^ 12 - 1) * 3 := by decide +kernel
  have := congrArg (T.e12 a ^ ·) hn
  exact this.trans (by show T.e12 a ^ ((blsp ^ 12 - 1) * 3) = 1; rw [pow_mul, pow_card_sub T hA, one_pow])

/-- it is multiplicative -/
theorem C152_final_mul (gt gt' gt'' : Fp12 Fq) {a b : Fp12 Fq} (ha : a ≠ Fp12.zero) (hb : b ≠ Fp12.zero) :
    finalExponentiation gt (a.mul b) = (finalExponentiation gt' a).mul (finalExponentiation gt'' b) := by
  obtain ⟨K, _, ⟨T⟩⟩ := C148_tower_exists
  have hab : a.mul b ≠ Fp12.zero := fun h => ((C148_laws a b a).2.2.2.2.2 h).elim ha hb
  apply T.e12_inj
  rw [C152_final T gt hab, e12_mul, e12_mul, C152_final T gt' ha, C152_final T gt'' hb, mul_pow]

/-- the result is one exactly for the elements whose order divides `(p¹² - 1) / r`: the factor three loses
nothing -/
theorem C152_final_one_iff (gt : Fp12 Fq) {a : Fp12 Fq} (ha : a ≠ Fp12.zero) :
    finalExponentiation gt a = Fp12.one ↔ T.e12 a ^ ((blsp ^ 12 - 1) / blsr) = 1 := by
  have hA : T.e12 a ≠ 0 := fun h0 => ha (T.e12_eq_zero.1 h0)
  have h1 : (T.e12 a ^ ((blsp ^ 12 - 1) / blsr)) ^ blsr = 1 := by
    rw [← pow_mul]
    have hn : (blsp ^ 12 - 1) / blsr * blsr = blsp ^ 12 - 1 := by decide +kernel
    have := congrArg (T.e12 a ^ ·) hn
    exact this.trans (pow_card_sub T hA)
  have h2 : T.e12 (finalExponentiation gt a) = (T.e12 a ^ ((blsp ^ 12 - 1) / blsr)) ^ 3 := by
    rw [C152_final T gt ha, mul_comm, pow_mul]
  constructor
  · intro h
    rw [h, e12_one] at h2
    have hg : Nat.gcd 3 blsr = 1 := by decide +kernel
    have h3 := orderOf_dvd_of_pow_eq_one h2.symm
    have h4 := orderOf_dvd_of_pow_eq_one h1
    have h5 := Nat.dvd_gcd h3 h4
    rw [hg, Nat.dvd_one, orderOf_eq_one_iff] at h5
    exact h5
  · intro h
    apply T.e12_inj
    rw [h2, h, one_pow, e12_one]

/-- `-1` satisfies the premise of `C152_final` … and the result for it is one -/
example (gt : Fp12 Fq) : finalExponentiation gt Fp12.one.neg = Fp12.one := by
  obtain ⟨K, _, ⟨T⟩⟩ := C148_tower_exists
  apply T.e12_inj
  rw [C152_final T gt (by decide +kernel), e12_neg, e12_one,
    Even.neg_one_pow (Nat.even_iff.2 (by decide +kernel))]

end Verif.Bls381
