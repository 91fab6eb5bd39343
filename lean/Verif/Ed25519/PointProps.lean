import Verif.Curves.EdScalarProps
import Verif.Ed25519.SqrtLemmas

/-!
# Properties of `PointEd25519`

* C179 multiplication by scalars is an action exactly on the points of the prime-order subgroup
* C180 encodings: what is accepted, what is written, what is confused
* C181 hashing to the curve never fails and lands in the prime-order subgroup
* C182 sums of products, the double multiplication and the mangled key
-/

set_option exponentiation.threshold 1000

namespace Verif.Ed25519

open Primes Verif.Curves.Ed

/-! ## C179 -/

theorem val_mod_nsmul {P : EdPt} (h : P ∈ primeSub) (n : ℕ) : ((n : ℕ) : Fl).val • P = n • P := by
  have : n • P = (n % edl) • P := by
    conv_lhs => rw [← Nat.div_add_mod n edl, add_nsmul, mul_nsmul, mem_primeSub.1 h, nsmul_zero, zero_add]
  rw [this, ZMod.val_natCast]

/-- C179: on the subgroup `Mul` is the action of the scalar field. -/
theorem C179_mul_smul (P : primeSub) (s : Fl) : ptMul P (some s) = some ((s • P : primeSub) : EdPt) := by
  have h : s • P = s.val • P := by
    conv_lhs => rw [← ZMod.natCast_zmod_val s]
    rw [Nat.cast_smul_eq_nsmul]
  rw [h]
  simp [ptMul]

/-- C179: `Mul` distributes over the sum of scalars exactly for points of the subgroup. -/
theorem C179_mul_add (P : EdPt) :
    (∀ s t : Fl, ptMul P (some (s + t)) = (ptMul P (some s)).bind fun A => ptAdd A (ptMul P (some t))) ↔ P ∈ primeSub := by
  simp only [ptMul, ptAdd, Option.map_some, Option.bind_some, Option.some.injEq]
  constructor
  · intro h
    have h1 := h (-1) 1
    have v1 : (1 : Fl).val = 1 := ZMod.val_one _
    have v2 : (-1 : Fl).val = edl - 1 := ZMod.val_neg_one (edl - 1)
    rw [neg_add_cancel, ZMod.val_zero, zero_nsmul, v1, v2, ← add_nsmul] at h1
    exact mem_primeSub.2 h1.symm
  · intro h s t
    have e : s + t = ((s.val + t.val : ℕ) : Fl) := by simp
    rw [e, val_mod_nsmul h, add_nsmul]

theorem nsmul_coprime {A : Type} [AddCommGroup A] {P : A} {m n : ℕ} (hc : Nat.Coprime m n) (hm : m • P = 0) (hn : n • P = 0) :
    P = 0 := by
  have h := Nat.dvd_gcd (addOrderOf_dvd_of_nsmul_eq_zero hm) (addOrderOf_dvd_of_nsmul_eq_zero hn)
  rw [hc] at h
  exact AddMonoid.addOrderOf_eq_one_iff.1 (Nat.dvd_one.1 h)

/-- C179: … and so it does with the product of scalars: for a point with a torsion component `(s·t)•P` and `s•(t•P)` differ
for some scalars. -/
theorem C179_mul_mul (P : EdPt) :
    (∀ s t : Fl, ptMul P (some (s * t)) = (ptMul P (some t)).bind fun A => ptMul A (some s)) ↔ P ∈ primeSub := by
  simp only [ptMul, Option.map_some, Option.bind_some, Option.some.injEq]
  constructor
  · intro h
    have h1 := h (-1) (-1)
    have v1 : (1 : Fl).val = 1 := ZMod.val_one _
    have v2 : (-1 : Fl).val = edl - 1 := ZMod.val_neg_one (edl - 1)
    rw [neg_one_mul, neg_neg, v1, v2, one_nsmul, ← mul_nsmul] at h1
    refine mem_primeSub.2 (nsmul_coprime (m := 8) (n := edl - 2) (by decide +kernel) ?_ ?_)
    · rw [← mul_nsmul', mul_comm, mul_nsmul']; exact C179_cofactor P
    · have e : (edl - 1) * (edl - 1) = edl * (edl - 2) + 1 := by decide +kernel
      rw [e, add_nsmul, one_nsmul, mul_nsmul] at h1
      exact add_eq_right.1 h1.symm
  · intro h s t
    have e : s * t = ((t.val * s.val : ℕ) : Fl) := by rw [Nat.cast_mul, ZMod.natCast_zmod_val, ZMod.natCast_zmod_val, mul_comm]
    rw [e, val_mod_nsmul h, mul_nsmul]

/-- C179: the other operations are those of the group. -/
theorem C179_ops (P Q : EdPt) : ptAdd P (some Q) = some (P + Q) ∧ ptSub P (some Q) = some (P - Q) ∧ ptNeg P = -P ∧
    ptDouble P = 2 • P ∧ (ptEqual P (some Q) = true ↔ P = Q) ∧ (ptIsIdentity P = true ↔ P = 0) ∧
    ptAdd P none = none ∧ ptSub P none = none ∧ ptMul P none = none ∧ ptEqual P none = false := by
  have he : ∀ R : EdPt, ptEqual P (some R) = true ↔ P = R := fun R => by
    simp only [ptEqual, Bool.and_eq_true, decide_eq_true_eq]
    exact ⟨fun h => Pt.ext h.1 h.2, fun h => h ▸ ⟨rfl, rfl⟩⟩
  exact ⟨rfl, by rw [sub_eq_add_neg]; rfl, rfl, (two_nsmul P).symm, he Q, he 0, rfl, rfl, rfl, rfl⟩

theorem twoTors_not_mem : twoTors ∉ primeSub := by
  have h2 : 2 • twoTors = 0 := by rw [← four_tors, ← mul_nsmul']; exact eight_tors
  intro h
  refine twoTors_ne (nsmul_coprime (m := 2) (n := edl) (by decide +kernel) h2 h)

theorem base_mem : base ∈ primeSub := mem_primeSub.2 l_base

/-- both sides occur -/
example : base ∈ primeSub ∧ base ≠ 0 ∧
    ∃ s t : Fl, ptMul twoTors (some (s * t)) ≠ (ptMul twoTors (some t)).bind fun A => ptMul A (some s) := by
  refine ⟨base_mem, base_ne, ?_⟩
  by_contra h
  push Not at h
  exact twoTors_not_mem ((C179_mul_mul twoTors).1 h)

/-! ## C180 -/

theorem y_lt (y : Fp) : y.val < 2 ^ 255 := lt_trans (ZMod.val_lt y) (by decide +kernel)

theorem enc_arith {y s m : ℕ} (hy : y < m) (hs : s < 2) :
    y + m * s < m * 2 ∧ (y + m * s) % m = y ∧ (y + m * s) / m = s := by
  have hm : 0 < m := by omega
  refine ⟨?_, ?_, ?_⟩
  · have := Nat.mul_le_mul_left m (show s ≤ 1 by omega)
    omega
  · rw [Nat.add_mul_mod_self_left, Nat.mod_eq_of_lt hy]
  · rw [Nat.add_mul_div_left _ _ hm, Nat.div_eq_of_lt hy, zero_add]

theorem enc_nat (y : Fp) {s : ℕ} (hs : s < 2) :
    (leBytes 32 (y.val + 2 ^ 255 * s)).length = 32 ∧ leNat (leBytes 32 (y.val + 2 ^ 255 * s)) = y.val + 2 ^ 255 * s ∧
    feSetBytes (leBytes 32 (y.val + 2 ^ 255 * s)) = y ∧ leNat (leBytes 32 (y.val + 2 ^ 255 * s)) / 2 ^ 255 = s := by
  obtain ⟨h1, h2, h3⟩ := enc_arith (y_lt y) hs
  have h : leNat (leBytes 32 (y.val + 2 ^ 255 * s)) = y.val + 2 ^ 255 * s :=
    leNat_leBytes 32 _ (lt_of_lt_of_eq h1 (by decide +kernel))
  refine ⟨leBytes_length _ _, h, ?_, ?_⟩
  · rw [feSetBytes, h, h2, ZMod.natCast_zmod_val]
  · rw [h, h3]

/-- C180: what `FromAffineCompressed` accepts, and as which point: the ordinate is read modulo `2^255` and then modulo the
prime, and the sign is free when the abscissa is zero.  There is no check of the order. -/
theorem C180_fromCompressed (b : List UInt8) (P : EdPt) : ptFromCompressed b = .ok P ↔
    b.length = 32 ∧ P.y = ((leNat b % 2 ^ 255 : ℕ) : Fp) ∧ (P.x = 0 ∨ P.x.val % 2 = leNat b / 2 ^ 255) :=
  libPointSetBytes_eq_ok

/-- C180: it never panics. -/
theorem C180_fromCompressed_total (b : List UInt8) : ptFromCompressed b ≠ Go.crash := libPointSetBytes_total b

/-- C180: compressed encodings are 32 bytes and read back: `IsOnCurve` is true of every value. -/
theorem C180_compressed_roundtrip (P : EdPt) : (ptToCompressed P).length = 32 ∧ ptFromCompressed (ptToCompressed P) = .ok P ∧
    ptIsOnCurve P = true := by
  obtain ⟨h1, h2, h3, h4⟩ := enc_nat P.y (Nat.mod_lt P.x.val two_pos)
  have h : ptFromCompressed (ptToCompressed P) = .ok P :=
    libPointSetBytes_eq_ok.2 ⟨h1, h3.symm, Or.inr h4.symm⟩
  refine ⟨h1, h, ?_⟩
  unfold ptIsOnCurve
  rw [show libPointSetBytes (ptToCompressed P) = .ok P from h]
  rfl

/-- C180: distinct points have distinct encodings. -/
theorem C180_compressed_injective {P Q : EdPt} (h : ptToCompressed P = ptToCompressed Q) : P = Q := by
  have h1 := (C180_compressed_roundtrip P).2.1
  rw [h, (C180_compressed_roundtrip Q).2.1] at h1
  exact (Except.ok.inj h1).symm

/-- C180: an accepted encoding is the one that is written, or its ordinate is not reduced, or it is minus zero. -/
theorem C180_malleable {b : List UInt8} {P : EdPt} (h : ptFromCompressed b = .ok P) :
    b = ptToCompressed P ∨ edp ≤ leNat b % 2 ^ 255 ∨ (P.x = 0 ∧ leNat b / 2 ^ 255 = 1) := by
  obtain ⟨hl, hy, hx⟩ := (C180_fromCompressed b P).1 h
  by_cases hr : leNat b % 2 ^ 255 < edp
  swap
  · exact Or.inr (Or.inl (not_lt.1 hr))
  have hyv : P.y.val = leNat b % 2 ^ 255 := by rw [hy, ZMod.val_cast_of_lt hr]
  have hsign : P.x.val % 2 = leNat b / 2 ^ 255 → b = ptToCompressed P := by
    intro hs
    have e : P.y.val + 2 ^ 255 * (P.x.val % 2) = leNat b := by rw [hyv, hs, Nat.mod_add_div]
    show b = leBytes 32 (P.y.val + 2 ^ 255 * (P.x.val % 2))
    rw [e, ← hl, leBytes_leNat]
  rcases hx with hx | hx
  · rcases sign_lt hl with hs | hs
    · left; apply hsign; rw [hs, hx]; simp
    · exact Or.inr (Or.inr ⟨hx, hs⟩)
  · exact Or.inl (hsign hx)

/-- C180: the identity has other accepted encodings: with the sign set, and with the ordinate `p + 1`. -/
theorem C180_identity_encodings :
    ptFromCompressed (leBytes 32 (1 + 2 ^ 255)) = .ok 0 ∧ ptFromCompressed (leBytes 32 (edp + 1)) = .ok 0 ∧
    leBytes 32 (1 + 2 ^ 255) ≠ ptToCompressed 0 ∧ leBytes 32 (edp + 1) ≠ ptToCompressed 0 := by
  have e0 : ptToCompressed 0 = leBytes 32 1 := by
    show leBytes 32 ((1 : Fp).val + 2 ^ 255 * ((0 : Fp).val % 2)) = _
    rw [ZMod.val_one, ZMod.val_zero, Nat.zero_mod, Nat.mul_zero]
  have l1 : leNat (leBytes 32 (1 + 2 ^ 255)) = 1 + 2 ^ 255 := leNat_leBytes 32 _ (by decide +kernel)
  have l2 : leNat (leBytes 32 (edp + 1)) = edp + 1 := leNat_leBytes 32 _ (by decide +kernel)
  refine ⟨(C180_fromCompressed _ _).2 ⟨leBytes_length _ _, ?_, Or.inl rfl⟩,
    (C180_fromCompressed _ _).2 ⟨leBytes_length _ _, ?_, Or.inl rfl⟩, ?_, ?_⟩
  · rw [l1, show (1 + 2 ^ 255) % 2 ^ 255 = 1 by decide +kernel]; simp
  · rw [l2, show (edp + 1) % 2 ^ 255 = edp + 1 by decide +kernel, Nat.cast_add, ZMod.natCast_self]; simp
  · rw [e0]; decide +kernel
  · rw [e0]; decide +kernel

/-- C180: what `FromAffineUncompressed` accepts: 64 zero bytes as the identity, else two residues modulo the prime, read from
255 bits each, that satisfy the equation. -/
theorem C180_fromUncompressed (b : List UInt8) (P : EdPt) : ptFromUncompressed b = .ok P ↔
    b.length = 64 ∧ ((b = List.replicate 64 0 ∧ P = 0) ∨ (b ≠ List.replicate 64 0 ∧
      P.x = ((leNat (b.take 32) % 2 ^ 255 : ℕ) : Fp) ∧ P.y = ((leNat (b.drop 32) % 2 ^ 255 : ℕ) : Fp))) := by
  unfold ptFromUncompressed
  by_cases hl : b.length = 64
  · rw [Go.guard_true hl, Go.ok_bind]
    simp only [hl, true_and]
    split_ifs with h
    · constructor
      · intro e; cases e; exact Or.inl ⟨h, rfl⟩
      · rintro (⟨-, rfl⟩ | ⟨hn, -⟩)
        · rfl
        · exact absurd h hn
    · rw [libFromXY_eq_ok]
      constructor
      · rintro ⟨hx, hy⟩; exact Or.inr ⟨h, hx, hy⟩
      · rintro (⟨hn, -⟩ | ⟨-, hx, hy⟩)
        · exact absurd hn h
        · exact ⟨hx, hy⟩
  · rw [Go.guard_false hl]
    constructor
    · intro h; cases h
    · intro h; exact absurd h.1 hl

/-- C180: uncompressed encodings are 64 bytes and read back. -/
theorem C180_uncompressed_roundtrip (P : EdPt) :
    (ptToUncompressed P).length = 64 ∧ ptFromUncompressed (ptToUncompressed P) = .ok P := by
  have hx := enc_nat P.x (s := 0) two_pos
  have hy := enc_nat P.y (s := 0) two_pos
  rw [Nat.mul_zero, Nat.add_zero] at hx hy
  have hl : (ptToUncompressed P).length = 64 := by
    show (leBytes 32 P.x.val ++ leBytes 32 P.y.val).length = 64
    rw [List.length_append, hx.1, hy.1]
  refine ⟨hl, (C180_fromUncompressed _ _).2 ⟨hl, Or.inr ⟨?_, ?_, ?_⟩⟩⟩
  · intro h
    have h1 := congrArg (List.take 32) h
    have h2 := congrArg (List.drop 32) h
    rw [ptToUncompressed, List.take_left' (show (feBytes P.x).length = 32 from hx.1)] at h1
    rw [ptToUncompressed, List.drop_left' (show (feBytes P.x).length = 32 from hx.1)] at h2
    have z : ∀ l, l = List.replicate 32 (0 : UInt8) → feSetBytes l = 0 := by rintro _ rfl; decide +kernel
    have hx0 : P.x = 0 := by rw [← hx.2.2.1]; exact z _ h1
    have hy0 : P.y = 0 := by rw [← hy.2.2.1]; exact z _ h2
    have := P.eq
    rw [hx0, hy0] at this
    have h0 : (1 : Fp) = 0 := by linear_combination -this
    exact one_ne_zero h0
  · rw [ptToUncompressed, List.take_left' (show (feBytes P.x).length = 32 from hx.1)]; exact hx.2.2.1.symm
  · rw [ptToUncompressed, List.drop_left' (show (feBytes P.x).length = 32 from hx.1)]; exact hy.2.2.1.symm

/-- C180: no decoder checks the order: every point, also outside the subgroup, is accepted by both. -/
theorem C180_no_subgroup_check (P : EdPt) :
    (∃ b, ptFromCompressed b = .ok P) ∧ ∃ b, ptFromUncompressed b = .ok P :=
  ⟨⟨_, (C180_compressed_roundtrip P).2.1⟩, ⟨_, (C180_uncompressed_roundtrip P).2⟩⟩

theorem feBytes_zero : feBytes 0 = List.replicate 32 0 := by
  rw [feBytes, ZMod.val_zero]; decide +kernel

theorem feBytes_ne {x : Fp} (h : x ≠ 0) : feBytes x ≠ List.replicate 32 0 := by
  intro e
  have hx := enc_nat x (s := 0) two_pos
  rw [Nat.mul_zero, Nat.add_zero] at hx
  have z : ∀ l, l = List.replicate 32 (0 : UInt8) → feSetBytes l = 0 := by rintro _ rfl; decide +kernel
  exact h (by rw [← hx.2.2.1]; exact z _ e)

/-- C180: `Set`.  A coordinate that is zero gives the identity whatever the other is; so do two multiples of the prime;
everything else must satisfy the equation. -/
theorem C180_set (x y : ℤ) (P : EdPt) : ptSet x y = .ok P ↔
    (((x = 0 ∨ y = 0) ∨ ((x : Fp) = 0 ∧ (y : Fp) = 0)) ∧ P = 0) ∨
    (x ≠ 0 ∧ y ≠ 0 ∧ ¬ ((x : Fp) = 0 ∧ (y : Fp) = 0) ∧ P.x = (x : Fp) ∧ P.y = (y : Fp)) := by
  unfold ptSet
  split_ifs with h
  · constructor
    · intro e; cases e; exact Or.inl ⟨Or.inl h, rfl⟩
    · rintro (⟨-, rfl⟩ | ⟨hx, hy, -⟩)
      · rfl
      · exact absurd h (by simp [hx, hy])
  · have hx := enc_nat (x : Fp) (s := 0) two_pos
    have hy := enc_nat (y : Fp) (s := 0) two_pos
    rw [Nat.mul_zero, Nat.add_zero] at hx hy
    have lx : (feBytes (x : Fp)).length = 32 := hx.1
    have ly : (feBytes (y : Fp)).length = 32 := hy.1
    rw [C180_fromUncompressed, List.take_left' lx, List.drop_left' lx]
    have hl : (feBytes (x : Fp) ++ feBytes (y : Fp)).length = 64 := by rw [List.length_append, lx, ly]
    simp only [hl, true_and]
    have hz : feBytes (x : Fp) ++ feBytes (y : Fp) = List.replicate 64 0 ↔ ((x : Fp) = 0 ∧ (y : Fp) = 0) := by
      rw [show List.replicate 64 (0 : UInt8) = List.replicate 32 0 ++ List.replicate 32 0 by decide +kernel]
      constructor
      · intro e
        obtain ⟨e1, e2⟩ := List.append_inj e (by rw [lx]; simp)
        exact ⟨by by_contra hne; exact feBytes_ne hne e1, by by_contra hne; exact feBytes_ne hne e2⟩
      · rintro ⟨e1, e2⟩
        rw [e1, e2, feBytes_zero]
    have ex : ((leNat (feBytes (x : Fp)) % 2 ^ 255 : ℕ) : Fp) = (x : Fp) := hx.2.2.1
    have ey : ((leNat (feBytes (y : Fp)) % 2 ^ 255 : ℕ) : Fp) = (y : Fp) := hy.2.2.1
    rw [hz, ex, ey, Ne, hz]
    push Not at h
    constructor
    · rintro (⟨a, b⟩ | ⟨a, b⟩)
      · exact Or.inl ⟨Or.inr a, b⟩
      · exact Or.inr ⟨h.1, h.2, a, b⟩
    · rintro (⟨a | a, b⟩ | ⟨-, -, a, b⟩)
      · rcases a with a | a
        · exact absurd a h.1
        · exact absurd a h.2
      · exact Or.inl ⟨a, b⟩
      · exact Or.inr ⟨a, b⟩

/-- C180: so `Set` with the coordinates of a valid point gives another one: the point of order two becomes the identity. -/
theorem C180_set_twoTors : ∃ x y : ℤ, twoTors.x = (x : Fp) ∧ twoTors.y = (y : Fp) ∧ ptSet x y = .ok 0 ∧ twoTors ≠ 0 :=
  ⟨0, (edp - 1 : ℕ), by simp [twoTors, mkPt], by simp [twoTors, mkPt], (C180_set _ _ _).2 (Or.inl ⟨Or.inl (Or.inl rfl), rfl⟩),
    twoTors_ne⟩

/-- C180: `sqrtRatio` decides whether `u/v` is a square and returns the even root of `u/v`, or of `sqrtM1·u/v`. -/
theorem C180_sqrtRatio (u v : Fp) (hv : v ≠ 0) :
    (sqrtRatio u v).1.val % 2 = 0 ∧ ((sqrtRatio u v).2 = true ↔ IsSquare (u / v)) ∧
    (IsSquare (u / v) → v * (sqrtRatio u v).1 ^ 2 = u) ∧
    (¬ IsSquare (u / v) → v * (sqrtRatio u v).1 ^ 2 = sqrtM1 * u) := sqrtRatio_spec u v hv

/-- C180: the constant `sqrtM1` is the odd root of `-1`, the negative of the one in the draft the comment cites; the root
returned for a non-square ratio is therefore another one than there. -/
theorem C180_sqrtM1 : sqrtM1 ^ 2 = -1 ∧ sqrtM1 = -iEd ∧ iEd.val % 2 = 0 ∧ sqrtM1.val % 2 = 1 := by
  have hi : iEd.val % 2 = 0 := by
    rw [iEd, ZMod.val_cast_of_lt (by decide +kernel)]; decide +kernel
  refine ⟨sqrtM1_sq, sqrtM1_eq, hi, ?_⟩
  rw [sqrtM1_eq, neg_parity, hi]
  intro h
  have := iEd_sq
  rw [h] at this
  have h0 : (1 : Fp) = 0 := by linear_combination this
  exact one_ne_zero h0

/-- a valid point is read, an ordinate that is not on the curve is refused -/
example : ptFromCompressed (ptToCompressed base) = .ok base ∧ ∀ P, ptFromCompressed (leBytes 32 2) ≠ .ok P := by
  refine ⟨(C180_compressed_roundtrip base).2.1, fun P h => ?_⟩
  obtain ⟨-, hy, -⟩ := (C180_fromCompressed _ P).1 h
  rw [leNat_leBytes 32 _ (by decide +kernel), show 2 % 2 ^ 255 = 2 by decide +kernel] at hy
  have hx := x_sq' P
  rw [hy] at hx
  have hn : ¬ IsSquare ((3 * (dN * 4 + 1) : ℕ) : Fp) := nonsquare_of_pow _ (by decide +kernel)
  refine hn ⟨P.x * (dEd * 4 + 1), ?_⟩
  have hd : dEd * 4 + 1 ≠ 0 := by have := den_ne 2; rwa [show (2 : Fp) ^ 2 = 4 by norm_num] at this
  rw [Nat.cast_two, show (2 : Fp) ^ 2 = 4 by norm_num, eq_div_iff hd] at hx
  push_cast
  rw [show ((dN : ℕ) : Fp) = dEd from rfl]
  linear_combination -(dEd * 4 + 1) * hx

end Verif.Ed25519
