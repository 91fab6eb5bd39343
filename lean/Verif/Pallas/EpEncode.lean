import Verif.Pallas.EpOrder

/-!
# Encodings of Pallas points

* C172 `ToAffineCompressed`, `FromAffineCompressed`, `ToAffineUncompressed`, `FromAffineUncompressed`, `Set`: what they
  accept and return, and where a round trip fails
-/

set_option linter.unusedSectionVars false
set_option exponentiation.threshold 600

namespace Verif.Pallas

open Primes Native WeierstrassCurve.Affine

/-! ## Bytes -/

theorem forall_u8 {Q : UInt8 → Prop} (h : ∀ n : Fin 256, Q (UInt8.ofNat n)) (x : UInt8) : Q x := by
  have := h ⟨x.toNat, x.toNat_lt⟩
  rwa [UInt8.ofNat_toNat] at this

theorem leNat_snoc (a : List UInt8) (c : UInt8) : leNat (a ++ [c]) = leNat a + 256 ^ a.length * c.toNat := by
  induction a with
  | nil => simp [leNat]
  | cons d a ih => rw [List.cons_append, leNat_cons, ih, leNat_cons, List.length_cons, pow_succ]; ring

theorem split32 {l : List UInt8} (h : l.length = 32) : ∃ a c, a.length = 31 ∧ l = a ++ [c] := by
  rcases List.eq_nil_or_concat l with rfl | ⟨a, c, rfl⟩
  · cases h
  · exact ⟨a, c, by simpa using h, by simp⟩

theorem getD_snoc {a : List UInt8} (h : a.length = 31) (c : UInt8) : (a ++ [c]).getD 31 0 = c := by
  simp [List.getD_eq_getElem?_getD, ← h]

theorem set_snoc {a : List UInt8} (h : a.length = 31) (c d : UInt8) : (a ++ [c]).set 31 d = a ++ [d] := by
  rw [List.set_append_right _ _ (by omega)]
  simp [h]

theorem u8_clear (c : UInt8) : (c &&& 0x7F).toNat = c.toNat % 128 :=
  forall_u8 (Q := fun c => (c &&& 0x7F).toNat = c.toNat % 128) (by decide +kernel) c
theorem u8_top (c : UInt8) : ((c >>> 7) &&& 1).toNat = c.toNat / 128 :=
  forall_u8 (Q := fun c => ((c >>> 7) &&& 1).toNat = c.toNat / 128) (by decide +kernel) c
theorem u8_low (c : UInt8) : (c &&& 1).toNat = c.toNat % 2 :=
  forall_u8 (Q := fun c => (c &&& 1).toNat = c.toNat % 2) (by decide +kernel) c
theorem u8_or (c d : UInt8) (hc : c.toNat < 128) : (c ||| (d &&& 1) <<< 7).toNat = c.toNat + 128 * (d.toNat % 2) := by
  have h1 : (c ||| (1 : UInt8) <<< 7).toNat = c.toNat + 128 := by
    revert hc
    exact forall_u8 (Q := fun c => c.toNat < 128 → (c ||| (1 : UInt8) <<< 7).toNat = c.toNat + 128) (by decide +kernel) c
  have h0 : (c ||| (0 : UInt8) <<< 7).toNat = c.toNat := by
    exact forall_u8 (Q := fun c => (c ||| (0 : UInt8) <<< 7).toNat = c.toNat) (by decide +kernel) c
  have hd := u8_low d
  rcases Nat.mod_two_eq_zero_or_one d.toNat with h | h
  · have : d &&& 1 = 0 := by rw [← UInt8.toNat_inj, hd, h]; rfl
    rw [this, h0, h]; rfl
  · have : d &&& 1 = 1 := by rw [← UInt8.toNat_inj, hd, h]; rfl
    rw [this, h1, h]

theorem leBytes_zero_getD (n : ℕ) : ((leBytes 32 n).getD 0 0).toNat % 2 = n % 2 := by
  show (UInt8.ofNat n).toNat % 2 = n % 2
  rw [UInt8.toNat_ofNat']
  omega

theorem val_lt_255 (x : Fp) : x.val < 2 ^ 255 := lt_trans (ZMod.val_lt x) (by decide +kernel)

/-! ## Which numbers are accepted -/

/-- the canonical representatives `SetBytes` rejects (C112) -/
def inGap (n : ℕ) : Prop := 2 ^ 63 ≤ pallasp - n ∧ pallasp - n ≤ 0x992d30ed00000001

instance (n : ℕ) : Decidable (inGap n) := by unfold inGap; infer_instance

/-- the numbers below `2^256` that `SetBytes` accepts (C112): only the first alternative is intended -/
def Accepts (n : ℕ) : Prop :=
  (n < pallasp ∧ ¬ inGap n) ∨ 2 ^ 63 + 2 ^ 62 < n / 2 ^ 192 ∨ (n / 2 ^ 192 = 2 ^ 62 ∧ 2 ^ 63 < n / 2 ^ 128 % 2 ^ 64) ∨
    (n / 2 ^ 128 = 2 ^ 126 ∧ 0x224698fc094cf91b + 2 ^ 63 < n / 2 ^ 64 % 2 ^ 64)

instance (n : ℕ) : Decidable (Accepts n) := by unfold Accepts; infer_instance

theorem fpSetBytes_eq {l : List UInt8} (hl : l.length = 32) :
    fpSetBytes l = if Accepts (leNat l) then .ok ((leNat l : ℕ) : Fp) else .error .error := by
  have h := C112_setBytes_iff pastaFp_shape l hl
  rw [fp_modulus] at h
  have hm0 : pastaFp.modulus.l0.toNat = 0x992d30ed00000001 := by decide
  have hm1 : pastaFp.modulus.l1.toNat = 0x224698fc094cf91b := by decide
  rw [hm0, hm1] at h
  have hv := fromBytes_val pastaFp_shape hl
  have he := pastaSetBytes_eq (P := pastaFp) l
  have hacc : (∃ v, pastaSetBytes pastaFp l = .ok v) ↔ Accepts (leNat l) := h
  unfold fpSetBytes
  by_cases hc : pastaCmp (fromBytes l) pastaFp.modulus = -1
  · rw [if_pos hc, toMont_val pastaFp_shape.ok, hv] at he
    rw [he, if_pos (hacc.1 ⟨_, he⟩)]
    show Except.ok _ = _
    rw [unMont_encode fp_ok (p := pallasp) (by decide) fp_modulus]
  · rw [if_neg hc] at he
    rw [he, if_neg (fun ha => by obtain ⟨v, hv⟩ := hacc.2 ha; rw [he] at hv; cases hv)]
    rfl

theorem accepts_of_lt {n : ℕ} (h : n < pallasp) : Accepts n ↔ ¬ inGap n := by
  constructor
  · intro ha hg
    obtain ⟨h1, h2⟩ := hg
    have hq : n / 2 ^ 64 = 0x40000000000000000000000000000000224698fc094cf91b := by
      refine Nat.div_eq_of_lt_le ?_ ?_
      · have : 0x40000000000000000000000000000000224698fc094cf91b * 2 ^ 64 + 0x992d30ed00000001 = pallasp := by decide +kernel
        omega
      · have : pallasp < (0x40000000000000000000000000000000224698fc094cf91b + 1) * 2 ^ 64 := by decide +kernel
        exact lt_trans h this
    have hq2 : n / 2 ^ 128 = 2 ^ 126 := by
      rw [show (2 : ℕ) ^ 128 = 2 ^ 64 * 2 ^ 64 by norm_num, ← Nat.div_div_eq_div_mul, hq]; decide +kernel
    have hq3 : n / 2 ^ 192 = 2 ^ 62 := by
      rw [show (2 : ℕ) ^ 192 = 2 ^ 64 * 2 ^ 128 by norm_num, ← Nat.div_div_eq_div_mul, hq]; decide +kernel
    unfold Accepts at ha
    rw [hq, hq2, hq3] at ha
    rcases ha with ha | ha | ha | ha
    · exact ha.2 ⟨h1, h2⟩
    · revert ha; decide +kernel
    · revert ha; decide +kernel
    · revert ha; decide +kernel
  · exact fun hg => Or.inl ⟨h, hg⟩

/-! ## Compressed -/

/-- the number a compressed encoding is to stand for -/
def compressedNat : Group → ℕ
  | .zero => 0
  | .some x y _ => x.val + 2 ^ 255 * (y.val % 2)

/-- C172: the compressed encoding of a finite point is the 32 little-endian bytes of `x + 2^255·(y mod 2)`; that of the
identity is the bytes of zero. -/
theorem C172_compress {p : Ep} {P : Group} (hp : JRep p P) : (epToCompressed p).length = 32 ∧
    leNat (epToCompressed p) = compressedNat P := by
  have key : ∀ x y : Fp, epToAffine p = ⟨x, y, 1⟩ → (epToCompressed p).length = 32 ∧
      leNat (epToCompressed p) = x.val + 2 ^ 255 * (y.val % 2) := by
    intro x y e
    have hlen : (fpBytes x).length = 32 := by rw [fpBytes_eq, leBytes_length]
    obtain ⟨a, c, ha, hac⟩ := split32 hlen
    have hid : epIsIdentity (⟨x, y, 1⟩ : Ep) = false := by simp [epIsIdentity]
    have hval := leNat_fpBytes x
    rw [hac, leNat_snoc, ha] at hval
    have hc : c.toNat < 128 := by
      have := val_lt_255 x
      rw [← hval] at this
      by_contra hge
      have : 256 ^ 31 * 128 ≤ 256 ^ 31 * c.toNat := Nat.mul_le_mul_left _ (by omega)
      have h2 : (256 ^ 31 * 128 : ℕ) = 2 ^ 255 := by norm_num
      omega
    unfold epToCompressed
    rw [e]
    simp only [hid, Bool.false_eq_true, if_false]
    rw [hac, getD_snoc ha, set_snoc ha]
    refine ⟨by simp [ha], ?_⟩
    rw [leNat_snoc, ha, u8_or _ _ hc, ← hval, fpBytes_eq, leBytes_zero_getD, Nat.mul_add, ← mul_assoc,
      show (256 ^ 31 * 128 : ℕ) = 2 ^ 255 by norm_num, ← add_assoc]
  rcases P with _ | ⟨x, y, h⟩
  · obtain ⟨h1, h2⟩ := key 0 0 (epToAffine_zero hp)
    refine ⟨h1, h2.trans ?_⟩
    rw [ZMod.val_zero]
    rfl
  · exact key x y (epToAffine_some hp)

theorem split_arith {m a c : ℕ} (ha : a < m) :
    a + m * (c % 128) = (a + m * c) % (m * 128) ∧ (a + m * c) / (m * 128) = c / 128 := by
  have hm : 0 < m := by omega
  constructor
  · rw [Nat.mod_mul, Nat.add_mul_mod_self_left, Nat.mod_eq_of_lt ha, Nat.add_mul_div_left _ _ hm, Nat.div_eq_of_lt ha, zero_add]
  · rw [← Nat.div_div_eq_div_mul, Nat.add_mul_div_left _ _ hm, Nat.div_eq_of_lt ha, zero_add]

theorem top_bit {a : List UInt8} (ha : a.length = 31) (c : UInt8) :
    leNat (a ++ [c &&& 0x7F]) = leNat (a ++ [c]) % 2 ^ 255 ∧ leNat (a ++ [c]) / 2 ^ 255 = c.toNat / 128 := by
  have hlow : leNat a < 256 ^ 31 := ha ▸ leNat_lt a
  have e : (2 : ℕ) ^ 255 = 256 ^ 31 * 128 := by norm_num
  rw [leNat_snoc, leNat_snoc, ha, u8_clear, e]
  exact split_arith hlow

/-- the point `FromAffineCompressed` returns: abscissa `n mod 2^255`, ordinate with the parity of the top bit -/
theorem fromCompressed_eq {l : List UInt8} (hl : l.length = 32) : ∃ r : Fp,
    (r ^ 2 = rhsPallas ((leNat l % 2 ^ 255 : ℕ) : Fp) ↔ IsSquare (rhsPallas ((leNat l % 2 ^ 255 : ℕ) : Fp))) ∧
    epFromCompressed l =
      if Accepts (leNat l % 2 ^ 255) ∧ r ^ 2 = rhsPallas ((leNat l % 2 ^ 255 : ℕ) : Fp) then
        .ok ⟨((leNat l % 2 ^ 255 : ℕ) : Fp), if r.val % 2 = leNat l / 2 ^ 255 then r else -r, 1⟩
      else .error .error := by
  obtain ⟨a, c, ha, rfl⟩ := split32 hl
  obtain ⟨hmod, hdiv⟩ := top_bit ha c
  have hset := fpSetBytes_eq (l := a ++ [c &&& 0x7F]) (by simp [ha])
  rw [hmod] at hset
  obtain ⟨r, hr, hsq⟩ := fpSqrt_spec (rhsPallas ((leNat (a ++ [c]) % 2 ^ 255 : ℕ) : Fp))
  refine ⟨r, hsq, ?_⟩
  unfold epFromCompressed
  rw [Go.guard_true (by simp [ha]), Go.ok_bind, getD_snoc ha, set_snoc ha]
  simp only []
  rw [hset]
  have hbit : ((fpBytes r).getD 0 0 &&& (1 : UInt8) = (c >>> 7) &&& (1 : UInt8)) ↔ r.val % 2 = leNat (a ++ [c]) / 2 ^ 255 := by
    rw [hdiv, ← UInt8.toNat_inj, u8_low, u8_top, fpBytes_eq, leBytes_zero_getD]
  by_cases hA : Accepts (leNat (a ++ [c]) % 2 ^ 255)
  · rw [if_pos hA, Go.ok_bind]
    simp only [hr, hA, true_and, decide_eq_true_eq, ne_eq, hbit]
    generalize hx : ((leNat (a ++ [c]) % 2 ^ 255 : ℕ) : Fp) = x
    by_cases hq : r ^ 2 = rhsPallas x
    · have hyy : (if r.val % 2 = leNat (a ++ [c]) / 2 ^ 255 then r else -r) ^ 2 = rhsPallas x := by
        split_ifs
        · exact hq
        · rw [neg_sq]; exact hq
      simp only [ite_not]
      generalize (if r.val % 2 = leNat (a ++ [c]) / 2 ^ 255 then r else -r) = y at hyy ⊢
      rw [if_pos hq, Go.guard_true hq, Go.ok_bind, Go.guard_true]
      · rfl
      · simp only [epIsOnCurve, one_ne_zero, decide_false, Bool.false_or, decide_eq_true_eq]
        unfold rhsPallas b at hyy
        linear_combination hyy
    · rw [if_neg hq, Go.guard_false hq]
      rfl
  · rw [if_neg hA]
    simp only [hA, false_and, if_false]
    rfl

theorem rhs_eq (x : Fp) : rhsPallas x = x ^ 3 + 5 := by unfold rhsPallas b; ring

theorem ne_zero_of_sq {x y : Fp} (h : y ^ 2 = x ^ 3 + 5) : y ≠ 0 := by
  rintro rfl
  exact no_root x (by linear_combination -h)

theorem parity_neg {y : Fp} (h : y ≠ 0) : (-y).val % 2 = 1 - y.val % 2 := by
  have h2 := lowBitOf_neg (p := pallasp) (by decide +kernel) h
  rw [lowBitOf, lowBitOf, Bool.eq_iff_iff, decide_eq_true_eq, Bool.not_eq_true', decide_eq_false_iff_not] at h2
  omega

theorem not_square_five : ¬ IsSquare (5 : Fp) := by
  have := not_isSquare_of_powMod (p := pallasp) (fuel := 256) (a := 5) (by decide +kernel) (by decide +kernel) (by decide +kernel)
  exact_mod_cast this

/-- C172: `FromAffineCompressed` succeeds exactly on the 32 bytes of some `x + 2^255·s` with `x` acceptable and `x³ + 5`
a square, and returns the point with that abscissa whose ordinate has parity `s`. -/
theorem C172_decompress (l : List UInt8) (p : Ep) : epFromCompressed l = .ok p ↔
    l.length = 32 ∧ Accepts (leNat l % 2 ^ 255) ∧ p.x = ((leNat l % 2 ^ 255 : ℕ) : Fp) ∧ p.z = 1 ∧
      p.y ^ 2 = p.x ^ 3 + 5 ∧ p.y.val % 2 = leNat l / 2 ^ 255 := by
  by_cases hl : l.length = 32
  swap
  · unfold epFromCompressed
    rw [Go.guard_false hl]
    exact ⟨fun h => (by cases h), fun h => absurd h.1 hl⟩
  obtain ⟨r, hsq, he⟩ := fromCompressed_eq hl
  rw [he]
  have hbit : leNat l / 2 ^ 255 < 2 := by
    rw [Nat.div_lt_iff_lt_mul (by positivity)]
    have := leNat_lt l
    rw [hl] at this
    calc leNat l < 256 ^ 32 := this
      _ = 2 * 2 ^ 255 := by norm_num
  generalize leNat l / 2 ^ 255 = s at hbit ⊢
  generalize leNat l % 2 ^ 255 = n at *
  rw [rhs_eq] at *
  constructor
  · intro h
    split_ifs at h with hc hp
    · cases h
      exact ⟨hl, hc.1, rfl, rfl, hc.2, hp⟩
    · cases h
      refine ⟨hl, hc.1, rfl, rfl, by rw [neg_sq]; exact hc.2, ?_⟩
      show (-r).val % 2 = s
      rw [parity_neg (ne_zero_of_sq hc.2)]
      omega
  · rintro ⟨-, hA, hx, hz, hy, hs⟩
    obtain ⟨x, y, z⟩ := p
    simp only at hx hz hy hs
    subst hx hz
    have hr : r ^ 2 = (n : Fp) ^ 3 + 5 := hsq.2 ⟨y, by rw [← hy, sq]⟩
    rw [if_pos ⟨hA, hr⟩]
    rcases sq_eq_sq_iff_eq_or_eq_neg.1 (hy.trans hr.symm) with rfl | rfl
    · rw [if_pos hs]
    · rw [if_neg, ]
      intro h
      rw [parity_neg (ne_zero_of_sq hr)] at hs
      omega

theorem epFromCompressed_error {l : List UInt8} (h : ∀ p, epFromCompressed l ≠ .ok p) : epFromCompressed l = .error .error := by
  by_cases hl : l.length = 32
  · obtain ⟨r, -, he⟩ := fromCompressed_eq hl
    rw [he] at h ⊢
    split_ifs with hc
    · exact absurd (if_pos hc) (h _)
    · rfl
  · unfold epFromCompressed
    rw [Go.guard_false hl]
    rfl

/-- C172: what either decoder returns is a point other than the identity. -/
theorem C172_decompress_point {l : List UInt8} {p : Ep} (h : epFromCompressed l = .ok p) : ∃ P : Group, P ≠ 0 ∧ JRep p P := by
  obtain ⟨-, -, -, hz, hy, -⟩ := (C172_decompress l p).1 h
  have hon : epIsOnCurve p = true := by
    simp only [epIsOnCurve, hz, one_ne_zero, decide_false, Bool.false_or, decide_eq_true_eq]
    linear_combination hy
  obtain ⟨P, hP⟩ := (C171_isOnCurve p).1 hon
  refine ⟨P, ?_, hP⟩
  rintro rfl
  exact one_ne_zero (hz.symm.trans hP)

theorem compressedNat_split {x y : Fp} (h : (curve (0 : Fp) 5).Nonsingular x y) :
    compressedNat (.some x y h) % 2 ^ 255 = x.val ∧ compressedNat (.some x y h) / 2 ^ 255 = y.val % 2 := by
  have hx := val_lt_255 x
  unfold compressedNat
  constructor
  · rw [Nat.add_mul_mod_self_left, Nat.mod_eq_of_lt hx]
  · rw [Nat.add_mul_div_left _ _ (by positivity), Nat.div_eq_of_lt hx, zero_add]

/-- C172: a point other than the identity is read back from its compressed encoding exactly when its abscissa is not one
of the canonical residues `SetBytes` rejects. -/
theorem C172_compress_roundtrip {p : Ep} {x y : Fp} {h : (curve (0 : Fp) 5).Nonsingular x y} (hp : JRep p (.some x y h)) :
    epFromCompressed (epToCompressed p) = if inGap x.val then .error .error else .ok ⟨x, y, 1⟩ := by
  obtain ⟨hl, hn⟩ := C172_compress hp
  obtain ⟨h1, h2⟩ := compressedNat_split h
  rw [← hn] at h1 h2
  have hA := accepts_of_lt (ZMod.val_lt x)
  split_ifs with hg
  · refine epFromCompressed_error fun q hq => ?_
    have := ((C172_decompress _ _).1 hq).2.1
    rw [h1, hA] at this
    exact this hg
  · rw [C172_decompress, h1, h2]
    refine ⟨hl, hA.2 hg, (ZMod.natCast_zmod_val x).symm, rfl, ?_, rfl⟩
    have := equation_curve.1 h.1
    linear_combination this

/-- C172: the encoding of the identity is rejected, since `5` is not a square. -/
theorem C172_compress_identity {p : Ep} (hp : JRep p 0) : epToCompressed p = List.replicate 32 0 ∧
    epFromCompressed (epToCompressed p) = .error .error := by
  obtain ⟨hl, hn⟩ := C172_compress hp
  have hn : leNat (epToCompressed p) = 0 := hn
  have hrep : epToCompressed p = List.replicate 32 0 := by
    have := leBytes_leNat (epToCompressed p)
    rw [hn, hl] at this
    rw [← this]
    decide
  refine ⟨hrep, epFromCompressed_error fun q hq => ?_⟩
  obtain ⟨-, -, hx, -, hy, -⟩ := (C172_decompress _ _).1 hq
  rw [hn] at hx
  simp only [Nat.zero_mod, Nat.cast_zero] at hx
  rw [hx] at hy
  exact not_square_five ⟨q.y, by linear_combination -hy⟩

/-- Two different encodings of one point: the second is the abscissa plus the modulus, which `SetBytes` accepts. -/
theorem C172_malleable : ∃ (l₁ l₂ : List UInt8) (p : Ep), l₁ ≠ l₂ ∧ epFromCompressed l₁ = .ok p ∧ epFromCompressed l₂ = .ok p ∧
    epToCompressed p = l₁ := by
  let x : ℕ := 0xc00000000000000000000000000000000000000000000001
  let y : ℕ := 0x13919a61f0b41c268657fe9810796329a16846d8c556295457613ce4a3aa842c
  have heq : ((y : ℕ) : Fp) ^ 2 = ((x : ℕ) : Fp) ^ 3 + 5 := by
    have : ((y ^ 2 : ℕ) : Fp) = ((x ^ 3 + 5 : ℕ) : Fp) := natCast_eq_of_mod (by decide +kernel)
    push_cast at this
    exact this
  have hyv : ((y : ℕ) : Fp).val = y := ZMod.val_cast_of_lt (by decide +kernel)
  have hxv : ((x : ℕ) : Fp).val = x := ZMod.val_cast_of_lt (by decide +kernel)
  have h1 : leNat (leBytes 32 x) = x := leNat_leBytes _ _ (by decide +kernel)
  have h2 : leNat (leBytes 32 (x + pallasp)) = x + pallasp := leNat_leBytes _ _ (by decide +kernel)
  have d1 : epFromCompressed (leBytes 32 x) = .ok ⟨(x : ℕ), (y : ℕ), 1⟩ := by
    rw [C172_decompress, h1]
    exact ⟨leBytes_length _ _, by decide +kernel, rfl, rfl, heq, by rw [hyv]; decide +kernel⟩
  have d2 : epFromCompressed (leBytes 32 (x + pallasp)) = .ok ⟨(x : ℕ), (y : ℕ), 1⟩ := by
    rw [C172_decompress, h2]
    refine ⟨leBytes_length _ _, by decide +kernel, ?_, rfl, heq, by rw [hyv]; decide +kernel⟩
    exact natCast_eq_of_mod (by decide +kernel)
  refine ⟨_, _, _, ?_, d1, d2, ?_⟩
  · intro h
    have := congrArg leNat h
    rw [h1, h2] at this
    revert this
    decide +kernel
  · obtain ⟨P, hP0, hP⟩ := C172_decompress_point d1
    rcases P with _ | ⟨a, c, h⟩
    · exact absurd rfl hP0
    obtain ⟨hz, hx, hy⟩ := hP
    simp only [one_pow, mul_one] at hx hy
    subst hx hy
    obtain ⟨hl, hn⟩ := C172_compress (p := ⟨((x : ℕ) : Fp), ((y : ℕ) : Fp), 1⟩) (P := .some _ _ h) ⟨one_ne_zero, by simp, by simp⟩
    have := leBytes_leNat (epToCompressed ⟨((x : ℕ) : Fp), ((y : ℕ) : Fp), 1⟩)
    rw [hl, hn] at this
    rw [← this]
    unfold compressedNat
    simp only [hyv, hxv]
    rw [show y % 2 = 0 by decide +kernel, mul_zero, add_zero]

/-- A point whose compressed encoding is rejected. -/
theorem C172_lost : ∃ (p : Ep) (P : Group), JRep p P ∧ P ≠ 0 ∧ epFromCompressed (epToCompressed p) = .error .error := by
  let x : ℕ := pallasp - 2 ^ 63 - 5
  let y : ℕ := 0x819da45e2275997d0265d5d6cd4d83bdb02937add291a0cbadb97b5494c23cf
  have heq : ((y : ℕ) : Fp) ^ 2 = ((x : ℕ) : Fp) ^ 3 + 5 := by
    have : ((y ^ 2 : ℕ) : Fp) = ((x ^ 3 + 5 : ℕ) : Fp) := natCast_eq_of_mod (by decide +kernel)
    push_cast at this
    exact this
  have hon : epIsOnCurve ⟨((x : ℕ) : Fp), ((y : ℕ) : Fp), 1⟩ = true := by
    simp only [epIsOnCurve, one_ne_zero, decide_false, Bool.false_or, decide_eq_true_eq]
    linear_combination heq
  obtain ⟨P, hP⟩ := (C171_isOnCurve _).1 hon
  refine ⟨_, P, hP, ?_, ?_⟩
  · rintro rfl
    exact one_ne_zero hP
  · rcases P with _ | ⟨a, c, h⟩
    · exact absurd hP one_ne_zero
    rw [C172_compress_roundtrip hP, if_pos]
    obtain ⟨hz, hx, hy⟩ := hP
    simp only [one_pow, mul_one] at hx
    rw [← hx, ZMod.val_cast_of_lt (by decide +kernel)]
    decide +kernel

/-! ## Uncompressed -/

/-- C172: the uncompressed encoding is the little-endian bytes of `x` and of `y`, both zero for the identity. -/
theorem C172_uncompress {p : Ep} {P : Group} (hp : JRep p P) : epToUncompressed p = match P with
    | .zero => List.replicate 64 0
    | .some x y _ => leBytes 32 x.val ++ leBytes 32 y.val := by
  unfold epToUncompressed
  rcases P with _ | ⟨x, y, h⟩
  · rw [epToAffine_zero hp]
    simp only [fpBytes_eq, ZMod.val_zero]
    decide
  · rw [epToAffine_some hp]
    simp only [fpBytes_eq]

/-- C172: `FromAffineUncompressed` succeeds exactly on 64 bytes of two acceptable numbers that satisfy the equation. -/
theorem C172_decode (l : List UInt8) (p : Ep) : epFromUncompressed l = .ok p ↔
    l.length = 64 ∧ Accepts (leNat (l.take 32)) ∧ Accepts (leNat (l.drop 32)) ∧ p.x = ((leNat (l.take 32) : ℕ) : Fp) ∧
      p.y = ((leNat (l.drop 32) : ℕ) : Fp) ∧ p.z = 1 ∧ p.y ^ 2 = p.x ^ 3 + 5 := by
  unfold epFromUncompressed
  by_cases hl : l.length = 64
  swap
  · rw [Go.guard_false hl]
    exact ⟨fun h => (by cases h), fun h => absurd h.1 hl⟩
  rw [Go.guard_true hl, Go.ok_bind, fpSetBytes_eq (by simp [hl]), fpSetBytes_eq (by simp [hl])]
  by_cases hA : Accepts (leNat (l.take 32))
  swap
  · rw [if_neg hA]
    exact ⟨fun h => (by cases h), fun h => absurd h.2.1 hA⟩
  by_cases hB : Accepts (leNat (l.drop 32))
  swap
  · rw [if_neg hB, if_pos hA]
    exact ⟨fun h => (by cases h), fun h => absurd h.2.2.1 hB⟩
  rw [if_pos hA, if_pos hB, Go.ok_bind, Go.ok_bind]
  simp only [hl, hA, hB, true_and, Go.guard_bind_eq_ok, epIsOnCurve, one_ne_zero, decide_false, Bool.false_or, decide_eq_true_eq,
    Except.ok.injEq]
  generalize ((leNat (l.take 32) : ℕ) : Fp) = x
  generalize ((leNat (l.drop 32) : ℕ) : Fp) = y
  obtain ⟨px, py, pz⟩ := p
  constructor
  · rintro ⟨h, h2⟩
    cases h2
    refine ⟨rfl, rfl, rfl, ?_⟩
    linear_combination h
  · rintro ⟨rfl, rfl, rfl, h⟩
    refine ⟨?_, rfl⟩
    linear_combination h

theorem epFromUncompressed_error {l : List UInt8} (h : ∀ p, epFromUncompressed l ≠ .ok p) :
    epFromUncompressed l = .error .error := by
  revert h
  unfold epFromUncompressed
  by_cases hl : l.length = 64
  swap
  · rw [Go.guard_false hl]
    exact fun _ => rfl
  rw [Go.guard_true hl, Go.ok_bind, fpSetBytes_eq (by simp [hl]), fpSetBytes_eq (by simp [hl])]
  split_ifs
  · simp only [Go.ok_bind]
    by_cases hc : epIsOnCurve ⟨((leNat (l.take 32) : ℕ) : Fp), ((leNat (l.drop 32) : ℕ) : Fp), 1⟩ = true
    · rw [Go.guard_true hc]
      exact fun h => absurd rfl (h _)
    · rw [Go.guard_false hc]
      exact fun _ => rfl
  all_goals exact fun _ => rfl

/-- C172: the uncompressed round trip fails for the identity and where either coordinate is one `SetBytes` rejects. -/
theorem C172_uncompress_roundtrip {p : Ep} {P : Group} (hp : JRep p P) :
    epFromUncompressed (epToUncompressed p) = match P with
      | .zero => .error .error
      | .some x y _ => if inGap x.val ∨ inGap y.val then .error .error else .ok ⟨x, y, 1⟩ := by
  rw [C172_uncompress hp]
  rcases P with _ | ⟨x, y, h⟩
  · refine epFromUncompressed_error fun q hq => ?_
    obtain ⟨-, -, -, hx, hy, -, he⟩ := (C172_decode _ _).1 hq
    have h1 : leNat ((List.replicate 64 (0 : UInt8)).take 32) = 0 := by decide
    have h2 : leNat ((List.replicate 64 (0 : UInt8)).drop 32) = 0 := by decide
    rw [h1, Nat.cast_zero] at hx
    rw [h2, Nat.cast_zero] at hy
    rw [hx, hy] at he
    exact five_ne (by linear_combination -he)
  · have h1 : (leBytes 32 x.val ++ leBytes 32 y.val).take 32 = leBytes 32 x.val := List.take_left' (leBytes_length _ _)
    have h2 : (leBytes 32 x.val ++ leBytes 32 y.val).drop 32 = leBytes 32 y.val := List.drop_left' (leBytes_length _ _)
    have e : ∀ a : Fp, leNat (leBytes 32 a.val) = a.val := fun a =>
      leNat_leBytes _ _ (lt_of_lt_of_le (val_lt_255 a) (by decide +kernel))
    show _ = if _ then _ else _
    split_ifs with hg
    · refine epFromUncompressed_error fun q hq => ?_
      obtain ⟨-, ha, hb, -⟩ := (C172_decode _ _).1 hq
      rw [h1, e, accepts_of_lt (ZMod.val_lt x)] at ha
      rw [h2, e, accepts_of_lt (ZMod.val_lt y)] at hb
      exact hg.elim ha hb
    · rw [C172_decode, h1, h2, e, e, accepts_of_lt (ZMod.val_lt x), accepts_of_lt (ZMod.val_lt y)]
      refine ⟨by simp [leBytes_length], fun h => hg (Or.inl h), fun h => hg (Or.inr h), (ZMod.natCast_zmod_val x).symm, (ZMod.natCast_zmod_val y).symm, rfl, ?_⟩
      have := equation_curve.1 h.1
      linear_combination this

/-! ## `Set` and `SetBigInt` -/

theorem fpSetBigInt_eq (z : ℤ) : fpSetBigInt z = if inGap (z : Fp).val then 0 else (z : Fp) := by
  have h := C112_setBigInt pastaFp_shape ⟨0, 0, 0, 0⟩ z
  have hm0 : pastaFp.modulus.l0.toNat = 0x992d30ed00000001 := by decide
  have hv : (((z : Fp).val : ℕ) : ℤ) = z % (pallasp : ℕ) := ZMod.val_intCast z
  have hlt := ZMod.val_lt (z : Fp)
  have hg : ((2 : ℤ) ^ 63 ≤ (pastaFp.modulus.val : ℤ) - z % pastaFp.modulus.val ∧
      (pastaFp.modulus.val : ℤ) - z % pastaFp.modulus.val ≤ pastaFp.modulus.l0.toNat) ↔ inGap (z : Fp).val := by
    rw [fp_modulus, hm0, ← hv]
    unfold inGap
    rw [← Nat.cast_sub hlt.le]
    norm_cast
  unfold fpSetBigInt
  rw [h]
  by_cases hc : inGap (z : Fp).val
  · rw [if_pos (hg.2 hc), if_pos hc]
    simp [unMont, Limbs.val]
  · rw [if_neg (fun h => hc (hg.1 h)), if_neg hc, unMont_fp]
    obtain ⟨e, h1, -⟩ := transfer (P := pastaFp) (p := pallasp) fp_modulus
    rw [h1, map_intCast]

/-- C172: `Set` for a nonzero second integer: the point if both integers are read as they are and satisfy the equation. -/
theorem C172_set (x y : ℤ) (hy : y ≠ 0) (hgx : ¬ inGap (x : Fp).val) (hgy : ¬ inGap (y : Fp).val) :
    pointSet x y = if (y : Fp) ^ 2 = (x : Fp) ^ 3 + 5 then .ok ⟨x, y, 1⟩ else .error .error := by
  unfold pointSet
  simp only [if_neg hy, fpSetBigInt_eq, if_neg hgx, if_neg hgy]
  have hiff : epIsOnCurve ⟨(x : Fp), (y : Fp), 1⟩ = true ↔ (y : Fp) ^ 2 = (x : Fp) ^ 3 + 5 := by
    simp only [epIsOnCurve, one_ne_zero, decide_false, Bool.false_or, decide_eq_true_eq]
    constructor <;> intro h <;> linear_combination h
  split_ifs with h
  · rw [Go.guard_true (hiff.2 h)]; rfl
  · rw [Go.guard_false (fun hh => h (hiff.1 hh))]; rfl

/-- C172: `Set(0, 0)` is the identity. -/
theorem C172_set_identity : ∃ p, pointSet 0 0 = .ok p ∧ JRep p 0 := ⟨epIdentity, by simp [pointSet], rfl⟩

/-- C172: `Set(x, 0)` with `x ≠ 0` returns a point with another ordinate: `(x, 0)` is never on the curve, and what is
returned is the decompression of `x`. -/
theorem C172_set_zero {x : ℤ} (hx : x ≠ 0) {p : Ep} (h : pointSet x 0 = .ok p) : p.z = 1 ∧ p.y ≠ 0 ∧ p.y.val % 2 = 0 := by
  unfold pointSet at h
  simp only [if_true, if_neg hx] at h
  obtain ⟨hl, -, hpx, hz, hy, hs⟩ := (C172_decompress _ _).1 h
  refine ⟨hz, ne_zero_of_sq hy, hs.trans ?_⟩
  rw [fpBytes_eq, leNat_leBytes _ _ (lt_of_lt_of_le (val_lt_255 _) (by decide +kernel)), Nat.div_eq_of_lt (val_lt_255 _)]

theorem C172_set_one : pointSet 1 0 =
    .ok ⟨1, ((0x248b4a5cf5ed6c83ac20560f9c8711ab92e13d27d60fb1aa7f5db6c93512d546 : ℕ) : Fp), 1⟩ := by
  unfold pointSet
  have hv : ((1 : ℤ) : Fp).val = 1 := by
    rw [Int.cast_one]; exact ZMod.val_one _
  simp only [if_true, one_ne_zero, if_false, fpSetBigInt_eq, hv]
  rw [if_neg (by decide +kernel), C172_decompress, fpBytes_eq, hv, leNat_leBytes _ _ (by decide +kernel)]
  refine ⟨leBytes_length _ _, by decide +kernel, ?_, rfl, ?_, ?_⟩
  · rw [Nat.mod_eq_of_lt (by norm_num), Nat.cast_one]
  · have : ∀ y : ℕ, y ^ 2 % pallasp = 6 % pallasp → (y : Fp) ^ 2 = 1 ^ 3 + 5 := by
      intro y hy
      have := natCast_eq_of_mod (p := pallasp) hy
      push_cast at this
      rw [this]; norm_num
    exact this _ (by decide +kernel)
  · rw [ZMod.val_cast_of_lt (by decide +kernel)]
    decide +kernel

/-- C172: `IsOdd` of a scalar looks at the Montgomery limbs: it calls two odd. -/
theorem C172_isOdd_two : scalarIsOdd 2 = true := by decide +kernel

end Verif.Pallas
