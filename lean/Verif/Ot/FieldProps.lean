import Verif.Ot.Irreducible
import Mathlib.Data.Nat.Bitwise

/-!
# Properties of the binary field and of the bit-matrix transposition (C33, C34)

Specification vocabulary: a packed vector stands for the polynomial over `F_2` whose coefficients are
its bits, little-endian (`toPoly`); the field is `F_2[X]` modulo `X^256 + X^10 + X^5 + X^2 + 1`.
-/

set_option linter.unusedSectionVars false

namespace Verif.Ot

open Finset Polynomial

/-! ## Specification -/

/-- polynomial of a 32-byte vector -/
noncomputable def toPoly (v : Digest) : (ZMod 2)[X] :=
  ∑ i ∈ range 256, if bitAt v i then X ^ i else 0

/-- the vector of the field element one -/
def oneBytes : Digest := Vector.ofFn fun i => if i.val = 0 then 1 else 0

/-! ## Auxiliary facts -/

theorem value_X (v : Digest) : value (X : (ZMod 2)[X]) v = toPoly v := by
  unfold value toPoly
  refine sum_congr rfl fun i _ => ?_
  cases bitAt v i <;> simp [bv]

theorem toPoly_coeff (v : Digest) (i : ℕ) (hi : i < 256) :
    (toPoly v).coeff i = if bitAt v i then 1 else 0 := by
  unfold toPoly
  rw [finsetSum_coeff, sum_eq_single i]
  · split <;> simp
  · intro j _ hj
    split
    · rw [coeff_X_pow, if_neg (Ne.symm hj)]
    · simp
  · intro h; exact absurd (mem_range.2 hi) h

theorem toPoly_degree (v : Digest) : (toPoly v).degree < modulus.degree := by
  rw [degree_eq_natDegree modulus_monic.ne_zero, modulus_natDegree]
  unfold toPoly
  refine (degree_sum_le _ _).trans_lt ?_
  rw [Finset.sup_lt_iff (by exact WithBot.bot_lt_coe 256)]
  intro i hi
  rw [mem_range] at hi
  split
  · rw [degree_X_pow]; exact_mod_cast hi
  · rw [degree_zero]; exact WithBot.bot_lt_coe 256

theorem byte_ext {a b : UInt8} (h : ∀ p < 8, a.toNat.testBit p = b.toNat.testBit p) : a = b := by
  rw [← UInt8.toNat_inj]
  refine Nat.eq_of_testBit_eq fun p => ?_
  by_cases hp : p < 8
  · exact h p hp
  · have ha := a.toNat_lt
    have hb := b.toNat_lt
    have : 2 ^ 8 ≤ 2 ^ p := Nat.pow_le_pow_right (by norm_num) (by omega)
    rw [Nat.testBit_lt_two_pow (by omega), Nat.testBit_lt_two_pow (by omega)]

theorem vec_getD {n : ℕ} (v : Vector UInt8 n) (i : ℕ) (hi : i < n) : v.toList.getD i 0 = v[i] := by
  rw [List.getD_eq_getElem?_getD, Vector.getElem?_toList, Vector.getElem?_eq_getElem hi]
  rfl

/-- vectors are determined by their bits -/
theorem vec_ext {n : ℕ} {v w : Vector UInt8 n} (h : ∀ i < 8 * n, bitAt v i = bitAt w i) : v = w := by
  refine Vector.ext fun i hi => byte_ext fun p hp => ?_
  have := h (8 * i + p) (by omega)
  unfold bitAt at this
  rw [show (8 * i + p) / 8 = i by omega, show (8 * i + p) % 8 = p by omega, vec_getD _ _ hi,
    vec_getD _ _ hi] at this
  exact this

theorem toPoly_injective : Function.Injective toPoly := by
  intro v w h
  refine vec_ext fun i hi => ?_
  have hv := toPoly_coeff v i (by omega)
  have hw := toPoly_coeff w i (by omega)
  rw [h, hw] at hv
  revert hv
  cases bitAt v i <;> cases bitAt w i <;> simp

theorem bitAt_xor {n : ℕ} (v w : Vector UInt8 n) (i : ℕ) (hi : i < 8 * n) :
    bitAt (xorBytes v w) i = (bitAt v i ^^ bitAt w i) := by
  unfold bitAt
  have h8 : i / 8 < n := by omega
  rw [vec_getD _ _ h8, vec_getD _ _ h8, vec_getD _ _ h8]
  unfold xorBytes
  rw [Vector.getElem_zipWith, UInt8.toNat_xor, Nat.testBit_xor]

theorem toPoly_xor (v w : Digest) : toPoly (xorBytes v w) = toPoly v + toPoly w := by
  unfold toPoly
  rw [← sum_add_distrib]
  refine sum_congr rfl fun i hi => ?_
  rw [bitAt_xor v w i (by rw [mem_range] at hi; omega)]
  have h2 : (X ^ i + X ^ i : (ZMod 2)[X]) = 0 := CharTwo.add_self_eq_zero _
  cases bitAt v i <;> cases bitAt w i <;> simp [h2]

theorem toPoly_one : toPoly oneBytes = 1 := by
  unfold toPoly
  rw [sum_eq_single 0]
  · have : bitAt oneBytes 0 = true := by decide
    simp [this]
  · intro i hi h0
    rw [mem_range] at hi
    have : bitAt oneBytes i = false := by
      unfold bitAt
      rw [vec_getD _ _ (by omega)]
      unfold oneBytes
      rw [Vector.getElem_ofFn]
      simp only
      split
      · have : i % 8 ≠ 0 := by omega
        rw [show (1 : UInt8).toNat = 2 ^ 0 from rfl, Nat.testBit_two_pow]
        simp; omega
      · simp
    simp [this]
  · intro h; simp at h

/-! ## C33 -/

/-- `binaryFieldMul` multiplies polynomials over `F_2` and reduces modulo the pentanomial. -/
theorem C33_mul (A B : Digest) :
    toPoly (binaryFieldMul A B) = (toPoly A * toPoly B) %ₘ modulus := by
  have hx := root_rel (dvd_refl modulus)
  have := charP_adjoin modulus_irreducible
  have h := value_mul (AdjoinRoot.root modulus) hx A B
  have hv : ∀ v : Digest, value (AdjoinRoot.root modulus) v = AdjoinRoot.mk modulus (toPoly v) := by
    intro v
    rw [← value_X]
    unfold value
    rw [map_sum]
    refine sum_congr rfl fun i _ => ?_
    rw [map_mul, map_pow, AdjoinRoot.mk_X]
    congr 1
    cases bitAt v i <;> simp [bv]
  rw [hv, hv, hv, ← map_mul, AdjoinRoot.mk_eq_mk] at h
  rw [← modByMonic_eq_of_dvd_sub modulus_monic h,
    (modByMonic_eq_self_iff modulus_monic).2 (toPoly_degree _)]

/-- The modulus is irreducible: the 32-byte vectors really form a field. -/
theorem C33_modulus_irreducible :
    Irreducible (X ^ 256 + X ^ 10 + X ^ 5 + X ^ 2 + 1 : (ZMod 2)[X]) := by
  have h := modulus_irreducible
  unfold modulus at h
  exact h

/-- injective map to the field, compatible with the operations -/
noncomputable def toField (v : Digest) : AdjoinRoot modulus := AdjoinRoot.mk modulus (toPoly v)

theorem toField_injective : Function.Injective toField := by
  intro v w h
  unfold toField at h
  rw [AdjoinRoot.mk_eq_mk] at h
  apply toPoly_injective
  rw [← (modByMonic_eq_self_iff modulus_monic).2 (toPoly_degree v),
    ← (modByMonic_eq_self_iff modulus_monic).2 (toPoly_degree w)]
  exact modByMonic_eq_of_dvd_sub modulus_monic h

theorem toField_mul (A B : Digest) : toField (binaryFieldMul A B) = toField A * toField B := by
  unfold toField
  rw [C33_mul, ← map_mul, AdjoinRoot.mk_eq_mk]
  have h := modByMonic_add_div (toPoly A * toPoly B) modulus
  exact ⟨-(toPoly A * toPoly B /ₘ modulus), by linear_combination h⟩

theorem toField_xor (A B : Digest) : toField (xorBytes A B) = toField A + toField B := by
  unfold toField
  rw [toPoly_xor, map_add]

theorem toField_one : toField oneBytes = 1 := by
  unfold toField
  rw [toPoly_one, map_one]

theorem toField_zero : toField (Vector.replicate 32 0) = 0 := by
  unfold toField
  have : toPoly (Vector.replicate 32 0) = 0 := by
    unfold toPoly
    refine sum_eq_zero fun i hi => ?_
    have : bitAt (Vector.replicate 32 0) i = false := by
      unfold bitAt
      rw [vec_getD _ _ (by rw [mem_range] at hi; omega), Vector.getElem_replicate]
      simp
    simp [this]
  rw [this, map_zero]

theorem C33_comm (A B : Digest) : binaryFieldMul A B = binaryFieldMul B A :=
  toField_injective (by rw [toField_mul, toField_mul, mul_comm])

theorem C33_assoc (A B C : Digest) :
    binaryFieldMul (binaryFieldMul A B) C = binaryFieldMul A (binaryFieldMul B C) :=
  toField_injective (by simp only [toField_mul, mul_assoc])

theorem C33_distrib (A B C : Digest) :
    binaryFieldMul A (xorBytes B C) = xorBytes (binaryFieldMul A B) (binaryFieldMul A C) :=
  toField_injective (by simp only [toField_mul, toField_xor, mul_add])

theorem C33_one (A : Digest) : binaryFieldMul oneBytes A = A :=
  toField_injective (by rw [toField_mul, toField_one, one_mul])

theorem toField_surjective : Function.Surjective toField := by
  intro y
  obtain ⟨p, rfl⟩ := AdjoinRoot.mk_surjective y
  -- the vector of the remainder
  set r := p %ₘ modulus with hr
  let v : Digest := Vector.ofFn fun i => UInt8.ofNat (Nat.ofBits fun b : Fin 8 =>
    decide (r.coeff (8 * i.val + b.val) = 1))
  refine ⟨v, ?_⟩
  have hb : ∀ i < 256, bitAt v i = decide (r.coeff i = 1) := by
    intro i hi
    unfold bitAt
    have h8 : i % 8 < 8 := by omega
    rw [vec_getD _ _ (by omega : i / 8 < 32), Vector.getElem_ofFn, UInt8.toNat_ofNat',
      Nat.testBit_mod_two_pow, Nat.testBit_ofBits_lt _ _ h8]
    simp only [h8, decide_true, Bool.true_and]
    rw [show 8 * (i / 8) + i % 8 = i by omega]
  have hp : toPoly v = r := by
    ext i
    by_cases hi : i < 256
    · rw [toPoly_coeff v i hi, hb i hi]
      have h01 : ∀ z : ZMod 2, (if decide (z = 1) = true then (1 : ZMod 2) else 0) = z := by decide
      exact h01 _
    · have d1 : (toPoly v).coeff i = 0 := coeff_eq_zero_of_degree_lt
        ((toPoly_degree v).trans_le (by
          rw [degree_eq_natDegree modulus_monic.ne_zero, modulus_natDegree]
          exact_mod_cast not_lt.1 hi))
      have d2 : r.coeff i = 0 := coeff_eq_zero_of_degree_lt
        ((degree_modByMonic_lt p modulus_monic).trans_le (by
          rw [degree_eq_natDegree modulus_monic.ne_zero, modulus_natDegree]
          exact_mod_cast not_lt.1 hi))
      rw [d1, d2]
  unfold toField
  rw [hp, hr, AdjoinRoot.mk_eq_mk]
  have h := modByMonic_add_div p modulus
  exact ⟨-(p /ₘ modulus), by linear_combination h⟩

/-- Every non-zero vector has an inverse. -/
theorem C33_inverse (A : Digest) (hA : A ≠ Vector.replicate 32 0) :
    ∃ B, binaryFieldMul A B = oneBytes := by
  have : Fact (Irreducible modulus) := ⟨modulus_irreducible⟩
  have h0 : toField A ≠ 0 := by
    rw [← toField_zero]
    exact fun h => hA (toField_injective h)
  obtain ⟨B, hB⟩ := toField_surjective (toField A)⁻¹
  exact ⟨B, toField_injective (by rw [toField_mul, hB, toField_one, mul_inv_cancel₀ h0])⟩

example : (oneBytes : Digest) ≠ Vector.replicate 32 0 := by decide

/-! ## C34 -/

theorem byte_shr_bit (b : UInt8) (s : ℕ) (hs : s < 8) (p : ℕ) :
    ((b >>> UInt8.ofNat s) &&& 0x01).toNat.testBit p = (decide (p = 0) && b.toNat.testBit s) := by
  rw [UInt8.toNat_and, UInt8.toNat_shiftRight, Nat.testBit_and, UInt8.toNat_ofNat', Nat.testBit_shiftRight]
  have e1 : s % 2 ^ 8 % 8 = s := by omega
  rw [e1, show (0x01 : UInt8).toNat = 2 ^ 0 from rfl, Nat.testBit_two_pow]
  by_cases hp : p = 0
  · subst hp; simp
  · have : ¬ 0 = p := fun h => hp h.symm
    simp [hp, this]

theorem byte_shl_bit (b : UInt8) (hb : ∀ p, b.toNat.testBit p = (decide (p = 0) && b.toNat.testBit 0))
    (s : ℕ) (hs : s < 8) (p : ℕ) :
    (b <<< UInt8.ofNat s).toNat.testBit p = (decide (p = s) && b.toNat.testBit 0) := by
  rw [UInt8.toNat_shiftLeft, UInt8.toNat_ofNat', Nat.testBit_mod_two_pow, Nat.testBit_shiftLeft]
  have e1 : s % 2 ^ 8 % 8 = s := by omega
  rw [e1, hb]
  by_cases hp : p = s
  · subst hp; simp [hs]
  · by_cases h : s ≤ p
    · have : ¬ p - s = 0 := by omega
      simp [hp, this]
    · simp [hp, h]

theorem mem_transposeIdx {nr nc : ℕ} {ix : ℕ × ℕ × ℕ × ℕ} : ix ∈ transposeIdx nr nc ↔
    ix.1 < nr ∧ ix.2.1 < 8 ∧ ix.2.2.1 < nc ∧ ix.2.2.2 < 8 := by
  obtain ⟨a, b, c, d⟩ := ix
  unfold transposeIdx
  simp only [List.mem_flatMap, List.mem_map, List.mem_range, Prod.mk.injEq]
  constructor
  · rintro ⟨_, h1, _, h2, _, h3, _, h4, rfl, rfl, rfl, rfl⟩
    exact ⟨h1, h2, h3, h4⟩
  · rintro ⟨h1, h2, h3, h4⟩
    exact ⟨_, h1, _, h2, _, h3, _, h4, rfl, rfl, rfl, rfl⟩

/-- `transposeBooleanMatrix` transposes: bit `i` of output row `j` is bit `j` of input row `i`, for
every matrix and every index (the Go code has 256 rows of 1008 bits). -/
theorem C34_transpose {nr nc : ℕ} (input : Vector (Vector UInt8 nc) (8 * nr)) (i j : ℕ)
    (hi : i < 8 * nr) (hj : j < 8 * nc) :
    bitAt ((transposeBooleanMatrix input)[j]'hj) i = bitAt (input[i]'hi) j := by
  unfold transposeBooleanMatrix
  simp only
  rw [Vector.getElem_ofFn]
  conv_lhs => unfold bitAt
  have hi8 : i / 8 < nr := by omega
  rw [vec_getD _ _ hi8, Vector.getElem_ofFn]
  simp only
  rw [orFold (fun (b : UInt8) p => b.toNat.testBit p)
    (fun a b p => by rw [UInt8.toNat_or, Nat.testBit_or])
    (fun ix : ℕ × ℕ × ℕ × ℕ => ((ix.2.2.1 <<< 3) + ix.2.2.2, ix.1))
    (fun ix : ℕ × ℕ × ℕ × ℕ => (((((input.toList.map Vector.toList).getD ((ix.1 <<< 3) + ix.2.1)
      []).getD ix.2.2.1 0) >>> UInt8.ofNat ix.2.2.2) &&& 0x01) <<< UInt8.ofNat ix.2.1)]
  simp only [UInt8.toNat_zero, Nat.zero_testBit, Bool.false_or]
  have cell : ∀ ix : ℕ × ℕ × ℕ × ℕ, ix ∈ transposeIdx nr nc → ∀ p, ((((((input.toList.map
      Vector.toList).getD ((ix.1 <<< 3) + ix.2.1) []).getD ix.2.2.1 0) >>> UInt8.ofNat ix.2.2.2) &&&
      0x01) <<< UInt8.ofNat ix.2.1).toNat.testBit p = (decide (p = ix.2.1) &&
      (((input.toList.map Vector.toList).getD ((ix.1 <<< 3) + ix.2.1) []).getD ix.2.2.1
        0).toNat.testBit ix.2.2.2) := by
    intro ix hix p
    obtain ⟨_, h2, _, h4⟩ := mem_transposeIdx.1 hix
    rw [byte_shl_bit _ (fun p => by rw [byte_shr_bit _ _ h4, byte_shr_bit _ _ h4]; simp) _ h2,
      byte_shr_bit _ _ h4]
    simp
  have row : ((input.toList.map Vector.toList).getD i []).getD (j / 8) 0 = (input[i]'hi).toList.getD (j / 8) 0 := by
    rw [List.getD_eq_getElem?_getD (l := input.toList.map Vector.toList), List.getElem?_map,
      Vector.getElem?_toList, Vector.getElem?_eq_getElem hi]
    rfl
  unfold bitAt
  rw [← row, Bool.eq_iff_iff, List.any_eq_true]
  constructor
  · rintro ⟨ix, hix, h⟩
    rw [Bool.and_eq_true, decide_eq_true_eq, cell ix hix, Bool.and_eq_true, decide_eq_true_eq,
      Prod.mk.injEq] at h
    obtain ⟨⟨h1, h2⟩, h3, h4⟩ := h
    obtain ⟨_, k2, _, k4⟩ := mem_transposeIdx.1 hix
    rw [Nat.shiftLeft_eq] at h1
    rw [Nat.shiftLeft_eq] at h4
    rw [show i = ix.1 * 2 ^ 3 + ix.2.1 by omega, show j / 8 = ix.2.2.1 by omega,
      show j % 8 = ix.2.2.2 by omega]
    exact h4
  · intro h
    have hm : (i / 8, i % 8, j / 8, j % 8) ∈ transposeIdx nr nc :=
      mem_transposeIdx.2 ⟨hi8, by simp only; omega, by simp only; omega, by simp only; omega⟩
    refine ⟨_, hm, ?_⟩
    rw [Bool.and_eq_true, decide_eq_true_eq, cell _ hm, Bool.and_eq_true, decide_eq_true_eq,
      Prod.mk.injEq]
    simp only [Nat.shiftLeft_eq]
    refine ⟨⟨by omega, trivial⟩, trivial, ?_⟩
    rw [show i / 8 * 2 ^ 3 + i % 8 = i by omega]
    exact h

/-- Transposing twice gives back the matrix. -/
theorem C34_involutive {nr nc : ℕ} (input : Vector (Vector UInt8 nc) (8 * nr)) :
    transposeBooleanMatrix (transposeBooleanMatrix input) = input := by
  refine Vector.ext fun i hi => vec_ext fun j hj => ?_
  rw [C34_transpose _ j i hj hi, C34_transpose _ i j hi hj]

end Verif.Ot
