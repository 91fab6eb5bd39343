import Verif.Bls381.TowerProps

/-!
# Properties C153 and C154: the target group
-/

namespace Verif.Bls381

open Verif.Primes Tower

set_option exponentiation.threshold 5000

variable {K : Type} [Field K] (T : Tower Fq K)

/-! ## C153: the operations of `Gt` -/

/-- the elements of the group of order `r` are cyclotomic -/
theorem order_cyc {z : K} (h : z ^ blsr = 1) : z ^ (blsp ^ 4 - blsp ^ 2 + 1) = 1 := by
  have hn : blsp ^ 4 - blsp ^ 2 + 1 = blsr * ((blsp ^ 4 - blsp ^ 2 + 1) / blsr) := by decide +kernel
  have := congrArg (z ^ ·) hn
  exact this.trans (by show z ^ (blsr * _) = 1; rw [pow_mul, h, one_pow])

/-- on the group of order `r`, written additively: `Add` is the group law, `Double` and `Square` agree,
`Neg` and `Sub` are the inverse and the difference -/
theorem C153_group {a b : Fp12 Fq} (ha : T.e12 a ^ blsr = 1) (hb : T.e12 b ^ blsr = 1) :
    T.e12 (gtAdd a b) = T.e12 a * T.e12 b ∧ T.e12 (gtAdd a b) ^ blsr = 1 ∧ gtDouble a = gtAdd a a ∧
      gtSquare a = gtAdd a a ∧ T.e12 (gtNeg a) = (T.e12 a)⁻¹ ∧ T.e12 (gtSub a b) = T.e12 a / T.e12 b ∧
      gtAdd a (gtNeg a) = Fp12.one ∧ gtSub a b = gtAdd a (gtNeg b) := by
  have hca := (cyc_iff _).2 (order_cyc ha)
  have hcb := (cyc_iff _).2 (order_cyc hb)
  refine ⟨T.e12_mul a b, ?_, (C148_laws a a a).2.2.2.1, ?_, Cyc.conj T hca, ?_, ?_, rfl⟩
  · rw [gtAdd, e12_mul, mul_pow, ha, hb, one_mul]
  · rw [gtSquare, (C152_cyclotomic T (order_cyc ha)).1, (C148_laws a a a).2.2.2.1]; rfl
  · rw [gtSub, e12_mul, Cyc.conj T hcb, div_eq_mul_inv]
  · exact (C152_cyclotomic T (order_cyc ha)).2.1

/-- `Gt` accepts elements outside the group; for these `Neg` is not an inverse -/
theorem C153_neg_wrong : gtAdd ⟨⟨⟨2, 0⟩, ⟨0, 0⟩, ⟨0, 0⟩⟩, Fp6.zero⟩
    (gtNeg ⟨⟨⟨2, 0⟩, ⟨0, 0⟩, ⟨0, 0⟩⟩, Fp6.zero⟩) ≠ Fp12.one := by decide +kernel

theorem zero_mul12 (x : Fp12 Fq) : Fp12.zero.mul x = Fp12.zero := by
  obtain ⟨K, _, ⟨T⟩⟩ := C148_tower_exists
  exact T.e12_inj (by rw [e12_mul, e12_zero, zero_mul])

theorem zero_square12 : Fp12.square (Fp12.zero : Fp12 Fq) = Fp12.zero := by
  rw [(C148_laws Fp12.zero Fp12.zero Fp12.zero).2.2.2.1, zero_mul12]

/-- `Gt.Mul` returns zero, which is not even a unit, for every element and every scalar: its accumulator
starts from zero instead of one -/
theorem C153_mul_zero (a : Fp12 Fq) (bytes : List UInt8) : gtMul a bytes = Fp12.zero := by
  rw [gtMul]
  have h : ∀ (l : List ℕ) (pre : List (Fp12 Fq)), l.foldl (fun p k =>
      p.square.square.square.square.mul (pre.getD (gtWindow bytes (4 * k)) Fp12.zero)) Fp12.zero
        = Fp12.zero := by
    intro l pre
    induction l with
    | nil => rfl
    | cons k l ih =>
      rw [List.foldl_cons, zero_square12, zero_square12, zero_square12, zero_square12, zero_mul12, ih]
  exact h _ _

/-! ### Encoding -/

theorem fpBE_length (x : Fq) : (fpBE x).length = 48 := by
  rw [fpBE, List.length_reverse, leBytes_length]

theorem blsp_lt_384 : blsp < 256 ^ 48 := by decide +kernel

theorem fpSetBE_fpBE (f x : Fq) : fpSetBE f (fpBE x) = (x, true) := by
  have hlt : x.val < 256 ^ 48 := (ZMod.val_lt x).trans blsp_lt_384
  have h : leNat (fpBE x).reverse = x.val := by
    rw [fpBE, List.reverse_reverse, leNat_leBytes _ _ hlt]
  rw [fpSetBE, h, if_pos (ZMod.val_lt x), ZMod.natCast_zmod_val]

theorem fpBE_fpSetBE {f : Fq} {b : List UInt8} (hb : b.length = 48) (h : (fpSetBE f b).2 = true) :
    fpBE (fpSetBE f b).1 = b := by
  rw [fpSetBE] at h ⊢
  split at h
  · rename_i hlt
    rw [if_pos hlt, fpBE]
    dsimp only
    rw [ZMod.val_natCast_of_lt hlt]
    have := leBytes_leNat b.reverse
    rw [List.length_reverse, hb] at this
    rw [this, List.reverse_reverse]
  · exact absurd h Bool.false_ne_true

theorem fpSetBE_false {f : Fq} {b : List UInt8} (h : (fpSetBE f b).2 = false) : (fpSetBE f b).1 = f := by
  rw [fpSetBE] at h ⊢
  split at h
  · exact absurd h.symm Bool.false_ne_true
  · rename_i hlt
    rw [if_neg hlt]

theorem C153_bytes_length (x : Fp12 Fq) : (gtBytes x).length = 576 := by
  simp [gtBytes, coeffs12, fpBE_length]

/-- a block of a concatenation of blocks of 48 bytes -/
theorem slice_cons (a b : List UInt8) (i : ℕ) (ha : a.length = 48) :
    gtSlice (a ++ b) (i + 1) = gtSlice b i := by
  rw [gtSlice, gtSlice, show 48 * (i + 1) = a.length + 48 * i by omega, List.drop_length_add_append]

theorem slice_zero (a b : List UInt8) (ha : a.length = 48) : gtSlice (a ++ b) 0 = a := by
  rw [gtSlice, Nat.mul_zero, List.drop_zero, List.take_append_of_le_length (by omega),
    List.take_of_length_le (by omega)]

theorem C153_roundtrip (gt x : Fp12 Fq) : gtSetBytes gt (gtBytes x) = (x, true) := by
  have h : gtBytes x = fpBE x.A.A.A ++ (fpBE x.A.A.B ++ (fpBE x.A.B.A ++ (fpBE x.A.B.B ++ (fpBE x.A.C.A ++
      (fpBE x.A.C.B ++ (fpBE x.B.A.A ++ (fpBE x.B.A.B ++ (fpBE x.B.B.A ++ (fpBE x.B.B.B ++ (fpBE x.B.C.A ++
      (fpBE x.B.C.B ++ []))))))))))) := rfl
  rw [h, gtSetBytes]
  simp only [slice_zero _ _ (fpBE_length _), slice_cons _ _ _ (fpBE_length _), fpSetBE_fpBE, Bool.and_true]

theorem C153_injective : Function.Injective gtBytes := fun x y h => by
  have h1 := C153_roundtrip Fp12.zero x
  rw [h, C153_roundtrip] at h1
  exact (Prod.mk.inj h1).1.symm

/-- accepted encodings are the canonical ones: every accepted input is what `Bytes` gives for the result -/
theorem C153_canonical {gt : Fp12 Fq} {b : List UInt8} (hb : b.length = 576)
    (h : (gtSetBytes gt b).2 = true) : gtBytes (gtSetBytes gt b).1 = b := by
  have hs : ∀ i, i < 12 → (gtSlice b i).length = 48 := by
    intro i hi
    rw [gtSlice, List.length_take, List.length_drop, hb]; omega
  have hcat : b = gtSlice b 0 ++ (gtSlice b 1 ++ (gtSlice b 2 ++ (gtSlice b 3 ++ (gtSlice b 4 ++
      (gtSlice b 5 ++ (gtSlice b 6 ++ (gtSlice b 7 ++ (gtSlice b 8 ++ (gtSlice b 9 ++ (gtSlice b 10 ++
      (gtSlice b 11 ++ []))))))))))) := by
    have hstep : ∀ i, b.drop (48 * i) = gtSlice b i ++ b.drop (48 * (i + 1)) := by
      intro i
      rw [gtSlice, show 48 * (i + 1) = 48 * i + 48 by ring, ← List.drop_drop, List.take_append_drop]
    have h0 : b = b.drop (48 * 0) := rfl
    have h12 : b.drop (48 * 12) = [] := List.drop_eq_nil_of_le (by omega)
    conv_lhs => rw [h0, hstep, hstep, hstep, hstep, hstep, hstep, hstep, hstep, hstep, hstep, hstep, hstep, h12]
  simp only [gtSetBytes, Bool.and_eq_true] at h
  obtain ⟨⟨⟨⟨⟨⟨⟨⟨⟨⟨⟨h0, h1⟩, h2⟩, h3⟩, h4⟩, h5⟩, h6⟩, h7⟩, h8⟩, h9⟩, h10⟩, h11⟩ := h
  conv_rhs => rw [hcat]
  simp only [gtSetBytes, gtBytes, coeffs12, List.flatMap_cons, List.flatMap_nil]
  rw [fpBE_fpSetBE (hs 0 (by omega)) h0, fpBE_fpSetBE (hs 1 (by omega)) h1, fpBE_fpSetBE (hs 2 (by omega)) h2,
    fpBE_fpSetBE (hs 3 (by omega)) h3, fpBE_fpSetBE (hs 4 (by omega)) h4, fpBE_fpSetBE (hs 5 (by omega)) h5,
    fpBE_fpSetBE (hs 6 (by omega)) h6, fpBE_fpSetBE (hs 7 (by omega)) h7, fpBE_fpSetBE (hs 8 (by omega)) h8,
    fpBE_fpSetBE (hs 9 (by omega)) h9, fpBE_fpSetBE (hs 10 (by omega)) h10,
    fpBE_fpSetBE (hs 11 (by omega)) h11]

/-- there is no membership test: zero, which belongs to no group, is accepted -/
theorem C153_accepts_zero (gt : Fp12 Fq) : gtSetBytes gt (List.replicate 576 0) = (Fp12.zero, true) := by
  have h : gtBytes Fp12.zero = List.replicate 576 0 := by decide +kernel
  rw [← h, C153_roundtrip]

/-- a refused input may still change the receiver: here its first coefficient, the second being out of
range -/
theorem C153_partial_update :
    gtSetBytes Fp12.one (List.replicate 48 0 ++ List.replicate 48 255 ++ List.replicate 480 0)
      = (Fp12.zero, false) := by decide +kernel

example : (gtSetBytes Fp12.zero (gtBytes (⟨⟨⟨1, 2⟩, ⟨3, 4⟩, ⟨5, 6⟩⟩, ⟨⟨7, 8⟩, ⟨9, 10⟩, ⟨11, 12⟩⟩⟩))).2 = true := by
  decide +kernel

/-! ## C154: the generator -/

/-- a constant as a residue -/
theorem const_num {n : ℕ} {l : List UInt64} (h : n * 2 ^ 384 % blsp = limbVal l % blsp) :
    fpDec l = (n : Fq) := by
  have h1 := (ZMod.natCast_eq_natCast_iff' _ _ blsp).2 h
  rw [Nat.cast_mul, Nat.cast_pow 2 384, Nat.cast_ofNat] at h1
  show (limbVal l : Fq) * (2 ^ (64 * 6) : Fq)⁻¹ = _
  rw [← h1]
  exact mul_inv_cancel_right₀ fpTwo _

/-- the generator's coefficients as residues -/
def genNum : Fp12 ℕ := ⟨⟨⟨0x1250ebd871fc0a92a7b2d83168d0d727272d441befa15c503dd8e90ce98db3e7b6d194f60839c508a84305aaca1789b6,
    0x89a1c5b46e5110b86750ec6a532348868a84045483c92b7af5af689452eafabf1a8943e50439f1d59882a98eaa0170f⟩,
  ⟨0x1368bb445c7c2d209703f239689ce34c0378a68e72a6b3b216da0e22a5031b54ddff57309396b38c881c4c849ec23e87,
    0x193502b86edb8857c273fa075a50512937e0794e1e65a7617c90d8bd66065b1fffe51d7a579973b1315021ec3c19934f⟩,
  ⟨0x1b2f522473d171391125ba84dc4007cfbf2f8da752f7c74185203fcca589ac719c34dffbbaad8431dad1c1fb597aaa5,
    0x18107154f25a764bd3c79937a45b84546da634b8f6be14a8061e55cceba478b23f7dacaa35c8ca78beae9624045b4b6⟩⟩,
  ⟨⟨0x19f26337d205fb469cd6bd15c3d5a04dc88784fbb3d0b2dbdea54d43b2b73f2cbb12d58386a8703e0f948226e47ee89d,
    0x6fba23eb7c5af0d9f80940ca771b6ffd5857baaf222eb95a7d2809d61bfe02e1bfd1b68ff02f0b8102ae1c2d5d5ab1a⟩,
  ⟨0x11b8b424cd48bf38fcef68083b0b0ec5c81a93b330ee1a677d0d15ff7b984e8978ef48881e32fac91b93b47333e2ba57,
    0x3350f55a7aefcd3c31b4fcb6ce5771cc6a0e9786ab5973320c806ad360829107ba810c5a09ffdd9be2291a0c25a99a2⟩,
  ⟨0x4c581234d086a9902249b64728ffd21a189e87935a954051c7cdba7b3872629a4fafc05066245cb9108f0242d0fe3ef,
    0xf41e58663bf08cf068672cbd01a7ec73baca4d72ca93544deff686bfd6df543d48eaa24afe47e1efde449383b676631⟩⟩⟩

/-- coefficient-wise reduction -/
def castN2 (x : Fp2 ℕ) : Fp2 Fq := ⟨x.A, x.B⟩
def castN6 (x : Fp6 ℕ) : Fp6 Fq := ⟨castN2 x.A, castN2 x.B, castN2 x.C⟩
def castN12 (x : Fp12 ℕ) : Fp12 Fq := ⟨castN6 x.A, castN6 x.B⟩

theorem gtGenerator_eq : gtGenerator = castN12 genNum := by
  refine Fp12.ext (Fp6.ext (Fp2.ext ?_ ?_) (Fp2.ext ?_ ?_) (Fp2.ext ?_ ?_))
    (Fp6.ext (Fp2.ext ?_ ?_) (Fp2.ext ?_ ?_) (Fp2.ext ?_ ?_)) <;>
  exact const_num (by decide +kernel)

/-- the constants of the Frobenius maps as residues -/
def frobNum (arg : Fp12 Fq) : Fp12 Fq :=
  let c1 : Fp2 Fq := ⟨0, 0x1a0111ea397fe699ec02408663d4de85aa0d857d89759ad4897d29650fb85f9b409427eb4f49fffd8bfd00000000aaac⟩
  let c2 : Fp2 Fq := ⟨0x1a0111ea397fe699ec02408663d4de85aa0d857d89759ad4897d29650fb85f9b409427eb4f49fffd8bfd00000000aaad, 0⟩
  let c3 : Fp6 Fq := ⟨⟨0x1904d3bf02bb0667c231beb4202c0d1f0fd603fd3cbd5f4f7b2443d784bab9c4f67ea53d63e7813d8d0775ed92235fb8,
    0xfc3e2b36c4e03288e9e902231f9fb854a14787b6c7b36fec0c8ec971f63c5f282d5ac14d6c7ec22cf78a126ddc4af3⟩,
    Fp2.zero, Fp2.zero⟩
  ⟨⟨arg.A.A.conj, arg.A.B.conj.mul c1, arg.A.C.conj.mul c2⟩,
    Fp6.mul ⟨arg.B.A.conj, arg.B.B.conj.mul c1, arg.B.C.conj.mul c2⟩ c3⟩

theorem frobNum_eq (x : Fp12 Fq) : fp12Frob x = frobNum x := by
  have h1 : pm1Div3 = ⟨0, 0x1a0111ea397fe699ec02408663d4de85aa0d857d89759ad4897d29650fb85f9b409427eb4f49fffd8bfd00000000aaac⟩ := by
    rw [pm1Div3, const_num (n := 0x1a0111ea397fe699ec02408663d4de85aa0d857d89759ad4897d29650fb85f9b409427eb4f49fffd8bfd00000000aaac) (by decide +kernel), Nat.cast_ofNat]
  have h2 : p2m2Div3 = ⟨0x1a0111ea397fe699ec02408663d4de85aa0d857d89759ad4897d29650fb85f9b409427eb4f49fffd8bfd00000000aaad, 0⟩ := by
    rw [p2m2Div3, const_num (n := 0x1a0111ea397fe699ec02408663d4de85aa0d857d89759ad4897d29650fb85f9b409427eb4f49fffd8bfd00000000aaad) (by decide +kernel), Nat.cast_ofNat]
  have h3 : up1epm1div6 = ⟨⟨0x1904d3bf02bb0667c231beb4202c0d1f0fd603fd3cbd5f4f7b2443d784bab9c4f67ea53d63e7813d8d0775ed92235fb8,
    0xfc3e2b36c4e03288e9e902231f9fb854a14787b6c7b36fec0c8ec971f63c5f282d5ac14d6c7ec22cf78a126ddc4af3⟩,
    Fp2.zero, Fp2.zero⟩ := by
    rw [up1epm1div6, const_num (n := 0x1904d3bf02bb0667c231beb4202c0d1f0fd603fd3cbd5f4f7b2443d784bab9c4f67ea53d63e7813d8d0775ed92235fb8) (by decide +kernel),
      const_num (n := 0xfc3e2b36c4e03288e9e902231f9fb854a14787b6c7b36fec0c8ec971f63c5f282d5ac14d6c7ec22cf78a126ddc4af3) (by decide +kernel), Nat.cast_ofNat, Nat.cast_ofNat]
  rw [fp12Frob, fp6Frob, fp6Frob, h1, h2, h3]
  rfl

/-- computed: the generator is cyclotomic -/
theorem gen_cyc : (frobNum (frobNum (frobNum (frobNum (castN12 genNum))))).mul (castN12 genNum)
    = frobNum (frobNum (castN12 genNum)) := by decide +kernel

/-- computed: on the generator, the Frobenius map is the exponentiation by the curve parameter -/
theorem gen_exp : frobNum (castN12 genNum) = cyclotomicExp (castN12 genNum) := by decide +kernel

theorem gen_ne_one : castN12 genNum ≠ Fp12.one ∧ castN12 genNum ≠ Fp12.zero := by decide +kernel

/-- `Gt.Generator` has order `r` -/
theorem C154_generator_order : orderOf (T.e12 gtGenerator) = blsr := by
  rw [gtGenerator_eq]
  set g := castN12 genNum with hg
  have h0 : T.e12 g ≠ 0 := fun h => gen_ne_one.2 (T.e12_eq_zero.1 h)
  have hc : Cyc (T.e12 g) := by
    refine ⟨h0, ?_⟩
    have h := congrArg T.e12 gen_cyc
    rw [← frobNum_eq, ← frobNum_eq, ← frobNum_eq, ← frobNum_eq, e12_mul, e12_frob2, e12_frob2] at h
    exact h
  have h1 : (T.e12 g) ^ (blsp + 0xd201000000010000) = 1 := by
    have h := congrArg T.e12 gen_exp
    rw [← frobNum_eq, e12_frob, Cyc.exp T hc, xParam, zpow_neg] at h
    have h2 : T.e12 g ^ (0xd201000000010000 : ℤ) = T.e12 g ^ 0xd201000000010000 := by norm_cast
    rw [h2] at h
    rw [pow_add, h, inv_mul_cancel₀ (pow_ne_zero _ h0)]
  have h2 := (cyc_iff _).1 hc
  have hgcd : Nat.gcd (blsp + 0xd201000000010000) (blsp ^ 4 - blsp ^ 2 + 1) = blsr := by decide +kernel
  have h3 := Nat.dvd_gcd (orderOf_dvd_of_pow_eq_one h1) (orderOf_dvd_of_pow_eq_one h2)
  rw [hgcd] at h3
  rcases (Nat.dvd_prime Primes.fact_blsr.out).1 h3 with h4 | h4
  · rw [orderOf_eq_one_iff] at h4
    exact absurd (T.e12_inj (h4.trans T.e12_one.symm)) gen_ne_one.1
  · exact h4

/-- so it meets the premises of `C153_group` -/
theorem C154_generator_in_group : T.e12 gtGenerator ^ blsr = 1 := by
  rw [← C154_generator_order T]; exact pow_orderOf_eq_one _

end Verif.Bls381
