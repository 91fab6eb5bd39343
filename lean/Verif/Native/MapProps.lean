import Verif.Native.MapModel
import Verif.Native.MapLemmas
import Verif.Native.EncodeProps
import Verif.Core.Props

/-!
# C160, C161: hashing to secp256k1 and P-256
-/

set_option exponentiation.threshold 1000

namespace Verif.Native

open Primes WeierstrassCurve.Affine

/-! ## C160: the simplified SWU map -/

/-- what is needed of the parameters of the map -/
structure SswuOk {p : ℕ} [Fact p.Prime] (P : SswuParams (ZMod p)) : Prop where
  four : p % 4 = 3
  C1 : P.C1.val = (p - 3) / 4
  A : P.A ≠ 0
  Z : P.Z ≠ 0
  C2 : P.C2 ^ 2 = -P.Z ^ 3
  ex : IsSquare ((P.B / (P.Z * P.A)) ^ 3 + P.A * (P.B / (P.Z * P.A)) + P.B)

theorem lowBitOf_neg {p : ℕ} (h2 : p % 2 = 1) {x : ZMod p} (hx : x ≠ 0) :
    lowBitOf (-x) = !lowBitOf x := by
  have : NeZero p := ⟨by omega⟩
  have h1 : (-x).val = p - x.val := by rw [ZMod.neg_val, if_neg hx]
  have h3 := x.val_lt
  rw [lowBitOf, lowBitOf, h1, Bool.eq_iff_iff, decide_eq_true_eq, Bool.not_eq_true', decide_eq_false_iff_not]
  omega

theorem invert_of_ne {F : Type} [Field F] [DecidableEq F] {z : F} (h : z ≠ 0) : invert z = (true, z⁻¹) := if_neg h

theorem osswu_isSwu {p : ℕ} [hp : Fact p.Prime] {P : SswuParams (ZMod p)} (h : SswuOk P) (u : ZMod p) :
    IsSwu P.A P.B P.Z lowBitOf u (osswu3mod4 lowBitOf P u).1 (osswu3mod4 lowBitOf P u).2 := by
  have h2 : p % 2 = 1 := by have := h.four; omega
  obtain ⟨h1, h3, h4, h5, h6⟩ := swu_core h.four h.A h.Z h.C2 h.ex (u := u) rfl rfl rfl rfl rfl rfl rfl
  generalize hx1 : ((P.Z * u ^ 2) ^ 2 + P.Z * u ^ 2 + 1) * P.B = x1n at h1 h3 h4 h5 h6
  generalize hxd : (if -P.A * ((P.Z * u ^ 2) ^ 2 + P.Z * u ^ 2) = 0 then P.Z * P.A else
    -P.A * ((P.Z * u ^ 2) ^ 2 + P.Z * u ^ 2)) = xd at h1 h3 h4 h5 h6
  generalize hn : x1n ^ 3 + P.A * x1n * xd ^ 2 + P.B * xd ^ 3 = n at h5 h6
  generalize hy : ((xd ^ 3) ^ 2 * (n * xd ^ 3)) ^ ((p - 3) / 4) * (n * xd ^ 3) = y1 at h5 h6
  have key : osswu3mod4 lowBitOf P u =
      let x := if y1 ^ 2 * xd ^ 3 = n then x1n else P.Z * u ^ 2 * x1n
      let y := if y1 ^ 2 * xd ^ 3 = n then y1 else y1 * P.C2 * u ^ 2 * u
      (x / xd, if lowBitOf u != lowBitOf y then -y else y) := by
    have e1 : (1 + (P.Z * (u * u) * (P.Z * (u * u)) + P.Z * (u * u))) * P.B = x1n := by rw [← hx1]; ring
    have e2 : (P.Z * (u * u) * (P.Z * (u * u)) + P.Z * (u * u)) * -P.A
        = -P.A * ((P.Z * u ^ 2) ^ 2 + P.Z * u ^ 2) := by ring
    have e0 : xd * xd * xd = xd ^ 3 := by ring
    have e3 : (x1n * x1n + xd * xd * P.A) * x1n + xd ^ 3 * P.B = n := by rw [← hn]; ring
    have e4 : xd ^ 3 * xd ^ 3 * (n * xd ^ 3) = (xd ^ 3) ^ 2 * (n * xd ^ 3) := by ring
    have e6 : y1 * y1 = y1 ^ 2 := by ring
    have e7 : y1 * P.C2 * (u * u) * u = y1 * P.C2 * u ^ 2 * u := by ring
    simp only [osswu3mod4, e1, e2, decide_eq_true_eq, hxd, e0, e3, e4, pow_eq, h.C1, invert_of_ne h1, if_true,
      hy, e6, e7, div_eq_mul_inv, Prod.mk.injEq, and_true]
    split <;> ring
  rw [key]
  have hsign : ∀ {x y : ZMod p}, y ^ 2 = x ^ 3 + P.A * x + P.B →
      (if lowBitOf u != lowBitOf y then -y else y) ^ 2 = x ^ 3 + P.A * x + P.B ∧
      ((if lowBitOf u != lowBitOf y then -y else y) ≠ 0 →
        lowBitOf (if lowBitOf u != lowBitOf y then -y else y) = lowBitOf u) := by
    intro x y hxy
    split
    · next hne =>
      refine ⟨by rw [neg_sq, hxy], fun h0 => ?_⟩
      rw [lowBitOf_neg h2 (neg_ne_zero.1 h0)]
      revert hne
      cases lowBitOf u <;> cases lowBitOf y <;> simp
    · next hne =>
      refine ⟨hxy, fun _ => ?_⟩
      revert hne
      cases lowBitOf u <;> cases lowBitOf y <;> simp
  by_cases hq : IsSquare ((x1n / xd) ^ 3 + P.A * (x1n / xd) + P.B)
  · obtain ⟨a1, a2⟩ := h5 hq
    simp only [if_pos a1]
    exact ⟨⟨x1n / xd, h3, h4, fun _ => rfl, fun hn => absurd hq hn⟩, (hsign a2).1, (hsign a2).2⟩
  · obtain ⟨a1, a2⟩ := h6 hq
    simp only [if_neg a1]
    exact ⟨⟨x1n / xd, h3, h4, fun hn => absurd hn hq, fun _ => by rw [mul_div_assoc]⟩, (hsign a2).1, (hsign a2).2⟩

/-- the constants of RFC 9380, 8.7 for the curve isogenous to secp256k1 -/
def K256.isoA : ℕ := 0x3f8731abdd661adca08a5558f0f5d272e953d363cb6f0e5d405447c01a444533

theorem K256.sswu_consts : K256.sswu.A = (K256.isoA : ℕ) ∧ K256.sswu.B = (1771 : ℕ) ∧ K256.sswu.Z = -(11 : ℕ) := by
  have h2 : 2 < k256p := by decide
  refine ⟨unMont_eq h2 _ _ (by decide +kernel), unMont_eq h2 _ _ (by decide +kernel), ?_⟩
  refine (unMont_eq h2 _ (k256p - 11) (by decide +kernel)).trans ?_
  rw [Nat.cast_sub (by decide), ZMod.natCast_self, zero_sub]

theorem P256.sswu_consts : P256.sswu.A = -3 ∧ P256.sswu.B = P256.b ∧ P256.sswu.Z = -(10 : ℕ) := by
  have h2 : 2 < p256p := by decide
  refine ⟨C111_p256_params.1, rfl, ?_⟩
  refine (unMont_eq h2 _ (p256p - 10) (by decide +kernel)).trans ?_
  rw [Nat.cast_sub (by decide), ZMod.natCast_self, zero_sub]

theorem natCast_ne_zero_of_mod {p a : ℕ} (h : a % p ≠ 0) : ((a : ℕ) : ZMod p) ≠ 0 := by
  rw [Ne, ZMod.natCast_eq_zero_iff, Nat.dvd_iff_mod_eq_zero]; exact h

theorem K256.sswuOk : SswuOk K256.sswu where
  four := by decide +kernel
  C1 := by decide +kernel
  A := by rw [K256.sswu_consts.1]; exact natCast_ne_zero_of_mod (by decide +kernel)
  Z := by
    rw [K256.sswu_consts.2.2, Ne, neg_eq_zero]; exact natCast_ne_zero_of_mod (by decide +kernel)
  C2 := by
    have h2 : 2 < k256p := by decide
    have e : K256.sswu.C2 = (0x25e9711ae8c0dadc46fdbcb72aadd8f4250b65073012ec80bc6ecb9c12973975 : ℕ) :=
      unMont_eq h2 _ _ (by decide +kernel)
    have h : ((0x25e9711ae8c0dadc46fdbcb72aadd8f4250b65073012ec80bc6ecb9c12973975 ^ 2 : ℕ) : ZMod k256p)
        = ((11 ^ 3 : ℕ) : ZMod k256p) := natCast_eq_of_mod (by decide +kernel)
    rw [e, K256.sswu_consts.2.2]
    rw [Nat.cast_pow, Nat.cast_pow] at h
    rw [h]; ring
  ex := by
    obtain ⟨h1, h2, h3⟩ := K256.sswu_consts
    have hA := natCast_ne_zero_of_mod (p := k256p) (a := K256.isoA) (by decide +kernel)
    have hZ := natCast_ne_zero_of_mod (p := k256p) (a := 11) (by decide +kernel)
    have hw : ((1771 : ℕ) : ZMod k256p) / (-(11 : ℕ) * (K256.isoA : ℕ))
        = (0xbb407e4438dd90ca6ba40716591522757e5c173c7232ad8b6c8bcd97de490391 : ℕ) := by
      rw [div_eq_iff (mul_ne_zero (neg_ne_zero.2 hZ) hA)]
      have : ((1771 + 0xbb407e4438dd90ca6ba40716591522757e5c173c7232ad8b6c8bcd97de490391 * 11 * K256.isoA : ℕ)
          : ZMod k256p) = (0 : ℕ) := natCast_eq_of_mod (by decide +kernel)
      rw [Nat.cast_add, Nat.cast_mul, Nat.cast_mul, Nat.cast_zero] at this
      linear_combination this
    rw [h1, h2, h3, hw]
    refine ⟨(0x2899ff0720f53efb09af4823587b279e148bb16bed075ba60fc2a97aff6ae188 : ℕ), ?_⟩
    rw [← Nat.cast_pow, ← Nat.cast_mul, ← Nat.cast_add, ← Nat.cast_add, ← Nat.cast_mul]
    exact natCast_eq_of_mod (by decide +kernel)

theorem P256.sswuOk : SswuOk P256.sswu where
  four := by decide +kernel
  C1 := by decide +kernel
  A := by
    rw [P256.sswu_consts.1, Ne, neg_eq_zero]
    have := natCast_ne_zero_of_mod (p := p256p) (a := 3) (by decide +kernel)
    exact_mod_cast this
  Z := by
    rw [P256.sswu_consts.2.2, Ne, neg_eq_zero]; exact natCast_ne_zero_of_mod (by decide +kernel)
  C2 := by
    have h2 : 2 < p256p := by decide
    have e : P256.sswu.C2 = (0x87438e5ed27613f9deb9dc092f06aaf8d3833faafb5a591dc004098eea05acfe : ℕ) :=
      unMont_eq h2 _ _ (by decide +kernel)
    have h : ((0x87438e5ed27613f9deb9dc092f06aaf8d3833faafb5a591dc004098eea05acfe ^ 2 : ℕ) : ZMod p256p)
        = ((10 ^ 3 : ℕ) : ZMod p256p) := natCast_eq_of_mod (by decide +kernel)
    rw [e, P256.sswu_consts.2.2]
    rw [Nat.cast_pow, Nat.cast_pow] at h
    rw [h]; ring
  ex := by
    obtain ⟨h1, h2, h3⟩ := P256.sswu_consts
    have hA := natCast_ne_zero_of_mod (p := p256p) (a := 3) (by decide +kernel)
    have hZ := natCast_ne_zero_of_mod (p := p256p) (a := 10) (by decide +kernel)
    have hA3 : (-3 : ZMod p256p) = -((3 : ℕ) : ZMod p256p) := by norm_num
    have hw : ((P256.bN : ℕ) : ZMod p256p) / (-(10 : ℕ) * -(3 : ℕ))
        = (0xa528bd8696bdaf996c65b982d94959d3146fe6a020693090bdba13132375f224 : ℕ) := by
      rw [div_eq_iff (mul_ne_zero (neg_ne_zero.2 hZ) (neg_ne_zero.2 hA))]
      have : ((P256.bN : ℕ) : ZMod p256p)
          = (0xa528bd8696bdaf996c65b982d94959d3146fe6a020693090bdba13132375f224 * 10 * 3 : ℕ) :=
        natCast_eq_of_mod (by decide +kernel)
      rw [Nat.cast_mul, Nat.cast_mul] at this
      linear_combination this
    rw [h1, h2, h3, C111_p256_params.2.1, hA3, hw]
    refine ⟨(0xe5fb73d16791ce358fb5adb2d33668a3b24099fd8d401f6685e0e994fb4d756 : ℕ), ?_⟩
    have : ((0xa528bd8696bdaf996c65b982d94959d3146fe6a020693090bdba13132375f224 ^ 3 + P256.bN : ℕ) : ZMod p256p)
        = (0xe5fb73d16791ce358fb5adb2d33668a3b24099fd8d401f6685e0e994fb4d756
          * 0xe5fb73d16791ce358fb5adb2d33668a3b24099fd8d401f6685e0e994fb4d756
          + 3 * 0xa528bd8696bdaf996c65b982d94959d3146fe6a020693090bdba13132375f224 : ℕ) :=
      natCast_eq_of_mod (by decide +kernel)
    rw [Nat.cast_add, Nat.cast_add, Nat.cast_mul, Nat.cast_mul, Nat.cast_pow] at this
    linear_combination this

/-- C160: on every field element the map used for secp256k1 is the simplified SWU map of RFC 9380 onto the isogenous
curve, with the constants of section 8.7. -/
theorem C160_k256_map (u : ZMod k256p) :
    IsSwu ((K256.isoA : ℕ) : ZMod k256p) (1771 : ℕ) (-(11 : ℕ)) lowBitOf u (osswu3mod4 lowBitOf K256.sswu u).1
      (osswu3mod4 lowBitOf K256.sswu u).2 := by
  have := osswu_isSwu K256.sswuOk u
  rwa [K256.sswu_consts.1, K256.sswu_consts.2.1, K256.sswu_consts.2.2] at this

/-- C160: … and the one used for P-256 maps onto the curve itself, with the constants of section 8.2. -/
theorem C160_p256_map (u : ZMod p256p) :
    IsSwu (-3) P256.b (-(10 : ℕ)) lowBitOf u (osswu3mod4 lowBitOf P256.sswu u).1
      (osswu3mod4 lowBitOf P256.sswu u).2 := by
  have := osswu_isSwu P256.sswuOk u
  rwa [P256.sswu_consts.1, P256.sswu_consts.2.1, P256.sswu_consts.2.2] at this

/-- The exceptional inputs: `u = 0` goes to the abscissa `B / (Z A)`. -/
example : (osswu3mod4 lowBitOf K256.sswu 0).1
    = (0xbb407e4438dd90ca6ba40716591522757e5c173c7232ad8b6c8bcd97de490391 : ℕ) := by decide +kernel

/-! ## C161: the isogeny and `Hash` -/

section Iso
variable {F : Type} [Field F] [DecidableEq F]

omit [DecidableEq F] in
theorem isoTail_eq (x : F) (n k : ℕ) : isoTail x n (x ^ k) = (List.range n).map fun i => x ^ (k + 1 + i) := by
  induction n generalizing k with
  | zero => rfl
  | succ n ih =>
    rw [isoTail, ← pow_succ, ih, List.range_succ_eq_map, List.map_cons, List.map_map]
    congr 1
    refine List.map_congr_left fun i _ => ?_
    simp only [Function.comp]
    congr 1
    omega

omit [DecidableEq F] in
theorem isoXs_eq (x : F) {n : ℕ} (h : 3 ≤ n) : isoXs x n = (List.range n).map (x ^ ·) := by
  obtain ⟨k, rfl⟩ : ∃ k, n = k + 3 := ⟨n - 3, by omega⟩
  rw [isoXs, Nat.add_sub_cancel, ← sq, isoTail_eq, List.range_succ_eq_map, List.range_succ_eq_map,
    List.range_succ_eq_map]
  simp only [List.map_cons, List.map_map, pow_zero, Nat.succ_eq_add_one, zero_add, pow_one]
  congr 3
  refine List.map_congr_left fun i _ => ?_
  simp only [Function.comp]
  congr 1
  omega

omit [DecidableEq F] in
theorem foldl_add_start (l : List (F × F)) (a : F) :
    l.foldl (fun out p => out + p.1 * p.2) a = a + l.foldl (fun out p => out + p.1 * p.2) 0 := by
  induction l generalizing a with
  | nil => simp
  | cons p l ih => rw [List.foldl_cons, ih, List.foldl_cons, ih (0 + _)]; ring

omit [DecidableEq F] in
theorem zip_powers (x : F) (k : List F) (n j : ℕ) (h : k.length ≤ n) :
    (((List.range n).map fun i => x ^ (j + i)).zip k).foldl (fun out p => out + p.1 * p.2) 0 = x ^ j * evalL k x := by
  induction k generalizing n j with
  | nil => simp [evalL]
  | cons c k ih =>
    obtain ⟨n, rfl⟩ : ∃ m, n = m + 1 := ⟨n - 1, by simp only [List.length_cons] at h; omega⟩
    rw [List.range_succ_eq_map, List.map_cons, List.zip_cons_cons, List.foldl_cons, foldl_add_start, List.map_map]
    have e : ((fun i => x ^ (j + i)) ∘ Nat.succ) = fun i => x ^ (j + 1 + i) := by
      funext i
      simp only [Function.comp]
      congr 1
      omega
    rw [e, ih n (j + 1) (by simpa using h), evalL_cons]
    ring

omit [DecidableEq F] in
theorem computeIsoK_eq (x : F) {n : ℕ} (h : 3 ≤ n) {k : List F} (hk : k.length ≤ n) :
    computeIsoK (isoXs x n) k = evalL k x := by
  rw [computeIsoK, isoXs_eq x h]
  have := zip_powers x k n 0 hk
  simpa using this

/-- the map when neither denominator vanishes -/
theorem IsogenyParams.map_eq (p : IsogenyParams F) (h3 : 3 ≤ p.xNum.length) {x y : F} (h1 : evalL p.xDen x ≠ 0)
    (h2 : evalL p.yDen x ≠ 0) :
    p.map x y = (evalL p.xNum x / evalL p.xDen x, evalL p.yNum x / evalL p.yDen x * y) := by
  have hd : ∀ k : List F, k.length ≤ max (max p.xNum.length p.xDen.length) (max p.yNum.length p.yDen.length) →
      computeIsoK (isoXs x (max (max p.xNum.length p.xDen.length) (max p.yNum.length p.yDen.length))) k = evalL k x :=
    fun k hk => computeIsoK_eq x (h3.trans (by simp)) hk
  simp only [IsogenyParams.map]
  rw [hd _ (by simp), hd _ (by simp), hd _ (by simp), hd _ (by simp), invert_of_ne h1, invert_of_ne h2]
  simp only [if_true, div_eq_mul_inv]

omit [DecidableEq F] in
/-- a point of one curve goes to a point of the other if the polynomials satisfy the identity -/
theorem iso_equation {A B b xn xd yn yd x y : F} (h1 : xd ≠ 0) (h2 : yd ≠ 0)
    (hid : yn ^ 2 * ((x ^ 3 + A * x + B) * xd ^ 3) = yd ^ 2 * (xn ^ 3 + b * xd ^ 3))
    (he : y ^ 2 = x ^ 3 + A * x + B) : (yn / yd * y) ^ 2 = (xn / xd) ^ 3 + b := by
  rw [mul_pow, he]
  field_simp
  linear_combination hid

end Iso

/-- the coefficients of the isogeny of secp256k1 (RFC 9380, appendix E.1) -/
def K256.isoN : IsogenyParams ℕ where
  xNum := [0x8e38e38e38e38e38e38e38e38e38e38e38e38e38e38e38e38e38e38daaaaa8c7,
    0x7d3d4c80bc321d5b9f315cea7fd44c5d595d2fc0bf63b92dfff1044f17c6581,
    0x534c328d23f234e6e2a413deca25caece4506144037c40314ecbd0b53d9dd262,
    0x8e38e38e38e38e38e38e38e38e38e38e38e38e38e38e38e38e38e38daaaaa88c]
  xDen := [0xd35771193d94918a9ca34ccbb7b640dd86cd409542f8487d9fe6b745781eb49b,
    0xedadc6f64383dc1df7c4b2d51b54225406d36b641f5e41bbc52a56612a8c6d14, 1]
  yNum := [0x4bda12f684bda12f684bda12f684bda12f684bda12f684bda12f684b8e38e23c,
    0xc75e0c32d5cb7c0fa9d0a54b12a0a6d5647ab046d686da6fdffc90fc201d71a3,
    0x29a6194691f91a73715209ef6512e576722830a201be2018a765e85a9ecee931,
    0x2f684bda12f684bda12f684bda12f684bda12f684bda12f684bda12f38e38d84]
  yDen := [0xfffffffffffffffffffffffffffffffffffffffffffffffffffffffefffff93b,
    0x7a06534bb8bdb49fd5e9e6632722c2989467c1bfc8e8d978dfb425d2685c2573,
    0x6484aa716545ca2cf3a70c3fa8fe337e0a3d21162f0d6299a7bf8192bfd2a76f, 1]

theorem map_unMont {p : ℕ} [Fact p.Prime] (h2 : 2 < p) : ∀ {l : List Limbs} {k : List ℕ},
    List.Forall₂ (fun l x => x * 2 ^ 256 % p = l.val % p) l k → l.map (unMont p) = castL p k
  | _, _, .nil => rfl
  | _, _, .cons h t => by
    rw [List.map_cons, map_unMont h2 t, unMont_eq h2 _ _ h]; rfl

/-- C161: the tables hold the published coefficients. -/
theorem C161_k256_tables : K256.iso = ⟨castL k256p K256.isoN.xNum, castL k256p K256.isoN.xDen,
    castL k256p K256.isoN.yNum, castL k256p K256.isoN.yDen⟩ := by
  have h2 : 2 < k256p := by decide
  simp only [K256.iso, IsogenyParams.mk.injEq]
  refine ⟨map_unMont h2 ?_, map_unMont h2 ?_, map_unMont h2 ?_, map_unMont h2 ?_⟩ <;>
    simp only [K256.isoLimbs, K256.isoN, List.forall₂_cons, List.forall₂_nil_left_iff, and_true] <;> decide +kernel

/-- the abscissa of the kernel of the isogeny -/
def K256.kernelX : ℕ := 0x89291c84de3e11f1041da6957255eed5fc964a4df050df221d6ad4ce6ab9c5a5

theorem K256.xDen_eq (x : ZMod k256p) : evalL (castL k256p K256.isoN.xDen) x = (x - (K256.kernelX : ℕ)) ^ 2 := by
  have h1 : ((0xedadc6f64383dc1df7c4b2d51b54225406d36b641f5e41bbc52a56612a8c6d14 + 2 * K256.kernelX : ℕ) : ZMod k256p)
    = (0 : ℕ) := natCast_eq_of_mod (by decide +kernel)
  have h0 : ((0xd35771193d94918a9ca34ccbb7b640dd86cd409542f8487d9fe6b745781eb49b : ℕ) : ZMod k256p)
    = (K256.kernelX * K256.kernelX : ℕ) := natCast_eq_of_mod (by decide +kernel)
  simp only [K256.isoN, evalL_castL_cons, h0]
  rw [Nat.cast_add, Nat.cast_mul, Nat.cast_zero, Nat.cast_ofNat (n := 2)] at h1
  rw [Nat.cast_mul, Nat.cast_one]
  simp only [castL, List.map_nil, evalL_nil]
  linear_combination x * h1

theorem K256.yDen_eq (x : ZMod k256p) : evalL (castL k256p K256.isoN.yDen) x = (x - (K256.kernelX : ℕ)) ^ 3 := by
  have h2 : ((0x6484aa716545ca2cf3a70c3fa8fe337e0a3d21162f0d6299a7bf8192bfd2a76f + 3 * K256.kernelX : ℕ) : ZMod k256p)
    = (0 : ℕ) := natCast_eq_of_mod (by decide +kernel)
  have h1 : ((0x7a06534bb8bdb49fd5e9e6632722c2989467c1bfc8e8d978dfb425d2685c2573 : ℕ) : ZMod k256p)
    = (3 * K256.kernelX ^ 2 : ℕ) := natCast_eq_of_mod (by decide +kernel)
  have h0 : ((0xfffffffffffffffffffffffffffffffffffffffffffffffffffffffefffff93b + K256.kernelX ^ 3 : ℕ) : ZMod k256p)
    = (0 : ℕ) := natCast_eq_of_mod (by decide +kernel)
  simp only [K256.isoN, evalL_castL_cons, h1]
  rw [Nat.cast_add, Nat.cast_mul, Nat.cast_zero, Nat.cast_ofNat (n := 3)] at h2
  rw [Nat.cast_add, Nat.cast_pow, Nat.cast_zero] at h0
  rw [Nat.cast_mul, Nat.cast_pow, Nat.cast_one, Nat.cast_ofNat (n := 3)]
  simp only [castL, List.map_nil, evalL_nil]
  linear_combination h0 + x ^ 2 * h2

theorem K256.b_eq : K256.b = (7 : ℕ) := by
  show ((K256.params.b.toNat : ℕ) : ZMod k256p) = _
  rw [show K256.params.b.toNat = 7 by decide]

/-- no point of the isogenous curve has the abscissa of the kernel -/
theorem K256.kernel_ne {x y : ZMod k256p} (h : y ^ 2 = x ^ 3 + (K256.isoA : ℕ) * x + (1771 : ℕ)) :
    x - (K256.kernelX : ℕ) ≠ 0 := by
  intro h0
  rw [sub_eq_zero] at h0
  have e : ((K256.kernelX ^ 3 + K256.isoA * K256.kernelX + 1771 : ℕ) : ZMod k256p) = (7 : ℕ) :=
    natCast_eq_of_mod (by decide +kernel)
  rw [Nat.cast_add, Nat.cast_add, Nat.cast_mul, Nat.cast_pow] at e
  rw [h0, e] at h
  exact not_isSquare_of_powMod (p := k256p) (fuel := 256) (a := 7) (by decide) (by decide) (by decide +kernel) ⟨y, by rw [← h, sq]⟩

theorem K256.iso_identity (x : ZMod k256p) :
    evalL (castL k256p K256.isoN.yNum) x ^ 2 * ((x ^ 3 + (K256.isoA : ℕ) * x + (1771 : ℕ))
      * evalL (castL k256p K256.isoN.xDen) x ^ 3)
    = evalL (castL k256p K256.isoN.yDen) x ^ 2 * (evalL (castL k256p K256.isoN.xNum) x ^ 3
      + (7 : ℕ) * evalL (castL k256p K256.isoN.xDen) x ^ 3) := by
  have key : mulN k256p (mulN k256p K256.isoN.yNum K256.isoN.yNum) (mulN k256p [1771, K256.isoA, 0, 1]
      (mulN k256p K256.isoN.xDen (mulN k256p K256.isoN.xDen K256.isoN.xDen)))
      = mulN k256p (mulN k256p K256.isoN.yDen K256.isoN.yDen) (addN k256p
        (mulN k256p K256.isoN.xNum (mulN k256p K256.isoN.xNum K256.isoN.xNum))
        (smulN k256p 7 (mulN k256p K256.isoN.xDen (mulN k256p K256.isoN.xDen K256.isoN.xDen)))) := by decide +kernel
  have h := congrArg (fun l => evalL (castL k256p l) x) key
  simp only [evalL_mulN, evalL_addN, evalL_smulN] at h
  have e : evalL (castL k256p [1771, K256.isoA, 0, 1]) x = x ^ 3 + (K256.isoA : ℕ) * x + (1771 : ℕ) := by
    simp only [evalL_castL_cons, Nat.cast_zero, Nat.cast_one]
    simp only [castL, List.map_nil, evalL_nil]
    ring
  rw [e] at h
  linear_combination h

/-- C161: every point of the isogenous curve is mapped, by the published rational functions with non-zero
denominators, to a point of secp256k1. -/
theorem C161_k256_isogeny {x y : ZMod k256p} (h : y ^ 2 = x ^ 3 + (K256.isoA : ℕ) * x + (1771 : ℕ)) :
    evalL (castL k256p K256.isoN.xDen) x ≠ 0 ∧ evalL (castL k256p K256.isoN.yDen) x ≠ 0 ∧
    K256.iso.map x y = (evalL (castL k256p K256.isoN.xNum) x / evalL (castL k256p K256.isoN.xDen) x,
      evalL (castL k256p K256.isoN.yNum) x / evalL (castL k256p K256.isoN.yDen) x * y) ∧
    (K256.iso.map x y).2 ^ 2 = (K256.iso.map x y).1 ^ 3 + 0 * (K256.iso.map x y).1 + K256.b := by
  have hk := K256.kernel_ne h
  have h1 : evalL (castL k256p K256.isoN.xDen) x ≠ 0 := by rw [K256.xDen_eq]; exact pow_ne_zero _ hk
  have h2 : evalL (castL k256p K256.isoN.yDen) x ≠ 0 := by rw [K256.yDen_eq]; exact pow_ne_zero _ hk
  have hm : K256.iso.map x y = (evalL (castL k256p K256.isoN.xNum) x / evalL (castL k256p K256.isoN.xDen) x,
      evalL (castL k256p K256.isoN.yNum) x / evalL (castL k256p K256.isoN.yDen) x * y) := by
    rw [C161_k256_tables]
    exact IsogenyParams.map_eq _ (by decide) h1 h2
  refine ⟨h1, h2, hm, ?_⟩
  rw [hm, K256.b_eq, zero_mul, add_zero]
  exact iso_equation h1 h2 (K256.iso_identity x) h

theorem rep_of_equation {p : ℕ} [Fact p.Prime] {a b : ZMod p} (h2 : (2 : ZMod p) ≠ 0)
    (hno : ∀ x : ZMod p, x ^ 3 + a * x + b ≠ 0) {x y : ZMod p} (h : y ^ 2 = x ^ 3 + a * x + b) :
    ∃ P : (curve a b).Point, P ≠ 0 ∧ Rep (⟨x, y, 1⟩ : Proj (ZMod p)) P := by
  have hy : y ≠ 0 := by rintro rfl; exact hno x (by rw [← h]; ring)
  refine ⟨.some x y (nonsingular_curve h2 hy h), by simp, ?_⟩
  exact ⟨one_ne_zero, by simp, by simp⟩

/-- C161: every field element is mapped to an affine point of secp256k1 … -/
theorem C161_k256_point (u : ZMod k256p) : ∃ P : K256.Group, P ≠ 0 ∧ Rep (K256.mapToCurve u) P :=
  rep_of_equation K256.two_ne K256.no_root (C161_k256_isogeny (C160_k256_map u).equation).2.2.2

/-- C161: … or of P-256. -/
theorem C161_p256_point (u : ZMod p256p) : ∃ P : P256.Group, P ≠ 0 ∧ Rep (P256.mapToCurve u) P :=
  rep_of_equation P256.two_ne P256.no_root (C160_p256_map u).equation

end Verif.Native
