import Verif.Native.FieldLemmas

/-!
# Inversion, square roots and decoding of field elements

* C113 `Invert` and `Sqrt` of the native fields are inversion and square root
* C112 `Cmp`, `SetBytes`, `SetBigInt` of the Pasta fields: what they do, and where that differs from the
  documented behaviour

`encode P x` are the Montgomery limbs of the residue `x`.
-/

set_option linter.unusedSectionVars false
set_option exponentiation.threshold 1000

namespace Verif.Native

open Primes

/-- C111: constants of the scalar field of BLS12-381 and of the Pasta fields. -/
theorem C111_more_constants :
    (blsFq.Ok ∧ blsFq.modulus.val.Prime) ∧ (pastaFp.Ok ∧ pastaFp.modulus.val.Prime) ∧
    (pastaFq.Ok ∧ pastaFq.modulus.val.Prime) := by
  have e1 : blsFq.modulus.val = blsr := by decide +kernel
  have e2 : pastaFp.modulus.val = pallasp := by decide +kernel
  have e3 : pastaFq.modulus.val = pallasq := by decide +kernel
  refine ⟨⟨⟨?_, ?_, ?_, ?_, ?_, ?_⟩, ?_⟩, ⟨⟨?_, ?_, ?_, ?_, ?_, ?_⟩, ?_⟩, ⟨⟨?_, ?_, ?_, ?_, ?_, ?_⟩, ?_⟩⟩
  iterate 6 (decide +kernel)
  · rw [e1]; exact fact_blsr.out
  iterate 6 (decide +kernel)
  · rw [e2]; exact fact_pallasp.out
  iterate 6 (decide +kernel)
  · rw [e3]; exact fact_pallasq.out

/-! ## C113: inversion -/

/-- What a caller expects of `Invert`: the flag tells whether the element is non-zero; if so the output is
the inverse, otherwise the output is untouched. -/
def InvertSpec (P : FieldParams) (invert : Limbs → Limbs → ℤ × Limbs) : Prop :=
  ∀ (out : Limbs) (x : P.Ring),
    (x ≠ 0 → ∃ y : P.Ring, x * y = 1 ∧ invert out (encode P x) = (1, encode P y)) ∧
    (x = 0 → invert out (encode P x) = (0, out))

theorem invertSpec_of {P : FieldParams} (hP : P.Ok) (hp : P.modulus.val.Prime) {n : ℕ}
    (hn : n = P.modulus.val - 2) {chain : Limbs → Limbs}
    (hc : ∀ x : P.Ring, chain (encode P x) = encode P (x ^ n)) :
    InvertSpec P (fun out arg => invertWith (chain arg) out arg) := by
  have : Fact P.modulus.val.Prime := ⟨hp⟩
  intro out x
  have h := invertWith_encode hP hp hn out x
  simp only [hc]
  constructor
  · intro hx
    exact ⟨x⁻¹, mul_inv_cancel₀ hx, by rw [h, if_neg hx]⟩
  · intro hx; rw [h, if_pos hx]

/-- C113: `Invert` of the base and scalar fields of secp256k1 and P-256 and of the scalar field of
BLS12-381. -/
theorem C113_invert : InvertSpec k256Fp k256FpInvert ∧ InvertSpec k256Fq k256FqInvert ∧
    InvertSpec p256Fp p256FpInvert ∧ InvertSpec p256Fq p256FqInvert ∧ InvertSpec blsFq blsFqInvert := by
  have hk := C111_constants
  have hb := C111_more_constants
  refine ⟨invertSpec_of hk.1.1 hk.1.2.2 (n := k256p - 2) (by decide +kernel) fun x => ?_,
    invertSpec_of hk.2.1.1 hk.2.1.2 (n := k256q - 2) (by decide +kernel) fun x => ?_,
    invertSpec_of hk.2.2.1.1 hk.2.2.1.2.2 (n := p256p - 2) (by decide +kernel) fun x => ?_,
    invertSpec_of hk.2.2.2.1 hk.2.2.2.2 (n := p256q - 2) (by decide +kernel) fun x => ?_,
    invertSpec_of hb.1.1 hb.1.2 (n := blsr - 2) (by decide +kernel) fun x => ?_⟩
  · have := k256FpChain_map (fun n => encode k256Fp (x ^ n)) (· + ·) _ (powSeq_mul hk.1.1 x) 1
    rwa [pow_one, k256FpChain_exp] at this
  · have := k256FqChain_map (fun n => encode k256Fq (x ^ n)) (· + ·) _ (powSeq_mul hk.2.1.1 x) 1
    rwa [pow_one, k256FqChain_exp] at this
  · have := p256FpChain_map (fun n => encode p256Fp (x ^ n)) (· + ·) _ (powSeq_mul hk.2.2.1.1 x) 1
    rwa [pow_one, p256FpChain_exp] at this
  · have := p256FqChain_map (fun n => encode p256Fq (x ^ n)) (· + ·) _ (powSeq_mul hk.2.2.2.1 x) 1
    rwa [pow_one, p256FqChain_exp] at this
  · have := blsFqChain_map (fun n => encode blsFq (x ^ n)) (· + ·) _ (powSeq_mul hb.1.1 x) 1
    rwa [pow_one, blsFqChain_exp] at this

/-- `1/2` in the base field of secp256k1 -/
example (out : Limbs) : ∃ y : k256Fp.Ring, 2 * y = 1 ∧
    k256FpInvert out (encode k256Fp 2) = (1, encode k256Fp y) := by
  refine (C113_invert.1 out 2).1 ?_
  rw [show (2 : k256Fp.Ring) = ((2 : ℕ) : k256Fp.Ring) by norm_num, Ne, ZMod.natCast_eq_zero_iff,
    Nat.dvd_iff_mod_eq_zero]
  decide +kernel

/-! ## C113: square roots -/

/-- What a caller expects of `Sqrt`: the flag tells whether the element is a square; if so the output is a
root, otherwise the output is untouched. -/
def SqrtSpec (P : FieldParams) (sqrt : Limbs → Limbs → ℤ × Limbs) : Prop :=
  ∀ (out : Limbs) (a : P.Ring),
    (IsSquare a → ∃ y : P.Ring, y ^ 2 = a ∧ sqrt out (encode P a) = (1, encode P y)) ∧
    (¬ IsSquare a → sqrt out (encode P a) = (0, out))

theorem sqrtSpec_of {P : FieldParams} (hP : P.Ok) {root : Limbs → Limbs} {rootF : P.Ring → P.Ring}
    (hr : ∀ a : P.Ring, root (encode P a) = encode P (rootF a))
    (hs : ∀ a : P.Ring, rootF a ^ 2 = a ↔ IsSquare a) :
    SqrtSpec P (fun out arg => sqrtWith P (root arg) out arg) := by
  intro out a
  have h := sqrtWith_encode hP _ out _ a (hr a)
  show (_ → ∃ y, _ ∧ sqrtWith P (root (encode P a)) out (encode P a) = _) ∧
    (_ → sqrtWith P (root (encode P a)) out (encode P a) = _)
  constructor
  · intro ha
    exact ⟨rootF a, (hs a).2 ha, by rw [h, if_pos ((hs a).2 ha), hr]⟩
  · intro ha
    rw [h, if_neg (fun hh => ha ((hs a).1 hh))]

theorem sqrtPow_spec {P : FieldParams} (hP : P.Ok) (hp : P.modulus.val.Prime) (e : Limbs)
    (he : 4 * e.val = P.modulus.val + 1) : SqrtSpec P (sqrtPow P e) := by
  have : Fact P.modulus.val.Prime := ⟨hp⟩
  refine sqrtSpec_of hP (root := fun a => pow (montMul P) P.R a e) (rootF := fun a => a ^ e.val)
    (fun a => ?_) fun a => ⟨fun h => ⟨_, by rw [← pow_two]; exact h.symm⟩, ?_⟩
  · rw [R_encode hP, pow_map (encode P) (· * ·) (montMul P) (montMul_encode hP), pow_eq]
  · rintro ⟨r, rfl⟩
    have hr : r ^ P.modulus.val = r := ZMod.pow_card r
    calc ((r * r) ^ e.val) ^ 2 = r ^ (4 * e.val) := by
          rw [← pow_two, ← pow_mul, ← pow_mul]; congr 1; ring
      _ = r * r := by rw [he, pow_succ, hr]

theorem isOne_encode {P : FieldParams} (hP : P.Ok) (x : P.Ring) :
    decide (isOne P (encode P x) = 1) = decide (x = 1) := by
  congr 1
  rw [(C53_exp hP x x).2]
  split_ifs with h <;> simp [h]

theorem tsRoot_encode {P : FieldParams} (hP : P.Ok) (c5 : P.Ring) (c3 : Limbs) (s : ℕ) (a : P.Ring) :
    tsRoot (montMul P) (fun b => isOne P b = 1) P.R (encode P c5) c3 s (encode P a)
      = encode P (tsRoot (· * ·) (fun b => b = 1) 1 c5 c3 s a) := by
  rw [R_encode hP]
  exact tsRoot_map (encode P) (· * ·) (montMul P) (fun b => b = 1) _ (montMul_encode hP)
    (fun x => isOne_encode hP x) _ _ _ _ _

theorem sqrtTS_spec {P : FieldParams} (hP : P.Ok) (hp : P.modulus.val.Prime) {c5 : Limbs} (c : P.Ring)
    (hc : c5 = encode P c) (c3 : Limbs) (s : ℕ) (hs : 1 ≤ s)
    (h3 : P.modulus.val - 1 = 2 ^ s * (2 * c3.val + 1)) (h5 : c ^ 2 ^ (s - 1) = -1) :
    SqrtSpec P (sqrtTS P c5 c3 s) := by
  have : Fact P.modulus.val.Prime := ⟨hp⟩
  subst hc
  exact sqrtSpec_of hP (root := fun a => tsRoot (montMul P) (fun b => isOne P b = 1) P.R (encode P c) c3 s a)
    (rootF := fun a => tsRoot (· * ·) (fun b => b = 1) 1 c c3 s a)
    (fun a => tsRoot_encode hP c c3 s a)
    (fun a => tsRoot_sq _ (fun b => by simp) c c3 s hs h3 h5 a)

/-- the primitive `2^32`-th root of unity of the BLS12-381 scalar field, computed on every call -/
theorem blsFq_c5 : pow (montMul blsFq) blsFq.R blsFqGenerator
      ⟨0xfffe5bfeffffffff, 0x09a1d80553bda402, 0x299d7d483339d808, 0x0000000073eda753⟩
    = encode blsFq (((7 : ℕ) : blsFq.Ring) ^ (⟨0xfffe5bfeffffffff, 0x09a1d80553bda402, 0x299d7d483339d808,
        0x0000000073eda753⟩ : Limbs).val) := by
  have hb := C111_more_constants.1.1
  have hg : blsFqGenerator = encode blsFq ((7 : ℕ) : blsFq.Ring) := by
    rw [encode_natCast hb, ← Limbs.val_inj]; decide +kernel
  rw [hg, R_encode hb, pow_map (encode blsFq) (· * ·) (montMul blsFq) (montMul_encode hb), pow_eq]

/-- C113: `Sqrt` of the base and scalar fields of secp256k1 and P-256 and of the scalar field of
BLS12-381. -/
theorem C113_sqrt : SqrtSpec k256Fp k256FpSqrt ∧ SqrtSpec k256Fq k256FqSqrt ∧
    SqrtSpec p256Fp p256FpSqrt ∧ SqrtSpec p256Fq p256FqSqrt ∧ SqrtSpec blsFq blsFqSqrt := by
  have hk := C111_constants
  have hb := C111_more_constants
  refine ⟨sqrtPow_spec hk.1.1 hk.1.2.2 _ (by decide +kernel), ?_,
    sqrtPow_spec hk.2.2.1.1 hk.2.2.1.2.2 _ (by decide +kernel), ?_, ?_⟩
  · refine sqrtTS_spec hk.2.1.1 hk.2.1.2
      ((0xc1dc060e7a91986df9879a3fbc483a898bdeab680756045992f4b5402b052f2 : ℕ) : k256Fq.Ring)
      ?_ _ 6 (by norm_num) (by decide +kernel) (sq_eq_neg_one (by decide +kernel) (by decide +kernel))
    rw [encode_natCast hk.2.1.1, ← Limbs.val_inj]; decide +kernel
  · refine sqrtTS_spec hk.2.2.2.1 hk.2.2.2.2
      ((0xffc97f062a770992ba807ace842a3dfc1546cad004378daf0592d7fbb41e6602 : ℕ) : p256Fq.Ring)
      ?_ _ 4 (by norm_num) (by decide +kernel) (sq_eq_neg_one (by decide +kernel) (by decide +kernel))
    rw [encode_natCast hk.2.2.2.1, ← Limbs.val_inj]; decide +kernel
  · refine sqrtTS_spec hb.1.1 hb.1.2 _ blsFq_c5 _ 32 (by norm_num) (by decide +kernel) ?_
    rw [← pow_mul]
    have h := Pock.powMod_eq blsFq.modulus.val 256 7 ((⟨0xfffe5bfeffffffff, 0x09a1d80553bda402,
      0x299d7d483339d808, 0x0000000073eda753⟩ : Limbs).val * 2 ^ (32 - 1)) 1 (by decide +kernel)
    rw [Nat.cast_one, one_mul] at h
    rw [← h]
    have e : Pock.powMod blsFq.modulus.val 256 7 ((⟨0xfffe5bfeffffffff, 0x09a1d80553bda402,
      0x299d7d483339d808, 0x0000000073eda753⟩ : Limbs).val * 2 ^ (32 - 1)) 1 = blsFq.modulus.val - 1 := by
      decide +kernel
    rw [e, Nat.cast_sub (by decide +kernel)]
    simp

/-- `4` has a root, found by Tonelli–Shanks -/
example (out : Limbs) : ∃ y : p256Fq.Ring, y ^ 2 = 4 ∧
    p256FqSqrt out (encode p256Fq 4) = (1, encode p256Fq y) :=
  (C113_sqrt.2.2.2.1 out 4).1 ⟨2, by norm_num⟩

/-! ## The Pasta fields -/

/-- C113: `Invert` of the Pasta fields: the second result tells whether the element is non-zero; the first is
the inverse, or zero. -/
theorem C113_pasta_invert :
    (∀ x : pastaFp.Ring, (x ≠ 0 → ∃ y, x * y = 1 ∧ pastaFpInvert (encode pastaFp x) = (encode pastaFp y, true)) ∧
      (x = 0 → pastaFpInvert (encode pastaFp x) = (encode pastaFp 0, false))) ∧
    (∀ x : pastaFq.Ring, (x ≠ 0 → ∃ y, x * y = 1 ∧ pastaFqInvert (encode pastaFq x) = (encode pastaFq y, true)) ∧
      (x = 0 → pastaFqInvert (encode pastaFq x) = (encode pastaFq 0, false))) := by
  have key : ∀ {P : FieldParams} (hP : P.Ok) (hp : P.modulus.val.Prime) (e : Limbs)
      (he : e.val = P.modulus.val - 2) (x : P.Ring),
      (x ≠ 0 → ∃ y, x * y = 1 ∧ pastaInvert P e (encode P x) = (encode P y, true)) ∧
      (x = 0 → pastaInvert P e (encode P x) = (encode P 0, false)) := by
    intro P hP hp e he x
    have : Fact P.modulus.val.Prime := ⟨hp⟩
    have hpow : pow (montMul P) P.R (encode P x) e = encode P (x ^ e.val) := by
      rw [R_encode hP, pow_map (encode P) (· * ·) (montMul P) (montMul_encode hP), pow_eq]
    have hz : ((encode P x).l0 ||| (encode P x).l1 ||| (encode P x).l2 ||| (encode P x).l3 == 0)
        = decide (x = 0) := by
      rw [Bool.eq_iff_iff, beq_iff_eq, decide_eq_true_iff, ← encode_val_zero hP, or_eq_zero, or_eq_zero,
        or_eq_zero]
      simp only [← UInt64.toNat_inj, Limbs.val, UInt64.toNat_zero]
      omega
    unfold pastaInvert
    rw [hpow, hz]
    have h2 : 2 ≤ P.modulus.val := hp.two_le
    constructor
    · intro hx
      refine ⟨x⁻¹, mul_inv_cancel₀ hx, ?_⟩
      have h1 : x ^ (P.modulus.val - 1) = 1 := ZMod.pow_card_sub_one_eq_one hx
      rw [show P.modulus.val - 1 = e.val + 1 by omega, pow_succ] at h1
      rw [eq_inv_of_mul_eq_one_left h1]
      simp [hx]
    · rintro rfl
      have : e.val ≠ 0 := by
        intro h0
        have h3 : P.modulus.val = 2 := by omega
        have := hP.odd
        omega
      rw [zero_pow this]; simp
  have hb := C111_more_constants
  exact ⟨key hb.2.1.1 hb.2.1.2 _ (by decide +kernel), key hb.2.2.1 hb.2.2.2 _ (by decide +kernel)⟩

/-- C113: `Sqrt` of the Pasta fields: the second result tells whether the element is a square, and then the
first is a root. -/
theorem C113_pasta_sqrt :
    (∀ a : pastaFp.Ring, ∃ y, pastaFpSqrt (encode pastaFp a) = (encode pastaFp y, decide (y ^ 2 = a)) ∧
      (y ^ 2 = a ↔ IsSquare a)) ∧
    (∀ a : pastaFq.Ring, ∃ y, pastaFqSqrt (encode pastaFq a) = (encode pastaFq y, decide (y ^ 2 = a)) ∧
      (y ^ 2 = a ↔ IsSquare a)) := by
  have key : ∀ {P : FieldParams} (hP : P.Ok) (hp : P.modulus.val.Prime) {c5 : Limbs} (c : P.Ring)
      (hc : c5 = encode P c) (c3 : Limbs) (s : ℕ) (hs : 1 ≤ s)
      (h3 : P.modulus.val - 1 = 2 ^ s * (2 * c3.val + 1)) (h5 : c ^ 2 ^ (s - 1) = -1) (a : P.Ring),
      ∃ y, pastaSqrt P c5 c3 s (encode P a) = (encode P y, decide (y ^ 2 = a)) ∧
        (y ^ 2 = a ↔ IsSquare a) := by
    intro P hP hp c5 c hc c3 s hs h3 h5 a
    have : Fact P.modulus.val.Prime := ⟨hp⟩
    subst hc
    have hroot : tsRoot (montMul P) (fun b => b = P.R) P.R (encode P c) c3 s (encode P a)
        = encode P (tsRoot (· * ·) (fun b => b = 1) 1 c c3 s a) := by
      rw [R_encode hP]
      refine tsRoot_map (encode P) (· * ·) (montMul P) (fun b => b = 1) _ (montMul_encode hP)
        (fun x => ?_) _ _ _ _ _
      rw [Bool.eq_iff_iff]; simp [encode_inj hP]
    refine ⟨tsRoot (· * ·) (fun b => b = 1) 1 c c3 s a, ?_,
      tsRoot_sq _ (fun b => by simp) c c3 s hs h3 h5 a⟩
    unfold pastaSqrt
    simp only [hroot, montMul_encode hP, encode_inj hP, ← pow_two]
  have hb := C111_more_constants
  constructor
  · refine key hb.2.1.1 hb.2.1.2
      ((0x2bce74deac30ebda362120830561f81aea322bf2b7bb7584bdad6fabd87ea32f : ℕ) : pastaFp.Ring)
      ?_ _ 32 (by norm_num) (by decide +kernel) (sq_eq_neg_one (by decide +kernel) (by decide +kernel))
    rw [encode_natCast hb.2.1.1, ← Limbs.val_inj]; decide +kernel
  · refine key hb.2.2.1 hb.2.2.2
      ((0x2de6a9b8746d3f589e5c4dfd492ae26e9bb97ea3c106f049a70e2c1102b6d05f : ℕ) : pastaFq.Ring)
      ?_ _ 32 (by norm_num) (by decide +kernel) (sq_eq_neg_one (by decide +kernel) (by decide +kernel))
    rw [encode_natCast hb.2.2.1, ← Limbs.val_inj]; decide +kernel

example : ∃ y, pastaFpSqrt (encode pastaFp 9) = (encode pastaFp y, decide (y ^ 2 = 9)) ∧ y ^ 2 = 9 := by
  obtain ⟨y, h, hy⟩ := C113_pasta_sqrt.1 9
  exact ⟨y, h, hy.2 ⟨3, by norm_num⟩⟩

/-! ## C112: comparison and decoding in the Pasta fields -/

/-- the shape of a Pasta modulus -/
structure PastaShape (P : FieldParams) : Prop where
  ok : P.Ok
  prime : P.modulus.val.Prime
  l3 : P.modulus.l3.toNat = 2 ^ 62
  l2 : P.modulus.l2.toNat = 0
  l1 : P.modulus.l1.toNat < 2 ^ 63
  l0 : 2 ^ 63 < P.modulus.l0.toNat

theorem pastaFp_shape : PastaShape pastaFp :=
  ⟨C111_more_constants.2.1.1, C111_more_constants.2.1.2, by decide, by decide, by decide, by decide⟩
theorem pastaFq_shape : PastaShape pastaFq :=
  ⟨C111_more_constants.2.2.1, C111_more_constants.2.2.2, by decide, by decide, by decide, by decide⟩

/-- C112: `Cmp` is the order of the integers the limbs stand for, provided no two corresponding limbs are
`2^63` or more apart. -/
theorem C112_cmp_close (l m : Limbs)
    (h : ∀ f ∈ [Limbs.l0, Limbs.l1, Limbs.l2, Limbs.l3],
      (f l).toNat < (f m).toNat + 2 ^ 63 ∧ (f m).toNat < (f l).toNat + 2 ^ 63) :
    (pastaCmp l m = -1 ↔ l.val < m.val) ∧ (pastaCmp l m = 0 ↔ l.val = m.val) ∧
    (pastaCmp l m = 1 ↔ m.val < l.val) := by
  simp only [List.forall_mem_cons, List.not_mem_nil, false_implies, implies_true, and_true] at h
  obtain ⟨h0, h1, h2, h3⟩ := h
  have e : pastaCmp l m = cmpHelper l m := by
    rw [pastaCmp_eq, cmpHelper_eq, ← then_compare,
      signOrd_eq l.l0.toNat_lt m.l0.toNat_lt h0.1 h0.2, signOrd_eq l.l1.toNat_lt m.l1.toNat_lt h1.1 h1.2,
      signOrd_eq l.l2.toNat_lt m.l2.toNat_lt h2.1 h2.2, signOrd_eq l.l3.toNat_lt m.l3.toNat_lt h3.1 h3.2]
  rw [e]; exact C54_cmp l m

/-- C112: without that proviso `Cmp` can answer "less" for a larger value and "greater" for a smaller one,
in both fields, also for reduced values. -/
theorem C112_cmp_wrong (P : FieldParams) (h : P = pastaFp ∨ P = pastaFq) :
    ∃ l m : Limbs, l.val < P.modulus.val ∧ m.val < P.modulus.val ∧ l.val < m.val ∧
      pastaCmp l m = 1 ∧ pastaCmp m l = -1 := by
  refine ⟨⟨0, 0, 0, 0⟩, ⟨2 ^ 63 + 1, 0, 0, 0⟩, ?_⟩
  rcases h with rfl | rfl <;> decide +kernel

section Decode
variable {P : FieldParams} (hP : PastaShape P)
include hP

theorem fromBytes_val {b : List UInt8} (hb : b.length = 32) : (fromBytes b).val = leNat b := by
  refine Limbs.val_ofNat ?_
  have := leNat_lt b
  rw [hb] at this
  calc _ < 256 ^ 32 := this
    _ = 2 ^ 256 := by norm_num

omit hP in
theorem pastaSetBytes_eq (b : List UInt8) : pastaSetBytes P b =
    if pastaCmp (fromBytes b) P.modulus = -1 then .ok (toMont P (fromBytes b)) else .error .error := by
  show (Go.guard (¬ (pastaCmp (fromBytes b) P.modulus ≠ -1)) >>= fun _ => _) = _
  by_cases h : pastaCmp (fromBytes b) P.modulus = -1
  · rw [Go.guard_true (by rw [not_not]; exact h), if_pos h]; rfl
  · rw [Go.guard_false (by rw [not_not]; exact h), if_neg h]; rfl

/-- C112: exactly which 32-byte strings `SetBytes` accepts, among those of canonical elements: the ones that
are not between `2^63` and the lowest limb of the modulus below the modulus. -/
theorem C112_setBytes_canonical (b : List UInt8) (hb : b.length = 32)
    (hlt : leNat b < P.modulus.val) :
    pastaSetBytes P b = if 2 ^ 63 ≤ P.modulus.val - leNat b ∧ P.modulus.val - leNat b ≤ P.modulus.l0.toNat
      then .error .error else .ok (encode P (leNat b : P.Ring)) := by
  have hv := fromBytes_val hP hb
  rw [pastaSetBytes_eq, toMont_val hP.ok, hv]
  have key : pastaCmp (fromBytes b) P.modulus = -1 ↔
      ¬ (2 ^ 63 ≤ P.modulus.val - leNat b ∧ P.modulus.val - leNat b ≤ P.modulus.l0.toNat) := by
    rw [pastaCmp_lt, ← hv]
    rw [← hv] at hlt
    have h0 := (fromBytes b).l0.toNat_lt
    have h1 := (fromBytes b).l1.toNat_lt
    have h2 := (fromBytes b).l2.toNat_lt
    have h3 := (fromBytes b).l3.toNat_lt
    have m0 := P.modulus.l0.toNat_lt
    have p0 := hP.l0
    have p1 := hP.l1
    simp only [Limbs.val, hP.l2, hP.l3] at hlt ⊢
    generalize (fromBytes b).l0.toNat = a0 at *
    generalize (fromBytes b).l1.toNat = a1 at *
    generalize (fromBytes b).l2.toNat = a2 at *
    generalize (fromBytes b).l3.toNat = a3 at *
    generalize P.modulus.l0.toNat = q0 at *
    generalize P.modulus.l1.toNat = q1 at *
    omega
  by_cases h : 2 ^ 63 ≤ P.modulus.val - leNat b ∧ P.modulus.val - leNat b ≤ P.modulus.l0.toNat
  · rw [if_pos h, if_neg (fun hh => key.1 hh h)]
  · rw [if_neg h, if_pos (key.2 h)]

/-- C112: exactly which 32-byte strings `SetBytes` accepts. Only the first line is intended. -/
theorem C112_setBytes_iff (b : List UInt8) (hb : b.length = 32) :
    (∃ v, pastaSetBytes P b = .ok v) ↔
      (leNat b < P.modulus.val ∧
        ¬ (2 ^ 63 ≤ P.modulus.val - leNat b ∧ P.modulus.val - leNat b ≤ P.modulus.l0.toNat)) ∨
      2 ^ 63 + 2 ^ 62 < leNat b / 2 ^ 192 ∨
      (leNat b / 2 ^ 192 = 2 ^ 62 ∧ 2 ^ 63 < leNat b / 2 ^ 128 % 2 ^ 64) ∨
      (leNat b / 2 ^ 128 = 2 ^ 126 ∧ P.modulus.l1.toNat + 2 ^ 63 < leNat b / 2 ^ 64 % 2 ^ 64) := by
  have hv := fromBytes_val hP hb
  have hex : (∃ v, pastaSetBytes P b = .ok v) ↔ pastaCmp (fromBytes b) P.modulus = -1 := by
    rw [pastaSetBytes_eq]
    split_ifs with h
    · exact ⟨fun _ => h, fun _ => ⟨_, rfl⟩⟩
    · exact ⟨fun ⟨v, hv⟩ => by (cases hv), fun hh => absurd hh h⟩
  rw [hex, pastaCmp_lt, ← hv]
  have h0 := (fromBytes b).l0.toNat_lt
  have h1 := (fromBytes b).l1.toNat_lt
  have h2 := (fromBytes b).l2.toNat_lt
  have h3 := (fromBytes b).l3.toNat_lt
  have m0 := P.modulus.l0.toNat_lt
  have p0 := hP.l0
  have p1 := hP.l1
  simp only [Limbs.val, hP.l2, hP.l3]
  generalize (fromBytes b).l0.toNat = a0 at *
  generalize (fromBytes b).l1.toNat = a1 at *
  generalize (fromBytes b).l2.toNat = a2 at *
  generalize (fromBytes b).l3.toNat = a3 at *
  generalize P.modulus.l0.toNat = q0 at *
  generalize P.modulus.l1.toNat = q1 at *
  have e1 : (a0 + 2 ^ 64 * (a1 + 2 ^ 64 * (a2 + 2 ^ 64 * a3))) / 2 ^ 192 = a3 := by omega
  have e2 : (a0 + 2 ^ 64 * (a1 + 2 ^ 64 * (a2 + 2 ^ 64 * a3))) / 2 ^ 128 = a2 + 2 ^ 64 * a3 := by omega
  have e3 : (a0 + 2 ^ 64 * (a1 + 2 ^ 64 * (a2 + 2 ^ 64 * a3))) / 2 ^ 64
      = a1 + 2 ^ 64 * (a2 + 2 ^ 64 * a3) := by omega
  rw [e1, e2, e3, Nat.add_mul_mod_self_left, Nat.add_mul_mod_self_left, Nat.mod_eq_of_lt h2,
    Nat.mod_eq_of_lt h1]
  constructor
  · intro h
    omega
  · intro h
    omega

/-- C112: `SetBytes` accepts every 32-byte string whose top limb exceeds `2^63 + 2^62`, although all of them
are at least the modulus; the element is the residue, which has a different encoding. -/
theorem C112_setBytes_noncanonical (b : List UInt8) (hb : b.length = 32)
    (hge : 2 ^ 192 * (2 ^ 63 + 2 ^ 62 + 1) ≤ leNat b) :
    P.modulus.val < leNat b ∧ pastaSetBytes P b = .ok (encode P (leNat b : P.Ring)) ∧
      bytesOf P (encode P (leNat b : P.Ring)) ≠ b := by
  have hv := fromBytes_val hP hb
  have hm : P.modulus.val < leNat b := by
    refine lt_of_lt_of_le ?_ hge
    have m0 := P.modulus.l0.toNat_lt
    have p1 := hP.l1
    simp only [Limbs.val, hP.l2, hP.l3]
    omega
  refine ⟨hm, ?_, ?_⟩
  · rw [pastaSetBytes_eq, toMont_val hP.ok, hv]
    rw [if_pos]
    · rw [pastaCmp_lt]
      left
      rw [← hv] at hge
      have h0 := (fromBytes b).l0.toNat_lt
      have h1 := (fromBytes b).l1.toNat_lt
      have h2 := (fromBytes b).l2.toNat_lt
      have h3 := (fromBytes b).l3.toNat_lt
      simp only [Limbs.val, hP.l3] at hge ⊢
      omega
  · intro h
    have := C57_bytes hP.ok (leNat b : P.Ring)
    rw [h] at this
    have hne := hP.ok.neZero
    have hl : leNat b = ((leNat b : ℕ) : P.Ring).val := by
      conv_lhs => rw [this]
      refine leNat_leBytes _ _ ?_
      calc _ < 2 ^ 256 := hP.ok.val_lt _
        _ = 256 ^ 32 := by norm_num
    have := ZMod.val_lt ((leNat b : ℕ) : P.Ring)
    rw [← hl] at this
    omega

/-- C112: round trip through bytes: exact condition. -/
theorem C112_roundtrip (x : P.Ring) :
    pastaSetBytes P (bytesOf P (encode P x)) =
      if 2 ^ 63 ≤ P.modulus.val - x.val ∧ P.modulus.val - x.val ≤ P.modulus.l0.toNat
      then .error .error else .ok (encode P x) := by
  have := hP.ok.neZero
  have hl : leNat (leBytes 32 x.val) = x.val := by
    refine leNat_leBytes _ _ ?_
    calc _ < 2 ^ 256 := hP.ok.val_lt _
      _ = 256 ^ 32 := by norm_num
  rw [C57_bytes hP.ok, C112_setBytes_canonical hP _ (leBytes_length _ _)
    (by rw [hl]; exact ZMod.val_lt x), hl, ZMod.natCast_zmod_val]

/-- C112: `SetBigInt` sets the residue of the integer, unless the negated residue lies between `2^63` and the
lowest limb of the modulus: then the receiver keeps its old value. -/
theorem C112_setBigInt (f : Limbs) (z : ℤ) :
    pastaSetBigInt P f z = if 2 ^ 63 ≤ P.modulus.val - z % P.modulus.val ∧
        P.modulus.val - z % P.modulus.val ≤ P.modulus.l0.toNat then f else encode P (z : P.Ring) := by
  have hpos : (0 : ℤ) < P.modulus.val := by have := hP.ok.one_lt; omega
  have h0 := Int.emod_nonneg z hpos.ne'
  have h1 := Int.emod_lt_of_pos z hpos
  obtain ⟨n, hn⟩ := Int.eq_ofNat_of_zero_le h0
  have hlt : n < P.modulus.val := by omega
  have hz : (z : P.Ring) = (n : P.Ring) := by
    rw [← Int.cast_natCast n, ← hn, ZMod.intCast_mod]
  have hl : leNat (beBytes 32 n).reverse = n := by
    rw [← beNat_eq_leNat_reverse, beNat_beBytes]
    calc n < P.modulus.val := hlt
      _ < 2 ^ 256 := P.modulus.val_lt
      _ = 256 ^ 32 := by norm_num
  unfold pastaSetBigInt
  rw [hP.ok.bi, hn]
  simp only [Int.toNat_natCast]
  rw [C112_setBytes_canonical hP _ (by rw [List.length_reverse, beBytes_length])
    (by rw [hl]; exact hlt), hl, hz]
  by_cases h : 2 ^ 63 ≤ P.modulus.val - n ∧ P.modulus.val - n ≤ P.modulus.l0.toNat
  · rw [if_pos h, if_pos (by omega)]
  · rw [if_neg h, if_neg (by omega)]

end Decode

/-- C112: some reduced scalar does not survive `Bytes` followed by `SetBytes`: `-2^63`. -/
theorem C112_roundtrip_fails (P : FieldParams) (h : PastaShape P) :
    pastaSetBytes P (bytesOf P (encode P (-(2 ^ 63) : P.Ring))) = .error .error := by
  have h1 := h.ok.neZero
  have hv : (-(2 ^ 63) : P.Ring).val = P.modulus.val - 2 ^ 63 := by
    have hm : 2 ^ 63 < P.modulus.val := by
      have := h.l0; simp only [Limbs.val, h.l3, h.l2]; omega
    have e : (-(2 ^ 63) : P.Ring) = ((P.modulus.val - 2 ^ 63 : ℕ) : P.Ring) := by
      rw [Nat.cast_sub hm.le]; push_cast; rw [ZMod.natCast_self]; ring
    rw [e, ZMod.val_natCast, Nat.mod_eq_of_lt (by omega)]
  have hm : 2 ^ 63 < P.modulus.val := by
    have := h.l0; simp only [Limbs.val, h.l3, h.l2]; omega
  have := h.l0
  rw [C112_roundtrip h, hv, if_pos (by omega)]

/-- C112: two different byte strings decode to the same element: the all-ones string and the canonical
encoding of its residue. -/
theorem C112_two_encodings (P : FieldParams) (h : PastaShape P) :
    ∃ b : List UInt8, b.length = 32 ∧ P.modulus.val ≤ leNat b ∧
      pastaSetBytes P b = .ok (encode P (leNat b : P.Ring)) := by
  have hl : leNat (List.replicate 32 255) = 2 ^ 256 - 1 := by decide +kernel
  obtain ⟨h1, h2, _⟩ := C112_setBytes_noncanonical h (List.replicate 32 255) (by decide)
    (by rw [hl]; norm_num)
  exact ⟨_, by decide, h1.le, h2⟩

/-- C112: `ScalarPallas.New` is the integer it is given, for every 64-bit integer but the least one, for
which it is zero. -/
theorem C112_new (v : Int64) : pallasScalarNew v =
    if v = Int64.minValue then encode pastaFq 0 else encode pastaFq (v.toInt : pastaFq.Ring) := by
  have hz : (⟨0, 0, 0, 0⟩ : Limbs) = encode pastaFq 0 := by
    rw [← Limbs.val_inj, (encode_val_zero pastaFq_shape.ok 0).2 rfl]; decide
  unfold pallasScalarNew
  rw [C112_setBigInt pastaFq_shape, hz]
  have hm : pastaFq.modulus.val = pallasq := by decide +kernel
  have hm0 : pastaFq.modulus.l0.toNat = 0x8c46eb2100000001 := by decide
  have hlo := v.le_toInt
  have hhi := v.toInt_lt
  have hiff : v = Int64.minValue ↔ v.toInt = -2 ^ 63 := by
    rw [← Int64.toInt_inj]; rfl
  refine if_congr ?_ rfl rfl
  rw [hiff, hm, hm0]
  generalize v.toInt = z at *
  unfold pallasq
  omega

example : pallasScalarNew Int64.minValue = pallasScalarNew 0 := by
  rw [C112_new, C112_new, if_pos rfl, if_neg (by decide)]; rfl

end Verif.Native
