import Verif.Native.CurveOrder
import Verif.Pallas.EpProps

/-!
# The order of the Pallas group

* C169 the group of Pallas has exactly `q` points and the generator generates it; `Mul` is the action of the scalars
-/

set_option linter.unusedSectionVars false
set_option exponentiation.threshold 600

namespace Verif.Pallas

open Primes Native WeierstrassCurve.Affine

/-- the published ordinate of the generator -/
def gyN : ℕ := 0x1b74b5a30a12937c53dfa9f06378ee548f655bd4333d477119cf7a23caed2abb

theorem epGenerator_eq : epGenerator = ⟨1, (gyN : ℕ), 1⟩ := by
  unfold epGenerator lit
  rw [unMont_eq (p := pallasp) (by decide) _ gyN (by decide +kernel)]

theorem gen_equation : ((gyN : ℕ) : Fp) ^ 2 = 1 ^ 3 + 0 * 1 + 5 := by
  have : ((gyN ^ 2 : ℕ) : Fp) = ((6 : ℕ) : Fp) := natCast_eq_of_mod (by decide +kernel)
  push_cast at this
  rw [this]; norm_num

theorem gy_ne : ((gyN : ℕ) : Fp) ≠ 0 := by
  rw [Ne, ZMod.natCast_eq_zero_iff, Nat.dvd_iff_mod_eq_zero]; decide +kernel

/-- the generator as a point -/
def gen : Group := .some _ _ (nonsingular_curve two_ne gy_ne gen_equation)

theorem gen_rep : JRep epGenerator gen := by
  rw [epGenerator_eq]
  exact ⟨one_ne_zero, by simp, by simp⟩

theorem gen_ne : gen ≠ 0 := by intro h; cases h

/-- C169: the generator of Pallas has order `q`. -/
theorem C169_pallas_generator : addOrderOf gen = pallasq := by
  refine order_of fact_pallasq.out gen_ne ?_
  refine Facts.nsmul_eq_zero (rawN := Facts.k256Raw pallasp 5) (raw := K256.raw (5 : Fp))
    (fun s t => by rw [Facts.castP_k256Raw]; norm_num) (K256.rawOk _) two_ne no_root 256 pallasq
    (by decide) (1, gyN, 1) _ ?_ (by decide +kernel)
  refine ⟨?_, ?_, ?_⟩ <;> simp [Facts.castP]

/-- C169: Pallas has exactly `q` points. -/
theorem C169_pallas_card : Finite Group ∧ Nat.card Group = pallasq :=
  card_points (by decide +kernel) two_ne no_root C169_pallas_generator

/-- C169: every point of Pallas is one multiple of the generator. -/
theorem C169_pallas_cyclic : JRep epGenerator gen ∧ ∀ P : Group, ∃! k, k < pallasq ∧ P = k • gen := by
  have := C169_pallas_card.1
  exact ⟨gen_rep, fun P => exists_unique_multiple C169_pallas_card.2 C169_pallas_generator P⟩

/-- C169: the scalars act on Pallas. -/
instance module : Module Fq Group :=
  AddCommGroup.zmodModule fun P => exponent_of_card C169_pallas_card.2 P

/-- C169: `Mul` is the action of the scalar. -/
theorem C169_pallas_mul {p : Ep} {P : Group} (hp : JRep p P) (s : Fq) : JRep (epMul p s) (s • P) := by
  rw [smul_eq_val_nsmul]
  exact C171_mul hp s

/-- C169: hence `Mul` respects sums and products of scalars, as `Equal` sees it. -/
theorem C169_pallas_laws {p : Ep} {P : Group} (hp : JRep p P) (s t : Fq) :
    epEqual (epMul p (s + t)) (epAdd (epMul p s) (epMul p t)) = true ∧
    epEqual (epMul p (s * t)) (epMul (epMul p t) s) = true ∧
    (epEqual (epMul epGenerator s) (epMul epGenerator t) = true ↔ s = t) := by
  refine ⟨?_, ?_, ?_⟩
  · rw [C171_equal (C169_pallas_mul hp (s + t)) (jrep_add (C169_pallas_mul hp s) (C169_pallas_mul hp t)), add_smul]
  · rw [C171_equal (C169_pallas_mul hp (s * t)) (C169_pallas_mul (C169_pallas_mul hp t) s), mul_smul]
  · rw [C171_equal (C169_pallas_mul gen_rep s) (C169_pallas_mul gen_rep t)]
    constructor
    · intro h
      have h0 : (s - t) • gen = 0 := by rw [sub_smul, h, sub_self]
      rw [smul_eq_val_nsmul] at h0
      have hd := addOrderOf_dvd_of_nsmul_eq_zero h0
      rw [C169_pallas_generator] at hd
      have := Nat.eq_zero_of_dvd_of_lt hd (ZMod.val_lt _)
      exact sub_eq_zero.1 ((ZMod.val_eq_zero _).1 this)
    · rintro rfl; rfl

/-- the order is not smaller: minus one times the generator is its opposite, not the generator -/
example : (-1 : Fq) • gen = -gen ∧ gen ≠ -gen := by
  refine ⟨neg_one_smul _ _, fun h => gen_ne (no_two_torsion two_ne no_root ?_)⟩
  rw [two_nsmul]
  nth_rw 1 [h]
  exact neg_add_cancel gen

/-! ## Examples for C171 -/

/-- the generator with denominator two -/
theorem gen_rep_two : JRep ⟨4, 8 * (gyN : ℕ), 2⟩ gen := ⟨two_ne, by ring, by ring⟩

/-- the same point with denominators one and two is equal; its opposite is not -/
example : epEqual ⟨4, 8 * (gyN : ℕ), 2⟩ epGenerator = true ∧ epEqual epGenerator (epNeg epGenerator) = false := by
  refine ⟨(C171_equal gen_rep_two gen_rep).2 rfl, ?_⟩
  rw [Bool.eq_false_iff]
  intro h
  have := (C171_equal gen_rep (jrep_neg gen_rep)).1 h
  refine gen_ne (no_two_torsion two_ne no_root ?_)
  rw [two_nsmul]
  nth_rw 1 [this]
  exact neg_add_cancel gen

/-- the sum of opposite points with different denominators is the identity -/
example : epIsIdentity (epAdd ⟨4, 8 * (gyN : ℕ), 2⟩ (epNeg epGenerator)) = true := by
  rw [C171_isIdentity (jrep_add gen_rep_two (jrep_neg gen_rep)), add_neg_cancel]

/-- `3G - 2G = G` -/
example : ∃ r, epSumOfProducts [epGenerator, ⟨4, 8 * (gyN : ℕ), 2⟩] [3, -2] = some r ∧ JRep r gen := by
  obtain ⟨r, h, hr⟩ := (C171_sumOfProducts (points := [epGenerator, ⟨4, 8 * (gyN : ℕ), 2⟩]) (Ps := [gen, gen])
    (.cons gen_rep (.cons gen_rep_two .nil)) [3, -2]).1 rfl
  refine ⟨r, h, ?_⟩
  have e : (List.zipWith (fun (s : Fq) (P : Group) => s.val • P) [3, -2] [gen, gen]).sum = gen := by
    simp only [List.zipWith_cons_cons, List.zipWith_nil_left, List.sum_cons, List.sum_nil, add_zero,
      ← smul_eq_val_nsmul, ← add_smul]
    rw [show (3 + -2 : Fq) = 1 by ring, one_smul]
  rwa [e] at hr

end Verif.Pallas
