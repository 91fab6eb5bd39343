import Verif.Pallas.EpHash

/-!
# `PallasCurve`: the `elliptic.Curve` interface

* C174 `IsOnCurve`, `Add`, `Double`, `ScalarMult`, `ScalarBaseMult` on pairs of integers
-/

set_option linter.unusedSectionVars false
set_option exponentiation.threshold 600

namespace Verif.Pallas

open Primes Native WeierstrassCurve.Affine

/-- the pair of integers is congruent to the coordinates of the point, `(0, 0)` standing for the identity as in
`crypto/elliptic` -/
def Ints (x y : ℤ) : Group → Prop
  | .zero => (x : Fp) = 0 ∧ (y : Fp) = 0
  | .some a b _ => (x : Fp) = a ∧ (y : Fp) = b

/-- the reduced pair of a point -/
def coords : Group → ℕ × ℕ
  | .zero => (0, 0)
  | .some x y _ => (x.val, y.val)

/-- neither integer falls among the residues `SetBigInt` does not read (C112) -/
def Read (x y : ℤ) : Prop := ¬ inGap (x : Fp).val ∧ ¬ inGap (y : Fp).val

instance (x y : ℤ) : Decidable (Read x y) := by unfold Read; infer_instance

/-- scalars `SetBigInt` does not read -/
def inGapQ (n : ℕ) : Prop := 2 ^ 63 ≤ pallasq - n ∧ pallasq - n ≤ 0x8c46eb2100000001

instance (n : ℕ) : Decidable (inGapQ n) := by unfold inGapQ; infer_instance

theorem fqSetBigInt_eq (z : ℤ) : fqSetBigInt z = if inGapQ (z : Fq).val then 0 else (z : Fq) := by
  have h := C112_setBigInt pastaFq_shape ⟨0, 0, 0, 0⟩ z
  have hm0 : pastaFq.modulus.l0.toNat = 0x8c46eb2100000001 := by decide
  have hv : (((z : Fq).val : ℕ) : ℤ) = z % (pallasq : ℕ) := ZMod.val_intCast z
  have hlt := ZMod.val_lt (z : Fq)
  have hg : ((2 : ℤ) ^ 63 ≤ (pastaFq.modulus.val : ℤ) - z % pastaFq.modulus.val ∧
      (pastaFq.modulus.val : ℤ) - z % pastaFq.modulus.val ≤ pastaFq.modulus.l0.toNat) ↔ inGapQ (z : Fq).val := by
    rw [fq_modulus, hm0, ← hv]
    unfold inGapQ
    rw [← Nat.cast_sub hlt.le]
    norm_cast
  unfold fqSetBigInt
  rw [h]
  by_cases hc : inGapQ (z : Fq).val
  · rw [if_pos (hg.2 hc), if_pos hc]
    simp [unMont, Limbs.val]
  · rw [if_neg (fun h => hc (hg.1 h)), if_neg hc, unMont_fq]
    obtain ⟨e, h1, -⟩ := transfer (P := pastaFq) (p := pallasq) fq_modulus
    rw [h1, map_intCast]

theorem ofInts_rep {x y : ℤ} {P : Group} (h : Ints x y P) (hr : Read x y) : JRep (ofInts x y) P := by
  unfold ofInts
  simp only [fpSetBigInt_eq, if_neg hr.1, if_neg hr.2]
  rcases P with _ | ⟨a, c, hn⟩
  · exact if_pos h
  · obtain ⟨h1, h2⟩ := h
    have hne : ¬ ((x : Fp) = 0 ∧ (y : Fp) = 0) := by
      rintro ⟨e1, e2⟩
      rw [h1] at e1
      rw [h2] at e2
      subst e1
      exact no_point_zero hn e2
    rw [if_neg hne]
    exact ⟨one_ne_zero, by simpa using h1, by simpa using h2⟩

theorem toInts_eq {p : Ep} {P : Group} (h : JRep p P) : toInts p = coords P := by
  unfold toInts
  rcases P with _ | ⟨x, y, hn⟩
  · rw [epToAffine_zero h]
    simp only [leNat_fpBytes, ZMod.val_zero]
    rfl
  · rw [epToAffine_some h]
    simp only [leNat_fpBytes]
    rfl

/-- C174: `IsOnCurve` decides the equation for integers that are read as they are. -/
theorem C174_isOnCurve {x y : ℤ} (hr : Read x y) : curveIsOnCurve x y = true ↔ ∃ P : Group, P ≠ 0 ∧ Ints x y P := by
  unfold curveIsOnCurve
  rw [fpSetBigInt_eq, fpSetBigInt_eq, if_neg hr.1, if_neg hr.2, C171_isOnCurve]
  constructor
  · rintro ⟨P, hP⟩
    rcases P with _ | ⟨a, c, hn⟩
    · exact absurd hP one_ne_zero
    · obtain ⟨-, h1, h2⟩ := hP
      exact ⟨.some a c hn, (by intro h; cases h), by simpa using h1, by simpa using h2⟩
  · rintro ⟨P, h0, hP⟩
    rcases P with _ | ⟨a, c, hn⟩
    · exact absurd rfl h0
    · exact ⟨.some a c hn, one_ne_zero, by simpa using hP.1, by simpa using hP.2⟩

/-- C174: `Add` adds. -/
theorem C174_add {x₁ y₁ x₂ y₂ : ℤ} {P Q : Group} (hP : Ints x₁ y₁ P) (hQ : Ints x₂ y₂ Q) (h₁ : Read x₁ y₁) (h₂ : Read x₂ y₂) :
    curveAdd x₁ y₁ x₂ y₂ = coords (P + Q) := toInts_eq (jrep_add (ofInts_rep hP h₁) (ofInts_rep hQ h₂))

/-- C174: `Double` doubles. -/
theorem C174_double {x y : ℤ} {P : Group} (hP : Ints x y P) (h : Read x y) : curveDouble x y = coords (P + P) :=
  toInts_eq (jrep_double (ofInts_rep hP h))

/-- C174: `ScalarMult` multiplies by the number the bytes stand for in big-endian order, of any length, unless that number
is congruent to one `SetBigInt` does not read; then it returns `(0, 0)`. -/
theorem C174_scalarMult {x y : ℤ} {P : Group} (hP : Ints x y P) (h : Read x y) (k : List UInt8) :
    curveScalarMult x y k = if inGapQ (beNat k % pallasq) then (0, 0) else coords (beNat k • P) := by
  unfold curveScalarMult
  rw [toInts_eq (C169_pallas_mul (ofInts_rep hP h) _), fqSetBigInt_eq]
  have hv : (((beNat k : ℕ) : ℤ) : Fq).val = beNat k % pallasq := by
    rw [Int.cast_natCast, ZMod.val_natCast]
  rw [hv]
  split_ifs
  · exact congrArg coords (zero_smul Fq _)
  · rw [Int.cast_natCast, Nat.cast_smul_eq_nsmul]

/-- C174: `ScalarBaseMult` likewise on the generator. -/
theorem C174_scalarBaseMult (k : List UInt8) :
    curveScalarBaseMult k = if inGapQ (beNat k % pallasq) then (0, 0) else coords (beNat k • gen) := by
  unfold curveScalarBaseMult
  rw [toInts_eq (C169_pallas_mul gen_rep _), fqSetBigInt_eq]
  have hv : (((beNat k : ℕ) : ℤ) : Fq).val = beNat k % pallasq := by
    rw [Int.cast_natCast, ZMod.val_natCast]
  rw [hv]
  split_ifs
  · exact congrArg coords (zero_smul Fq _)
  · rw [Int.cast_natCast, Nat.cast_smul_eq_nsmul]

/-- C174: a point whose abscissa `SetBigInt` does not read is said not to be on the curve: zero takes its place and `5`
is not a square. -/
theorem C174_isOnCurve_gap {x y : ℤ} (h : inGap (x : Fp).val) : curveIsOnCurve x y = false := by
  unfold curveIsOnCurve
  rw [fpSetBigInt_eq x, if_pos h, Bool.eq_false_iff]
  intro hc
  simp only [epIsOnCurve, one_ne_zero, decide_false, Bool.false_or, decide_eq_true_eq] at hc
  exact not_square_five ⟨fpSetBigInt y, by linear_combination -hc⟩

/-- … and there are such points. -/
theorem C174_isOnCurve_wrong : ∃ (x y : ℤ) (P : Group), P ≠ 0 ∧ Ints x y P ∧ curveIsOnCurve x y = false := by
  let x : ℕ := pallasp - 2 ^ 63 - 5
  let y : ℕ := 0x819da45e2275997d0265d5d6cd4d83bdb02937add291a0cbadb97b5494c23cf
  have heq : ((y : ℕ) : Fp) ^ 2 = ((x : ℕ) : Fp) ^ 3 + 5 := by
    have : ((y ^ 2 : ℕ) : Fp) = ((x ^ 3 + 5 : ℕ) : Fp) := natCast_eq_of_mod (by decide +kernel)
    push_cast at this
    exact this
  refine ⟨(x : ℕ), (y : ℕ), .some _ _ (point_of_equation heq), (by intro h; cases h), ⟨Int.cast_natCast x, Int.cast_natCast y⟩,
    C174_isOnCurve_gap ?_⟩
  rw [Int.cast_natCast, ZMod.val_cast_of_lt (by decide +kernel)]
  decide +kernel

/-- C174: a multiple of the generator that is not the identity but is returned as `(0, 0)`. -/
theorem C174_scalarBaseMult_wrong : ∃ k : List UInt8, curveScalarBaseMult k = (0, 0) ∧ beNat k • gen ≠ 0 := by
  refine ⟨beBytes 32 (pallasq - 2 ^ 63), ?_, ?_⟩
  · rw [C174_scalarBaseMult, beNat_beBytes _ _ (by decide +kernel), if_pos (by decide +kernel)]
  · rw [beNat_beBytes _ _ (by decide +kernel), Ne, ← addOrderOf_dvd_iff_nsmul_eq_zero, C169_pallas_generator,
      Nat.dvd_iff_mod_eq_zero]
    decide +kernel

/-- The generator meets the hypotheses. -/
example : ∃ x y : ℤ, Ints x y gen ∧ Read x y :=
  ⟨1, (gyN : ℕ), ⟨by simp, by simp⟩, by
    have h1 : ((1 : ℤ) : Fp).val = 1 := by rw [Int.cast_one]; exact ZMod.val_one _
    unfold Read
    rw [h1, Int.cast_natCast, ZMod.val_cast_of_lt (by decide +kernel)]
    decide +kernel⟩

end Verif.Pallas
