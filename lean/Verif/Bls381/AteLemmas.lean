import Verif.Bls381.MillerLemmas
import Verif.Bls381.G2Order

/-!
# The optimal ate pairing of BLS12-381

Not about the repository but about the curve: inside the field `K` of the tower, `E1` and the twist `E2` are mapped to
the curve `y² = x³ + 4` (`iota1`, `iota2`), and `ate P Q` is the final power of Miller's function of length `|x|`, the
parameter of the curve. It is bilinear: the second argument has to have order `r`, the first may be any point.
-/

set_option linter.unusedSectionVars false

namespace Verif.Bls381

open Verif.Primes Verif.Native WeierstrassCurve.Affine Tower

set_option exponentiation.threshold 5000

/-- the absolute value of the curve parameter -/
def absX : ℕ := 0xd201000000010000

namespace Tower
variable {K : Type} [Field K] [DecidableEq K] (T : Tower Fq K)

/-! ## Frobenius and the final power -/

/-- the Frobenius map -/
def fr : K →+* K := letI := T.charP; frobenius K blsp

theorem fr_apply (z : K) : T.fr z = z ^ blsp := by
  have := T.charP
  exact frobenius_def blsp z

/-- six times the Frobenius map, which is the conjugation -/
def fr6 : K →+* K := (T.fr.comp T.fr).comp ((T.fr.comp T.fr).comp (T.fr.comp T.fr))

theorem fr6_apply (z : K) : T.fr6 z = fr2 (fr2 (fr2 z)) := by
  simp only [fr6, RingHom.comp_apply, fr_apply, fr2]

theorem fr6_conj (x : Fp12 Fq) : T.fr6 (T.e12 x) = T.e12 x.conj := by rw [fr6_apply, T.fr6_e12]

theorem fr6_phi (x : Fq) : T.fr6 (T.φ x) = T.φ x := by
  simp only [fr6, RingHom.comp_apply, fr_apply, phi_pow]

theorem fr6_e2 (x : Fp2 Fq) : T.fr6 (T.e2 x) = T.e2 x := by
  rw [fr6_apply, fr2_e2, fr2_e2, fr2_e2]

theorem e12_w' : T.e12 ⟨Fp6.zero, Fp6.one⟩ = T.w := by
  rw [e12_def, e6_zero, e6_one]; ring

theorem fr6_w : T.fr6 T.w = -T.w := by
  rw [← e12_w', fr6_conj, ← e12_neg]
  congr 1

theorem w_ne : T.w ≠ 0 := by
  intro h
  rw [← e12_w', T.e12_eq_zero] at h
  exact absurd h (by decide +kernel)

/-- the final exponentiation -/
def chi : K →* K := powMonoidHom (3 * ((blsp ^ 12 - 1) / blsr))

theorem chi_apply (z : K) : chi z = z ^ (3 * ((blsp ^ 12 - 1) / blsr)) := rfl

theorem chi_ne {z : K} (hz : z ≠ 0) : chi z ≠ 0 := pow_ne_zero _ hz

include T in
theorem chi_order {z : K} (hz : z ≠ 0) : chi z ^ blsr = 1 := by
  rw [chi_apply, ← pow_mul]
  have hn : 3 * ((blsp ^ 12 - 1) / blsr) * blsr = (blsp ^ 12 - 1) * 3 := by decide +kernel
  have := congrArg (z ^ ·) hn
  exact this.trans (by show z ^ ((blsp ^ 12 - 1) * 3) = 1; rw [pow_mul, pow_card_sub T hz, one_pow])

include T in
theorem chi_one_of {z : K} (hz : z ≠ 0) {k : ℕ} (hk : chi z ^ k = 1) (h : Nat.Coprime k blsr) : chi z = 1 := by
  rw [← orderOf_eq_one_iff, ← Nat.dvd_one, ← h]
  exact Nat.dvd_gcd (orderOf_dvd_of_pow_eq_one hk) (orderOf_dvd_of_pow_eq_one (T.chi_order hz))

theorem chi_fr (z : K) : chi (T.fr z) = chi z ^ blsp := by
  rw [fr_apply, map_pow]

theorem fr6_pow (z : K) : T.fr6 z = z ^ (blsp ^ 6) := by
  rw [fr6_apply, fr2_pow_eq, fr2_pow_eq, fr2_pow_eq, ← pow_mul, ← pow_mul, ← pow_add, ← pow_add]

theorem chi_fr6 {z : K} (hz : z ≠ 0) : chi (T.fr6 z) = (chi z)⁻¹ := by
  refine eq_inv_of_mul_eq_one_left ?_
  rw [fr6_pow, ← map_mul, ← pow_succ, chi_apply, ← pow_mul]
  have hn : (blsp ^ 6 + 1) * (3 * ((blsp ^ 12 - 1) / blsr)) = (blsp ^ 12 - 1) * ((blsp ^ 6 + 1) / blsr * 3) := by
    decide +kernel
  have := congrArg (z ^ ·) hn
  exact this.trans (by show z ^ ((blsp ^ 12 - 1) * _) = 1; rw [pow_mul, pow_card_sub T hz, one_pow])

/-- elements of the field of degree six are killed -/
theorem chi_fixed {z : K} (hz : z ≠ 0) (h : T.fr6 z = z) : chi z = 1 := by
  have h1 := T.chi_fr6 hz
  rw [h] at h1
  refine T.chi_one_of hz (k := 2) ?_ (by decide +kernel)
  rw [pow_two]
  nth_rewrite 2 [h1]
  exact mul_inv_cancel₀ (chi_ne hz)

include T in
theorem chi_kills : Kills4 (chi : K →* K) := by
  intro c hc
  have h0 : c ≠ 0 := by rintro rfl; norm_num at hc
  exact T.chi_one_of h0 (k := 4) (by rw [← map_pow, hc, map_one]) (by decide +kernel)

theorem chi_w3 : chi (T.w ^ 3) = 1 := by
  have h0 := pow_ne_zero 3 T.w_ne
  refine T.chi_one_of h0 (k := 2) ?_ (by decide +kernel)
  rw [← map_pow]
  refine T.chi_fixed (pow_ne_zero 2 h0) ?_
  rw [map_pow, map_pow, fr6_w]; ring

theorem chi_e2 {x : Fp2 Fq} (hx : x ≠ 0) : chi (T.e2 x) = 1 :=
  T.chi_fixed (fun h => hx (T.e2_eq_zero.1 h)) (T.fr6_e2 x)

/-! ## The curves inside -/

/-- evaluation of `fp2` as a homomorphism -/
def e2Hom : Fp2 Fq →+* K where
  toFun := T.e2
  map_one' := T.e2_one
  map_mul' := T.e2_mul
  map_zero' := T.e2_zero
  map_add' := T.e2_add

theorem e2Hom_apply (x : Fp2 Fq) : T.e2Hom x = T.e2 x := rfl

/-- the curve `y² = x³ + 4` over `K` -/
abbrev EK (K : Type) [Field K] [DecidableEq K] := (curve (0 : K) 4).Point

/-- the inclusion of `E1` -/
def s1 : SMap curveG1B (4 : K) where
  σ := T.φ
  c := 1
  ne := one_ne_zero
  coeff := by rw [curveG1B_eq, one_pow, one_mul, map_ofNat]

/-- the untwisting of `E2` -/
def s2 : SMap curveG2B (4 : K) where
  σ := T.e2Hom
  c := T.w⁻¹
  ne := inv_ne_zero T.w_ne
  coeff := by
    have h0 := T.w_ne
    have h1 : T.e2Hom curveG2B = 4 * (T.u + 1) := by
      rw [curveG2B_eq, e2Hom_apply, e2_def, map_ofNat]; ring
    have h2 : T.w ^ 6 = T.u + 1 := by
      rw [← T.hv, ← T.hw]; ring
    rw [h1, ← h2]
    field_simp

/-- `E1` in the big curve -/
def iota1 : E1 →+ EK K := T.s1.hom

/-- `E2` in the big curve -/
def iota2 : E2 →+ EK K := T.s2.hom

/-- the Frobenius map of the big curve -/
def sfr : SMap (4 : K) (4 : K) where
  σ := T.fr
  c := 1
  ne := one_ne_zero
  coeff := by rw [one_pow, one_mul, map_ofNat]

/-- six times the Frobenius map -/
def sfr6 : SMap (4 : K) (4 : K) where
  σ := T.fr6
  c := 1
  ne := one_ne_zero
  coeff := by rw [one_pow, one_mul, map_ofNat]

theorem frob_iota1 (P : E1) : T.sfr.hom (T.iota1 P) = T.iota1 P := by
  rcases P with _ | ⟨x, y, h⟩
  · rfl
  · simp only [iota1, SMap.hom_some, Point.some.injEq]
    simp only [sfr, s1, map_mul, map_pow, map_one, fr_apply, phi_pow]
    simp

theorem frob6_iota1 (P : E1) : T.sfr6.hom (T.iota1 P) = T.iota1 P := by
  rcases P with _ | ⟨x, y, h⟩
  · rfl
  · simp only [iota1, SMap.hom_some, Point.some.injEq]
    simp only [sfr6, s1, map_mul, map_pow, map_one, fr6_phi]
    simp

theorem frob6_iota2 (Q : E2) : T.sfr6.hom (T.iota2 Q) = -T.iota2 Q := by
  rcases Q with _ | ⟨x, y, h⟩
  · rfl
  · simp only [iota2, SMap.hom_some, Point.neg_some, Point.some.injEq, negY_curve]
    simp only [sfr6, s2, map_mul, map_pow, map_inv₀, fr6_w, e2Hom_apply, fr6_e2]
    constructor
    · rw [inv_neg]; ring
    · rw [inv_neg]; ring

/-- the coefficient of the Frobenius map at `w` -/
def frobW : Fp2 Fq := up1epm1div6.A

theorem fr_w : T.fr T.w = T.w * T.e2 frobW := by
  rw [fr_apply, w_pow_p, up1_eq, e6_def]
  simp only [e2_zero, zero_mul, add_zero]
  rw [frobW, up1_eq]

theorem frobW_eq : frobW = c2 0x1904d3bf02bb0667c231beb4202c0d1f0fd603fd3cbd5f4f7b2443d784bab9c4f67ea53d63e7813d8d0775ed92235fb8
    0xfc3e2b36c4e03288e9e902231f9fb854a14787b6c7b36fec0c8ec971f63c5f282d5ac14d6c7ec22cf78a126ddc4af3 := by
  rw [frobW, up1epm1div6, const_num (n := 0x1904d3bf02bb0667c231beb4202c0d1f0fd603fd3cbd5f4f7b2443d784bab9c4f67ea53d63e7813d8d0775ed92235fb8) (by decide +kernel),
      const_num (n := 0xfc3e2b36c4e03288e9e902231f9fb854a14787b6c7b36fec0c8ec971f63c5f282d5ac14d6c7ec22cf78a126ddc4af3) (by decide +kernel)]
  rfl

theorem psiX_frobW : psiCoeffX * (frobW * frobW) = 1 := by
  rw [psiCoeffX_eq, frobW_eq]; decide +kernel

theorem psiY_frobW : psiCoeffY * (frobW * frobW * frobW) = 1 := by
  rw [psiCoeffY_eq, frobW_eq]; decide +kernel

theorem frob_iota2 (Q : E2) : T.sfr.hom (T.iota2 Q) = T.iota2 (psi Q) := by
  rcases Q with _ | ⟨x, y, h⟩
  · rfl
  · have hp : ∃ hn, psi (Point.some x y h) = .some (psiCoeffX * x.conj) (psiCoeffY * y.conj) hn := ⟨_, rfl⟩
    obtain ⟨hn, hp⟩ := hp
    rw [hp]
    simp only [iota2, SMap.hom_some, Point.some.injEq]
    have h0 := T.w_ne
    have hx := congrArg T.e2Hom psiX_frobW
    have hy := congrArg T.e2Hom psiY_frobW
    simp only [map_mul, map_one, e2Hom_apply] at hx hy
    have h1 : T.e2 frobW ≠ 0 := by
      intro h
      rw [h] at hx
      simp at hx
    simp only [sfr, s2, map_mul, map_pow, map_inv₀, fr_w, e2Hom_apply, T.fr_apply (T.e2 _), ← e2_frob]
    constructor
    · field_simp
      linear_combination (-T.e2 x.conj) * hx
    · field_simp
      linear_combination (-T.e2 y.conj) * hy

/-- the ordinates of the images are in different cosets -/
theorem apart (P : E1) (Q : E2) : Apart (T.iota2 Q) (T.iota1 P) := by
  rcases Q with _ | ⟨x, y, h⟩
  · trivial
  rcases P with _ | ⟨x', y', h'⟩
  · trivial
  intro hx
  have h0 := T.w_ne
  have e1 := equation_curve.1 (T.s2.equation h.1)
  have e2 := equation_curve.1 (T.s1.equation h'.1)
  have hx : T.s2.c ^ 2 * T.s2.σ x = T.s1.c ^ 2 * T.s1.σ x' := hx
  rw [hx, ← e2] at e1
  have hy : y' = 0 := by
    rcases sq_eq_sq_iff_eq_or_eq_neg.1 e1 with e | e <;>
    · simp only [s1, s2, one_pow, one_mul, e2Hom_apply] at e
      have e3 : T.e12 ⟨⟨y, Fp2.zero, Fp2.zero⟩, Fp6.zero⟩ = T.e2 y := by
        rw [e12_def, e6_zero, e6_def, e2_zero]; ring
      have e4 : ∀ z, T.e12 ⟨Fp6.zero, ⟨Fp2.zero, Fp2.ofFp z, Fp2.zero⟩⟩ = T.φ z * T.w ^ 3 := by
        intro z
        rw [e12_def, e6_zero, e6_def, e2_zero, e2_ofFp, ← T.hw]; ring
      have e5 : T.e2 y = T.φ y' * T.w ^ 3 ∨ T.e2 y = T.φ (-y') * T.w ^ 3 := by
        first
        | left; rw [← e]; field_simp
        | right; rw [map_neg, ← e]; field_simp
      rw [← e3, ← e4, ← e4] at e5
      rcases e5 with e5 | e5
      · have := congrArg (fun z => z.B.B.A) (T.e12_inj e5)
        exact this.symm
      · have := congrArg (fun z => z.B.B.A) (T.e12_inj e5)
        exact neg_eq_zero.1 this.symm
  have := equation_curve.1 h'.1
  rw [hy] at this
  exact g1Ok.no x' (by rw [← this]; ring)

/-! ## The pairing -/

/-- the points of the twist -/
def H2 : AddSubgroup (EK K) := T.iota2.range

theorem mem_H2 (Q : E2) : T.iota2 Q ∈ T.H2 := ⟨Q, rfl⟩

theorem sep (P : E1) : Sep T.H2 (T.iota1 P) := by
  rintro _ ⟨Q, rfl⟩
  exact T.apart P Q

/-- the optimal ate pairing: the function of `Q` at `P`, inverted because the parameter is negative, to the final
power -/
def ate (P : E1) (Q : E2) : K := (chi (miller absX (T.iota2 Q) (T.iota1 P)))⁻¹

theorem ate_order (P : E1) (Q : E2) : T.ate P Q ^ blsr = 1 := by
  rw [ate, inv_pow, T.chi_order (miller_ne (T.sep P) (T.mem_H2 Q) _), inv_one]

theorem ate_ne (P : E1) (Q : E2) : T.ate P Q ≠ 0 := inv_ne_zero (chi_ne (miller_ne (T.sep P) (T.mem_H2 Q) _))

theorem ate_zero_left (Q : E2) : T.ate 0 Q = 1 := by
  rw [ate, map_zero, miller]
  simp only [ellP_at_zero]
  simp

theorem ate_zero_right (P : E1) : T.ate P 0 = 1 := by
  rw [ate, map_zero, miller]
  simp only [smul_zero, ellP_zero_left (T.sep P 0 T.H2.zero_mem)]
  simp

theorem absX_smul {Q : E2} (hQ : blsr • Q = 0) : absX • T.iota2 Q = T.sfr6.hom (T.sfr.hom (T.iota2 Q)) := by
  rw [frob_iota2, frob6_iota2, C159_psi_subgroup hQ, ← map_nsmul, ← map_neg, neg_zsmul, neg_neg, ← natCast_zsmul]
  rfl

include T in
theorem chi_power {z : K} (hz : z ≠ 0) : chi z ^ blsp * chi z ^ absX = 1 := by
  have h : blsp + absX = blsr * ((blsp + absX) / blsr) := by decide +kernel
  rw [← pow_add]
  have := congrArg (chi z ^ ·) h
  exact this.trans (by show chi z ^ (blsr * _) = 1; rw [pow_mul, T.chi_order hz, one_pow])

/-- linear in the first argument -/
theorem ate_add_left (P R : E1) {Q : E2} (hQ : blsr • Q = 0) : T.ate (P + R) Q = T.ate P Q * T.ate R Q := by
  have hPR := T.sep (P + R)
  have h := miller_add_right T.chi_kills (T.sep P) (T.sep R) (by rw [← map_add]; exact hPR) (T.mem_H2 Q) absX
  have h1 : ellP (T.iota1 P) (T.iota1 R) (absX • T.iota2 Q)
      = T.fr6 (T.fr (ellP (T.iota1 P) (T.iota1 R) (T.iota2 Q))) := by
    have e1 := T.sfr.ellP_hom rfl (T.iota1 P) (T.iota1 R) (T.iota2 Q)
    have e2 := T.sfr6.ellP_hom rfl (T.iota1 P) (T.iota1 R) (T.sfr.hom (T.iota2 Q))
    rw [frob_iota1, frob_iota1] at e1
    rw [frob6_iota1, frob6_iota1, e1] at e2
    rw [T.absX_smul hQ]
    exact e2
  have h0 : ellP (T.iota1 P) (T.iota1 R) (T.iota2 Q) ≠ 0 :=
    ellP_ne (T.apart _ _).symm (T.apart _ _).symm (by rw [← map_add]; exact (T.apart _ _).symm)
  rw [h1, T.chi_fr6 (by rw [fr_apply]; exact pow_ne_zero _ h0), T.chi_fr, ← map_add] at h
  rw [ate, ate, ate, ← mul_inv, inv_inj]
  have hp := T.chi_power h0
  have hne : chi (ellP (T.iota1 P) (T.iota1 R) (T.iota2 Q)) ^ blsp ≠ 0 := pow_ne_zero _ (chi_ne h0)
  have h2 := congrArg (· * chi (ellP (T.iota1 P) (T.iota1 R) (T.iota2 Q)) ^ blsp) h
  simp only [inv_mul_cancel_right₀ hne] at h2
  rw [h2, mul_assoc, mul_comm (_ ^ absX), hp, mul_one]

/-- linear in the second argument -/
theorem ate_add_right (P : E1) {Q R : E2} (hQ : blsr • Q = 0) (hR : blsr • R = 0) :
    T.ate P (Q + R) = T.ate P Q * T.ate P R := by
  have h := miller_add_left T.chi_kills (T.sep P) (T.mem_H2 Q) (T.mem_H2 R) absX
  have h1 : ellP (absX • T.iota2 Q) (absX • T.iota2 R) (T.iota1 P)
      = T.fr6 (T.fr (ellP (T.iota2 Q) (T.iota2 R) (T.iota1 P))) := by
    have e1 := T.sfr.ellP_hom rfl (T.iota2 Q) (T.iota2 R) (T.iota1 P)
    have e2 := T.sfr6.ellP_hom rfl (T.sfr.hom (T.iota2 Q)) (T.sfr.hom (T.iota2 R)) (T.iota1 P)
    rw [frob_iota1] at e1
    rw [frob6_iota1, e1] at e2
    rw [T.absX_smul hQ, T.absX_smul hR]
    exact e2
  have h0 : ellP (T.iota2 Q) (T.iota2 R) (T.iota1 P) ≠ 0 :=
    ellP_ne (T.apart _ _) (T.apart _ _) (by rw [← map_add]; exact T.apart _ _)
  rw [h1, T.chi_fr6 (by rw [fr_apply]; exact pow_ne_zero _ h0), T.chi_fr, ← map_add] at h
  rw [ate, ate, ate, ← mul_inv, inv_inj]
  have hp := T.chi_power h0
  have hne : chi (ellP (T.iota2 Q) (T.iota2 R) (T.iota1 P)) ^ blsp ≠ 0 := pow_ne_zero _ (chi_ne h0)
  have h2 := congrArg (· * chi (ellP (T.iota2 Q) (T.iota2 R) (T.iota1 P)) ^ blsp) h
  simp only [inv_mul_cancel_right₀ hne] at h2
  rw [← h2, mul_assoc, mul_comm (_ ^ absX), hp, mul_one]

end Tower

end Verif.Bls381
