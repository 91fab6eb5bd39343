import Verif.Bls381.TowerModel
import Verif.Bls381.FpProps
import Mathlib.Algebra.QuadraticAlgebra.Basic
import Mathlib.RingTheory.AdjoinRoot
import Mathlib.FieldTheory.KummerPolynomial
import Mathlib.Tactic.LinearCombination
import Mathlib.NumberTheory.LegendreSymbol.QuadraticReciprocity

/-!
# What the elements of the tower stand for

The specification is a field `K` over `F` with elements `u, v, w`, `u² = -1`, `v³ = u + 1`, `w² = v`, such that
every element of `K` is uniquely a combination of the twelve products; the twelve coefficients of an `fp12`
are evaluated there.
-/

namespace Verif.Bls381

open Polynomial

section Eval
variable {F K : Type} [Field F] [CommRing K] (φ : F →+* K) (u v w : K)

/-- the value of an `fp2` -/
def ev2 (x : Fp2 F) : K := φ x.A + φ x.B * u

/-- the value of an `fp6` -/
def ev6 (x : Fp6 F) : K := ev2 φ u x.A + ev2 φ u x.B * v + ev2 φ u x.C * v ^ 2

/-- the value of an `fp12` -/
def ev12 (x : Fp12 F) : K := ev6 φ u v x.A + ev6 φ u v x.B * w

end Eval

/-- the fields `F[u]/(u² + 1)`, `[v]/(v³ - u - 1)`, `[w]/(w² - v)`, inside `K`, which is the last one -/
structure Tower (F K : Type) [Field F] [Field K] where
  φ : F →+* K
  u : K
  v : K
  w : K
  hu : u ^ 2 = -1
  hv : v ^ 3 = u + 1
  hw : w ^ 2 = v
  bij : Function.Bijective (ev12 φ u v w)

namespace Tower
variable {F K : Type} [Field F] [Field K] (T : Tower F K)

/-- the value of an `fp2` -/
def e2 (x : Fp2 F) : K := ev2 T.φ T.u x

/-- the value of an `fp6` -/
def e6 (x : Fp6 F) : K := ev6 T.φ T.u T.v x

/-- the value of an `fp12` -/
def e12 (x : Fp12 F) : K := ev12 T.φ T.u T.v T.w x

theorem e2_def (x : Fp2 F) : T.e2 x = T.φ x.A + T.φ x.B * T.u := rfl

theorem e6_def (x : Fp6 F) : T.e6 x = T.e2 x.A + T.e2 x.B * T.v + T.e2 x.C * T.v ^ 2 := rfl

theorem e12_def (x : Fp12 F) : T.e12 x = T.e6 x.A + T.e6 x.B * T.w := rfl

theorem e12_inj {x y : Fp12 F} (h : T.e12 x = T.e12 y) : x = y := T.bij.1 h

theorem e6_inj {x y : Fp6 F} (h : T.e6 x = T.e6 y) : x = y := by
  have h1 : T.e12 ⟨x, Fp6.zero⟩ = T.e12 ⟨y, Fp6.zero⟩ := by rw [e12_def, e12_def, h]
  exact congrArg Fp12.A (T.e12_inj h1)

theorem e2_inj {x y : Fp2 F} (h : T.e2 x = T.e2 y) : x = y := by
  have h1 : T.e6 ⟨x, Fp2.zero, Fp2.zero⟩ = T.e6 ⟨y, Fp2.zero, Fp2.zero⟩ := by rw [e6_def, e6_def, h]
  exact congrArg Fp6.A (T.e6_inj h1)

/-! ## Arithmetic of `fp2` -/

@[simp] theorem e2_zero : T.e2 Fp2.zero = 0 := by simp [e2_def, Fp2.zero]
@[simp] theorem e2_one : T.e2 Fp2.one = 1 := by simp [e2_def, Fp2.one]
@[simp] theorem e2_ofFp (a : F) : T.e2 (Fp2.ofFp a) = T.φ a := by simp [e2_def, Fp2.ofFp]
@[simp] theorem e2_add (x y : Fp2 F) : T.e2 (x.add y) = T.e2 x + T.e2 y := by
  simp only [e2_def, Fp2.add, map_add]; ring
@[simp] theorem e2_double (x : Fp2 F) : T.e2 x.double = 2 * T.e2 x := by
  simp only [e2_def, Fp2.double, map_add]; ring
@[simp] theorem e2_sub (x y : Fp2 F) : T.e2 (x.sub y) = T.e2 x - T.e2 y := by
  simp only [e2_def, Fp2.sub, map_sub]; ring
@[simp] theorem e2_neg (x : Fp2 F) : T.e2 x.neg = - T.e2 x := by
  simp only [e2_def, Fp2.neg, map_neg]; ring
@[simp] theorem e2_nonRes (x : Fp2 F) : T.e2 x.mulByNonResidue = (T.u + 1) * T.e2 x := by
  simp only [e2_def, Fp2.mulByNonResidue, map_add, map_sub]
  linear_combination (-T.φ x.B) * T.hu
@[simp] theorem e2_mul (x y : Fp2 F) : T.e2 (x.mul y) = T.e2 x * T.e2 y := by
  simp only [e2_def, Fp2.mul, map_add, map_sub, map_mul, map_neg]
  linear_combination (-T.φ x.B * T.φ y.B) * T.hu
@[simp] theorem e2_square (x : Fp2 F) : T.e2 x.square = T.e2 x ^ 2 := by
  simp only [e2_def, Fp2.square, map_add, map_sub, map_mul]
  linear_combination (-T.φ x.B ^ 2) * T.hu
@[simp] theorem e2_mul0 (x : Fp2 F) (a : F) : T.e2 (x.mul0 a) = T.e2 x * T.φ a := by
  simp only [e2_def, Fp2.mul0, map_mul]; ring

theorem e2_mul_conj (x : Fp2 F) : T.e2 x * T.e2 x.conj = T.φ (x.A * x.A + x.B * x.B) := by
  simp only [e2_def, Fp2.conj, map_add, map_mul, map_neg]
  linear_combination (-T.φ x.B ^ 2) * T.hu

theorem e2_eq_zero {x : Fp2 F} : T.e2 x = 0 ↔ x = Fp2.zero :=
  ⟨fun h => T.e2_inj (h.trans T.e2_zero.symm), fun h => by rw [h, e2_zero]⟩

/-! ## Arithmetic of `fp6` -/

@[simp] theorem e6_zero : T.e6 Fp6.zero = 0 := by simp [e6_def, Fp6.zero]
@[simp] theorem e6_one : T.e6 Fp6.one = 1 := by simp [e6_def, Fp6.one]
@[simp] theorem e6_ofFp2 (a : Fp2 F) : T.e6 (Fp6.ofFp2 a) = T.e2 a := by simp [e6_def, Fp6.ofFp2]
@[simp] theorem e6_add (x y : Fp6 F) : T.e6 (x.add y) = T.e6 x + T.e6 y := by
  simp only [e6_def, Fp6.add, e2_add]; ring
@[simp] theorem e6_double (x : Fp6 F) : T.e6 x.double = 2 * T.e6 x := by
  simp only [Fp6.double, e6_add]; ring
@[simp] theorem e6_sub (x y : Fp6 F) : T.e6 (x.sub y) = T.e6 x - T.e6 y := by
  simp only [e6_def, Fp6.sub, e2_sub]; ring
@[simp] theorem e6_neg (x : Fp6 F) : T.e6 x.neg = - T.e6 x := by
  simp only [e6_def, Fp6.neg, e2_neg]; ring
@[simp] theorem e6_nonRes (x : Fp6 F) : T.e6 x.mulByNonResidue = T.v * T.e6 x := by
  simp only [e6_def, Fp6.mulByNonResidue, e2_nonRes]
  linear_combination (-T.e2 x.C) * T.hv
@[simp] theorem e6_mul (x y : Fp6 F) : T.e6 (x.mul y) = T.e6 x * T.e6 y := by
  simp only [e6_def, Fp6.mul, e2_nonRes, e2_add, e2_sub, e2_mul]
  linear_combination (-(T.e2 x.B * T.e2 y.C + T.e2 x.C * T.e2 y.B) - T.e2 x.C * T.e2 y.C * T.v) * T.hv
@[simp] theorem e6_square (x : Fp6 F) : T.e6 x.square = T.e6 x ^ 2 := by
  simp only [e6_def, Fp6.square, e2_nonRes, e2_add, e2_sub, e2_mul, e2_square, e2_double]
  linear_combination (-(2 * T.e2 x.B * T.e2 x.C) - T.e2 x.C ^ 2 * T.v) * T.hv
@[simp] theorem e6_mulByB (x : Fp6 F) (b : Fp2 F) : T.e6 (x.mulByB b) = T.e6 x * (T.e2 b * T.v) := by
  simp only [e6_def, Fp6.mulByB, e2_nonRes, e2_add, e2_sub, e2_mul]
  linear_combination (-(T.e2 x.C * T.e2 b)) * T.hv
@[simp] theorem e6_mulByAB (x : Fp6 F) (a b : Fp2 F) :
    T.e6 (x.mulByAB a b) = T.e6 x * (T.e2 a + T.e2 b * T.v) := by
  simp only [e6_def, Fp6.mulByAB, e2_nonRes, e2_add, e2_sub, e2_mul]
  linear_combination (-(T.e2 x.C * T.e2 b)) * T.hv

theorem e6_eq_zero {x : Fp6 F} : T.e6 x = 0 ↔ x = Fp6.zero :=
  ⟨fun h => T.e6_inj (h.trans T.e6_zero.symm), fun h => by rw [h, e6_zero]⟩

/-! ## Arithmetic of `fp12` -/

@[simp] theorem e12_zero : T.e12 Fp12.zero = 0 := by simp [e12_def, Fp12.zero]
@[simp] theorem e12_one : T.e12 Fp12.one = 1 := by simp [e12_def, Fp12.one]
@[simp] theorem e12_add (x y : Fp12 F) : T.e12 (x.add y) = T.e12 x + T.e12 y := by
  simp only [e12_def, Fp12.add, e6_add]; ring
@[simp] theorem e12_sub (x y : Fp12 F) : T.e12 (x.sub y) = T.e12 x - T.e12 y := by
  simp only [e12_def, Fp12.sub, e6_sub]; ring
@[simp] theorem e12_neg (x : Fp12 F) : T.e12 x.neg = - T.e12 x := by
  simp only [e12_def, Fp12.neg, e6_neg]; ring
@[simp] theorem e12_mul (x y : Fp12 F) : T.e12 (x.mul y) = T.e12 x * T.e12 y := by
  simp only [e12_def, Fp12.mul, e6_nonRes, e6_add, e6_sub, e6_mul]
  linear_combination (-(T.e6 x.B * T.e6 y.B)) * T.hw
@[simp] theorem e12_square (x : Fp12 F) : T.e12 x.square = T.e12 x ^ 2 := by
  simp only [e12_def, Fp12.square, e6_nonRes, e6_add, e6_sub, e6_mul, e6_double]
  linear_combination (-(T.e6 x.B ^ 2)) * T.hw
@[simp] theorem e12_mulByABD (x : Fp12 F) (a b d : Fp2 F) :
    T.e12 (x.mulByABD a b d) = T.e12 x * (T.e2 a + T.e2 b * T.v + T.e2 d * T.v * T.w) := by
  simp only [e12_def, Fp12.mulByABD, e6_nonRes, e6_add, e6_sub, e6_mulByAB, e6_mulByB, e2_add]
  linear_combination (-(T.e6 x.B * T.e2 d * T.v)) * T.hw

theorem e12_mul_conj (x : Fp12 F) :
    T.e12 x * T.e12 x.conj = T.e6 x.A ^ 2 - T.v * T.e6 x.B ^ 2 := by
  simp only [e12_def, Fp12.conj, e6_neg]
  linear_combination (-(T.e6 x.B ^ 2)) * T.hw

theorem e12_eq_zero {x : Fp12 F} : T.e12 x = 0 ↔ x = Fp12.zero :=
  ⟨fun h => T.e12_inj (h.trans T.e12_zero.symm), fun h => by rw [h, e12_zero]⟩

end Tower

end Verif.Bls381
