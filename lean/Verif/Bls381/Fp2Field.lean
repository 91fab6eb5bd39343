import Mathlib.Tactic.Ring
import Verif.Bls381.TowerProps

/-!
# `fp2` as a field

The structs of `fp2.go` with the operations of the model form a field; every operation of the instance is the
model's function, so theorems about an arbitrary field speak about the code.
-/

namespace Verif.Bls381

open Verif.Primes

namespace Fp2

instance : Zero (Fp2 Fq) := ⟨Fp2.zero⟩
instance : One (Fp2 Fq) := ⟨Fp2.one⟩
instance : Add (Fp2 Fq) := ⟨Fp2.add⟩
instance : Sub (Fp2 Fq) := ⟨Fp2.sub⟩
instance : Neg (Fp2 Fq) := ⟨Fp2.neg⟩
instance : Mul (Fp2 Fq) := ⟨Fp2.mul⟩
/-- `Invert` on a fresh receiver -/
instance : Inv (Fp2 Fq) := ⟨fun x => (Fp2.invert Fp2.zero x).1⟩

theorem zero_def : (0 : Fp2 Fq) = Fp2.zero := rfl
theorem one_def : (1 : Fp2 Fq) = Fp2.one := rfl
theorem add_def (x y : Fp2 Fq) : x + y = x.add y := rfl
theorem sub_def (x y : Fp2 Fq) : x - y = x.sub y := rfl
theorem neg_def (x : Fp2 Fq) : -x = x.neg := rfl
theorem mul_def (x y : Fp2 Fq) : x * y = x.mul y := rfl
theorem inv_def (x : Fp2 Fq) : x⁻¹ = (Fp2.invert Fp2.zero x).1 := rfl

theorem mul_eq (x y : Fp2 Fq) : x.mul y = ⟨x.A * y.A - x.B * y.B, x.A * y.B + x.B * y.A⟩ := by
  simp only [Fp2.mul, Fp2.mk.injEq]
  constructor <;> ring

instance : CommRing (Fp2 Fq) where
  add_assoc x y z := by simp only [add_def, add, Fp2.mk.injEq]; constructor <;> ring
  zero_add x := by simp only [add_def, zero_def, add, zero, zero_add]
  add_zero x := by simp only [add_def, zero_def, add, zero, add_zero]
  add_comm x y := by simp only [add_def, add, Fp2.mk.injEq]; constructor <;> ring
  neg_add_cancel x := by simp only [add_def, neg_def, zero_def, add, neg, zero, neg_add_cancel]
  sub_eq_add_neg x y := by
    simp only [add_def, neg_def, sub_def, add, neg, sub, Fp2.mk.injEq]; constructor <;> ring
  left_distrib x y z := by simp only [add_def, mul_def, mul_eq, add, Fp2.mk.injEq]; constructor <;> ring
  right_distrib x y z := by simp only [add_def, mul_def, mul_eq, add, Fp2.mk.injEq]; constructor <;> ring
  zero_mul x := by simp only [zero_def, mul_def, mul_eq, zero, Fp2.mk.injEq]; constructor <;> ring
  mul_zero x := by simp only [zero_def, mul_def, mul_eq, zero, Fp2.mk.injEq]; constructor <;> ring
  mul_assoc x y z := by simp only [mul_def, mul_eq, Fp2.mk.injEq]; constructor <;> ring
  one_mul x := by
    obtain ⟨a, b⟩ := x
    simp only [one_def, mul_def, mul_eq, one, Fp2.mk.injEq]; constructor <;> ring
  mul_one x := by
    obtain ⟨a, b⟩ := x
    simp only [one_def, mul_def, mul_eq, one, Fp2.mk.injEq]; constructor <;> ring
  mul_comm x y := by simp only [mul_def, mul_eq, Fp2.mk.injEq]; constructor <;> ring
  natCast n := ⟨n, 0⟩
  natCast_zero := by simp only [zero_def, zero, Nat.cast_zero]
  natCast_succ n := by simp only [add_def, add, one_def, one, Nat.cast_succ, add_zero]
  intCast n := ⟨n, 0⟩
  intCast_ofNat n := by
    show (⟨((n : ℤ) : Fq), 0⟩ : Fp2 Fq) = ⟨(n : Fq), 0⟩
    rw [Int.cast_natCast]
  intCast_negSucc n := by
    show (⟨(Int.negSucc n : Fq), 0⟩ : Fp2 Fq) = -⟨((n + 1 : ℕ) : Fq), 0⟩
    rw [Int.cast_negSucc, neg_def, neg, neg_zero]
  nsmul := nsmulRec
  zsmul := zsmulRec

instance : Field (Fp2 Fq) where
  exists_pair_ne := ⟨0, 1, by decide +kernel⟩
  mul_inv_cancel x hx := ((C149_invert_fp2 Fp2.zero x).1 hx).2
  inv_zero := congrArg Prod.fst ((C149_invert_fp2 Fp2.zero Fp2.zero).2 rfl)
  nnqsmul := _
  nnqsmul_def := fun _ _ => rfl
  qsmul := _
  qsmul_def := fun _ _ => rfl

theorem double_eq (x : Fp2 Fq) : x.double = x + x := rfl

theorem square_eq (x : Fp2 Fq) : x.square = x * x := by
  rw [mul_def, mul_eq, square, Fp2.mk.injEq]; constructor <;> ring

/-- `Invert`: the inverse and `true`, or the old receiver and `false` -/
theorem invert_eq (f x : Fp2 Fq) : Fp2.invert f x = if x = 0 then (f, false) else (x⁻¹, true) := by
  split
  · next h => exact (C149_invert_fp2 f x).2 h
  · next h =>
    have h0 : x ≠ Fp2.zero := h
    obtain ⟨h1, h2⟩ := (C149_invert_fp2 f x).1 h0
    have h3 : x * (Fp2.invert f x).1 = 1 := h2
    exact Prod.ext (eq_inv_of_mul_eq_one_right h3) h1

theorem isZero_eq (x : Fp2 Fq) : x.isZero = decide (x = 0) := by
  rw [Bool.eq_iff_iff, decide_eq_true_eq]; exact Tower.fp2_isZero x

theorem equal_eq (x y : Fp2 Fq) : x.equal y = decide (x = y) := by
  rw [Bool.eq_iff_iff, decide_eq_true_eq]; exact Tower.fp2_equal x y

theorem two_ne : (2 : Fp2 Fq) ≠ 0 := by decide +kernel

example : (⟨1, 1⟩ : Fp2 Fq)⁻¹ * ⟨1, 1⟩ = 1 := by decide +kernel

end Fp2

end Verif.Bls381
