import Verif.Legacy.EdCurveModel
import Verif.Legacy.VssProps
import Verif.Ed25519.PointProps

/-!
# C188: the older Ed25519 curve

On the points of prime order `Add`, `ScalarMult` and `ScalarBaseMult` are right, so that sharing works.  Everything that refers to the
neutral element, to the opposite or to an abscissa is wrong.
-/

set_option exponentiation.threshold 1000

namespace Verif.Legacy
open Verif.Primes Verif.Ed25519 Verif.Curves.Ed Verif.V1

/-- the coordinates of a point -/
def edXY (P : EdPt) : ℤ × ℤ := (0, beNat (libPointBytes P))

theorem edBytes_length (P : EdPt) : (libPointBytes P).length = 32 := leBytes_length _ _

theorem edPoint_xy (P : EdPt) : edPoint (some (edXY P).2) = .ok P := by
  have hl := edBytes_length P
  have hlt : (edXY P).2.natAbs < 256 ^ 32 := by
    show ((beNat (libPointBytes P) : ℕ) : ℤ).natAbs < _
    rw [Int.natAbs_natCast, ← hl]; exact beNat_lt _
  have hb : beBytes 32 (edXY P).2.natAbs = libPointBytes P := by
    show beBytes 32 ((beNat (libPointBytes P) : ℕ) : ℤ).natAbs = _
    rw [Int.natAbs_natCast]
    conv_lhs => rw [← hl]
    exact beBytes_beNat _
  rw [edPoint, if_pos hlt, hb]
  exact (C180_compressed_roundtrip P).2.1

theorem edXY_injective : Function.Injective edXY := fun P Q h => by
  have h1 := edPoint_xy P
  rw [h, edPoint_xy Q] at h1
  exact (Except.ok.inj h1).symm

/-- C188: which scalar the methods use, for strings of every length: the low 256 bits when they are below the order, and only otherwise the
whole number (its low 512 bits) modulo the order -/
theorem C188_scalar (k : List UInt8) : edScalar k = .ok (if beNat k % 2 ^ 256 < edl then ((beNat k % 2 ^ 256 : ℕ) : Fl)
    else ((beNat k % 2 ^ 512 : ℕ) : Fl)) := by
  have h32 := natScalar_eq (q := edl) (natBytes ((beNat k : ℕ) : ℤ).natAbs)
  rw [Int.natAbs_natCast, beNat_natBytes] at h32
  obtain ⟨-, -, h3, h4⟩ := h32
  have hl : ((k.reverse ++ List.replicate 64 0).take 64).length = 64 := by
    rw [List.length_take, List.length_append, List.length_replicate]; omega
  have hv : leNat ((k.reverse ++ List.replicate 64 0).take 64) = beNat k % 2 ^ 512 := by
    have e := congrArg leNat (List.take_append_drop 64 (k.reverse ++ List.replicate 64 (0 : UInt8)))
    rw [Native.leNat_append, Native.leNat_append, show leNat (List.replicate 64 (0 : UInt8)) = 0 by decide +kernel, mul_zero, add_zero,
      ← beNat_eq_leNat_reverse, hl] at e
    have := leNat_lt ((k.reverse ++ List.replicate 64 0).take 64)
    rw [hl] at this
    rw [← e, show (256 : ℕ) ^ 64 = 2 ^ 512 by norm_num] at *
    rw [Nat.add_mul_mod_self_left, Nat.mod_eq_of_lt this]
  have e1 : edBigScalar (beNat k) = if beNat k % 2 ^ 256 < edl then .ok ((beNat k % 2 ^ 256 : ℕ) : Fl) else Go.err := by
    rw [edBigScalar, Int.natAbs_natCast, libSetCanonical, Go.guard_true h4, Go.ok_bind, h3]
    split
    · rename_i h; rw [Go.guard_true h]; rfl
    · rename_i h; rw [Go.guard_false h]; rfl
  rw [edScalar, e1]
  by_cases h : beNat k % 2 ^ 256 < edl
  · rw [if_pos h, if_pos h]
  · rw [if_neg h, if_neg h, libSetUniform, Go.guard_true hl, hv]; rfl

/-- the first is a mistake: a number of more than 32 bytes is cut off when the low ones are below the order -/
example : edScalar (1 :: List.replicate 32 0) = .ok 0 ∧ edScalar (List.replicate 32 255) = .ok ((2 ^ 256 - 1 : ℕ) : Fl) := by
  constructor
  · rw [C188_scalar, if_pos (by decide +kernel)]
    congr 1
  · rw [C188_scalar, if_neg (by decide +kernel)]
    congr 2

theorem edXY_zero : edXY 0 = (0, 2 ^ 248) := by
  rw [edXY, show libPointBytes 0 = leBytes 32 1 by
    show leBytes 32 ((1 : Fp).val + 2 ^ 255 * ((0 : Fp).val % 2)) = _
    rw [ZMod.val_zero, ZMod.val_one'' (by decide +kernel), Nat.zero_mod, Nat.mul_zero, Nat.add_zero]]
  decide +kernel

theorem edXY_eq_zero {P : EdPt} (h : (edXY P).2 = 0) : P.y = 0 ∧ P.x.val % 2 = 0 := by
  have h0 : beNat (libPointBytes P) = 0 := Int.ofNat_eq_zero.1 h
  have h1 : libPointBytes P = leBytes 32 0 := by
    have := beBytes_beNat (libPointBytes P)
    rw [h0, edBytes_length] at this
    rw [← this]; decide +kernel
  have h2 := (enc_nat P.y (Nat.mod_lt P.x.val two_pos)).2.1
  rw [show leBytes 32 (P.y.val + 2 ^ 255 * (P.x.val % 2)) = leBytes 32 0 from h1, show leNat (leBytes 32 0) = 0 by decide +kernel] at h2
  generalize hk : (2 : ℕ) ^ 255 = m at h2
  have hm : 0 < m := by rw [← hk]; decide +kernel
  have ha : P.y.val = 0 := by omega
  have hb : m * (P.x.val % 2) = 0 := by omega
  exact ⟨(ZMod.val_eq_zero _).1 ha, (Nat.mul_eq_zero.1 hb).resolve_left hm.ne'⟩

/-- the points with ordinate 0 are of order four -/
theorem order_four {P : EdPt} (h : P.y = 0) : P + P = twoTors ∧ P ∉ primeSub := by
  have hx : P.x * P.x = -1 := by have := P.eq; rw [h] at this; linear_combination -this
  have h2 : P + P = twoTors := by
    ext
    · rw [add_x, h]; simp [twoTors, mkPt]
    · rw [add_y, h, hx]
      simp only [mul_zero, sub_zero, div_one, zero_add]
      show (-1 : Fp) = ((edp - 1 : ℕ) : Fp)
      rw [Nat.cast_sub (by decide +kernel), ZMod.natCast_self, Nat.cast_one, zero_sub]
  refine ⟨h2, fun hm => twoTors_not_mem ?_⟩
  rw [← h2]; exact add_mem hm hm

theorem edOperand_xy {P : EdPt} (h : (edXY P).2 ≠ 0) : edOperand (some (edXY P).2) = .ok P := by
  rw [edOperand, if_neg h, edPoint_xy]; rfl

theorem edXY_ne {P : EdPt} (h : P ∈ primeSub) : (edXY P).2 ≠ 0 := fun h0 => (order_four (edXY_eq_zero h0).1).2 h

/-- C188: `Add` and `ScalarMult`, for all points of the curve -/
theorem C188_ops (refs : List ℕ) (P Q : EdPt) (k : List UInt8) (u v : Option ℤ) :
    (P.y ≠ 0 → Q.y ≠ 0 → (ed25519Curve refs).add u (some (edXY P).2) v (some (edXY Q).2) = .ok (edBigInt (P + Q))) ∧
    (ed25519Curve refs).double u (some (edXY P).2) = .ok (edBigInt (P + P)) ∧
    (beNat k < edl → (ed25519Curve refs).scalarMult u (some (edXY P).2) k = .ok (edBigInt (beNat k • P))) ∧
    (beNat k < edl → (ed25519Curve refs).scalarBaseMult k = .ok (edBigInt (beNat k • base))) := by
  have hs : beNat k < edl → edScalar k = .ok ((beNat k : ℕ) : Fl) ∧ ((beNat k : ℕ) : Fl).val = beNat k := by
    intro h
    have : beNat k % 2 ^ 256 = beNat k := Nat.mod_eq_of_lt (lt_trans h (by decide +kernel))
    exact ⟨by rw [C188_scalar, this, if_pos h], ZMod.val_cast_of_lt h⟩
  refine ⟨fun hP hQ => ?_, ?_, fun h => ?_, fun h => ?_⟩
  · show (do let p1 ← edOperand _; let p2 ← edOperand _; Except.ok (edBigInt (p1 + p2))) = _
    rw [edOperand_xy fun e => hP (edXY_eq_zero e).1, edOperand_xy fun e => hQ (edXY_eq_zero e).1]; rfl
  · show (do let p ← orPanic (edPoint _); Except.ok (edBigInt (p + p))) = _
    rw [edPoint_xy]; rfl
  · show (do let p ← orPanic (edPoint _); let s ← edScalar k; Except.ok (edBigInt (s.val • p))) = _
    rw [edPoint_xy, (hs h).1]
    show Except.ok (edBigInt (((beNat k : ℕ) : Fl).val • P)) = _
    rw [(hs h).2]
  · show (do let s ← edScalar k; Except.ok (edBigInt (s.val • base))) = _
    rw [(hs h).1]
    show Except.ok (edBigInt (((beNat k : ℕ) : Fl).val • base)) = _
    rw [(hs h).2]

theorem edValid (refs : List ℕ) (P : EdPt) (u : Option ℤ) : EcPoint.isValid ⟨ed25519Curve refs, u, some (edXY P).2⟩ = .ok true := by
  rw [EcPoint.isValid, EcPoint.isOnCurve]
  show (do if ← edIsOnCurve u (some (edXY P).2) then Except.ok true else Except.ok _) = _
  rw [edIsOnCurve, edPoint_xy]; rfl

/-- C188: the curve computes in the subgroup of prime order -/
noncomputable def edComputes (refs : List ℕ) : Computes (ed25519Curve refs) primeSub where
  xy P := edXY P
  g := ⟨base, base_mem⟩
  inj P Q h := Subtype.ext (edXY_injective h)
  valid P := edValid refs P _
  add P Q := (C188_ops refs P Q [] _ _).1 (fun h => (order_four h).2 P.2) fun h => (order_four h).2 Q.2
  mul P k h := (C188_ops refs P P k _ (some 0)).2.2.1 (Int.ofNat_lt.1 h)
  baseMul k h := (C188_ops refs base base k (some 0) (some 0)).2.2.2 (Int.ofNat_lt.1 h)
  pos := by show (0 : ℤ) < ((edl : ℕ) : ℤ); exact Int.ofNat_lt.2 (by decide +kernel)
  order P := by
    show ((edl : ℕ) : ℤ) • P = 0
    rw [natCast_zsmul]
    exact Subtype.ext (mem_primeSub.1 P.2)

/-- C188: for `EcPoint`: sums and multiples of the points of prime order are right, whatever the integer, and equality decides -/
theorem C188_computes (refs : List ℕ) (P Q : primeSub) (k : ℤ) :
    EcPoint.add (some ⟨ed25519Curve refs, some 0, some (edXY P).2⟩) (some ⟨ed25519Curve refs, some 0, some (edXY Q).2⟩) =
      .ok ⟨ed25519Curve refs, some 0, some (edXY (P + Q : EdPt)).2⟩ ∧
    EcPoint.scalarMult (some ⟨ed25519Curve refs, some 0, some (edXY P).2⟩) (some k) =
      .ok ⟨ed25519Curve refs, some 0, some (edXY (k • (P : EdPt))).2⟩ ∧
    newScalarBaseMult (some (ed25519Curve refs)) (some k) = .ok ⟨ed25519Curve refs, some 0, some (edXY (k • base)).2⟩ ∧
    (EcPoint.equals ⟨ed25519Curve refs, some 0, some (edXY P).2⟩ (some ⟨ed25519Curve refs, some 0, some (edXY Q).2⟩) = true ↔ P = Q) :=
  ⟨(C189_add (edComputes refs) P Q).1, (C189_mul (edComputes refs) P k).1, (C189_mul (edComputes refs) P k).2.1,
    (C189_equals (edComputes refs) P Q).1⟩

example (refs : List ℕ) : EcPoint.add (some ⟨ed25519Curve refs, some 0, some (edXY base).2⟩)
    (some ⟨ed25519Curve refs, some 0, some (edXY base).2⟩) = .ok ⟨ed25519Curve refs, some 0, some (edXY (base + base)).2⟩ :=
  (C188_computes refs ⟨base, base_mem⟩ ⟨base, base_mem⟩ 0).1

/-- C188: the neutral element is not `IsIdentity`, and what is `IsIdentity` is no element of the subgroup.  So `P - P` is never found to be
the neutral element. -/
theorem C188_identity (refs : List ℕ) : edXY 0 = (0, 2 ^ 248) ∧
    (∀ P : primeSub, EcPoint.isIdentity ⟨ed25519Curve refs, some (edXY P).1, some (edXY P).2⟩ = false) ∧
    EcPoint.isIdentity ⟨ed25519Curve refs, some 0, some 0⟩ = true := by
  refine ⟨edXY_zero, fun P => ?_, by rw [EcPoint.isIdentity, ctEq_and]; exact ⟨rfl, rfl⟩⟩
  rw [← Bool.not_eq_true, EcPoint.isIdentity, ctEq_and]
  exact fun h => edXY_ne P.2 (Option.some.inj h.2)

/-- C188: `(0, 0)` is the neutral element for `Add` and `Neg`, and a point of order four for `Double` and `ScalarMult` -/
theorem C188_zero (refs : List ℕ) : ∃ T : EdPt, T + T = twoTors ∧ edXY T = (0, 0) ∧
    (∀ P : EdPt, P.y ≠ 0 → (ed25519Curve refs).add (some 0) (some 0) (some 0) (some (edXY P).2) = .ok (edBigInt P)) ∧
    (ed25519Curve refs).double (some 0) (some 0) = .ok (edBigInt twoTors) ∧
    (ed25519Curve refs).add (some 0) (some 0) (some 0) (some 0) = .ok (edBigInt 0) ∧ edBigInt twoTors ≠ edBigInt 0 ∧
    (∀ k, beNat k < edl → (ed25519Curve refs).scalarMult (some 0) (some 0) k = .ok (edBigInt (beNat k • T))) := by
  have hi := C180_sqrtM1
  let T : EdPt := ⟨iEd, 0, by rw [show iEd = -sqrtM1 by rw [hi.2.1, neg_neg]]; linear_combination -hi.1⟩
  have hT : edXY T = (0, 0) := by
    rw [edXY, show libPointBytes T = leBytes 32 0 by
      show leBytes 32 ((0 : Fp).val + 2 ^ 255 * (iEd.val % 2)) = _
      rw [ZMod.val_zero, hi.2.2.1, Nat.mul_zero]]
    decide +kernel
  have h0 : edOperand (some 0) = .ok 0 := rfl
  have hp := edPoint_xy T
  rw [hT] at hp
  refine ⟨T, (order_four rfl).1, hT, fun P hP => ?_, ?_, ?_, ?_, fun k hk => ?_⟩
  · show (do let p1 ← edOperand _; let p2 ← edOperand _; Except.ok (edBigInt (p1 + p2))) = _
    rw [edOperand_xy fun e => hP (edXY_eq_zero e).1, h0]
    show Except.ok (edBigInt (0 + P)) = _
    rw [zero_add]
  · have := (C188_ops refs T T [] (some 0) (some 0)).2.1
    rwa [hT, (order_four (P := T) rfl).1] at this
  · show Except.ok (edBigInt (0 + 0)) = _
    rw [add_zero]
  · intro e
    exact twoTors_ne (edXY_injective (Prod.ext rfl (Option.some.inj (Prod.mk.inj e).2)))
  · have := (C188_ops refs T T k (some 0) (some 0)).2.2.1 hk
    rwa [hT] at this

theorem beNat_leBytes_mod_two : ∀ k n : ℕ, beNat (leBytes (k + 1) n) % 2 = n / 256 ^ k % 2
  | 0, n => by
    rw [beNat_eq_leNat_reverse, leBytes, leBytes, List.reverse_singleton, leNat_cons, UInt8.toNat_ofNat', pow_zero, Nat.div_one]
    show (n % 2 ^ 8 + 256 * 0) % 2 = n % 2
    omega
  | k + 1, n => by
    have h := beNat_leBytes_mod_two k (n / 256)
    have e : ∀ (b : UInt8) (l : List UInt8), l ≠ [] → beNat (b :: l) % 2 = beNat l % 2 := by
      intro b l hl
      rw [beNat_eq_leNat_reverse, beNat_eq_leNat_reverse, List.reverse_cons, Native.leNat_append]
      obtain ⟨m, hm⟩ : ∃ m, l.reverse.length = m + 1 := ⟨l.length - 1, by
        have := List.length_pos_of_ne_nil hl; simp; omega⟩
      rw [hm, pow_succ, show 256 ^ m * 256 * leNat [b] = 2 * (128 * (256 ^ m * leNat [b])) by ring, Nat.add_mul_mod_self_left]
    rw [leBytes, e _ _ (fun h => by have := congrArg List.length h; rw [leBytes_length] at this; simp at this), h, Nat.div_div_eq_div_mul,
      pow_succ']

/-- C188: `EcPoint.Neg` never gives the opposite point, of any point of the curve; the `Neg` of the curve does -/
theorem C188_neg (refs : List ℕ) (P : EdPt) (u : Option ℤ) :
    (∀ v, EcPoint.neg (some ⟨ed25519Curve refs, u, some (edXY P).2⟩) ≠ .ok ⟨ed25519Curve refs, v, some (edXY (-P)).2⟩) ∧
    (P.y ≠ 0 → edNeg u (some (edXY P).2) = .ok (edBigInt (-P))) := by
  constructor
  · intro v hr
    have hY : some (edXY (-P)).2 = some ((edp : ℤ) - (edXY P).2) := by
      have hr : checked ⟨ed25519Curve refs, u, some ((edp : ℤ) - (edXY P).2)⟩ = .ok ⟨ed25519Curve refs, v, some (edXY (-P)).2⟩ := hr
      rw [checked, Go.bind_eq_ok] at hr
      obtain ⟨b, -, hr⟩ := hr
      cases b with
      | false => cases hr
      | true => exact (congrArg EcPoint.Y (Except.ok.inj hr)).symm
    have h1 := (Option.some.inj hY).symm
    have par : ∀ Q : EdPt, Q.y = P.y → beNat (libPointBytes Q) % 2 = P.y.val / 256 ^ 31 % 2 := by
      intro Q hQ
      rw [libPointBytes, beNat_leBytes_mod_two 31, hQ, show (2 : ℕ) ^ 255 = 256 ^ 31 * 128 by norm_num, mul_assoc,
        Nat.add_mul_div_left _ _ (by decide +kernel)]
      omega
    have p1 := par P rfl
    have p2 := par (-P) rfl
    have h1 : (edp : ℤ) - ((beNat (libPointBytes P) : ℕ) : ℤ) = ((beNat (libPointBytes (-P)) : ℕ) : ℤ) := h1
    have ho : edp % 2 = 1 := by decide +kernel
    clear hY hr par
    generalize beNat (libPointBytes P) = a at *
    generalize beNat (libPointBytes (-P)) = b at *
    generalize P.y.val / 256 ^ 31 = c at *
    have key : ∀ e : ℕ, (e : ℤ) - (a : ℤ) = (b : ℤ) → e % 2 = 1 → False := fun e h1 h2 => by omega
    exact key edp h1 ho
  · intro h
    rw [edNeg, edOperand_xy fun e => h (edXY_eq_zero e).1]; rfl

/-- C188: the abscissa is not looked at, and the sign of the ordinate neither; too large an ordinate panics, so that input from outside has
to be measured first -/
theorem C188_isOnCurve (refs : List ℕ) (u v : Option ℤ) (y : ℤ) :
    (ed25519Curve refs).isOnCurve u (some y) = (ed25519Curve refs).isOnCurve v (some (-y)) ∧
    ((ed25519Curve refs).isOnCurve u (some y) = Go.crash ↔ 2 ^ 256 ≤ y.natAbs) ∧
    ((ed25519Curve refs).isOnCurve u (some y) = .ok true ↔ y.natAbs < 2 ^ 256 ∧ ∃ P, libPointSetBytes (beBytes 32 y.natAbs) = .ok P) := by
  have e256 : (256 : ℕ) ^ 32 = 2 ^ 256 := by norm_num
  refine ⟨?_, ?_, ?_⟩
  · show edIsOnCurve u (some y) = edIsOnCurve v (some (-y))
    rw [edIsOnCurve, edIsOnCurve, edPoint, edPoint, Int.natAbs_neg]
  · show edIsOnCurve u (some y) = _ ↔ _
    rw [edIsOnCurve, edPoint, e256]
    by_cases h : y.natAbs < 2 ^ 256
    · rw [if_pos h]
      refine ⟨fun hc => ?_, fun hc => absurd h (not_lt.2 hc)⟩
      exfalso
      have ht := C180_fromCompressed_total (beBytes 32 y.natAbs)
      rw [ptFromCompressed] at ht
      cases hr : libPointSetBytes (beBytes 32 y.natAbs) with
      | ok P => rw [hr] at hc; cases hc
      | error e =>
        cases e with
        | panic => exact ht hr
        | error => rw [hr] at hc; cases hc
    · rw [if_neg h]; exact ⟨fun _ => not_lt.1 h, fun _ => rfl⟩
  · show edIsOnCurve u (some y) = _ ↔ _
    rw [edIsOnCurve, edPoint, e256]
    by_cases h : y.natAbs < 2 ^ 256
    · rw [if_pos h]
      cases hr : libPointSetBytes (beBytes 32 y.natAbs) with
      | ok P => exact ⟨fun _ => ⟨h, P, rfl⟩, fun _ => rfl⟩
      | error e =>
        refine ⟨fun hc => ?_, fun hc => ?_⟩
        · cases e <;> cases hc
        · obtain ⟨-, P, hP⟩ := hc; cases hP
    · rw [if_neg h]; exact ⟨fun hc => (by cases hc), fun hc => absurd hc.1 h⟩

theorem palindrome (l : List UInt8) : beNat l.reverse = beNat l ↔ l.reverse = l := by
  refine ⟨fun e => ?_, fun e => by rw [e]⟩
  have h1 := beBytes_beNat l.reverse
  rw [e, List.length_reverse, beBytes_beNat] at h1
  exact h1.symm

theorem edHashOut_eq (P : EdPt) : edHashOut (some P) = .ok (some 0, some (leNat (libPointBytes P))) := by
  have hP : libPointSetBytes (ptToCompressed P) = .ok P := (C180_compressed_roundtrip P).2.1
  rw [edHashOut, hP, orPanic, Go.ok_bind, beNat_eq_leNat_reverse, List.reverse_reverse]

/-- C188: what `Hash` returns is the bytes of the point in the other order: it is the point exactly when they are a palindrome -/
theorem C188_hash (H : List UInt8 → List UInt8) (msg : List UInt8) (P : EdPt) (h : ptHash H msg = some P) :
    edHash H msg = .ok (some 0, some (leNat (libPointBytes P))) ∧
      (leNat (libPointBytes P) = beNat (libPointBytes P) ↔ (libPointBytes P).reverse = libPointBytes P) := by
  constructor
  · rw [edHash, h]; exact edHashOut_eq P
  · rw [← palindrome, beNat_eq_leNat_reverse, beNat_eq_leNat_reverse, List.reverse_reverse]

/-- C191: so the older Feldman scheme works on this curve: dealt shares verify -/
theorem C191_ed25519 (refs : List ℕ) (s : Shamir) (secret : List UInt8) (rnd : ℕ → Fl) (vs : List EcPoint) (shares : List (Share edl))
    (h : ecFeldmanSplit (ed25519Curve refs) s secret rnd = .ok (vs, shares)) (sh : Share edl) (hs : sh ∈ shares) :
    ecFeldmanVerify (ed25519Curve refs) s (some sh) vs = .ok true := by
  classical
  rw [C191_feldman_split (edComputes refs), Go.bind_eq_ok] at h
  obtain ⟨r, hr, e⟩ := h
  obtain ⟨rfl, rfl⟩ := Prod.mk.inj (Except.ok.inj e)
  rw [C191_feldman_verify]
  exact C87_feldman_complete _ s secret rnd r.1 r.2 hr sh hs

end Verif.Legacy
