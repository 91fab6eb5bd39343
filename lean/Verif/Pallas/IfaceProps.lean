import Verif.Pallas.IfaceModel
import Verif.Pallas.EpCurve
import Verif.Curves.ScalarProps
import Verif.Bls377.ScalarProps

/-!
# Pallas behind the interfaces (C215)
-/

set_option exponentiation.threshold 600
set_option maxRecDepth 10000

namespace Verif.Pallas.Iface
open Native Curves Primes

/-- the residues of the scalars -/
abbrev R := pastaFq.Ring
/-- the limbs of a residue -/
abbrev E (x : R) : Limbs := encode pastaFq x

theorem ok : pastaFq.Ok := pastaFq_shape.ok

/-- the residues that `SetBytes` refuses and `SetBigInt` replaces by zero (C112) -/
def Gap (n : ℕ) : Prop := 2 ^ 63 ≤ pastaFq.modulus.val - n ∧ pastaFq.modulus.val - n ≤ pastaFq.modulus.l0.toNat

instance : DecidablePred Gap := fun _ => inferInstanceAs (Decidable (_ ∧ _))

/-- C215: `Zero`, `One`, `Add`, `Sub`, `Mul`, `Square`, `Double`, `Cube`, `Neg` and `MulAdd`. -/
theorem C215_ring (x y z : R) : zero = E 0 ∧ one = E 1 ∧ add (E x) (some (E y)) = some (E (x + y)) ∧
    sub (E x) (some (E y)) = some (E (x - y)) ∧ mul (E x) (some (E y)) = some (E (x * y)) ∧ square (E x) = E (x ^ 2) ∧
    double (E x) = E (2 * x) ∧ cube (E x) = E (x ^ 3) ∧ neg (E x) = E (-x) ∧
    mulAdd (E x) (some (E y)) (some (E z)) = .ok (some (E (x * y + z))) := by
  refine ⟨(encode_zero _).symm, R_encode ok, ?_, ?_, ?_, ?_, ?_, ?_, fiatNeg_encode ok x, ?_⟩
  · rw [add, Option.map_some, Native.montAdd_encode ok]
  · rw [sub, Option.map_some, montSub_encode ok]
  · rw [mul, Option.map_some, montMul_encode ok]
  · rw [square, montMul_encode ok, pow_two]
  · rw [double, Native.montAdd_encode ok, two_mul]
  · rw [cube, montMul_encode ok, montMul_encode ok]; congr 1; ring
  · rw [mulAdd, mul, Option.map_some, montMul_encode ok]
    show Except.ok (add _ _) = _
    rw [add, Option.map_some, Native.montAdd_encode ok]

/-- C215: `Invert` and `Div`: the inverse and the quotient, refused exactly for zero. -/
theorem C215_div (x y : R) :
    (x ≠ 0 → ∃ i, x * i = 1 ∧ invert (E x) = .ok (E i) ∧ div (E y) (some (E x)) = some (E (y * i))) ∧
    (x = 0 → invert (E x) = Go.err ∧ div (E y) (some (E x)) = none) := by
  constructor
  · intro hx
    obtain ⟨i, hi, h⟩ := (C113_pasta_invert.2 x).1 hx
    refine ⟨i, hi, ?_, ?_⟩
    · simp [invert, h]
    · simp [div, h, montMul_encode ok, mul_comm]
  · intro hx
    have h := (C113_pasta_invert.2 x).2 hx
    constructor
    · simp [invert, h]
    · simp [div, h]

/-- C215: `Sqrt` returns a root, refused exactly for non-squares. -/
theorem C215_sqrt (x : R) : (IsSquare x → ∃ r, r ^ 2 = x ∧ sqrt (E x) = .ok (E r)) ∧ (¬ IsSquare x → sqrt (E x) = Go.err) := by
  obtain ⟨y, h, hy⟩ := C113_pasta_sqrt.2 x
  constructor
  · intro hx
    exact ⟨y, hy.2 hx, by simp [sqrt, h, hy.2 hx]⟩
  · intro hx
    have : ¬ y ^ 2 = x := fun e => hx (hy.1 e)
    simp [sqrt, h, this]

theorem limbs_ext {l m : Limbs} (h0 : l.l0 = m.l0) (h1 : l.l1 = m.l1) (h2 : l.l2 = m.l2) (h3 : l.l3 = m.l3) : l = m := by
  cases l; cases m; simp_all

theorem low_bit (a : UInt64) : (a &&& 1 = 1 ↔ a.toNat % 2 = 1) ∧ (a &&& 1 = 0 ↔ a.toNat % 2 = 0) := by
  have h : (a &&& 1).toNat = a.toNat % 2 := by
    rw [UInt64.toNat_and]
    exact Nat.and_one_is_mod _
  constructor
  · rw [← UInt64.toNat_inj, h]; rfl
  · rw [← UInt64.toNat_inj, h]; rfl

theorem l0_mod (l : Limbs) : l.l0.toNat % 2 = l.val % 2 := by
  simp only [Limbs.val]; omega

/-- C215: `IsZero` and `IsOne` decide what they say; `IsOdd` and `IsEven` tell the parity of `2^256` times the element: the element two is odd, and
the two always tell an element from its negative. -/
theorem C215_predicates (x : R) : (isZero (E x) = true ↔ x = 0) ∧ (isOne (E x) = true ↔ x = 1) ∧
    (isOdd (E x) = true ↔ (x * 2 ^ 256).val % 2 = 1) ∧ (isEven (E x) = !isOdd (E x)) ∧
    (x ≠ 0 → isOdd (E (-x)) = !isOdd (E x)) ∧ isOdd (E 2) = true := by
  have h1 := ok.neZero
  have hodd : ∀ x : R, isOdd (E x) = true ↔ (x * 2 ^ 256).val % 2 = 1 := fun x => by
    unfold isOdd
    rw [decide_eq_true_eq, (low_bit _).1, l0_mod, encode_val_eq ok]
  refine ⟨?_, ?_, hodd x, ?_, ?_, by decide +kernel⟩
  · have h := encode_val_zero ok x
    unfold isZero
    rw [decide_eq_true_eq, UInt64.or_eq_zero_iff, UInt64.or_eq_zero_iff, UInt64.or_eq_zero_iff, ← h]
    constructor
    · rintro ⟨⟨⟨a, b⟩, c⟩, d⟩
      simp [Limbs.val, a, b, c, d]
    · intro hv
      have : E x = ⟨0, 0, 0, 0⟩ := by rw [← Limbs.val_inj, hv]; decide
      rw [this]; exact ⟨⟨⟨rfl, rfl⟩, rfl⟩, rfl⟩
  · have h : E x = E 1 ↔ x = 1 := encode_inj ok
    unfold isOne
    rw [decide_eq_true_eq, UInt64.or_eq_zero_iff, UInt64.or_eq_zero_iff, UInt64.or_eq_zero_iff, UInt64.xor_eq_zero_iff, UInt64.xor_eq_zero_iff,
      UInt64.xor_eq_zero_iff, UInt64.xor_eq_zero_iff, ← h, show E 1 = pastaFq.R from (R_encode ok).symm]
    constructor
    · rintro ⟨⟨⟨a, b⟩, c⟩, d⟩
      exact limbs_ext a b c d
    · intro e
      rw [e]; exact ⟨⟨⟨rfl, rfl⟩, rfl⟩, rfl⟩
  · rw [Bool.eq_iff_iff, Bool.not_eq_true', ← Bool.not_eq_true, hodd]
    unfold isEven
    rw [decide_eq_true_eq, (low_bit _).2, l0_mod, encode_val_eq ok]
    omega
  · intro hx
    have hx' : x * 2 ^ 256 ≠ 0 := fun h => hx (by simpa using (ok.unit.mul_left_eq_zero).1 h)
    rw [Bool.eq_iff_iff, Bool.not_eq_true', ← Bool.not_eq_true, hodd, hodd, neg_mul, ZMod.neg_val, if_neg hx']
    have hm : pastaFq.modulus.val % 2 = 1 := by decide +kernel
    have := ZMod.val_lt (x * 2 ^ 256)
    omega

/-- C215: `Cmp` is zero exactly for equal elements and `-2` exactly for foreign ones; it is not the order: there are reduced limbs that it
orders the wrong way. -/
theorem C215_cmp (x y : R) : (cmp (E x) (some (E y)) = 0 ↔ x = y) ∧ (∀ s, cmp s none = -2) ∧ (∀ s r, cmp s (some r) ≠ -2) ∧
    ∃ l m : Limbs, l.val < pastaFq.modulus.val ∧ m.val < pastaFq.modulus.val ∧ l.val < m.val ∧ cmp l (some m) = 1 := by
  refine ⟨?_, fun _ => rfl, fun s r => ?_, ?_⟩
  · have h : E x = E y ↔ x = y := encode_inj ok
    rw [← h]
    show pastaCmp _ _ = 0 ↔ _
    have h0 : ∀ o, ordInt o = 0 ↔ o = .eq := by intro o; cases o <;> decide
    rw [pastaCmp_eq, h0, then_eq, then_eq, then_eq, then_eq, signOrd_isEq, signOrd_isEq, signOrd_isEq, signOrd_isEq]
    constructor
    · rintro ⟨⟨⟨⟨-, a⟩, b⟩, c⟩, d⟩
      exact limbs_ext (UInt64.toNat_inj.1 d) (UInt64.toNat_inj.1 c) (UInt64.toNat_inj.1 b) (UInt64.toNat_inj.1 a)
    · intro e
      rw [e]; exact ⟨⟨⟨⟨rfl, rfl⟩, rfl⟩, rfl⟩, rfl⟩
  · show pastaCmp _ _ ≠ -2
    rw [pastaCmp_eq]
    generalize ((((Ordering.eq.then _).then _).then _).then _ : Ordering) = o
    cases o <;> decide
  · obtain ⟨l, m, h1, h2, h3, h4, -⟩ := C112_cmp_wrong pastaFq (Or.inr rfl)
    exact ⟨l, m, h1, h2, h3, h4⟩

/-- C215: `SetBigInt` reduces an integer, but gives zero without an error when the residue is in the gap, and panics on nil; `BigInt` is the
least residue. -/
theorem C215_bigInt (x : R) (v : ℤ) : setBigInt none = Go.crash ∧ bigInt (E x) = x.val ∧
    setBigInt (some v) = .ok (if Gap ((v % (pastaFq.modulus.val : ℤ)).toNat) then E 0 else E (v : R)) := by
  refine ⟨rfl, ?_, ?_⟩
  · exact (C57_bigInt ok zero 0 x).2
  · show Except.ok (pastaSetBigInt pastaFq _ v) = _
    rw [C112_setBigInt pastaFq_shape, ← encode_zero pastaFq]
    have hpos : (0 : ℤ) < pastaFq.modulus.val := by have := ok.one_lt; omega
    have h0 := Int.emod_nonneg v hpos.ne'
    have h1 := Int.emod_lt_of_pos v hpos
    have hiff : Gap ((v % (pastaFq.modulus.val : ℤ)).toNat) ↔ 2 ^ 63 ≤ (pastaFq.modulus.val : ℤ) - v % pastaFq.modulus.val ∧
        (pastaFq.modulus.val : ℤ) - v % pastaFq.modulus.val ≤ pastaFq.modulus.l0.toNat := by
      unfold Gap; omega
    simp only [hiff]

/-- C215: `Bytes` is 32 bytes in little-endian order; `SetBytes` inverts it exactly outside the gap, and refuses every other length. -/
theorem C215_bytes (x : R) : (bytes (E x)).length = 32 ∧ leNat (bytes (E x)) = x.val ∧
    setBytes (bytes (E x)) = (if Gap x.val then Go.err else .ok (E x)) ∧ ∀ b, b.length ≠ 32 → setBytes b = Go.err := by
  have hb : bytes (E x) = leBytes 32 x.val := C57_bytes ok x
  have hl : (bytes (E x)).length = 32 := by rw [hb, leBytes_length]
  refine ⟨hl, ?_, ?_, fun b h => ?_⟩
  · rw [hb, leNat_leBytes]
    have := ok.val_lt x
    norm_num at this ⊢
    exact this
  · unfold setBytes
    rw [Go.guard_true hl, Go.ok_bind]
    exact C112_roundtrip pastaFq_shape x
  · unfold setBytes
    rw [Go.guard_false h]; rfl

/-- C215: the gap is not empty: the element `-2^63` is written and cannot be read, and is zero when it comes from an integer. -/
theorem C215_gap : setBytes (bytes (E (-(2 ^ 63)))) = Go.err ∧ setBigInt (some (-(2 ^ 63))) = .ok (E 0) ∧ E (-(2 ^ 63)) ≠ E 0 := by
  refine ⟨by decide +kernel, by decide +kernel, by decide +kernel⟩

/-- C215: `SetBytesWide` accepts exactly 64 bytes and reduces the number they stand for, in the same order as `SetBytes`. -/
theorem C215_wide (b : List UInt8) : setBytesWide b = if b.length = 64 then .ok (E (leNat b : R)) else Go.err := by
  unfold setBytesWide
  split_ifs with h
  · rw [Go.guard_true h, Go.ok_bind, C57_wide ok b h]
  · rw [Go.guard_false h]; rfl

/-- C215: `Hash` reduces the 64 bytes of `expand_message_xmd`, in little-endian order; `Random` hashes what was read, padded with zeros, and is
nil exactly without a reader. -/
theorem C215_hash {H : List UInt8 → List UInt8} (hH : ∀ m, (H m).length = 64) (msg : List UInt8) :
    hash H msg = E (leNat (expandMsgXmd H 64 128 msg (ascii "pallas_XMD:BLAKE2b_SSWU_RO_") 64) : R) ∧ random H none = none ∧
    random H (some []) = some (hash H (List.replicate 64 0)) ∧ ∀ r : List UInt8, r.length = 64 → random H (some r) = some (hash H r) := by
  refine ⟨?_, rfl, rfl, fun r hr => ?_⟩
  · unfold hash
    simp only []
    rw [Bls377.C207_xmd _ _ _ _ _ _ (by decide +kernel), C57_wide ok _ (C162_expandXmd_length H 64 128 (by norm_num) hH msg _ (by norm_num))]
  · simp [random, ← hr]

/-- C215: foreign arguments. -/
theorem C215_foreign (s t : Limbs) (w : Option Limbs) (p : Ep) : add s none = none ∧ sub s none = none ∧ mul s none = none ∧ div s none = none ∧
    mulAdd s (some t) none = .ok none ∧ mulAdd s none w = Go.crash ∧ pointAdd p none = none ∧ pointSub p none = none ∧ pointMul p none = none ∧
    pointEqual p none = false := ⟨rfl, rfl, rfl, rfl, rfl, rfl, rfl, rfl, rfl, rfl⟩

/-- C215: the methods of points are the operations of the group. -/
theorem C215_points {p q : Ep} {P Q : Group} (hp : JRep p P) (hq : JRep q Q) (s : Fq) :
    (∃ r, pointAdd p (some q) = some r ∧ JRep r (P + Q)) ∧ (∃ r, pointSub p (some q) = some r ∧ JRep r (P - Q)) ∧
    (∃ r, pointMul p (some s) = some r ∧ JRep r (s.val • P)) ∧ (pointEqual p (some q) = true ↔ P = Q) := by
  have h := C171_group hp hq
  exact ⟨⟨_, rfl, h.1⟩, ⟨_, rfl, h.2.2.2.1⟩, ⟨_, rfl, C171_mul hp s⟩, C171_equal hp hq⟩

theorem mapM_id_some {α : Type} (l : List α) : (l.map some).mapM id = some l := by
  induction l with
  | nil => rfl
  | cons a l ih => simp [List.mapM_cons, ih]

theorem mapM_id_none {α : Type} {l : List (Option α)} (h : none ∈ l) : l.mapM id = none := by
  induction l with
  | nil => cases h
  | cons a l ih =>
    rw [List.mapM_cons]
    rcases List.mem_cons.1 h with rfl | h
    · rfl
    · rw [ih h]; cases a <;> rfl

/-- C215: `SumOfProducts`: a foreign point gives nil; a foreign scalar or lists of different lengths give a point that is not nil and panics when it
is used; otherwise the sum of the products. -/
theorem C215_sum {points : List Ep} {Ps : List Group} (hp : List.Forall₂ JRep points Ps) (scalars : List Fq) :
    (points.length = scalars.length → ∃ r, pointSum (points.map some) (scalars.map some) = some (some r) ∧
      JRep r ((List.zipWith (fun s P => s.val • P) scalars Ps).sum)) ∧
    (points.length ≠ scalars.length → pointSum (points.map some) (scalars.map some) = some none) ∧
    (∀ sc, none ∈ sc → pointSum (points.map some) sc = some none) ∧ (∀ pts sc, none ∈ pts → pointSum pts sc = none) ∧
    useIsIdentity none = Go.crash := by
  obtain ⟨h1, h2⟩ := C171_sumOfProducts hp scalars
  refine ⟨fun hl => ?_, fun hl => ?_, fun sc h => ?_, fun pts sc h => ?_, rfl⟩
  · obtain ⟨r, hr, hj⟩ := h1 hl
    refine ⟨r, ?_, hj⟩
    unfold pointSum epSum
    rw [mapM_id_some, mapM_id_some]
    simp only [hr]
  · unfold pointSum epSum
    rw [mapM_id_some, mapM_id_some]
    simp only [h2 hl]
  · unfold pointSum epSum
    rw [mapM_id_some, mapM_id_none h]
  · unfold pointSum
    rw [mapM_id_none h]

/-- C215: the old curve has the constants of Pallas, but no name: the initializer writes the name of the new curve instead. -/
theorem C215_old_curve (n : String) :
    (oldPallasInitAll n).P = pallasp ∧ (oldPallasInitAll n).N = pallasq ∧
    curveIsOnCurve (oldPallasInitAll n).Gx (oldPallasInitAll n).Gy = true ∧ (oldPallasInitAll n).name = "" ∧ (oldPallasInitAll n).newName = "pallas" ∧
    Legacy.curveNameToId (oldPallasInitAll n).name = none := by
  refine ⟨?_, ?_, ?_, rfl, rfl, ?_⟩
  · show 0x40000000000000000000000000000000224698fc094cf91b992d30ed00000001 = pallasp
    decide +kernel
  · show 0x40000000000000000000000000000000224698fc0994a8dd8c46eb2100000001 = pallasq
    decide +kernel
  rotate_left
  · show Legacy.curveNameToId "" = none
    decide +kernel
  show curveIsOnCurve ((toInts epGenerator).1 : ℤ) ((toInts epGenerator).2 : ℤ) = true
  decide +kernel

/-! ## Concrete cases -/

example : add (E 3) (some (E 4)) = some (E 7) ∧ div (E 6) (some (E 3)) = some (E 2) := by decide +kernel

example : ∃ P : Group, JRep epGenerator P ∧ P ≠ 0 ∧ JRep epGenerator P := by
  obtain ⟨P, h⟩ := (C171_isOnCurve epGenerator).1 (by decide +kernel)
  refine ⟨P, h, fun e => ?_, h⟩
  have := (C171_isIdentity h).2 e
  revert this
  decide +kernel

example : ∃ r, pointSum [some epGenerator] [some 2] = some (some r) ∧ epEqual r (epDouble epGenerator) = true :=
  ⟨_, rfl, by decide +kernel⟩

end Verif.Pallas.Iface
