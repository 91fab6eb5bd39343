import Verif.Legacy.PointModel
import Verif.Core.Props
import Mathlib.Algebra.Group.Basic
import Mathlib.Algebra.Module.NatInt

/-!
# C189: points of the older interface are a group

`Lawful c A` says what a curve is supposed to do on the coordinates of points.  The theorems say what the methods of `EcPoint` then do for
every point and every integer; `Verif.Legacy.CurveProps` shows that `Koblitz256` meets it.
-/

namespace Verif.Legacy
open Verif.Core

/-- the curve `c` computes in the group `A`, whose elements have the coordinates `xy`: all are valid, and `Add`, `ScalarMult` and
`ScalarBaseMult` are what they should be for scalars below the order.  Nothing is said of other pairs of integers. -/
structure Computes (c : ECurve) (A : Type) [AddCommGroup A] where
  xy : A → ℤ × ℤ
  g : A
  inj : Function.Injective xy
  valid : ∀ P, EcPoint.isValid ⟨c, some (xy P).1, some (xy P).2⟩ = .ok true
  add : ∀ P Q, c.add (some (xy P).1) (some (xy P).2) (some (xy Q).1) (some (xy Q).2) = .ok (some (xy (P + Q)).1, some (xy (P + Q)).2)
  mul : ∀ P k, (beNat k : ℤ) < c.params.N → c.scalarMult (some (xy P).1) (some (xy P).2) k =
    .ok (some (xy (beNat k • P)).1, some (xy (beNat k • P)).2)
  baseMul : ∀ k, (beNat k : ℤ) < c.params.N → c.scalarBaseMult k = .ok (some (xy (beNat k • g)).1, some (xy (beNat k • g)).2)
  pos : 0 < c.params.N
  order : ∀ P : A, c.params.N • P = 0

/-- moreover the neutral element has the coordinates `(0, 0)`, the opposite of a point has the opposite ordinate, `g` is the base point of
the parameters, and reduced coordinates on the curve are those of an element -/
structure Lawful (c : ECurve) (A : Type) [AddCommGroup A] extends Computes c A where
  zero : xy 0 = (0, 0)
  range : ∀ P, 0 ≤ (xy P).1 ∧ (xy P).1 < c.params.P ∧ 0 ≤ (xy P).2 ∧ (xy P).2 < c.params.P
  only : ∀ x y, 0 ≤ x → x < c.params.P → 0 ≤ y → y < c.params.P → c.isOnCurve (some x) (some y) = .ok true → ∃ P, xy P = (x, y)
  base : xy g = (c.params.Gx, c.params.Gy)
  neg : ∀ P, P ≠ 0 → xy (-P) = ((xy P).1, c.params.P - (xy P).2)
  size : c.params.P ≤ 256 ^ fieldSize c

section
variable {c : ECurve} {A : Type} [AddCommGroup A] (M : Computes c A) (L : Lawful c A)

/-- the `EcPoint` of an element of the group -/
def Computes.pt (P : A) : EcPoint := ⟨c, some (M.xy P).1, some (M.xy P).2⟩

theorem ctEq_and (a b x y : Option ℤ) : ((constantTimeEqByte a b &&& constantTimeEqByte x y) == 1) = true ↔ a = b ∧ x = y := by
  rw [C14_byte_range, C14_byte_range]
  by_cases h1 : a = b <;> by_cases h2 : x = y <;> simp [h1, h2]

theorem sameCurve_self {a b : EcPoint} (h : a.curve = b.curve) : sameCurve a b = true := by
  rw [sameCurve, h]; simp

theorem xy_eq (P Q : A) : (some (M.xy P).1 = some (M.xy Q).1 ∧ some (M.xy P).2 = some (M.xy Q).2) ↔ P = Q := by
  rw [Option.some_inj, Option.some_inj, ← Prod.ext_iff, M.inj.eq_iff]

/-- C189: `Equals` decides equality in the group -/
theorem C189_equals (P Q : A) : ((M.pt P).equals (some (M.pt Q)) = true ↔ P = Q) ∧ (M.pt P).equals none = false := by
  refine ⟨?_, rfl⟩
  rw [EcPoint.equals, sameCurve_self (by rfl), Bool.true_and, ctEq_and]; exact xy_eq M P Q

/-- C189: `IsIdentity` and `IsBasePoint` are what they say -/
theorem C189_isIdentity (P : A) : ((L.pt P).isIdentity = true ↔ P = 0) ∧ ((L.pt P).isBasePoint = true ↔ P = L.g) := by
  constructor
  · rw [EcPoint.isIdentity, ctEq_and, ← xy_eq L.toComputes P 0, L.zero]; rfl
  · rw [EcPoint.isBasePoint, ctEq_and, ← xy_eq L.toComputes P L.g, L.base]; rfl

theorem checked_pt (P : A) : checked (M.pt P) = .ok (M.pt P) := by
  rw [checked, show (M.pt P).isValid = .ok true from M.valid P]; rfl

/-- C189: `Add` is the sum, for all points of the curve, the neutral one, equal and opposite ones included; nil points and points whose
parameters are at other addresses are refused, also when the parameters are the same numbers -/
theorem C189_add (P Q : A) : EcPoint.add (some (M.pt P)) (some (M.pt Q)) = .ok (M.pt (P + Q)) ∧
    (∀ b, EcPoint.add none b = Go.err) ∧ (∀ a, EcPoint.add a none = Go.err) ∧
    (∀ a b : EcPoint, a.curve.params.refs ≠ b.curve.params.refs → EcPoint.add (some a) (some b) = Go.err) := by
  refine ⟨?_, fun b => by cases b <;> rfl, fun a => by cases a <;> rfl, fun a b h => ?_⟩
  · rw [EcPoint.add, Go.guard_true (sameCurve_self (by rfl))]
    show (do let (x, y) ← c.add _ _ _ _; checked ⟨c, x, y⟩) = _
    rw [show c.add (M.pt P).X (M.pt P).Y (M.pt Q).X (M.pt Q).Y = _ from M.add P Q]
    exact checked_pt M (P + Q)
  · rw [EcPoint.add, Go.guard_false (by simp [sameCurve, h])]; rfl

/-- C189: `Neg` is the opposite of every point but the neutral one; for that it tests the coordinates `(0, P)` -/
theorem C189_neg (P : A) : (P ≠ 0 → EcPoint.neg (some (L.pt P)) = .ok (L.pt (-P))) ∧
    (P = 0 → EcPoint.neg (some (L.pt P)) = checked ⟨c, some 0, some c.params.P⟩) ∧ EcPoint.neg none = Go.err := by
  refine ⟨fun h => ?_, fun h => ?_, rfl⟩
  · have := checked_pt L.toComputes (-P)
    rw [show L.pt (-P) = ⟨c, some (L.xy P).1, some (c.params.P - (L.xy P).2)⟩ by rw [Computes.pt, L.neg P h]] at this ⊢
    exact this
  · subst h
    show checked ⟨c, some (L.xy 0).1, some (c.params.P - (L.xy 0).2)⟩ = _
    rw [L.zero, sub_zero]

/-- C189: so on a curve that finds `(0, P)` outside, `Neg` fails on the neutral element; on one that reduces it, the result is not the
neutral element for `IsIdentity` and `Equals` -/
theorem C189_neg_identity : (c.isOnCurve (some 0) (some c.params.P) = .ok false → 0 < c.params.P →
      EcPoint.neg (some (L.pt 0)) = Go.err) ∧
    (c.isOnCurve (some 0) (some c.params.P) = .ok true → 0 < c.params.P → ∃ r, EcPoint.neg (some (L.pt 0)) = .ok r ∧
      r.isIdentity = false ∧ ∀ P, r.equals (some (L.pt P)) = false) := by
  rw [(C189_neg L 0).2.1 rfl]
  have hid : 0 < c.params.P → (EcPoint.isIdentity ⟨c, some 0, some c.params.P⟩) = false := by
    intro h
    rw [← Bool.not_eq_true, EcPoint.isIdentity, ctEq_and]
    rintro ⟨-, h2⟩
    have := Option.some.inj h2; omega
  refine ⟨fun h hp => ?_, fun h hp => ⟨⟨c, some 0, some c.params.P⟩, ?_, hid hp, fun P => ?_⟩⟩
  · rw [checked, EcPoint.isValid, EcPoint.isOnCurve]
    rw [h, Go.ok_bind, hid hp]; rfl
  · rw [checked, EcPoint.isValid, EcPoint.isOnCurve]
    rw [h]; rfl
  · rw [← Bool.not_eq_true, EcPoint.equals, Bool.and_eq_true, ctEq_and]
    rintro ⟨-, -, h2⟩
    have := Option.some.inj h2
    have := (L.range P).2.2.2
    omega

include M in
theorem scalarBytes_eq (k : ℤ) : ∃ b, scalarBytes c k = .ok b ∧ (beNat b : ℤ) = k % c.params.N := by
  have h0 := Int.emod_nonneg k M.pos.ne'
  refine ⟨intBytes (k % c.params.N), ?_, ?_⟩
  · rw [scalarBytes, Big.mod, if_neg M.pos.ne']; rfl
  · rw [intBytes, beNat_natBytes, Int.natAbs_of_nonneg h0]

include M in
theorem emod_smul (k : ℤ) (P : A) : (k % c.params.N) • P = k • P := by
  rw [Int.emod_def, sub_smul, mul_comm, mul_smul, M.order, smul_zero, sub_zero]

/-- C189: `ScalarMult` and `NewScalarBaseMult` are the multiple by the integer, negative ones and those above the order included -/
theorem C189_mul (P : A) (k : ℤ) : EcPoint.scalarMult (some (M.pt P)) (some k) = .ok (M.pt (k • P)) ∧
    newScalarBaseMult (some c) (some k) = .ok (M.pt (k • M.g)) ∧
    EcPoint.scalarMult (some (M.pt P)) none = Go.err ∧ (∀ k, EcPoint.scalarMult none k = Go.err) ∧
    newScalarBaseMult (some c) none = Go.err ∧ (∀ k, newScalarBaseMult none k = Go.err) := by
  obtain ⟨b, hb, hv⟩ := scalarBytes_eq M k
  have hlt : (beNat b : ℤ) < c.params.N := hv ▸ Int.emod_lt_of_pos k M.pos
  have hs : ∀ Q : A, beNat b • Q = k • Q := fun Q => by rw [← natCast_zsmul, hv, emod_smul M]
  refine ⟨?_, ?_, rfl, fun k => by cases k <;> rfl, rfl, fun k => by cases k <;> rfl⟩
  · rw [EcPoint.scalarMult]
    show (do let n ← scalarBytes c k; let (x, y) ← c.scalarMult _ _ n; checked ⟨c, x, y⟩) = _
    rw [hb, Go.ok_bind, show c.scalarMult (M.pt P).X (M.pt P).Y b = _ from M.mul P b hlt, hs]
    exact checked_pt M (k • P)
  · rw [newScalarBaseMult, hb, Go.ok_bind, M.baseMul b hlt, hs]
    exact checked_pt M (k • M.g)

theorem fillBytes_ok {n : ℕ} {z : ℤ} (h0 : 0 ≤ z) (h : z < 256 ^ n) :
    fillBytes n (some z) = .ok (beBytes n z.natAbs) ∧ (beNat (beBytes n z.natAbs) : ℤ) = z := by
  have hlt : z.natAbs < 256 ^ n := by
    have : (z.natAbs : ℤ) < ((256 ^ n : ℕ) : ℤ) := by rw [Int.natAbs_of_nonneg h0]; push_cast; exact h
    exact_mod_cast this
  refine ⟨by rw [fillBytes, if_pos hlt], ?_⟩
  rw [beNat_beBytes _ _ hlt, Int.natAbs_of_nonneg h0]

/-- C189: the number of bytes of a coordinate is that of the bits of the field, rounded up; so 32 for Ed25519 with its 255 bits -/
theorem C189_fieldSize (c : ECurve) : c.params.bitSize ≤ 8 * fieldSize c ∧ 8 * fieldSize c < c.params.bitSize + 8 := by
  unfold fieldSize
  omega

/-- C189: `Bytes` of every point are of twice the field size and are read back by `PointFromBytesUncompressed`; so they are injective -/
theorem C189_bytes (P : A) : ∃ b, (L.pt P).bytes = .ok b ∧ b.length = fieldSize c * 2 ∧ pointFromBytes c b = .ok (L.pt P) := by
  obtain ⟨h1, h2, h3, h4⟩ := L.range P
  have hs : (c.params.P : ℤ) ≤ 256 ^ fieldSize c := L.size
  obtain ⟨e1, v1⟩ := fillBytes_ok h1 (lt_of_lt_of_le h2 hs)
  obtain ⟨e2, v2⟩ := fillBytes_ok h3 (lt_of_lt_of_le h4 hs)
  refine ⟨beBytes (fieldSize c) (L.xy P).1.natAbs ++ beBytes (fieldSize c) (L.xy P).2.natAbs, ?_, ?_, ?_⟩
  · rw [EcPoint.bytes]
    show (do let x ← fillBytes (fieldSize c) (some (L.xy P).1); let y ← fillBytes (fieldSize c) (some (L.xy P).2); Except.ok (x ++ y)) = _
    rw [e1, e2]; rfl
  · rw [List.length_append, beBytes_length, beBytes_length]; ring
  · rw [pointFromBytes, Go.guard_true (by rw [List.length_append, beBytes_length, beBytes_length]; ring), Go.ok_bind,
      List.take_left' (beBytes_length _ _), List.drop_left' (beBytes_length _ _), v1, v2]
    exact checked_pt L.toComputes P

/-- C189: … and what it accepts with reduced coordinates is a point of the group, read from its own bytes; a wrong length is refused -/
theorem C189_fromBytes (b : List UInt8) (r : EcPoint) (h : pointFromBytes c b = .ok r)
    (hx : (beNat (b.take (fieldSize c)) : ℤ) < c.params.P) (hy : (beNat (b.drop (fieldSize c)) : ℤ) < c.params.P) :
    ∃ P, r = L.pt P ∧ (L.pt P).bytes = .ok b := by
  rw [pointFromBytes, Go.guard_bind_eq_ok] at h
  obtain ⟨hl, h⟩ := h
  rw [checked, Go.bind_eq_ok] at h
  obtain ⟨v, hv, h⟩ := h
  cases v with
  | false => cases h
  | true =>
    have hr := Except.ok.inj (show (Except.ok _ : Go EcPoint) = .ok r from h)
    have hpt : ∃ P, L.xy P = ((beNat (b.take (fieldSize c)) : ℤ), (beNat (b.drop (fieldSize c)) : ℤ)) := by
      rw [EcPoint.isValid, Go.bind_eq_ok] at hv
      obtain ⟨o, ho, hv⟩ := hv
      cases o with
      | true => exact L.only _ _ (by positivity) hx (by positivity) hy ho
      | false =>
        have hi := Except.ok.inj (show (Except.ok _ : Go Bool) = .ok true from hv)
        rw [EcPoint.isIdentity, ctEq_and] at hi
        exact ⟨0, by rw [L.zero]; exact Prod.ext (Option.some.inj hi.1).symm (Option.some.inj hi.2).symm⟩
    obtain ⟨P, hP⟩ := hpt
    have e : r = L.pt P := by rw [← hr, Computes.pt, hP]
    refine ⟨P, e, ?_⟩
    obtain ⟨b', hb', -, -⟩ := C189_bytes L P
    have t1 : (b.take (fieldSize c)).length = fieldSize c := by rw [List.length_take]; omega
    have t2 : (b.drop (fieldSize c)).length = fieldSize c := by rw [List.length_drop]; omega
    have f1 : fillBytes (fieldSize c) (some (L.xy P).1) = .ok (b.take (fieldSize c)) := by
      rw [hP, fillBytes, Int.natAbs_natCast, if_pos (by have := beNat_lt (b.take (fieldSize c)); rwa [t1] at this)]
      have := beBytes_beNat (b.take (fieldSize c)); rw [t1] at this; rw [this]
    have f2 : fillBytes (fieldSize c) (some (L.xy P).2) = .ok (b.drop (fieldSize c)) := by
      rw [hP, fillBytes, Int.natAbs_natCast, if_pos (by have := beNat_lt (b.drop (fieldSize c)); rwa [t2] at this)]
      have := beBytes_beNat (b.drop (fieldSize c)); rw [t2] at this; rw [this]
    rw [EcPoint.bytes]
    show (do let x ← fillBytes (fieldSize c) (some (L.xy P).1); let y ← fillBytes (fieldSize c) (some (L.xy P).2); Except.ok (x ++ y)) = _
    rw [f1, f2]
    show Except.ok (b.take (fieldSize c) ++ b.drop (fieldSize c)) = _
    rw [List.take_append_drop]

end

/-! ## serialization, for every curve -/

theorem byId_name {n : String} {code : UInt8} (s : StdCurves) (h : curveNameToId n = some code) : s.byId code = s.byName n := by
  unfold curveNameToId at h
  unfold StdCurves.byName
  split_ifs at h ⊢ <;> (obtain rfl := Option.some.inj h; rfl)

/-- C189: `MarshalBinary` writes 65 bytes, which are read back, for a curve of one of the five names and coordinates of 256 bits; the curve
that is read is the standard one of that name.  Coordinates of more bits, which P-384 and P-521 have, and nil ones panic; a curve of another
name is refused. -/
theorem C189_marshal (s : StdCurves) (a : EcPoint) :
    (∀ x y c, a.X = some x → a.Y = some y → 0 ≤ x → x < 2 ^ 256 → 0 ≤ y → y < 2 ^ 256 → s.byName a.curve.params.name = some c →
      ∀ extra, ∃ b, a.marshalBinary = .ok b ∧ b.length = 65 ∧ unmarshalBinary s (b ++ extra) = .ok ⟨c, a.X, a.Y⟩) ∧
    (s.byName a.curve.params.name ≠ none → (∀ x, a.X = some x → 2 ^ 256 ≤ x) → a.marshalBinary = Go.crash) ∧
    (s.byName a.curve.params.name = none → a.marshalBinary = Go.err) := by
  have hn : s.byName a.curve.params.name = none ↔ curveNameToId a.curve.params.name = none := by
    unfold StdCurves.byName curveNameToId
    split_ifs <;> simp
  refine ⟨fun x y c hX hY x0 x1 y0 y1 hc extra => ?_, fun hc hx => ?_, fun hc => ?_⟩
  · obtain ⟨code, hcode⟩ : ∃ code, curveNameToId a.curve.params.name = some code := by
      rw [← Option.ne_none_iff_exists']; intro h; rw [hn.2 h] at hc; cases hc
    have e256 : (2 : ℤ) ^ 256 = 256 ^ 32 := by norm_num
    obtain ⟨e1, v1⟩ := fillBytes_ok x0 (e256 ▸ x1)
    obtain ⟨e2, v2⟩ := fillBytes_ok y0 (e256 ▸ y1)
    refine ⟨code :: beBytes 32 x.natAbs ++ beBytes 32 y.natAbs, ?_, ?_, ?_⟩
    · rw [EcPoint.marshalBinary, hcode, hX, hY]
      show (do let x ← fillBytes 32 (some x); let y ← fillBytes 32 (some y); Except.ok (code :: x ++ y)) = _
      rw [e1, e2]; rfl
    · rw [List.cons_append, List.length_cons, List.length_append, beBytes_length, beBytes_length]
    · rw [List.cons_append, List.cons_append, unmarshalBinary]
      simp only [byId_name s hcode, hc]
      rw [if_neg (by rw [List.length_append, List.length_append, beBytes_length, beBytes_length]; omega), List.append_assoc,
        List.take_left' (beBytes_length _ _), List.drop_left' (beBytes_length _ _), List.take_left' (beBytes_length _ _), v1, v2, hX, hY]
  · obtain ⟨code, hcode⟩ : ∃ code, curveNameToId a.curve.params.name = some code := by
      rw [← Option.ne_none_iff_exists']; intro h; exact hc (hn.2 h)
    rw [EcPoint.marshalBinary, hcode]
    show (do let x ← fillBytes 32 a.X; let y ← fillBytes 32 a.Y; Except.ok (code :: x ++ y)) = _
    cases h : a.X with
    | none => rfl
    | some x =>
      have := hx x h
      rw [fillBytes, if_neg]
      · rfl
      · intro hlt
        have e256 : (2 : ℤ) ^ 256 = ((256 ^ 32 : ℕ) : ℤ) := by norm_num
        rw [e256] at this
        generalize 256 ^ 32 = m at this hlt
        omega
  · rw [EcPoint.marshalBinary, hn.1 hc]

/-- C189: `UnmarshalBinary` and `UnmarshalJSON` check nothing: every 64 bytes after a code are taken, every pair of integers, negative ones
and nil too; data of fewer bytes panics unless the code is unknown, which is an error -/
theorem C189_unmarshal (s : StdCurves) (code : UInt8) (rest : List UInt8) :
    (∀ c, s.byId code = some c → 64 ≤ rest.length →
      unmarshalBinary s (code :: rest) = .ok ⟨c, some (beNat (rest.take 32)), some (beNat ((rest.drop 32).take 32))⟩) ∧
    (∀ c, s.byId code = some c → rest.length < 64 → unmarshalBinary s (code :: rest) = Go.crash) ∧
    (s.byId code = none → unmarshalBinary s (code :: rest) = Go.err) ∧ unmarshalBinary s [] = Go.crash ∧
    (s.byId code = none ↔ 5 ≤ code.toNat) ∧
    (∀ n c X Y, s.byName n = some c → unmarshalJSON s ⟨n, X, Y⟩ = .ok ⟨c, X, Y⟩) ∧
    (∀ n X Y, s.byName n = none → unmarshalJSON s ⟨n, X, Y⟩ = Go.err) := by
  refine ⟨fun c h hl => ?_, fun c h hl => ?_, fun h => ?_, rfl, ?_, fun n c X Y h => ?_, fun n X Y h => ?_⟩
  · rw [unmarshalBinary]; simp only [h]; rw [if_neg (by omega)]
  · rw [unmarshalBinary]; simp only [h]; rw [if_pos hl]
  · rw [unmarshalBinary]; simp only [h]
  · unfold StdCurves.byId
    have : ∀ k : UInt8, code = k ↔ code.toNat = k.toNat := fun k => UInt8.toNat_inj.symm
    simp only [this]
    split_ifs with h0 h1 h2 h3 h4 <;> (simp_all; try omega)
  · rw [unmarshalJSON]; simp only [h]
  · rw [unmarshalJSON]; simp only [h]

/-- C189: `MarshalJSON` is read back for the curves of the five names, and for those alone -/
theorem C189_json (s : StdCurves) (a : EcPoint) :
    (∀ c, s.byName a.curve.params.name = some c → unmarshalJSON s a.marshalJSON = .ok ⟨c, a.X, a.Y⟩) ∧
    (s.byName a.curve.params.name = none → unmarshalJSON s a.marshalJSON = Go.err) :=
  ⟨fun c h => (C189_unmarshal s 0 []).2.2.2.2.2.1 _ c _ _ h, fun h => (C189_unmarshal s 0 []).2.2.2.2.2.2 _ _ _ h⟩

end Verif.Legacy
