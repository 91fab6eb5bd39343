import Verif.Native.CurveOrder
import Verif.Native.EncodeProps
import Verif.Curves.ScalarProps
import Verif.Common.Codec

/-!
# The encodings of secp256k1 and P-256 on the groups

The models of the protocols are relative to a group with an encoding of its elements and of the scalars.  Here these are those of the code:
the methods on projective coordinates and words, as functions of the elements they stand for.
-/

namespace Verif.Inst
open Verif.Native Verif.Primes Verif.Curves

/-! ## Scalars -/

/-- `Scalar.Bytes` and `Scalar.SetBytes` of secp256k1 and P-256 (k256_curve.go:290-308, p256_curve.go:288-306) on residues -/
def beCodec (q : ℕ) (hq : 0 < q) (hq' : q ≤ 256 ^ 32) : ScalarCodec (ZMod q) where
  enc x := beBytes 32 x.val
  dec b := if b.length = 32 ∧ beNat b < q then some (beNat b : ZMod q) else none
  dec_enc x := by
    have : NeZero q := ⟨hq.ne'⟩
    have hx : x.val < 256 ^ 32 := lt_of_lt_of_le (ZMod.val_lt x) hq'
    rw [if_pos ⟨beBytes_length _ _, by rw [beNat_beBytes _ _ hx]; exact ZMod.val_lt x⟩, beNat_beBytes _ _ hx,
      ZMod.natCast_zmod_val]
  enc_dec b x h := by
    split_ifs at h with hb
    obtain rfl := Option.some.inj h
    rw [ZMod.val_natCast, Nat.mod_eq_of_lt hb.2]
    rw [← hb.1]
    exact beBytes_beNat b

/-- the scalars of secp256k1 -/
def k256Cd : ScalarCodec (ZMod k256q) := beCodec k256q (by decide) (by decide)

/-- the scalars of P-256 -/
def p256Cd : ScalarCodec (ZMod p256q) := beCodec p256q (by decide) (by decide)

theorem sc_enc {N : NatField} (hN : N.Ok) (x : N.P.Ring) : scBytes N (encode N.P x) = beBytes 32 x.val := by
  rw [scBytes_eq hN]
  rfl

theorem sc_dec {N : NatField} (hN : N.Ok) (b : List UInt8) (x : N.P.Ring) :
    (if b.length = 32 ∧ beNat b < N.P.modulus.val then some (beNat b : N.P.Ring) else none) = some x ↔
      scSetBytes N b = .ok (encode N.P x) := by
  rw [C177_setBytes hN]
  split_ifs with h
  · rw [Option.some.injEq]
    exact ⟨fun e => ⟨h.1, h.2, by rw [e]⟩, fun e => ((encode_inj hN.ok).1 e.2.2).symm⟩
  · exact ⟨fun e => (by cases e), fun e => absurd ⟨e.1, e.2.1⟩ h⟩

/-- C192: these are the methods of the code, on the words that hold the residues -/
theorem C192_scalars :
    (∀ x : ZMod k256q, k256Cd.enc x = scBytes k256Scalar (encode k256Fq x)) ∧
    (∀ b (x : ZMod k256q), k256Cd.dec b = some x ↔ scSetBytes k256Scalar b = .ok (encode k256Fq x)) ∧
    (∀ x : ZMod p256q, p256Cd.enc x = scBytes p256Scalar (encode p256Fq x)) ∧
    (∀ b (x : ZMod p256q), p256Cd.dec b = some x ↔ scSetBytes p256Scalar b = .ok (encode p256Fq x)) := by
  exact ⟨fun x => (sc_enc k256Scalar_ok x).symm, fun b x => sc_dec k256Scalar_ok b x, fun x => (sc_enc p256Scalar_ok x).symm,
    fun b x => sc_dec p256Scalar_ok b x⟩

/-! ## Points -/

section
variable {C : EncCurve} {a b : C.P.Ring} [hf : Fact C.P.modulus.val.Prime]

/-- coordinates of a point -/
def projOf : (curve a b).Point → Proj C.P.Ring
  | .zero => ⟨0, 1, 0⟩
  | .some x y _ => ⟨x, y, 1⟩

theorem projOf_rep (Q : (curve a b).Point) : Rep (projOf (C := C) Q) Q := by
  rcases Q with _ | ⟨x, y, h⟩
  · exact rfl
  · exact ⟨one_ne_zero, by simp [projOf], by simp [projOf]⟩

/-- `ToAffineCompressed` (k256_curve.go:493-504, p256_curve.go:491-502) of an element of the group -/
def penc (C : EncCurve) {a b : C.P.Ring} [Fact C.P.modulus.val.Prime] (Q : (curve a b).Point) : List UInt8 :=
  toAffineCompressed C.P (projOf (C := C) Q)

open Classical in
/-- `FromAffineCompressed` (k256_curve.go:517-551, p256_curve.go:515-549) as an element of the group: none for an error -/
noncomputable def pdec (C : EncCurve) (a b : C.P.Ring) [Fact C.P.modulus.val.Prime] (bytes : List UInt8) : Option (curve a b).Point :=
  if h : ∃ Q : (curve a b).Point, ∃ q, fromAffineCompressed C bytes = .ok (encodeP C.P q) ∧ Rep q Q then some h.choose else none

/-- the abscissa, zero for the neutral element -/
def xOf : (curve a b).Point → ℕ
  | .zero => 0
  | .some x _ _ => x.val

variable (hC : C.Ok a b)
include hC

omit hf in
theorem encodeP_inj {p q : Proj C.P.Ring} (h : encodeP C.P p = encodeP C.P q) : p = q := by
  simp only [encodeP, LimbPoint.mk.injEq, encode_inj hC.ok] at h
  obtain ⟨h1, h2, h3⟩ := h
  cases p; cases q; simp_all

theorem pdec_eq_some (bytes : List UInt8) (Q : (curve a b).Point) :
    pdec C a b bytes = some Q ↔ ∃ q, fromAffineCompressed C bytes = .ok (encodeP C.P q) ∧ Rep q Q := by
  unfold pdec
  constructor
  · intro h
    split_ifs at h with h0
    obtain rfl := Option.some.inj h
    exact h0.choose_spec
  · rintro ⟨q, h1, h2⟩
    have h0 : ∃ Q : (curve a b).Point, ∃ q, fromAffineCompressed C bytes = .ok (encodeP C.P q) ∧ Rep q Q := ⟨Q, q, h1, h2⟩
    rw [dif_pos h0, Option.some.injEq]
    obtain ⟨q', h1', h2'⟩ := h0.choose_spec
    rw [h1, Except.ok.injEq] at h1'
    rw [← encodeP_inj hC h1'] at h2'
    exact h2'.unique h2

/-- C192: the encoding is that of the method for all coordinates of the point; the decoder is the method, which gives coordinates of a
point of the curve or an error -/
theorem C192_points : (∀ (p : Proj C.P.Ring) (Q : (curve a b).Point), Rep p Q → toAffineCompressed C.P p = penc C Q) ∧
    (∀ bytes (Q : (curve a b).Point), pdec C a b bytes = some Q ↔
      ∃ q, fromAffineCompressed C bytes = .ok (encodeP C.P q) ∧ Rep q Q) ∧
    (∀ bytes, pdec C a b bytes = none ↔ ∃ e, fromAffineCompressed C bytes = .error e) := by
  refine ⟨fun p Q h => ?_, pdec_eq_some hC, fun bytes => ?_⟩
  · unfold penc
    rcases Q with _ | ⟨x, y, hn⟩
    · rw [(C58_compressed_identity hC (a := a) (b := b) h).1, show (.zero : (curve a b).Point) = 0 from rfl,
        (C58_compressed_identity hC (a := a) (b := b) (projOf_rep _)).1]
    · rw [toAffineCompressed_eq hC, toAffineCompressed_eq hC, toAffine_some hC h, toAffine_some hC (projOf_rep _)]
  · cases hv : fromAffineCompressed C bytes with
    | error e => 
      refine ⟨fun _ => ⟨e, rfl⟩, fun _ => ?_⟩
      unfold pdec
      rw [dif_neg]
      rintro ⟨Q, q, h, -⟩
      rw [hv] at h
      cases h
    | ok v =>
      refine ⟨fun h => ?_, fun ⟨e, h⟩ => by cases h⟩
      exfalso
      obtain ⟨-, -, -, x, -, h1 | h1⟩ := (C58_fromCompressed hC bytes v).1 hv
      · obtain ⟨-, y, hy, -, rfl⟩ := h1
        have hy0 : y ≠ 0 := by
          rintro rfl
          exact hC.noRoot x (by rw [← hy]; ring)
        have := (pdec_eq_some hC bytes (.some x y (nonsingular_curve (two_ne hC) hy0 hy))).2
          ⟨_, hv, one_ne_zero, (mul_one x).symm, (mul_one y).symm⟩
        rw [h] at this
        cases this
      · obtain ⟨-, rfl⟩ := h1
        have := (pdec_eq_some hC bytes (0 : (curve a b).Point)).2 ⟨_, hv, rfl⟩
        rw [h] at this
        cases this

theorem penc_zero : penc C (0 : (curve a b).Point) = 2 :: List.replicate 32 0 :=
  (C58_compressed_identity hC (a := a) (b := b) (projOf_rep _)).1

theorem penc_some {x y : C.P.Ring} (h) : penc C (.some x y h : (curve a b).Point) =
    (if y.val % 2 = 1 then 3 else 2) :: beBytes 32 x.val := by
  unfold penc
  rw [toAffineCompressed_eq hC, toAffine_some hC (projOf_rep _)]

theorem penc_length (Q : (curve a b).Point) : (penc C Q).length = 33 := by
  rcases Q with _ | ⟨x, y, h⟩
  · rw [show (.zero : (curve a b).Point) = 0 from rfl, penc_zero hC]; rfl
  · rw [penc_some hC, List.length_cons, beBytes_length]

theorem pdec_penc {Q : (curve a b).Point} (h : Q ≠ 0) : pdec C a b (penc C Q) = some Q := by
  obtain ⟨q, h1, h2⟩ := C58_roundtrip_compressed hC (projOf_rep Q) h
  exact (pdec_eq_some hC _ _).2 ⟨q, h1, h2⟩

theorem penc_inj (hb : ¬ IsSquare b) : Function.Injective (penc C : (curve a b).Point → List UInt8) := by
  have key : ∀ Q : (curve a b).Point, pdec C a b (penc C Q) = some Q := by
    intro Q
    by_cases h : Q = 0
    · subst h
      obtain ⟨q, h1, h2⟩ := (C58_compressed_identity hC (a := a) (b := b) (projOf_rep 0)).2.1 hb
      exact (pdec_eq_some hC _ _).2 ⟨q, h1, h2⟩
    · exact pdec_penc hC h
  intro P Q h
  have := key P
  rw [h, key Q] at this
  exact (Option.some.inj this).symm

theorem penc_inj_ne {P Q : (curve a b).Point} (hP : P ≠ 0) (hQ : Q ≠ 0) (h : penc C P = penc C Q) : P = Q := by
  have := pdec_penc hC hP
  rw [h, pdec_penc hC hQ] at this
  exact (Option.some.inj this).symm

theorem pdec_penc_zero (hb : ¬ IsSquare b) : pdec C a b (penc C (0 : (curve a b).Point)) = some 0 := by
  obtain ⟨q, h1, h2⟩ := (C58_compressed_identity hC (a := a) (b := b) (projOf_rep 0)).2.1 hb
  exact (pdec_eq_some hC _ _).2 ⟨q, h1, h2⟩

theorem penc_collide (hb : IsSquare b) : ∃ P : (curve a b).Point, P ≠ 0 ∧ penc C P = penc C (0 : (curve a b).Point) ∧
    pdec C a b (penc C (0 : (curve a b).Point)) = some P := by
  obtain ⟨q, Q, h1, h2, h3⟩ := (C58_compressed_identity hC (a := a) (b := b) (projOf_rep 0)).2.2 hb
  refine ⟨Q, h3, ?_, (pdec_eq_some hC _ _).2 ⟨q, h1, h2⟩⟩
  rw [(C58_compressed_identity hC (a := a) (b := b) (projOf_rep 0)).1] at h1
  obtain ⟨-, hs, -, x, hx, h4 | h4⟩ := (C58_fromCompressed hC _ _).1 h1
  · obtain ⟨-, y, hy, hpar, hv⟩ := h4
    have hq := encodeP_inj hC hv
    have hx0 : x = 0 := by
      rw [hx, show beNat ((2 :: List.replicate 32 (0 : UInt8)).drop 1) = 0 by decide, Nat.cast_zero]
    rcases Q with _ | ⟨u, v, hn⟩
    · exact absurd rfl h3
    obtain ⟨-, hu, hv'⟩ := h2
    rw [hq] at hu hv'
    simp only [mul_one] at hu hv'
    subst hu hv' hx0
    rw [penc_some hC, penc_zero hC]
    have : ¬ y.val % 2 = 1 := fun h => by
      have := hpar.1 h
      revert this
      decide
    rw [if_neg this, ZMod.val_zero]
    rfl
  · exfalso
    have hq := encodeP_inj hC h4.2
    rw [hq] at h2
    rcases Q with _ | ⟨u, v, hn⟩
    · exact h3 rfl
    · exact h2.1 rfl

theorem penc_x (Q : (curve a b).Point) : beNat ((penc C Q).drop 1) = xOf Q := by
  rcases Q with _ | ⟨x, y, h⟩
  · rw [show (.zero : (curve a b).Point) = 0 from rfl, penc_zero hC]
    show beNat (List.replicate 32 0) = 0
    decide
  · rw [penc_some hC, List.drop_succ_cons, List.drop_zero, beNat_beBytes _ _ (val_256 hC x)]; rfl

omit hC in
theorem xOf_neg (Q : (curve a b).Point) : xOf (-Q) = xOf Q := by
  rcases Q with _ | ⟨x, y, h⟩ <;> rfl

theorem penc_parity {Q : (curve a b).Point} (hQ : Q ≠ 0) :
    ((penc C (-Q)).headD 0).toNat % 2 = 1 - ((penc C Q).headD 0).toNat % 2 := by
  rcases Q with _ | ⟨x, y, h⟩
  · exact absurd rfl hQ
  · have hy0 : y ≠ 0 := by
      rintro rfl
      exact hC.noRoot x (by rw [← equation_curve.1 h.1]; ring)
    rw [WeierstrassCurve.Affine.Point.neg_some, penc_some hC, penc_some hC, negY_curve]
    simp only [List.headD_cons, val_neg_parity hC.ok hy0]
    split_ifs <;> simp_all
end

end Verif.Inst
