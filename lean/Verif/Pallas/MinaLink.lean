import Verif.Mina.TxnProps
import Verif.Pallas.EpEncode

/-!
# Mina signatures on the concrete curve

* C175 Pallas meets what C77, C78, C80, C132–C139 ask of the group, and signing and verification on Jacobian
  coordinates are those of the model over the group
-/

set_option linter.unusedSectionVars false
set_option linter.unusedDecidableInType false
set_option exponentiation.threshold 600
set_option maxRecDepth 10000

namespace Verif.Pallas

open Primes Native WeierstrassCurve.Affine Mina

/-! ## The code on coordinates -/

/-- the same data with coordinates for points -/
def epEnv (blake : List UInt8 → List UInt8) : Env pallasp pallasq Ep := ⟨epGenerator, epX, epY, contexts .threeW, blake⟩

/-- `finishSchnorrSign` (`pkg/signatures/schnorr/mina/keys.go:169-198`) on coordinates -/
def epFinishSign (blake : List UInt8 → List UInt8) (sk : Fq) (input : RoInput pallasp) (networkId : ℤ) :
    Go (Sig pallasp pallasq) := do
  Go.guard (sk ≠ 0)
  let pk := epMul epGenerator sk
  let k := msgDerive (epEnv blake) sk input pk networkId
  Go.guard (k ≠ 0)
  let r := epMul epGenerator k
  let k := if isOdd (epY r) then -k else k
  let rx := epX r
  let e ← msgHash (epEnv blake) pk rx input networkId
  let s := k + e * sk
  Go.guard (¬ (rx = 0 ∨ s = 0))
  pure ⟨rx, s⟩

/-- `finishSchnorrVerify` (`pkg/signatures/schnorr/mina/keys.go:214-234`) on coordinates -/
def epFinishVerify (blake : List UInt8 → List UInt8) (pk : Ep) (sig : Sig pallasp pallasq) (input : RoInput pallasp)
    (networkId : ℤ) : Go Unit := do
  Go.guard (¬ epIsIdentity pk = true)
  Go.guard (¬ (sig.R = 0 ∨ sig.S = 0))
  let e ← msgHash (epEnv blake) pk sig.R input networkId
  let sg := epMul epGenerator sig.S
  let epk := epNeg (epMul pk e)
  let r := epAdd sg epk
  Go.guard (isOdd (epY r) = false ∧ epX r = sig.R)

/-! ## The group -/

/-- the abscissa, zero for the identity -/
def affX : Group → Fp
  | .zero => 0
  | .some x _ _ => x
/-- the ordinate, zero for the identity -/
def affY : Group → Fp
  | .zero => 0
  | .some _ y _ => y

theorem epX_eq {p : Ep} {P : Group} (h : JRep p P) : epX p = affX P := by
  unfold epX
  rcases P with _ | ⟨x, y, hn⟩
  · rw [epToAffine_zero h]; rfl
  · rw [epToAffine_some h]; rfl

theorem epY_eq {p : Ep} {P : Group} (h : JRep p P) : epY p = affY P := by
  unfold epY
  rcases P with _ | ⟨x, y, hn⟩
  · rw [epToAffine_zero h]; rfl
  · rw [epToAffine_some h]; rfl

/-- Pallas as the group of the Mina signatures -/
def minaEnv (blake : List UInt8 → List UInt8) : Env pallasp pallasq Group := ⟨gen, affX, affY, contexts .threeW, blake⟩

/-- C175: Pallas has the coordinates the theorems about Mina signatures ask for. -/
theorem C175_lawful (blake : List UInt8 → List UInt8) : Lawful (minaEnv blake) where
  gen_ne := gen_ne
  x_zero := rfl
  x_neg P := by rcases P with _ | ⟨x, y, h⟩ <;> rfl
  y_neg P := by
    rcases P with _ | ⟨x, y, h⟩
    · exact neg_zero.symm
    · exact negY_curve
  y_ne P hP := by
    rcases P with _ | ⟨x, y, h⟩
    · exact absurd rfl hP
    · have := equation_curve.1 h.1
      exact ne_zero_of_sq (x := x) (y := y) (by linear_combination this)
  x_eq P Q hP hQ h := by
    rcases P with _ | ⟨x, y, h1⟩
    · exact absurd rfl hP
    rcases Q with _ | ⟨x', y', h2⟩
    · exact absurd rfl hQ
    obtain rfl : x = x' := h
    have e1 := equation_curve.1 h1.1
    have e2 := equation_curve.1 h2.1
    rcases sq_eq_sq_iff_eq_or_eq_neg.1 (show y ^ 2 = y' ^ 2 by linear_combination e1 - e2) with rfl | rfl
    · exact Or.inl rfl
    · refine Or.inr ?_
      rw [Point.neg_some]
      simp only [negY_curve]

/-! ## Signing and verification -/

theorem msgHash_eq (blake : List UInt8 → List UInt8) {pk : Ep} {P : Group} (h : JRep pk P) (rx : Fp) (input : RoInput pallasp)
    (net : ℤ) : msgHash (q := pallasq) (epEnv blake) pk rx input net = msgHash (minaEnv blake) P rx input net := by
  unfold msgHash hashInput
  rw [show (epEnv blake).x pk = (minaEnv blake).x P from epX_eq h, show (epEnv blake).y pk = (minaEnv blake).y P from epY_eq h]
  rfl

theorem msgDerive_eq (blake : List UInt8 → List UInt8) {pk : Ep} {P : Group} (h : JRep pk P) (sk : Fq) (input : RoInput pallasp)
    (net : ℤ) : msgDerive (epEnv blake) sk input pk net = msgDerive (minaEnv blake) sk input P net := by
  unfold msgDerive deriveInput
  rw [show (epEnv blake).x pk = (minaEnv blake).x P from epX_eq h, show (epEnv blake).y pk = (minaEnv blake).y P from epY_eq h]
  rfl

/-- C175: signing on coordinates is signing in the group. -/
theorem C175_sign (blake : List UInt8 → List UInt8) (sk : Fq) (input : RoInput pallasp) (net : ℤ) :
    epFinishSign blake sk input net = finishSign (minaEnv blake) sk input net := by
  have hpk : JRep (epMul epGenerator sk) (publicKey (minaEnv blake) sk) := C169_pallas_mul gen_rep sk
  unfold epFinishSign finishSign
  simp only [msgHash_eq blake hpk, msgDerive_eq blake hpk]
  have hr := C169_pallas_mul gen_rep (msgDerive (minaEnv blake) sk input (publicKey (minaEnv blake) sk) net)
  rw [epX_eq hr, epY_eq hr]
  rfl

/-- C175: verification on any coordinates of a key is verification in the group. -/
theorem C175_verify (blake : List UInt8 → List UInt8) {pk : Ep} {P : Group} (h : JRep pk P) (sig : Sig pallasp pallasq)
    (input : RoInput pallasp) (net : ℤ) :
    epFinishVerify blake pk sig input net = finishVerify (minaEnv blake) P sig input net := by
  unfold epFinishVerify finishVerify
  have hr := fun e => jrep_add (C169_pallas_mul gen_rep sig.S) (jrep_neg (C169_pallas_mul h e))
  have hX := fun e => epX_eq (hr e)
  have hY := fun e => epY_eq (hr e)
  simp only [msgHash_eq blake h, C171_isIdentity h, hX, hY]
  rfl

/-- C175: every signature made on Pallas verifies there. -/
theorem C175_sign_verifies (blake : List UInt8 → List UInt8) (sk : Fq) (input : RoInput pallasp) (net : ℤ)
    (sig : Sig pallasp pallasq) (h : epFinishSign blake sk input net = .ok sig) :
    epFinishVerify blake (epMul epGenerator sk) sig input net = .ok () := by
  rw [C175_sign] at h
  rw [C175_verify blake (C169_pallas_mul gen_rep sk)]
  exact C77_sign_verifies (C175_lawful blake) (by decide +kernel) sk input net sig h

/-! ## Encodings -/

/-- the point with a given abscissa and parity, from a candidate for the root -/
def liftWith (x r : Fp) (odd : Bool) : Option Group :=
  let y := if isOdd r = odd then r else -r
  if h : y ^ 2 = x ^ 3 + 5 then some (.some x y (nonsingular_curve two_ne (ne_zero_of_sq h) (by linear_combination h))) else none

/-- the point with a given abscissa and parity, as in `FromAffineCompressed` (`pallas_curve.go:911-929`) -/
def liftPoint (x : Fp) (odd : Bool) : Option Group := liftWith x (fpSqrt (rhsPallas x)).1 odd

theorem liftWith_sound {x r : Fp} {c : Bool} {P : Group} (h : liftWith x r c = some P) :
    P ≠ 0 ∧ affX P = x ∧ isOdd (affY P) = c := by
  unfold liftWith at h
  simp only at h
  split_ifs at h with h1 h2 h2
  · obtain rfl := Option.some.inj h
    exact ⟨(by intro h; cases h), rfl, h1⟩
  · obtain rfl := Option.some.inj h
    refine ⟨(by intro h; cases h), rfl, ?_⟩
    have hne := ne_zero_of_sq h2
    have hneg : isOdd (-r) = !isOdd r := isOdd_neg (by decide +kernel) (neg_ne_zero.1 hne)
    refine Eq.trans (b := isOdd (-r)) rfl ?_
    rw [hneg]
    have : ∀ a b : Bool, a ≠ b → (!a) = b := by decide
    exact this _ _ h1

/-- the encodings of the Mina package over Pallas -/
def minaCodec (sha256 : List UInt8 → List UInt8) (b58enc : List UInt8 → String) (b58dec : String → List UInt8) : Mina.Codec Group :=
  ⟨sha256, b58enc, b58dec, liftPoint⟩

/-- C175: decompression on Pallas is what the theorems about Mina transactions and addresses ask for. -/
theorem C175_lift (blake sha256 : List UInt8 → List UInt8) (b58enc : List UInt8 → String) (b58dec : String → List UInt8) :
    LiftLawful (minaEnv blake) (minaCodec sha256 b58enc b58dec) where
  lift P hP := by
    rcases P with _ | ⟨x, y, hn⟩
    · exact absurd rfl hP
    show liftPoint x (isOdd y) = _
    have he : y ^ 2 = x ^ 3 + 5 := by have := equation_curve.1 hn.1; linear_combination this
    obtain ⟨r, hr, hsq⟩ := fpSqrt_spec (rhsPallas x)
    have hr2 : r ^ 2 = x ^ 3 + 5 := by rw [← rhs_eq]; exact hsq.2 ⟨y, by rw [rhs_eq, ← he, sq]⟩
    have hy : (if isOdd r = isOdd y then r else -r) = y := by
      rcases sq_eq_sq_iff_eq_or_eq_neg.1 (he.trans hr2.symm) with rfl | rfl
      · rw [if_pos rfl]
      · rw [if_neg]
        rw [isOdd_neg (by decide +kernel) (ne_zero_of_sq hr2)]
        cases isOdd r <;> simp
    unfold liftPoint liftWith
    simp only [hr, hy, dif_pos he]
  sound _ _ _ h := liftWith_sound h

/-- C175: the compressed encoding is that of the Mina model. -/
theorem C175_compress (blake : List UInt8 → List UInt8) {p : Ep} {P : Group} (h : JRep p P) :
    epToCompressed p = compress (minaEnv blake) P := by
  unfold epToCompressed compress
  have e : epToAffine p = ⟨affX P, affY P, 1⟩ := by
    rcases P with _ | ⟨x, y, hn⟩
    · exact epToAffine_zero h
    · exact epToAffine_some h
  rw [e]
  simp only [epIsIdentity, one_ne_zero, decide_false, Bool.false_eq_true, if_false, fpBytes_eq]
  rfl

theorem fieldOfBytes_gen {P : FieldParams} (hP : PastaShape P) {p : ℕ} [Fact p.Prime] (h2 : 2 < p) (hm : P.modulus.val = p)
    {l : List UInt8} (hl : l.length = 32) :
    fieldOfBytes P p l = (pastaSetBytes P l >>= fun v => .ok (unMont p v)) := by
  unfold fieldOfBytes
  rw [pastaSetBytes_eq, toMont_val hP.ok, fromBytes_val hP hl]
  split_ifs
  · rw [Go.ok_bind, Go.ok_bind, decoded hP hm, unMont_encode hP.ok h2 hm]
    rfl
  · rfl

theorem fieldOfBytes_eq {l : List UInt8} (hl : l.length = 32) : fieldOfBytes pastaFp pallasp l = fpSetBytes l :=
  fieldOfBytes_gen pastaFp_shape (by decide) fp_modulus hl

theorem signBit {l : List UInt8} (hl : l.length = 32) (b : Bool) :
    (((l.getD 31 0 >>> 7) &&& 1) == 1) = b ↔ b.toNat = leNat l / 2 ^ 255 := by
  obtain ⟨a, c, ha, rfl⟩ := split32 hl
  rw [(top_bit ha c).2, getD_snoc ha, ← u8_top]
  have hlt : ((c >>> 7) &&& 1).toNat < 2 := by
    rw [u8_top]; have := c.toNat_lt; omega
  have h1 : (((c >>> 7) &&& 1) == 1) = decide (((c >>> 7) &&& 1).toNat = 1) := by
    rw [Bool.eq_iff_iff, beq_iff_eq, decide_eq_true_eq, ← UInt8.toNat_inj]
    rfl
  rw [h1]
  generalize ((c >>> 7) &&& 1).toNat = n at hlt
  obtain rfl | rfl : n = 0 ∨ n = 1 := by omega
  all_goals cases b <;> simp

theorem isOdd_toNat (y : Fp) : (isOdd y).toNat = y.val % 2 := by
  unfold isOdd
  rcases Nat.mod_two_eq_zero_or_one y.val with h | h <;> rw [h] <;> rfl

/-- C175: decompression on coordinates is that of the Mina model. -/
theorem C175_decompress (sha256 : List UInt8 → List UInt8) (b58enc : List UInt8 → String) (b58dec : String → List UInt8)
    (l : List UInt8) :
    (∀ p, epFromCompressed l = .ok p → ∃ P, decompress (minaCodec sha256 b58enc b58dec) l = .ok P ∧ JRep p P) ∧
    ∀ P, decompress (minaCodec sha256 b58enc b58dec) l = .ok P → ∃ p, epFromCompressed l = .ok p ∧ JRep p P := by
  have hC := C175_lift id sha256 b58enc b58dec
  have hread : l.length = 32 → fieldOfBytes pastaFp pallasp (l.set 31 (l.getD 31 0 &&& 0x7f)) =
      if Accepts (leNat l % 2 ^ 255) then .ok ((leNat l % 2 ^ 255 : ℕ) : Fp) else .error .error := by
    intro hl
    obtain ⟨a, c, ha, rfl⟩ := split32 hl
    rw [getD_snoc ha, set_snoc ha, fieldOfBytes_eq (by simp [ha]), fpSetBytes_eq (by simp [ha]), (top_bit ha c).1]
  constructor
  · intro p hp
    obtain ⟨hl, hA, hx, hz, he, hs⟩ := (C172_decompress l p).1 hp
    have hns : (curve (0 : Fp) 5).Nonsingular p.x p.y :=
      nonsingular_curve two_ne (ne_zero_of_sq he) (by linear_combination he)
    refine ⟨.some p.x p.y hns, ?_, by rw [hz]; exact one_ne_zero, by rw [hz]; simp, by rw [hz]; simp⟩
    unfold decompress
    rw [Go.guard_true hl, Go.ok_bind]
    simp only []
    rw [hread hl, if_pos hA, Go.ok_bind, (signBit hl (isOdd p.y)).2 ((isOdd_toNat _).trans hs), ← hx]
    have := hC.lift (.some p.x p.y hns) (by intro h; cases h)
    rw [show (minaCodec sha256 b58enc b58dec).lift p.x (isOdd p.y) = some (.some p.x p.y hns) from this]
    rfl
  · intro P hP
    unfold decompress at hP
    rw [Go.guard_bind_eq_ok] at hP
    obtain ⟨hl, hP⟩ := hP
    simp only [] at hP
    rw [hread hl] at hP
    by_cases hA : Accepts (leNat l % 2 ^ 255)
    swap
    · rw [if_neg hA] at hP
      cases hP
    rw [if_pos hA, Go.ok_bind, Go.ofOption_eq_ok] at hP
    obtain ⟨h0, h1, h2⟩ := hC.sound _ _ _ hP
    rcases P with _ | ⟨x, y, hn⟩
    · exact absurd rfl h0
    refine ⟨⟨x, y, 1⟩, ?_, one_ne_zero, by simp, by simp⟩
    rw [C172_decompress]
    have he := equation_curve.1 hn.1
    refine ⟨hl, hA, h1, rfl, by linear_combination he, ?_⟩
    rw [← isOdd_toNat]
    exact (signBit hl _).1 h2.symm

/-- C175: a transaction over Pallas is read back from its encoding. -/
theorem C175_transaction (blake sha256 : List UInt8 → List UInt8) (b58enc : List UInt8 → String)
    (b58dec : String → List UInt8) (t : Txn Group) (ht : t.Encodable (minaEnv blake)) (hm : t.memo.length ≤ 32)
    (hn : 0 ≤ t.networkId ∧ t.networkId < 256) :
    Txn.unmarshal (minaCodec sha256 b58enc b58dec) (t.marshal (minaEnv blake)) = .ok t :=
  C80_roundtrip (C175_lift blake sha256 b58enc b58dec) t ht hm hn

theorem gen_encodable (blake : List UInt8 → List UInt8) : Encodable (minaEnv blake) gen := by
  refine ⟨gen_ne, ?_⟩
  show ¬ Gap pastaFp (1 : Fp).val
  rw [ZMod.val_one]
  decide +kernel

/-- the generator is read back from its compressed encoding -/
example : epFromCompressed (epToCompressed epGenerator) = .ok ⟨1, (gyN : ℕ), 1⟩ := by
  have h := C172_compress_roundtrip gen_rep
  rw [if_neg (by rw [ZMod.val_one]; decide +kernel)] at h
  exact h

/-- the hypotheses of `C175_transaction` are met by a transaction between multiples of the generator -/
example (blake : List UInt8 → List UInt8) (t : Txn Group) :
    ({ t with feePayerPk := gen, sourcePk := gen, receiverPk := gen } : Txn Group).Encodable (minaEnv blake) :=
  ⟨gen_encodable blake, gen_encodable blake, gen_encodable blake⟩

end Verif.Pallas
