import Verif.Mina.KeysProps
import Verif.Native.FieldProps

/-!
# C138: encodings of Mina keys and signatures
-/

namespace Verif.Mina

open Primes

set_option exponentiation.threshold 600
set_option maxRecDepth 10000

/-- the field elements that `SetBytes` refuses although they are reduced (see C112): those whose distance
to the modulus is between `2^63` and the lowest limb of the modulus -/
def Gap (P : Native.FieldParams) (n : ℕ) : Prop :=
  2 ^ 63 ≤ P.modulus.val - n ∧ P.modulus.val - n ≤ P.modulus.l0.toNat

instance (P : Native.FieldParams) (n : ℕ) : Decidable (Gap P n) := by unfold Gap; infer_instance

theorem fp_modulus : Native.pastaFp.modulus.val = pallasp := by decide +kernel
theorem fq_modulus : Native.pastaFq.modulus.val = pallasq := by decide +kernel

section Field
variable {P : Native.FieldParams} (hP : Native.PastaShape P) {p : ℕ} (hm : P.modulus.val = p)
include hP hm

theorem decoded (x : ℕ) :
    (((Native.fromMont P (Native.encode P (x : P.Ring))).val : ℕ) : ZMod p) = (x : ZMod p) := by
  have := hP.ok.neZero
  rw [Native.fromMont_encode hP.ok]
  subst hm
  rw [ZMod.natCast_zmod_val]

theorem fieldOfBytes_canonical (b : List UInt8) (hb : b.length = 32) (hlt : leNat b < p) :
    fieldOfBytes P p b = if Gap P (leNat b) then Go.err else .ok (leNat b : ZMod p) := by
  unfold fieldOfBytes
  rw [Native.C112_setBytes_canonical hP b hb (by rw [hm]; exact hlt)]
  by_cases h : Gap P (leNat b)
  · have h' := h
    unfold Gap at h'
    rw [if_pos h, if_pos h']; rfl
  · have h' := h
    unfold Gap at h'
    rw [if_neg h, if_neg h']
    show Except.ok _ = Except.ok _
    rw [decoded hP hm]

theorem fieldOfBytes_high (b : List UInt8) (hb : b.length = 32)
    (hge : 2 ^ 192 * (2 ^ 63 + 2 ^ 62 + 1) ≤ leNat b) :
    fieldOfBytes P p b = .ok (leNat b : ZMod p) := by
  unfold fieldOfBytes
  rw [(Native.C112_setBytes_noncanonical hP b hb hge).2.1]
  show Except.ok _ = Except.ok _
  rw [decoded hP hm]

/-- whatever is decoded is the residue of the number the bytes stand for -/
theorem fieldOfBytes_value (b : List UInt8) (hb : b.length = 32) (v : ZMod p)
    (h : fieldOfBytes P p b = .ok v) : v = (leNat b : ZMod p) := by
  unfold fieldOfBytes at h
  rw [Native.pastaSetBytes_eq, Native.toMont_val hP.ok, Native.fromBytes_val hP hb] at h
  split_ifs at h
  · have := Except.ok.inj h
    rw [← this, decoded hP hm]
  · cases h

theorem fieldOfBytes_fieldBytes (f : ZMod p) :
    fieldOfBytes P p (fieldBytes f) = if Gap P f.val then Go.err else .ok f := by
  have : NeZero p := ⟨by have := hP.ok.one_lt; omega⟩
  have hlt : f.val < 256 ^ 32 := by
    have h := Native.FieldParams.Ok.val_lt hP.ok (f.val : P.Ring)
    have h2 := ZMod.val_lt f
    rw [ZMod.val_natCast, hm, Nat.mod_eq_of_lt h2] at h
    calc _ < _ := h
      _ = _ := by norm_num
  have hl : leNat (fieldBytes f) = f.val := leNat_leBytes _ _ hlt
  rw [fieldOfBytes_canonical hP hm (fieldBytes f) (leBytes_length _ _) (by rw [hl]; exact ZMod.val_lt f), hl,
    ZMod.natCast_zmod_val]

end Field

/-- C138: exactly which signatures survive encoding and decoding -/
theorem C138_roundtrip (s : Sig pallasp pallasq) :
    Sig.unmarshal s.marshal =
      if Gap Native.pastaFp s.R.val ∨ Gap Native.pastaFq s.S.val then Go.err else .ok s := by
  have h1 : (fieldBytes s.R).length = 32 := leBytes_length _ _
  have h2 : (fieldBytes s.S).length = 32 := leBytes_length _ _
  unfold Sig.unmarshal Sig.marshal
  rw [Go.guard_true (by simp [h1, h2]), Go.ok_bind, List.take_left' h1, List.drop_left' h1,
    fieldOfBytes_fieldBytes Native.pastaFp_shape fp_modulus,
    fieldOfBytes_fieldBytes Native.pastaFq_shape fq_modulus]
  by_cases hr : Gap Native.pastaFp s.R.val
  · rw [if_pos hr, if_pos (Or.inl hr)]; rfl
  · by_cases hs : Gap Native.pastaFq s.S.val
    · rw [if_neg hr, if_pos hs, if_pos (Or.inr hs)]; rfl
    · rw [if_neg hr, if_neg hs, if_neg (not_or.2 ⟨hr, hs⟩)]; rfl

/-- C138: whatever is decoded are the residues of the two halves, and only 64 bytes are decoded -/
theorem C138_decoded (b : List UInt8) (s : Sig pallasp pallasq) (h : Sig.unmarshal b = .ok s) :
    b.length = 64 ∧ s.R = (leNat (b.take 32) : ZMod pallasp) ∧
      s.S = (leNat (b.drop 32) : ZMod pallasq) := by
  unfold Sig.unmarshal at h
  rw [Go.guard_bind_eq_ok] at h
  obtain ⟨hl, h⟩ := h
  simp only [Go.bind_eq_ok] at h
  obtain ⟨r, hr, t, ht, hs⟩ := h
  obtain rfl := Except.ok.inj hs
  exact ⟨hl, fieldOfBytes_value Native.pastaFp_shape fp_modulus _ (by simp [hl]) _ hr,
    fieldOfBytes_value Native.pastaFq_shape fq_modulus _ (by simp [hl]) _ ht⟩

theorem triple_bytes (n : ℕ) (hn : n < 2 ^ 256) :
    (leBytes 32 n).length = 32 ∧ leNat (leBytes 32 n) = n := by
  refine ⟨leBytes_length _ _, leNat_leBytes _ _ ?_⟩
  calc _ < _ := hn
    _ = _ := by norm_num

/-- C138: signatures are malleable as bytes: adding three times the order to the second half of an
encoding gives a second string that decodes to the same signature, whenever the result is not too small for
the broken comparison and fits into 32 bytes. -/
theorem C138_second_encoding (s : Sig pallasp pallasq) (hr : ¬ Gap Native.pastaFp s.R.val)
    (hlo : 2 ^ 193 ≤ s.S.val) (hhi : s.S.val + 3 * pallasq < 2 ^ 256) :
    Sig.unmarshal (fieldBytes s.R ++ leBytes 32 (s.S.val + 3 * pallasq)) = .ok s ∧
      fieldBytes s.R ++ leBytes 32 (s.S.val + 3 * pallasq) ≠ s.marshal := by
  have h1 : (fieldBytes s.R).length = 32 := leBytes_length _ _
  obtain ⟨h2, h3⟩ := triple_bytes _ hhi
  constructor
  · unfold Sig.unmarshal
    rw [Go.guard_true (by simp [h1, h2]), Go.ok_bind, List.take_left' h1, List.drop_left' h1,
      fieldOfBytes_fieldBytes Native.pastaFp_shape fp_modulus, if_neg hr,
      fieldOfBytes_high Native.pastaFq_shape fq_modulus _ h2 (by
        rw [h3]; unfold pallasq at hhi ⊢; omega), h3]
    show Except.ok _ = Except.ok _
    rw [Nat.cast_add, Nat.cast_mul, ZMod.natCast_self, mul_zero, add_zero, ZMod.natCast_zmod_val]
  · intro h
    have h4 : leBytes 32 (s.S.val + 3 * pallasq) = leBytes 32 s.S.val := List.append_cancel_left h
    have h5 := congrArg leNat h4
    rw [h3, leNat_leBytes _ _ (by
      calc s.S.val < 2 ^ 256 := by omega
        _ = _ := by norm_num)] at h5
    unfold pallasq at h5
    omega

/-- C138: exactly which secret keys survive encoding and decoding -/
theorem C138_secret (sk : ZMod pallasq) :
    secretUnmarshal (secretMarshal sk) = if Gap Native.pastaFq sk.val then Go.err else .ok sk := by
  unfold secretUnmarshal secretMarshal
  rw [Go.guard_true (show (fieldBytes sk).length = 32 from leBytes_length _ _), Go.ok_bind,
    fieldOfBytes_fieldBytes Native.pastaFq_shape fq_modulus]

/-- C138: a decoded secret key may be zero; only signing refuses it -/
theorem C138_secret_zero : secretUnmarshal (List.replicate 32 0) = .ok 0 := by decide +kernel

example : ¬ Gap Native.pastaFp (5 : ZMod pallasp).val ∧
    2 ^ 193 ≤ (2 ^ 200 : ZMod pallasq).val ∧ (2 ^ 200 : ZMod pallasq).val + 3 * pallasq < 2 ^ 256 := by
  have h : (2 ^ 200 : ZMod pallasq).val = 2 ^ 200 := by decide +kernel
  rw [h]
  decide +kernel

example : Sig.unmarshal (Sig.marshal (⟨5, -(2 ^ 63)⟩ : Sig pallasp pallasq)) = Go.err := by decide +kernel
example : Sig.unmarshal (Sig.marshal (⟨5, 7⟩ : Sig pallasp pallasq)) = .ok ⟨5, 7⟩ := by decide +kernel
example : secretUnmarshal (secretMarshal (-(2 ^ 63) : ZMod pallasq)) = Go.err := by decide +kernel

end Verif.Mina
