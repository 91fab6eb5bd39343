import Verif.Inst.Frost
import Verif.Schnorr.Props

/-!
# C196: Schnorr proofs on the concrete curves
-/

namespace Verif.Inst
open Verif.Native Verif.Primes Verif.Ed25519 Verif.Schnorr Verif.Curves.Ed

/-- C196: the encodings of secp256k1 and of the subgroup of Ed25519 are what the soundness of Schnorr proofs asks for; that of P-256 is not -/
theorem C196_points : GoodPoints k256Penc 33 ∧ GoodPoints pencS 32 ∧ ¬ ∃ L, GoodPoints p256Penc L := by
  refine ⟨⟨C192_point_codecs.2.1, fun P => (C192_point_codecs.1 P).1⟩, ⟨fun P Q h => ?_, pencS_ok.1⟩, fun ⟨L, h⟩ => ?_⟩
  · have := pencS_ok.2 P
    rw [h, pencS_ok.2 Q] at this
    exact (Option.some.inj this).symm
  · obtain ⟨P, h0, h1, -⟩ := C192_point_codecs.2.2.2.1
    exact h0 (h.inj h1)

/-- C196: on P-256 a proof binds its statement to the session only up to a pair: there is a secret `x ≠ 0` so that for every hash function,
session and nonce the proofs for `x` and for the secret zero have the same challenge though they are for different statements -/
theorem C196_p256_confusion : ∃ x : ZMod p256q, x ≠ 0 ∧ x • p256G ≠ 0 ∧
    ∀ (H : List UInt8 → List UInt8) (sid : List UInt8) (k : ZMod p256q),
      (∀ pf, (newProver p256G none sid).prove H p256Penc p256Cd x k = .ok pf → ∃ pf0,
        (newProver p256G none sid).prove H p256Penc p256Cd 0 k = .ok pf0 ∧ pf0.C = pf.C ∧ pf.statement = x • p256G ∧ pf0.statement = 0 ∧
        verify H p256Penc p256Cd p256G (some pf) none sid = .ok () ∧ verify H p256Penc p256Cd p256G (some pf0) none sid = .ok ()) := by
  obtain ⟨P, h0, h1, -⟩ := C192_point_codecs.2.2.2.1
  obtain ⟨x, hx⟩ : ∃ x : ZMod p256q, x • p256G = P := by
    obtain ⟨k, ⟨-, hk⟩, -⟩ := C169_p256_cyclic.choose_spec.2 P
    exact ⟨(k : ZMod p256q), (Nat.cast_smul_eq_nsmul (ZMod p256q) k p256G).trans hk.symm⟩
  have hz : (0 : ZMod p256q) • p256G = 0 := zero_smul (ZMod p256q) p256G
  have hxe : p256Penc (x • p256G) = p256Penc ((0 : ZMod p256q) • p256G) := by rw [hx, hz]; exact h1
  refine ⟨x, ?_, by rw [hx]; exact h0, fun H sid k pf h => ?_⟩
  · rintro rfl
    exact h0 (by rw [← hx, hz])
  · have hd : ∀ y : ZMod p256q, (newProver p256G none sid).prove H p256Penc p256Cd y k =
        (do let c ← Go.ofOption (p256Cd.dec (H (sid ++ p256Penc p256G ++ p256Penc (y • p256G) ++ p256Penc (k • p256G))))
            .ok ⟨c, c * y + k, y • p256G⟩) := fun y => rfl
    have hv := C19_complete H p256Penc p256Cd p256G none sid x k pf h
    rw [hd, hxe, Go.bind_eq_ok] at h
    obtain ⟨c, hc, h⟩ := h
    obtain rfl := Except.ok.inj h
    have h' : (newProver p256G none sid).prove H p256Penc p256Cd 0 k = .ok ⟨c, c * 0 + k, (0 : ZMod p256q) • p256G⟩ := by
      rw [hd, hc]; rfl
    exact ⟨_, h', rfl, rfl, hz, hv.1, (C19_complete H p256Penc p256Cd p256G none sid 0 k _ h').1⟩

/-- `C196_p256_confusion`: with a hash function that is constantly zero there are such proofs -/
example (x : ZMod p256q) (sid : List UInt8) : ∃ pf, (newProver p256G none sid).prove (fun _ => p256Cd.enc 0) p256Penc p256Cd x 5 = .ok pf :=
  (C19_prove_decision _ _ _ _ _ _ _ _).1.2 ⟨0, rfl⟩

end Verif.Inst
