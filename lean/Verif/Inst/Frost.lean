import Verif.Ed25519.SigLink
import Verif.Ted.FrostSignProps
import Verif.Inst.Dkls

/-!
# C195: FROST on Ed25519 makes Ed25519 signatures
-/

namespace Verif.Inst
open Verif.Native Verif.Primes Verif.Ed25519 Verif.FrostSign Verif.Curves.Ed

/-- `Ed25519ChallengeDeriver` (challenge_derive.go:21-27) on the subgroup of prime order, where `SetBytesWide` reads little-endian -/
def edChal (sha512 : List UInt8 → List UInt8) : List UInt8 → primeSub → primeSub → Go Fl :=
  ed25519Challenge (fun b => wideS (sha512 b)) pencS

/-- the 64 bytes of an Ed25519 signature with commitment `R` and response `z` -/
def edSig (R : primeSub) (z : Fl) : List UInt8 := pencS R ++ leBytes 32 z.val

theorem edl_le : edl ≤ 256 ^ 32 := by decide +kernel

theorem edSig_parts (R : primeSub) (z : Fl) : (edSig R z).length = 64 ∧ (edSig R z).take 32 = pencS R ∧ leNat ((edSig R z).drop 32) = z.val := by
  have hl := pencS_ok.1 R
  refine ⟨by rw [edSig, List.length_append, hl, leBytes_length], List.take_left' hl, ?_⟩
  rw [edSig, List.drop_left' hl, leNat_leBytes]
  exact lt_of_lt_of_le (ZMod.val_lt z) edl_le

theorem back {F G : Type} [Field F] [AddCommGroup G] [Module F G] (u v : G) (c : F) : u = (u + (-c) • v) + c • v := by module

theorem forth {F G : Type} [Field F] [AddCommGroup G] [Module F G] (u v : G) (c : F) : u = (u + c • v) + (-c) • v := by module

/-- C195: `Verify` of FROST with the challenge of Ed25519 accepts `(z, c)` exactly when the message is not empty, `c` is the challenge for
`R = z·B - c·A`, and `(R, z)` is an Ed25519 signature that the verifier on the curve accepts -/
theorem C195_verify (sha512 : List UInt8 → List UInt8) (hs : ∀ b, (sha512 b).length = 64) (A : primeSub) (msg : List UInt8) (z c : Fl) :
    FrostSign.verify baseS (edChal sha512) A msg z c = .ok true ↔
      msg ≠ [] ∧ c = wideS (sha512 (pencS (z • baseS + (-c) • A) ++ pencS A ++ msg)) ∧
        edVerify sha512 (pencS A) msg (edSig (z • baseS + (-c) • A) z) = .ok true := by
  have hv : FrostSign.verify baseS (edChal sha512) A msg z c = .ok true ↔
      msg ≠ [] ∧ c = wideS (sha512 (pencS (z • baseS + (-c) • A) ++ pencS A ++ msg)) := by
    unfold FrostSign.verify edChal ed25519Challenge
    rw [Go.guard_bind_eq_ok, Go.ok_bind, Go.guard_bind_eq_ok]
    exact ⟨fun h => ⟨h.1, h.2.1.symm⟩, fun h => ⟨h.1, h.2.symm, rfl⟩⟩
  rw [hv]
  refine ⟨fun h => ⟨h.1, h.2, ?_⟩, fun h => ⟨h.1, h.2.1⟩⟩
  obtain ⟨p1, p2, p3⟩ := edSig_parts (z • baseS + (-c) • A) z
  rw [C184_verify_iff sha512 hs]
  refine ⟨p1, by rw [p3]; exact ZMod.val_lt z, A, ((z • baseS + (-c) • A : primeSub) : EdPt), pdecS_eq.1 (pencS_ok.2 A), p2, ?_⟩
  have hc : chal sha512 (pencS A) msg (edSig (z • baseS + (-c) • A) z) • (A : EdPt) = ((c • A : primeSub) : EdPt) := by
    have e : chal sha512 (pencS A) msg (edSig (z • baseS + (-c) • A) z) = c.val := by
      unfold chal
      rw [p2, ← ZMod.val_natCast]
      exact congrArg ZMod.val h.2.symm
    rw [e, smul_coe]
  rw [p3, hc, show base = (baseS : EdPt) from rfl, smul_coe, ← AddSubgroup.coe_add]
  exact congrArg Subtype.val (back (z • baseS) A c)

/-- C195: a run of FROST on Ed25519 by honest signers ends, for every one of them and whatever the order in which messages are delivered, in the
same `(R, z)`, and its 64 bytes are an Ed25519 signature of the message under the joint key -/
theorem C195_sign {T : Finset UInt32} {t : UInt32} {cos : List UInt32} {lc : UInt32 → List (UInt32 × Fl)} {L sk d e : UInt32 → Fl}
    {vk : primeSub} {st0 st1 : UInt32 → Signer Fl primeSub} {cm : UInt32 → Commit primeSub}
    {inp : UInt32 → List (UInt32 × Option (Commit primeSub))} (H : Honest baseS T t cos lc L sk d e vk st0 st1 cm inp)
    (sha512 : List UInt8 → List UInt8) (hs : ∀ b, (sha512 b).length = 64) (hash : List UInt8 → Fl)
    (msg : List UInt8) (hm : msg ≠ []) (hd : ∀ i ∈ T, d i ≠ 0) (he : ∀ i ∈ T, e i ≠ 0) :
    ∃ (st2 : UInt32 → Signer Fl primeSub) (resp : UInt32 → Resp Fl primeSub) (R : primeSub) (z c : Fl),
      (∀ i ∈ T, round2 hash (edChal sha512) (fun _ => false) pencS (st1 i) msg (inp i) = (st2 i, .ok (resp i))) ∧
      (∀ i ∈ T, ∀ inp3, Delivers T resp inp3 →
        ∃ st3, round3 baseS (edChal sha512) (fun _ => false) (st2 i) (some inp3) = (st3, .ok ⟨R, z, c, msg⟩)) ∧
      edVerify sha512 (pencS vk) msg (edSig R z) = .ok true := by
  obtain ⟨st2, resp, z, h1, h2, h3, h4⟩ := C27_honest_run C183_annihilator H hash (edChal sha512) (fun _ => false) pencS msg hm hd he _ rfl _ rfl
    (fun h => absurd h (by simp))
  refine ⟨st2, resp, _, z, _, h1, h2, ?_⟩
  have := ((C195_verify sha512 hs _ _ _ _).1 h3).2.2
  rw [if_neg (by simp)] at h4
  rw [h4, ← forth (F := Fl)] at this
  exact this

theorem byteInj_zmod (q : ℕ) [Fact q.Prime] (h : 255 < q) : ByteInj (ZMod q) := by
  intro n h0 h1 e
  rw [ZMod.natCast_eq_zero_iff] at e
  exact absurd (Nat.le_of_dvd h0 e) (by omega)

/-- C195: key generation and signing together: after a run of the FROST key generation on Ed25519 by honest participants, any `t` of them make
an Ed25519 signature under the key that all of them have -/
theorem C195_end_to_end (cd : ScalarCodec Fl) (hash hash' : List UInt8 → Fl) (S : Frost.Setup Fl primeSub)
    (st0 st1 st2 : UInt32 → Frost.State Fl primeSub) (b : UInt32 → Frost.Bcast Fl primeSub)
    (p : UInt32 → List (UInt32 × Option Sharing.Share)) (out : UInt32 → Frost.Bcast2 primeSub)
    (H : Frost.HonestRun cd baseS pencS hash S st0 st1 st2 b p out) (cos : List UInt32) (hnd : cos.Nodup) (hcos : ∀ i ∈ cos, i ∈ S.ids)
    (hlen : cos.length = S.t.toNat) (hne : cos ≠ []) (sha512 : List UInt8 → List UInt8) (hs : ∀ b, (sha512 b).length = 64) :
    ∃ (coeffs : List (UInt32 × Fl)) (sk : UInt32 → Fl) (vk : primeSub), Sharing.lagrangeCoeffs cos = .ok coeffs ∧
      (∀ i ∈ cos, (st2 i).skShare = some (sk i) ∧ (st2 i).verificationKey = some vk) ∧
      ∀ (d e : UInt32 → Fl) (msg : List UInt8), (∀ i ∈ cos, d i ≠ 0 ∧ e i ≠ 0) → msg ≠ [] →
        ∃ (s0 s1 : UInt32 → Signer Fl primeSub) (cm : UInt32 → Commit primeSub),
          (∀ i ∈ cos, newSigner (sk i) (sk i • baseS) vk i S.t coeffs cos = .ok (s0 i) ∧
            FrostSign.round1 baseS (s0 i) (d i) (e i) = (s1 i, .ok (cm i))) ∧
          ∀ inp : UInt32 → List (UInt32 × Option (Commit primeSub)), (∀ i ∈ cos, Delivers cos.toFinset cm (inp i)) →
            ∃ (s2 : UInt32 → Signer Fl primeSub) (resp : UInt32 → Resp Fl primeSub) (R : primeSub) (z c : Fl),
              (∀ i ∈ cos, FrostSign.round2 hash' (edChal sha512) (fun _ => false) pencS (s1 i) msg (inp i) = (s2 i, .ok (resp i))) ∧
              (∀ i ∈ cos, ∀ inp3, Delivers cos.toFinset resp inp3 →
                ∃ s3, FrostSign.round3 baseS (edChal sha512) (fun _ => false) (s2 i) (some inp3) = (s3, .ok ⟨R, z, c, msg⟩)) ∧
              edVerify sha512 (pencS vk) msg (edSig R z) = .ok true := by
  obtain ⟨coeffs, L, sk, vk, h1, h2, h3⟩ := C27_from_dkg (byteInj_zmod edl (by decide)) cd baseS pencS hash S st0 st1 st2 b p out H cos hnd hcos
    hlen hne
  refine ⟨coeffs, sk, vk, h1, fun i hi => ⟨(h2 i hi).1, (h2 i hi).2.2⟩, fun d e msg hde hm => ?_⟩
  obtain ⟨s0, s1, cm, e1, e2, e3⟩ := h3 d e
  refine ⟨s0, s1, cm, fun i hi => ⟨e1 i hi, e2 i hi⟩, fun inp hin => ?_⟩
  obtain ⟨s2, resp, R, z, c, f1, f2, f3⟩ := C195_sign (e3 inp hin) sha512 hs hash' msg hm (fun i hi => (hde i (List.mem_toFinset.1 hi)).1)
    (fun i hi => (hde i (List.mem_toFinset.1 hi)).2)
  exact ⟨s2, resp, R, z, c, fun i hi => f1 i (List.mem_toFinset.2 hi), fun i hi => f2 i (List.mem_toFinset.2 hi), f3⟩

/-- `C195_verify`: with a constant digest, `(z, c) = (5, 1)` for the key `3·B` -/
example : FrostSign.verify baseS (edChal (fun _ => 1 :: List.replicate 63 0)) ((3 : Fl) • baseS) [7] 5 1 = .ok true := by
  have h : wideS (1 :: List.replicate 63 0) = 1 := by
    rw [wideS, show leNat (1 :: List.replicate 63 0) = 1 by decide +kernel, Nat.cast_one]
  unfold FrostSign.verify edChal ed25519Challenge
  rw [Go.guard_true (by simp), Go.ok_bind, Go.ok_bind, Go.guard_true h]
  rfl

end Verif.Inst
