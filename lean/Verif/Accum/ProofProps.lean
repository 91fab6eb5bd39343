import Verif.Accum.Props

/-!
# Membership proofs (C66, C99) and the encoding of witnesses and deltas (C100)
-/

set_option linter.unusedSectionVars false

namespace Verif.Accum

variable {F : Type} [Field F] [DecidableEq F]
variable {G1 G2 GT : Type} [AddCommGroup G1] [Module F G1] [DecidableEq G1]
  [AddCommGroup G2] [Module F G2] [DecidableEq G2] [AddCommGroup GT] [Module F GT] [DecidableEq GT]

/-- C66: for a witness of the accumulator, `Finalize` recomputes every commitment of the prover,
whatever the parameters, the randomness and the challenge. -/
theorem C66_finalize (g2 : G2) (e : G1 →ₗ[F] G2 →ₗ[F] GT) (α : F) (c : G1) (y : F) (v : G1)
    (hw : (y + α) • c = v) (pp : Params G1) (r : Rand F) (ch : F) :
    let m := newCommitting g2 e c y v pp (publicKey g2 α) r
    (m.genProof ch).finalize g2 e v pp (publicKey g2 α) ch =
      ⟨m.accumulator, m.eC, m.tSigma, m.tRho, m.capRE, m.capRSigma, m.capRRho, m.capRDeltaSigma,
        m.capRDeltaRho⟩ := by
  intro m
  simp only [m, Committing.genProof, Proof.finalize, newCommitting, schnorr, publicKey]
  congr 1
  · rw [← hw]
    simp only [map_add, map_smul, LinearMap.add_apply, LinearMap.smul_apply]
    module
  · module
  · module
  · module
  · module

example : ((1 : Toy.K) + 5) • (3 : Toy.K) = 18 := by decide

/-- C66: the verifier computes the challenge of the prover, so an honest proof is accepted. -/
theorem C66_challenge (g2 : G2) (e : G1 →ₗ[F] G2 →ₗ[F] GT) (chal : List UInt8 → F)
    (enc1 : G1 → List UInt8) (encT : GT → List UInt8) (α : F) (c : G1) (y : F) (v : G1)
    (hw : (y + α) • c = v) (pp : Params G1) (r : Rand F) :
    let m := newCommitting g2 e c y v pp (publicKey g2 α) r
    let ch := chal (m.challengeBytes enc1 encT)
    ((m.genProof ch).finalize g2 e v pp (publicKey g2 α) ch).challenge chal enc1 encT = ch := by
  intro m ch
  rw [C66_finalize g2 e α c y v hw pp r ch]
  rfl

example : (((newCommitting (1 : Toy.K) (LinearMap.mul Toy.K Toy.K) (3 : Toy.K) (1 : Toy.K) 18 ⟨7, 9, 11⟩
    (publicKey 1 (5 : Toy.K)) ⟨1, 2, 3, 4, 5, 6, 7⟩).genProof 10).finalize (1 : Toy.K)
    (LinearMap.mul Toy.K Toy.K) 18 ⟨7, 9, 11⟩ (publicKey 1 (5 : Toy.K)) 10).accumulator = 18 := by
  decide +kernel

/-- the hash input of the verifier's challenge -/
def Final.bytes (enc1 : G1 → List UInt8) (encT : GT → List UInt8) (f : Final G1 GT) : List UInt8 :=
  challengeBytes enc1 encT f.accumulator f.eC f.tSigma f.tRho f.capRE f.capRSigma f.capRRho
    f.capRDeltaSigma f.capRDeltaRho

/-- C66: the challenge is a function of the hash input alone, and the hash input determines the
accumulator and all commitments: different commitments with the same challenge are a collision of the
hash to the scalar field. -/
theorem C66_challenge_binding (enc1 : G1 → List UInt8) (encT : GT → List UInt8) (n k : ℕ)
    (h1 : Function.Injective enc1) (hT : Function.Injective encT) (l1 : ∀ p, (enc1 p).length = n)
    (lT : ∀ p, (encT p).length = k) (chal : List UInt8 → F) (f f' : Final G1 GT) :
    f.challenge chal enc1 encT = chal (f.bytes enc1 encT) ∧
      (f.bytes enc1 encT = f'.bytes enc1 encT → f = f') := by
  refine ⟨rfl, fun h => ?_⟩
  unfold Final.bytes challengeBytes at h
  obtain ⟨h, e9⟩ := List.append_inj' h (by rw [l1, l1])
  obtain ⟨h, e8⟩ := List.append_inj' h (by rw [l1, l1])
  obtain ⟨h, e7⟩ := List.append_inj' h (by rw [l1, l1])
  obtain ⟨h, e6⟩ := List.append_inj' h (by rw [l1, l1])
  obtain ⟨h, e5⟩ := List.append_inj' h (by rw [lT, lT])
  obtain ⟨h, e4⟩ := List.append_inj' h (by rw [l1, l1])
  obtain ⟨h, e3⟩ := List.append_inj' h (by rw [l1, l1])
  obtain ⟨e1, e2⟩ := List.append_inj' h (by rw [l1, l1])
  cases f; cases f'
  simp only [Final.mk.injEq]
  exact ⟨h1 e1, h1 e2, h1 e3, h1 e4, hT e5, h1 e6, h1 e7, h1 e8, h1 e9⟩

example : Function.Injective Toy.codec.enc ∧ ∀ p, (Toy.codec.enc p).length = 2 :=
  ⟨fun a b h => by
    have := congrArg Toy.codec.dec h
    rwa [Toy.codec.dec_enc, Toy.codec.dec_enc, Option.some.injEq] at this, fun _ => rfl⟩

/-- C99: special soundness.  From two proofs that finalize to the same commitments under different
challenges one computes an element `y` and a point `C` with `(y + α)·C = V`. -/
theorem C99_extract (g2 : G2) (e : G1 →ₗ[F] G2 →ₗ[F] GT) (hnd : ∀ P, e P g2 = 0 → P = 0) (α : F)
    (pp : Params G1) (hX : pp.x ≠ 0) (hY : pp.y ≠ 0) (v : G1) (p p' : Proof F G1) (c c' : F)
    (hc : c ≠ c')
    (h : p.finalize g2 e v pp (publicKey g2 α) c = p'.finalize g2 e v pp (publicKey g2 α) c') :
    ((c - c')⁻¹ * (p.sY - p'.sY) + α) •
      (p.eC - ((c - c')⁻¹ * (p.sSigma - p'.sSigma) + (c - c')⁻¹ * (p.sRho - p'.sRho)) • pp.z) = v := by
  have hd : c - c' ≠ 0 := sub_ne_zero.2 hc
  simp only [Proof.finalize, Final.mk.injEq, true_and] at h
  obtain ⟨hE, hS, hR, hRE, k1, k2, k3, k4⟩ := h
  rw [← hE] at hRE
  rw [← hS] at k1 k3
  rw [← hR] at k2 k4
  set Δ := c - c' with hΔ
  have hcc : c = c' + Δ := by rw [hΔ]; ring
  set σ := Δ⁻¹ * (p.sSigma - p'.sSigma) with hσ
  set ρ := Δ⁻¹ * (p.sRho - p'.sRho) with hρ
  set y := Δ⁻¹ * (p.sY - p'.sY) with hy
  have tS : p.tSigma = σ • pp.x := by
    have : Δ • p.tSigma = (p.sSigma - p'.sSigma) • pp.x := by
      have h0 := sub_eq_zero.2 k1
      rw [hcc] at h0
      rw [← sub_eq_zero, ← neg_eq_zero, ← h0]; module
    rw [hσ, mul_smul, ← this, smul_smul, inv_mul_cancel₀ hd, one_smul]
  have tR : p.tRho = ρ • pp.y := by
    have : Δ • p.tRho = (p.sRho - p'.sRho) • pp.y := by
      have h0 := sub_eq_zero.2 k2
      rw [hcc] at h0
      rw [← sub_eq_zero, ← neg_eq_zero, ← h0]; module
    rw [hρ, mul_smul, ← this, smul_smul, inv_mul_cancel₀ hd, one_smul]
  have dS : Δ⁻¹ * (p.sDeltaSigma - p'.sDeltaSigma) = y * σ := by
    have : ((p.sY - p'.sY) * σ - (p.sDeltaSigma - p'.sDeltaSigma)) • pp.x = 0 := by
      have h0 := sub_eq_zero.2 k3
      rw [tS] at h0
      rw [← h0]; module
    have := (smul_eq_zero.1 this).resolve_right hX
    rw [hy, mul_assoc, sub_eq_zero.1 this]
  have dR : Δ⁻¹ * (p.sDeltaRho - p'.sDeltaRho) = y * ρ := by
    have : ((p.sY - p'.sY) * ρ - (p.sDeltaRho - p'.sDeltaRho)) • pp.y = 0 := by
      have h0 := sub_eq_zero.2 k4
      rw [tR] at h0
      rw [← h0]; module
    have := (smul_eq_zero.1 this).resolve_right hY
    rw [hy, mul_assoc, sub_eq_zero.1 this]
  have hp : (p.sY - p'.sY) • p.eC - ((p.sDeltaSigma - p'.sDeltaSigma) + (p.sDeltaRho - p'.sDeltaRho)) •
      pp.z - Δ • v + α • (Δ • p.eC - ((p.sSigma - p'.sSigma) + (p.sRho - p'.sRho)) • pp.z) = 0 := by
    apply hnd
    rw [← sub_eq_zero.2 hRE, hcc]
    unfold publicKey
    simp only [map_add, map_sub, map_smul, LinearMap.add_apply, LinearMap.sub_apply,
      LinearMap.smul_apply]
    module
  have hp' := congrArg (fun P => Δ⁻¹ • P) hp
  simp only [smul_zero] at hp'
  have e1 : p.sY - p'.sY = Δ * y := by rw [hy, mul_inv_cancel_left₀ hd]
  have e2 : p.sSigma - p'.sSigma = Δ * σ := by rw [hσ, mul_inv_cancel_left₀ hd]
  have e3 : p.sRho - p'.sRho = Δ * ρ := by rw [hρ, mul_inv_cancel_left₀ hd]
  have e4 : p.sDeltaSigma - p'.sDeltaSigma = Δ * (y * σ) := by
    rw [← dS, mul_inv_cancel_left₀ hd]
  have e5 : p.sDeltaRho - p'.sDeltaRho = Δ * (y * ρ) := by
    rw [← dR, mul_inv_cancel_left₀ hd]
  rw [e1, e2, e3, e4, e5] at hp'
  have hp2 : Δ⁻¹ • (Δ • ((y + α) • (p.eC - (σ + ρ) • pp.z) - v)) = 0 := by
    rw [← hp']; module
  rw [smul_smul, inv_mul_cancel₀ hd, one_smul] at hp2
  exact sub_eq_zero.1 hp2

example : (newCommitting (1 : Toy.K) (LinearMap.mul Toy.K Toy.K) (3 : Toy.K) (1 : Toy.K) 18 ⟨7, 9, 11⟩
      (publicKey 1 (5 : Toy.K)) ⟨1, 2, 3, 4, 5, 6, 7⟩ |>.genProof 10).finalize (1 : Toy.K)
      (LinearMap.mul Toy.K Toy.K) 18 ⟨7, 9, 11⟩ (publicKey 1 (5 : Toy.K)) 10 =
    (newCommitting (1 : Toy.K) (LinearMap.mul Toy.K Toy.K) (3 : Toy.K) (1 : Toy.K) 18 ⟨7, 9, 11⟩
      (publicKey 1 (5 : Toy.K)) ⟨1, 2, 3, 4, 5, 6, 7⟩ |>.genProof 20).finalize (1 : Toy.K)
      (LinearMap.mul Toy.K Toy.K) 18 ⟨7, 9, 11⟩ (publicKey 1 (5 : Toy.K)) 20 := by
  decide +kernel

/-- C99: in terms of `Verify`: when the accumulator is not the identity and the extracted element is not
zero, the extracted pair is a witness that `Verify` accepts. -/
theorem C99_extract_verifies (g2 : G2) (e : G1 →ₗ[F] G2 →ₗ[F] GT) (hnd : ∀ P, e P g2 = 0 → P = 0)
    (α : F) (hpk : publicKey g2 α ≠ 0) (pp : Params G1) (hX : pp.x ≠ 0) (hY : pp.y ≠ 0) (v : G1)
    (hv : v ≠ 0) (p p' : Proof F G1) (c c' : F) (hc : c ≠ c')
    (h : p.finalize g2 e v pp (publicKey g2 α) c = p'.finalize g2 e v pp (publicKey g2 α) c')
    (hy : p.sY ≠ p'.sY) :
    ∃ w : Witness F G1, w.y = some ((c - c')⁻¹ * (p.sY - p'.sY)) ∧
      w.verify g2 e (some (publicKey g2 α)) (some v) = .ok () := by
  have hw := C99_extract g2 e hnd α pp hX hY v p p' c c' hc h
  refine ⟨⟨some _, some _⟩, rfl, (C64_verify_iff g2 e hnd _ _ _).2 ⟨_, _, v, rfl, rfl, ?_, ?_, hpk,
    hv, hw⟩⟩
  · intro h0
    rw [h0, smul_zero] at hw
    exact hv hw.symm
  · exact mul_ne_zero (inv_ne_zero (sub_ne_zero.2 hc)) (sub_ne_zero.2 hy)

example : (publicKey (1 : Toy.K) (5 : Toy.K)) ≠ 0 := by decide

/-- C99: the proof system is laxer than `Verify`: for the zero element, and for the identity accumulator
with the identity witness, `Verify` refuses but the proof made from them is accepted, for every
randomness. -/
theorem C99_proof_accepts_degenerate (g2 : G2) (e : G1 →ₗ[F] G2 →ₗ[F] GT) (chal : List UInt8 → F)
    (enc1 : G1 → List UInt8) (encT : GT → List UInt8) (α : F) (c : G1) (y : F)
    (hdeg : y = 0 ∨ c = 0) (pp : Params G1) (r : Rand F) :
    let v := (y + α) • c
    let m := newCommitting g2 e c y v pp (publicKey g2 α) r
    let ch := chal (m.challengeBytes enc1 encT)
    (⟨some c, some y⟩ : Witness F G1).verify g2 e (some (publicKey g2 α)) (some v) = Go.err ∧
      ((m.genProof ch).finalize g2 e v pp (publicKey g2 α) ch).challenge chal enc1 encT = ch := by
  intro v m ch
  refine ⟨?_, C66_challenge g2 e chal enc1 encT α c y v rfl pp r⟩
  simp only [Witness.verify]
  by_cases hc : c = 0
  · rw [Go.guard_false (not_not.2 hc)]; rfl
  · have hy := hdeg.resolve_right hc
    rw [Go.guard_true hc, Go.guard_false (not_not.2 hy)]; rfl

example : (0 : Toy.K) = 0 ∨ (3 : Toy.K) = 0 := Or.inl rfl

/-- C99: two proofs made with the same randomness under different challenges reveal the witness. -/
theorem C99_nonce_reuse (g2 : G2) (e : G1 →ₗ[F] G2 →ₗ[F] GT) (c : G1) (y : F) (v : G1)
    (pp : Params G1) (pk : G2) (r : Rand F) (ch ch' : F) (hne : ch ≠ ch') :
    let m := newCommitting g2 e c y v pp pk r
    let p := m.genProof ch
    let p' := m.genProof ch'
    y = (ch - ch')⁻¹ * (p.sY - p'.sY) ∧
      c = p.eC - ((ch - ch')⁻¹ * (p.sSigma - p'.sSigma) +
        (ch - ch')⁻¹ * (p.sRho - p'.sRho)) • pp.z := by
  have hd : ch - ch' ≠ 0 := sub_ne_zero.2 hne
  intro m p p'
  have e1 : ∀ a b : F, (ch - ch')⁻¹ * (schnorr a b ch - schnorr a b ch') = b := by
    intro a b
    unfold schnorr
    rw [show b * ch + a - (b * ch' + a) = (ch - ch') * b by ring, inv_mul_cancel_left₀ hd]
  simp only [p, p', m, Committing.genProof, newCommitting, e1]
  exact ⟨trivial, by abel⟩

example : (10 : Toy.K) ≠ 20 := by decide

/-! ## C100: encodings -/

/-- C100: witnesses and deltas survive serialization. -/
theorem C100_round_trip (enc1 : G1 → List UInt8) (dec1 : List UInt8 → Option G1) (cd : ScalarCodec F)
    (hdec : ∀ p, dec1 (enc1 p) = some p) (l1 : ∀ p, (enc1 p).length = 48)
    (ls : ∀ x, (cd.enc x).length = 32) (c : G1) (y : F) :
    ∃ b, marshalPair enc1 cd (some c) (some y) = .ok b ∧ unmarshalPair dec1 cd b = .ok (c, y) := by
  refine ⟨enc1 c ++ cd.enc y, rfl, ?_⟩
  unfold unmarshalPair
  have hl : (enc1 c ++ cd.enc y).length = 48 + 32 := by rw [List.length_append, l1, ls]
  rw [Go.guard_true hl]
  have t : (enc1 c ++ cd.enc y).take 48 = enc1 c := by
    rw [← l1 c]; simp
  have d : (enc1 c ++ cd.enc y).drop 48 = cd.enc y := by
    rw [← l1 c]; simp
  rw [t, d, hdec, cd.dec_enc]
  rfl

/-- C100: if the point has one accepted encoding, so has the witness: two different byte strings never decode to it.  On the curve this
holds for all points but the identity (C197). -/
theorem C100_canonical (enc1 : G1 → List UInt8) (dec1 : List UInt8 → Option G1) (cd : ScalarCodec F)
    (b : List UInt8) (c : G1) (y : F) (henc : ∀ b, b.length = 48 → dec1 b = some c → enc1 c = b)
    (h : unmarshalPair dec1 cd b = .ok (c, y)) :
    marshalPair enc1 cd (some c) (some y) = .ok b := by
  unfold unmarshalPair at h
  rw [Go.guard_bind_eq_ok] at h
  obtain ⟨hl, h⟩ := h
  rw [Go.bind_eq_ok] at h
  obtain ⟨c', hc, h⟩ := h
  rw [Go.bind_eq_ok] at h
  obtain ⟨y', hy, h⟩ := h
  cases h
  rw [Go.ofOption_eq_ok] at hc hy
  show Except.ok (enc1 c ++ cd.enc y) = _
  rw [henc _ (by rw [List.length_take]; omega) hc, cd.enc_dec _ _ hy, List.take_append_drop]

/-- a codec with the lengths of the curve: 30 (46) zero bytes before the two bytes of the toy codec -/
def padCodec (n : ℕ) : ScalarCodec Toy.K where
  enc x := List.replicate n 0 ++ Toy.codec.enc x
  dec b := if b.take n = List.replicate n 0 then Toy.codec.dec (b.drop n) else none
  dec_enc x := by
    have t : (List.replicate n (0 : UInt8) ++ Toy.codec.enc x).take n = List.replicate n 0 := by simp
    have d : (List.replicate n (0 : UInt8) ++ Toy.codec.enc x).drop n = Toy.codec.enc x := by simp
    rw [t, d, if_pos rfl, Toy.codec.dec_enc]
  enc_dec b x h := by
    split at h
    · rename_i ht
      rw [Toy.codec.enc_dec _ _ h, ← ht, List.take_append_drop]
    · cases h

example : (∀ p, (padCodec 46).dec ((padCodec 46).enc p) = some p) ∧
    (∀ c b, (padCodec 46).dec b = some c → (padCodec 46).enc c = b) ∧
    (∀ p, ((padCodec 46).enc p).length = 48) ∧ ∀ x, ((padCodec 30).enc x).length = 32 :=
  ⟨(padCodec 46).dec_enc, fun c b => (padCodec 46).enc_dec b c, fun _ => by simp [padCodec, Toy.codec],
    fun _ => by simp [padCodec, Toy.codec]⟩

end Verif.Accum
