import Verif.Inst.WeierCodec
import Verif.Dkls.DkgProps

/-!
# C192, C193: DKLs key generation and signing on secp256k1 and P-256
-/

namespace Verif.Inst
open Verif.Native Verif.Primes Verif.Ot Verif.Dkls

/-! ## The groups -/

/-- the generator of secp256k1 -/
noncomputable def k256G : K256.Group := C169_k256_cyclic.choose

/-- the generator of P-256 -/
noncomputable def p256G : P256.Group := C169_p256_cyclic.choose

theorem k256G_rep : Rep K256.generator k256G := C169_k256_cyclic.choose_spec.1
theorem p256G_rep : Rep P256.generator p256G := C169_p256_cyclic.choose_spec.1

theorem k256G_ne : k256G ≠ 0 := by
  intro h
  have := k256G_rep
  rw [h] at this
  exact one_ne_zero (α := ZMod k256p) this

theorem p256G_ne : p256G ≠ 0 := by
  intro h
  have := p256G_rep
  rw [h] at this
  exact one_ne_zero (α := ZMod p256p) this

/-- C192: the scalars act freely on the generators -/
theorem C192_generators : (∀ c : ZMod k256q, c • k256G = 0 → c = 0) ∧ (∀ c : ZMod p256q, c • p256G = 0 → c = 0) :=
  ⟨fun _ h => (smul_eq_zero.1 h).resolve_right k256G_ne, fun _ h => (smul_eq_zero.1 h).resolve_right p256G_ne⟩

/-- `ToAffineCompressed` of secp256k1 -/
def k256Penc (P : K256.Group) : List UInt8 := penc k256Enc (a := 0) (b := ((7 : ℕ) : k256Enc.P.Ring)) P

/-- `FromAffineCompressed` of secp256k1 -/
noncomputable def k256Pdec (b : List UInt8) : Option K256.Group := pdec k256Enc 0 ((7 : ℕ) : k256Enc.P.Ring) b

/-- the abscissa of a point of secp256k1 -/
def k256X (P : K256.Group) : ℕ := xOf (C := k256Enc) (a := 0) (b := ((7 : ℕ) : k256Enc.P.Ring)) P

/-- `ToAffineCompressed` of P-256 -/
def p256Penc (P : P256.Group) : List UInt8 := penc p256Enc (a := -3) (b := (P256.b : p256Enc.P.Ring)) P

/-- `FromAffineCompressed` of P-256 -/
noncomputable def p256Pdec (b : List UInt8) : Option P256.Group := pdec p256Enc (-3) (P256.b : p256Enc.P.Ring) b

/-- the abscissa of a point of P-256 -/
def p256X (P : P256.Group) : ℕ := xOf (C := p256Enc) (a := -3) (b := (P256.b : p256Enc.P.Ring)) P

theorem p256Enc_okb : p256Enc.Ok (-3) (P256.b : p256Enc.P.Ring) := by
  have h := p256Enc_ok
  have e : ((P256.bN : ℕ) : p256Enc.P.Ring) = (P256.b : p256Enc.P.Ring) := C111_p256_params.2.1.symm
  rwa [e] at h

theorem p256_b_square' : IsSquare (P256.b : p256Enc.P.Ring) := by
  have e : ((P256.bN : ℕ) : p256Enc.P.Ring) = (P256.b : p256Enc.P.Ring) := C111_p256_params.2.1.symm
  rw [← e]
  exact p256_b_square

/-- C192: the encodings of points have 33 bytes and are read back, for all points of secp256k1 and for all but the neutral one of P-256.
So on secp256k1 they are injective; on P-256 they are not, for the neutral element has the encoding of a point of abscissa zero. -/
theorem C192_point_codecs :
    (∀ P : K256.Group, (k256Penc P).length = 33 ∧ k256Pdec (k256Penc P) = some P) ∧ Function.Injective k256Penc ∧
    (∀ P : P256.Group, (p256Penc P).length = 33 ∧ (P ≠ 0 → p256Pdec (p256Penc P) = some P)) ∧
    (∃ P : P256.Group, P ≠ 0 ∧ p256Penc P = p256Penc 0 ∧ p256Pdec (p256Penc 0) = some P) ∧
    (∀ P Q : P256.Group, P ≠ 0 → Q ≠ 0 → p256Penc P = p256Penc Q → P = Q) := by
  refine ⟨fun P => ⟨penc_length k256Enc_ok P, ?_⟩, penc_inj k256Enc_ok k256_b_nonsquare,
    fun P => ⟨penc_length p256Enc_okb P, fun h => pdec_penc p256Enc_okb h⟩, penc_collide p256Enc_okb p256_b_square',
    fun P Q hP hQ h => penc_inj_ne p256Enc_okb hP hQ h⟩
  by_cases h : P = 0
  · rw [h]; exact pdec_penc_zero k256Enc_ok k256_b_nonsquare
  · exact pdec_penc k256Enc_ok h

/-! ## DKLs -/

/-- the functions of the environment that are not of the curve: SHA3, cSHAKE, Merlin, the gadget stream and the hash of the message -/
structure Hashes where
  sha : List UInt8 → Digest
  shake : Digest → List UInt8 → ℕ → UInt8
  ext : Merlin → Digest
  gad : ℕ → UInt8
  hash : List UInt8 → List UInt8

/-- a party on secp256k1 -/
noncomputable def k256Env (H : Hashes) : SEnv (ZMod k256q) K256.Group where
  sha := H.sha
  shake := H.shake
  cd := k256Cd
  ext := H.ext
  gad := H.gad
  gen := k256G
  penc := k256Penc
  pdec := k256Pdec
  hash := H.hash
  xcoord := k256X
  q := k256q

/-- a party on P-256 -/
noncomputable def p256Env (H : Hashes) : SEnv (ZMod p256q) P256.Group where
  sha := H.sha
  shake := H.shake
  cd := p256Cd
  ext := H.ext
  gad := H.gad
  gen := p256G
  penc := p256Penc
  pdec := p256Pdec
  hash := H.hash
  xcoord := p256X
  q := p256q

theorem beCodec_order (q : ℕ) (hq : 0 < q) (hq' : q ≤ 256 ^ 32) [Fact q.Prime] : OrderCodec (beCodec q hq hq') q := by
  have : NeZero q := ⟨hq.ne'⟩
  have hx : ∀ x : ZMod q, beNat (beBytes 32 x.val) = x.val := fun x => beNat_beBytes _ _ (lt_of_lt_of_le (ZMod.val_lt x) hq')
  exact { len := fun x => beBytes_length _ _
          val := fun x => by
            show ((beNat (beBytes 32 x.val) : ℕ) : ZMod q) = x
            rw [hx, ZMod.natCast_zmod_val]
          zero := by
            show beBytes 32 (0 : ZMod q).val = _
            rw [ZMod.val_zero]; rfl
          lt := fun x => by
            show beNat (beBytes 32 x.val) < q
            rw [hx]; exact ZMod.val_lt x
          char := ZMod.charP q }

/-- C193: secp256k1 and P-256 with their encodings are what the models of DKLs assume of a curve -/
theorem C193_env (H : Hashes) :
    (OrderCodec (k256Env H).cd (k256Env H).q ∧ AffineOk (k256Env H) ∧ PointsOk (k256Env H).toEnv) ∧
    (OrderCodec (p256Env H).cd (p256Env H).q ∧ AffineOk (p256Env H) ∧ PointsOk (p256Env H).toEnv) :=
  ⟨⟨beCodec_order _ (by decide) (by decide),
    { gen := k256G_ne
      len := fun P _ => penc_length k256Enc_ok P
      x := fun P _ => penc_x k256Enc_ok P
      xneg := fun P => xOf_neg (C := k256Enc) (a := 0) (b := ((7 : ℕ) : k256Enc.P.Ring)) P
      parity := fun P h => penc_parity k256Enc_ok h },
    { dec := fun P h => pdec_penc k256Enc_ok h
      len := fun P Q => (penc_length k256Enc_ok P).trans (penc_length k256Enc_ok Q).symm }⟩,
   ⟨beCodec_order _ (by decide) (by decide),
    { gen := p256G_ne
      len := fun P _ => penc_length p256Enc_okb P
      x := fun P _ => penc_x p256Enc_okb P
      xneg := fun P => xOf_neg (C := p256Enc) (a := -3) (b := (P256.b : p256Enc.P.Ring)) P
      parity := fun P h => penc_parity p256Enc_okb h },
    { dec := fun P h => pdec_penc p256Enc_okb h
      len := fun P Q => (penc_length p256Enc_okb P).trans (penc_length p256Enc_okb Q).symm }⟩⟩

theorem dkls_run {F G : Type} [Field F] [DecidableEq F] [AddCommGroup G] [Module F G] [DecidableEq G] (env : SEnv F G)
    (hc : OrderCodec env.cd env.q) (ha : AffineOk env) (hp : PointsOk env.toEnv) (rnd : DkgRnd F)
    (hA : ProofOk env.toEnv (dkgSid env.toEnv rnd).2.1 rnd.skA rnd.kA) (hB : ProofOk env.toEnv (dkgSid env.toEnv rnd).2.2 rnd.skB rnd.kB)
    (hO : ProofOk env.toEnv (proofSid env.toEnv (dkgSid env.toEnv rnd).1) rnd.b rnd.kOt) (hM : MaskedOk env.toEnv rnd.bits rnd.b rnd.a) :
    ∃ a b, dkgRun env.toEnv rnd = .ok (a, b) ∧ a.publicKey = some ((rnd.skA * rnd.skB) • env.gen) ∧ b.publicKey = a.publicKey ∧
      ∀ (pre message : List UInt8) (aliceSeed bobSeed : Digest) (kB : F) (rndB : MulRnd) (rndA : AliceRnd F) (m2 : SignRound2 G)
        (b2 : Bob2 F G) (m3 : SignRound3 F G),
        (newBob b.keys b.secretKeyShare ((rnd.skA * rnd.skB) • env.gen) pre).round2 env aliceSeed bobSeed kB rndB = .ok (m2, b2) →
        ((newAlice a.seed a.secretKeyShare ((rnd.skA * rnd.skB) • env.gen) pre).round1 aliceSeed).round3 env message m2 rndA = .ok m3 →
        (∃ sig, b2.round4 env message m3 = .ok sig ∧ EcdsaValid F env.q env.gen ((rnd.skA * rnd.skB) • env.gen) env.xcoord
          (beNat (env.hash (pre ++ message))) sig.R sig.S) ∨
        (b2.round4 env message m3 = Go.err ∧ ∃ kA h r : F, env.cd.dec (env.hash (pre ++ message)) = some h ∧
          sval env.cd r = env.xcoord ((kA * kB) • env.gen) ∧ (r = 0 ∨ h + r * (rnd.skA * rnd.skB) = 0)) := by
  obtain ⟨a, b, hrun, hpa, hpb, hska, hskb, hok⟩ := C40_honest env.toEnv hp rnd hA hB hO hM
  refine ⟨a, b, hrun, hpa, hpb.trans hpa.symm, fun pre message aliceSeed bobSeed kB rndB rndA m2 b2 m3 h2 h3 => ?_⟩
  rw [hskb] at h2
  rw [hska] at h3
  obtain ⟨kA, r, h, hkA, hkB, h6, h7, h8, sig, -, -, -, hbad, hv⟩ := C37_honest env hc ha _ _ _ hok rnd.skA rnd.skB pre message
    aliceSeed bobSeed kB rndB rndA m2 b2 m3 h2 h3
  by_cases hr : r = 0
  · exact .inr ⟨hbad (.inl hr), kA, h, r, h7, h8, .inl hr⟩
  by_cases hs : h + r * (rnd.skA * rnd.skB) = 0
  · exact .inr ⟨hbad (.inr (by rw [hs, zero_div])), kA, h, r, h7, h8, .inr hs⟩
  have := hv hr (div_ne_zero hs (mul_ne_zero hkA hkB))
  exact .inl ⟨sig, this.1, this.2.1⟩

/-- C193: DKLs on secp256k1: a run of the key generation by honest parties, whose proofs have challenges below the order and whose masked
choices are not the neutral element, ends with the public key `skA·skB·G` for both; and whenever the first two rounds of a signature are
completed, the last gives a valid ECDSA signature, but for the two cases of a zero that ECDSA excludes -/
theorem C193_k256 (H : Hashes) (rnd : DkgRnd (ZMod k256q))
    (hA : ProofOk (k256Env H).toEnv (dkgSid (k256Env H).toEnv rnd).2.1 rnd.skA rnd.kA)
    (hB : ProofOk (k256Env H).toEnv (dkgSid (k256Env H).toEnv rnd).2.2 rnd.skB rnd.kB)
    (hO : ProofOk (k256Env H).toEnv (proofSid (k256Env H).toEnv (dkgSid (k256Env H).toEnv rnd).1) rnd.b rnd.kOt)
    (hM : MaskedOk (k256Env H).toEnv rnd.bits rnd.b rnd.a) :
    ∃ a b, dkgRun (k256Env H).toEnv rnd = .ok (a, b) ∧ a.publicKey = some ((rnd.skA * rnd.skB) • k256G) ∧ b.publicKey = a.publicKey ∧
      ∀ (pre message : List UInt8) (aliceSeed bobSeed : Digest) (kB : ZMod k256q) (rndB : MulRnd) (rndA : AliceRnd (ZMod k256q))
        (m2 : SignRound2 K256.Group) (b2 : Bob2 (ZMod k256q) K256.Group) (m3 : SignRound3 (ZMod k256q) K256.Group),
        (newBob b.keys b.secretKeyShare ((rnd.skA * rnd.skB) • k256G) pre).round2 (k256Env H) aliceSeed bobSeed kB rndB = .ok (m2, b2) →
        ((newAlice a.seed a.secretKeyShare ((rnd.skA * rnd.skB) • k256G) pre).round1 aliceSeed).round3 (k256Env H) message m2 rndA =
          .ok m3 →
        (∃ sig, b2.round4 (k256Env H) message m3 = .ok sig ∧
          EcdsaValid (ZMod k256q) k256q k256G ((rnd.skA * rnd.skB) • k256G) k256X (beNat (H.hash (pre ++ message))) sig.R sig.S) ∨
        (b2.round4 (k256Env H) message m3 = Go.err ∧ ∃ kA h r : ZMod k256q, k256Cd.dec (H.hash (pre ++ message)) = some h ∧
          r.val = k256X ((kA * kB) • k256G) ∧ (r = 0 ∨ h + r * (rnd.skA * rnd.skB) = 0)) := by
  have hv : ∀ r : ZMod k256q, sval k256Cd r = r.val := fun r =>
    beNat_beBytes _ _ (lt_of_lt_of_le (ZMod.val_lt r) (by decide))
  obtain ⟨a, b, h1, h2, h3, h4⟩ := dkls_run (k256Env H) (C193_env H).1.1 (C193_env H).1.2.1 (C193_env H).1.2.2 rnd hA hB hO hM
  refine ⟨a, b, h1, h2, h3, fun pre message aliceSeed bobSeed kB rndB rndA m2 b2 m3 e2 e3 => ?_⟩
  rcases h4 pre message aliceSeed bobSeed kB rndB rndA m2 b2 m3 e2 e3 with h | ⟨h, kA, y, r, e4, e5, e6⟩
  · exact .inl h
  · exact .inr ⟨h, kA, y, r, e4, (hv r).symm.trans e5, e6⟩

/-- C193: DKLs on P-256 likewise -/
theorem C193_p256 (H : Hashes) (rnd : DkgRnd (ZMod p256q))
    (hA : ProofOk (p256Env H).toEnv (dkgSid (p256Env H).toEnv rnd).2.1 rnd.skA rnd.kA)
    (hB : ProofOk (p256Env H).toEnv (dkgSid (p256Env H).toEnv rnd).2.2 rnd.skB rnd.kB)
    (hO : ProofOk (p256Env H).toEnv (proofSid (p256Env H).toEnv (dkgSid (p256Env H).toEnv rnd).1) rnd.b rnd.kOt)
    (hM : MaskedOk (p256Env H).toEnv rnd.bits rnd.b rnd.a) :
    ∃ a b, dkgRun (p256Env H).toEnv rnd = .ok (a, b) ∧ a.publicKey = some ((rnd.skA * rnd.skB) • p256G) ∧ b.publicKey = a.publicKey ∧
      ∀ (pre message : List UInt8) (aliceSeed bobSeed : Digest) (kB : ZMod p256q) (rndB : MulRnd) (rndA : AliceRnd (ZMod p256q))
        (m2 : SignRound2 P256.Group) (b2 : Bob2 (ZMod p256q) P256.Group) (m3 : SignRound3 (ZMod p256q) P256.Group),
        (newBob b.keys b.secretKeyShare ((rnd.skA * rnd.skB) • p256G) pre).round2 (p256Env H) aliceSeed bobSeed kB rndB = .ok (m2, b2) →
        ((newAlice a.seed a.secretKeyShare ((rnd.skA * rnd.skB) • p256G) pre).round1 aliceSeed).round3 (p256Env H) message m2 rndA =
          .ok m3 →
        (∃ sig, b2.round4 (p256Env H) message m3 = .ok sig ∧
          EcdsaValid (ZMod p256q) p256q p256G ((rnd.skA * rnd.skB) • p256G) p256X (beNat (H.hash (pre ++ message))) sig.R sig.S) ∨
        (b2.round4 (p256Env H) message m3 = Go.err ∧ ∃ kA h r : ZMod p256q, p256Cd.dec (H.hash (pre ++ message)) = some h ∧
          r.val = p256X ((kA * kB) • p256G) ∧ (r = 0 ∨ h + r * (rnd.skA * rnd.skB) = 0)) := by
  have hv : ∀ r : ZMod p256q, sval p256Cd r = r.val := fun r =>
    beNat_beBytes _ _ (lt_of_lt_of_le (ZMod.val_lt r) (by decide))
  obtain ⟨a, b, h1, h2, h3, h4⟩ := dkls_run (p256Env H) (C193_env H).2.1 (C193_env H).2.2.1 (C193_env H).2.2.2 rnd hA hB hO hM
  refine ⟨a, b, h1, h2, h3, fun pre message aliceSeed bobSeed kB rndB rndA m2 b2 m3 e2 e3 => ?_⟩
  rcases h4 pre message aliceSeed bobSeed kB rndB rndA m2 b2 m3 e2 e3 with h | ⟨h, kA, y, r, e4, e5, e6⟩
  · exact .inl h
  · exact .inr ⟨h, kA, y, r, e4, (hv r).symm.trans e5, e6⟩

/-- C193: a point whose abscissa is not below the order is not reduced: `round3` and `round4` return an error for it -/
theorem C193_large_abscissa (H : Hashes) (P : K256.Group) (h : k256q ≤ k256X P) : xScalar (k256Env H) P = Go.err := by
  unfold xScalar
  rw [show Go.guard (((k256Env H).penc P).length = 33) = .ok () from Go.guard_true (penc_length k256Enc_ok P), Go.ok_bind]
  have : k256Cd.dec ((k256Penc P).drop 1) = none := by
    show (if _ ∧ beNat ((k256Penc P).drop 1) < k256q then _ else none) = none
    rw [if_neg]
    rintro ⟨-, h'⟩
    rw [show beNat ((k256Penc P).drop 1) = k256X P from penc_x k256Enc_ok P] at h'
    omega
  show Go.ofOption (k256Cd.dec ((k256Penc P).drop 1)) = _
  rw [this]
  rfl

/-! ## The hypotheses can be met -/

/-- hash functions that are constantly zero -/
def zeroHashes : Hashes where
  sha _ := Vector.replicate 32 0
  shake _ _ _ := 0
  ext _ := Vector.replicate 32 0
  gad _ := 0
  hash _ := List.replicate 32 0

theorem zero_dec : k256Cd.dec (List.replicate 32 0) = some 0 := by
  have h := k256Cd.dec_enc 0
  rwa [show k256Cd.enc 0 = _ from (C193_env zeroHashes).1.1.zero] at h

theorem zero_total : Total (k256Env zeroHashes) where
  sha _ := ⟨0, zero_dec⟩
  hash _ := ⟨0, zero_dec⟩
  ext _ := ⟨0, zero_dec⟩
  slots _ _ _ := by
    have h : ∀ sid j row k, k < 2 → slotScalar (k256Env zeroHashes).toKEnv sid j row k = .ok 0 := by
      intro sid j row k hk
      have e : (((k256Env zeroHashes).toKEnv.read sid 64 (be16 j ++ row.toList)).toList.drop (k * 32)).take 32 =
          List.replicate 32 0 := by
        unfold KEnv.read
        generalize be16 j ++ row.toList = w
        have : ∀ f : Fin 64 → UInt8, f = (fun _ => 0) → (((Vector.ofFn f).toList.drop (k * 32)).take 32) = List.replicate 32 0 := by
          rintro _ rfl
          interval_cases k <;> decide
        exact this _ rfl
      unfold slotScalar
      show Go.ofOption (k256Cd.dec _) = _
      rw [e, zero_dec]
      rfl
    exact fun _ k hk => ⟨⟨0, h _ _ _ k hk⟩, ⟨0, h _ _ _ k hk⟩⟩
  new sid := by
    have h : ∀ l : List ℕ, ∃ hi, l.mapM (fun i => Go.ofOption ((k256Env zeroHashes).cd.dec (gadBytes (k256Env zeroHashes).gad i))) =
        Except.ok hi := by
      intro l
      induction l with
      | nil => exact ⟨_, rfl⟩
      | cons i l ih =>
        obtain ⟨hi, e⟩ := ih
        rw [List.mapM_cons, e, show (k256Env zeroHashes).cd.dec (gadBytes (k256Env zeroHashes).gad i) = some 0 from zero_dec]
        exact ⟨_, rfl⟩
    unfold newMultiply gadgetVector
    obtain ⟨hi, e⟩ := h (List.range (cotL - Ot.kappa))
    rw [e]
    exact ⟨_, _, rfl⟩

theorem k256G_x : k256X k256G < k256q := by
  have h := k256G_rep
  unfold k256X
  revert h
  generalize k256G = P
  intro h
  rcases P with _ | ⟨x, y, hn⟩
  · exact absurd h (show ¬ (K256.generator : Proj (ZMod k256p)).z = 0 from one_ne_zero)
  · have e : (K256.generator : Proj (ZMod k256p)).x = x * (K256.generator : Proj (ZMod k256p)).z := h.2.1
    have e' : x = (K256.generator : Proj (ZMod k256p)).x := by
      rw [e, show (K256.generator : Proj (ZMod k256p)).z = 1 from rfl, mul_one]
    show (show ZMod k256p from x).val < k256q
    rw [show (show ZMod k256p from x) = _ from e']
    decide +kernel

theorem beCodec_dec (q : ℕ) (hq : 0 < q) (hq' : q ≤ 256 ^ 32) (b : List UInt8) (hb : b.length = 32) (h : beNat b < q) :
    (beCodec q hq hq').dec b = some (beNat b : ZMod q) := if_pos ⟨hb, h⟩

theorem k256_dec_x (P : K256.Group) (h : k256X P < k256q) :
    k256Cd.dec ((k256Penc P).drop 1) = some ((k256X P : ℕ) : ZMod k256q) := by
  have hx : beNat ((k256Penc P).drop 1) = k256X P := penc_x k256Enc_ok P
  have hl : (k256Penc P).length = 33 := penc_length k256Enc_ok P
  have := beCodec_dec k256q (by decide) (by decide) ((k256Penc P).drop 1) (by rw [List.length_drop, hl]) (by rw [hx]; exact h)
  rw [hx] at this
  exact this

/-- `C193_k256`: with such hash functions there are runs of the key generation and of the rounds of a signature -/
example (pre message : List UInt8) (aliceSeed bobSeed : Digest) (rndB : MulRnd) :
    ∃ (rnd : DkgRnd (ZMod k256q)) (a : _) (b : _) (m2 : _) (b2 : _) (m3 : _), dkgRun (k256Env zeroHashes).toEnv rnd = .ok (a, b) ∧
      rnd.skA = 5 ∧ rnd.skB = 7 ∧
      (newBob b.keys b.secretKeyShare ((rnd.skA * rnd.skB) • k256G) pre).round2 (k256Env zeroHashes) aliceSeed bobSeed 1 rndB =
        .ok (m2, b2) ∧
      ((newAlice a.seed a.secretKeyShare ((rnd.skA * rnd.skB) • k256G) pre).round1 aliceSeed).round3 (k256Env zeroHashes) message m2
        ⟨1, 10, 11, 12, 13⟩ = .ok m3 := by
  have hM : MaskedOk (k256Env zeroHashes).toEnv (fun _ => 1) (3 : ZMod k256q) (fun _ => 2) := by
    intro i _ h
    split_ifs at h
    · rw [← add_smul] at h
      exact absurd (C192_generators.1 _ h) (show (2 + 3 : ZMod k256q) ≠ 0 by decide +kernel)
    · rw [add_zero] at h
      exact absurd (C192_generators.1 _ h) (show (2 : ZMod k256q) ≠ 0 by decide +kernel)
  have hN : AliceNonceOk (k256Env zeroHashes) (⟨1, 10, 11, 12, 13⟩ : AliceRnd (ZMod k256q)) 1 := by
    refine ⟨0, zero_dec, by decide +kernel, ?_⟩
    have e : ((0 : ZMod k256q) + (⟨1, 10, 11, 12, 13⟩ : AliceRnd (ZMod k256q)).kPrime) • (1 : ZMod k256q) • k256G = k256G := by
      rw [one_smul]
      show ((0 : ZMod k256q) + 1) • k256G = _
      rw [zero_add, one_smul]
    have h := k256_dec_x k256G k256G_x
    rw [← e] at h
    exact ⟨_, h⟩
  obtain ⟨a, b, pk, h1, -, -, rfl, m2, b2, m3, h2, h3, -⟩ := C40_then_sign (k256Env zeroHashes) (C193_env _).1.1 (C193_env _).1.2.1
    zero_total (C193_env _).1.2.2 ⟨aliceSeed, bobSeed, fun _ => 1, 5, 1, 7, 1, 3, 1, fun _ => 2⟩ hM pre message aliceSeed bobSeed 1
    one_ne_zero rndB _ hN
  exact ⟨_, a, b, m2, b2, m3, h1, rfl, rfl, h2, h3⟩

end Verif.Inst
