import Verif.DklsV0.ConvertModel
import Verif.DklsV0.ProtoProps
import Verif.Dkls.ProtocolProps
import Verif.Inst.Dkls

/-!
# C206: results of the older key generation in the newer signing
-/

namespace Verif.DklsV0
open Verif.Legacy Verif.Ot Verif.Native Verif.Primes

section
variable {p : ℕ} [Fact p.Prime] {a b : ZMod p}

theorem groupOf_eq {r : Proj (ZMod p)} {P : (curve a b).Point} (h : Rep r P) : groupOf a b r = P := by
  have hex : ∃ P : (curve a b).Point, Rep r P := ⟨P, h⟩
  rw [groupOf, dif_pos hex]
  exact hex.choose_spec.unique h

/-- C206: `Point.Set` accepts the coordinates that reduce to those of an element, `(0, 0)` for the neutral one, and gives that element; other
coordinates are refused; nil panics -/
theorem C206_set (h2 : (2 : ZMod p) ≠ 0) (hno : ∀ x : ZMod p, x ^ 3 + a * x + b ≠ 0) (x y : ℤ) :
    (∀ P : (curve a b).Point, setGroup a b (some x) (some y) = .ok P ↔ coords P = (x % p, y % p)) ∧
    ((¬ ∃ P : (curve a b).Point, coords P = (x % p, y % p)) → setGroup a b (some x) (some y) = Go.err) ∧
    setGroup a b none (some y) = Go.crash ∧ setGroup a b (some x) none = Go.crash ∧ setGroup a b none none = Go.crash := by
  have hb : b ≠ 0 := by simpa using hno 0
  obtain ⟨h1, h3, h4⟩ := natSet_eq h2 hno x y
  refine ⟨fun P => ⟨fun h => ?_, fun h => ?_⟩, fun h => ?_, rfl, rfl, rfl⟩
  · unfold setGroup at h
    obtain ⟨r, hr, h⟩ := Go.bind_eq_ok.1 h
    obtain ⟨Q, hQ, hc⟩ := h1 r hr
    rw [groupOf_eq hQ] at h
    rw [← Except.ok.inj h]; exact hc
  · obtain ⟨r, hr, hP⟩ := h3 P h
    unfold setGroup
    rw [hr, Go.ok_bind, groupOf_eq hP]
  · unfold setGroup
    rw [h4 h]; rfl

theorem set_coords (h2 : (2 : ZMod p) ≠ 0) (hno : ∀ x : ZMod p, x ^ 3 + a * x + b ≠ 0) (P : (curve a b).Point) :
    setGroup a b (some (coords P).1) (some (coords P).2) = .ok P :=
  ((C206_set h2 hno _ _).1 P).2 (coords_mod P)

end

section
variable {F G : Type}

/-- C206: the conversion of one party: it succeeds exactly if there is a public key whose coordinates the new curve accepts; the share is the
reduced one and the seeds are those of the older state.  The curve which the older point refers to is not looked at.  Without a public key,
it panics. -/
theorem C206_party (t : Target F G) (sa : AliceSaved) (sb : BobSaved) :
    (∀ out, convertAlice t sa = .ok out ↔ ∃ pk P, sa.pk = some pk ∧ t.set pk.X pk.Y = .ok P ∧ out.publicKey = some P ∧
      out.secretKeyShare = t.ofInt sa.sk ∧ out.seed.packed = sa.packed.toList ∧
      out.seed.choices = (List.range 256).map (fun i => (bitAt sa.packed i).toNat) ∧ out.seed.pads = List.ofFn sa.rho) ∧
    (∀ out, convertBob t sb = .ok out ↔ ∃ pk P, sb.pk = some pk ∧ t.set pk.X pk.Y = .ok P ∧ out.publicKey = some P ∧
      out.secretKeyShare = t.ofInt sb.sk ∧ out.keys = List.ofFn sb.rho) ∧
    (sa.pk = none → convertAlice t sa = Go.crash) ∧ (sb.pk = none → convertBob t sb = Go.crash) := by
  have hbits : ((List.range 256).map fun i => (extractBit sa.packed.toList i).toNat) = (List.range 256).map (fun i => (bitAt sa.packed i).toNat) :=
    List.map_congr_left fun i _ => extractBit_eq _ _
  refine ⟨fun out => ?_, fun out => ?_, fun h => ?_, fun h => ?_⟩
  · unfold convertAlice
    dsimp only
    rw [hbits]
    constructor
    · intro h
      obtain ⟨pk, hpk, h⟩ := Go.bind_eq_ok.1 h
      obtain ⟨P, hP, h⟩ := Go.bind_eq_ok.1 h
      refine ⟨pk, P, ?_, hP, ?_⟩
      · cases hs : sa.pk with
        | none => rw [hs] at hpk; exact nomatch hpk
        | some v => rw [hs] at hpk; rw [← Except.ok.inj hpk]
      · obtain rfl := Except.ok.inj h; refine ⟨?_, ?_, ?_, ?_, ?_⟩ <;> dsimp only
    · rintro ⟨pk, P, hpk, hP, e1, e2, e3, e4, e5⟩
      rw [hpk, show deref (some pk) = .ok pk from rfl, Go.ok_bind, hP, Go.ok_bind]
      obtain ⟨x, y, u, v, w⟩ := out
      dsimp only at e1 e2 e3 e4 e5
      rw [e1, e2, e3, e4, e5]
  · unfold convertBob
    constructor
    · intro h
      obtain ⟨pk, hpk, h⟩ := Go.bind_eq_ok.1 h
      obtain ⟨P, hP, h⟩ := Go.bind_eq_ok.1 h
      refine ⟨pk, P, ?_, hP, ?_⟩
      · cases hs : sb.pk with
        | none => rw [hs] at hpk; exact nomatch hpk
        | some v => rw [hs] at hpk; rw [← Except.ok.inj hpk]
      · obtain rfl := Except.ok.inj h; refine ⟨?_, ?_, ?_⟩ <;> dsimp only
    · rintro ⟨pk, P, hpk, hP, e1, e2, e3⟩
      rw [hpk, show deref (some pk) = .ok pk from rfl, Go.ok_bind, hP, Go.ok_bind]
      obtain ⟨x, y, u⟩ := out
      dsimp only at e1 e2 e3
      rw [e1, e2, e3]
  · unfold convertAlice; rw [h]; rfl
  · unfold convertBob; rw [h]; rfl

/-- C206: pads of which one party has the chosen ones of the other are seeds for the newer extension -/
theorem C206_seed (t : Target F G) (sa : AliceSaved) (sb : BobSaved) (oa : Dkls.AliceOutput F G) (ob : Dkls.BobOutput F G)
    (ha : convertAlice t sa = .ok oa) (hb : convertBob t sb = .ok ob) :
    SeedOk ob.keys oa.seed sa.packed ↔ ∀ i : Fin 256, sa.rho i = pick (bitAt sa.packed i) (sb.rho i) := by
  obtain ⟨-, -, -, -, -, -, e3, e4, e5⟩ := ((C206_party t sa sb).1 oa).1 ha
  obtain ⟨-, -, -, -, -, -, e6⟩ := ((C206_party t sa sb).2.1 ob).1 hb
  have hk : ∀ i : Fin 256, ob.keys[i.val]? = some (sb.rho i) := fun i => by
    rw [e6, List.getElem?_ofFn, dif_pos i.isLt]
  have hp : ∀ i : Fin 256, oa.seed.pads[i.val]? = some (sa.rho i) := fun i => by
    rw [e5, List.getElem?_ofFn, dif_pos i.isLt]
  constructor
  · intro h i
    obtain ⟨ks, h1, h2⟩ := h.pads i.val i.isLt
    rw [hk i] at h1
    rw [hp i, ← Option.some.inj h1] at h2
    exact Option.some.inj h2
  · intro h
    refine ⟨e3, fun i hi => ?_, fun i hi => ⟨sb.rho ⟨i, hi⟩, hk ⟨i, hi⟩, ?_⟩⟩
    · rw [e4, List.getElem?_map, List.getElem?_range hi]; rfl
    · rw [hp ⟨i, hi⟩, h ⟨i, hi⟩]

end

section
variable {F G F' G' : Type} (tk : Target F G) (tp : Target F' G') (c : Dkls.Gob AliceSaved) (ck : Dkls.Gob (Dkls.AliceOutput F G))
  (cp : Dkls.Gob (Dkls.AliceOutput F' G')) (d : Dkls.Gob BobSaved) (dk : Dkls.Gob (Dkls.BobOutput F G)) (dp : Dkls.Gob (Dkls.BobOutput F' G'))

/-- C206: which curve is used: the name in the parameters decides; with another name, and on bytes that do not decode, an error is returned
and the types are not registered -/
theorem C206_names (name : String) (reg : Bool) (state : List UInt8) :
    ((c.dec state = none ∨ (name ≠ "secp256k1" ∧ name ≠ "P-256")) → convertAliceToV1 tk tp name c ck cp reg state = (reg, Go.err)) ∧
    ((d.dec state = none ∨ (name ≠ "secp256k1" ∧ name ≠ "P-256")) → convertBobToV1 tk tp name d dk dp reg state = (reg, Go.err)) := by
  constructor <;> rintro (h | ⟨h1, h2⟩)
  · simp only [convertAliceToV1, convertWith, h]
  · simp only [convertAliceToV1, convertWith, if_neg h1, if_neg h2]; split <;> rfl
  · simp only [convertBobToV1, convertWith, h]
  · simp only [convertBobToV1, convertWith, if_neg h1, if_neg h2]; split <;> rfl

theorem encodeOut_ok {β : Type} (e : Dkls.Gob β) (round : String) (reg : Bool) (x : β) (s : Dkls.Ser) (hs : s.rule = .exactly) :
    ∃ m, encodeOut e round reg (.ok x) = (true, .ok m) ∧ (Dkls.decodeWith s e true (some m)).2 = .ok x := by
  have h : Dkls.encodeWith Dkls.dkgOutputEnc "DKLs18-DKG" round e reg x Dkls.version1 =
      (true, .ok ⟨"DKLs18-DKG", Dkls.version1, [("direct", e.enc x)], [("round", round)]⟩) := by
    cases reg <;> rfl
  exact ⟨_, h, Dkls.C42_roundtrip Dkls.dkgOutputEnc s hs.symm _ _ e reg x _ _ (by rw [h])⟩

/-- C206: what is converted is decoded by `DecodeAliceDkgResult` and `DecodeBobDkgResult` in the process that converted it -/
theorem C206_roundtrip (name : String) (reg : Bool) (sa : AliceSaved) (sb : BobSaved) (state state' : List UInt8)
    (hs : c.dec state = some sa) (hs' : d.dec state' = some sb) :
    (name = "secp256k1" → ∀ oa ob, convertAlice tk sa = .ok oa → convertBob tk sb = .ok ob → ∃ ma mb,
      convertAliceToV1 tk tp name c ck cp reg state = (true, .ok ma) ∧ convertBobToV1 tk tp name d dk dp reg state' = (true, .ok mb) ∧
      (Dkls.decodeWith Dkls.aliceResultDec ck true (some ma)).2 = .ok oa ∧ (Dkls.decodeWith Dkls.bobResultDec dk true (some mb)).2 = .ok ob) ∧
    (name = "P-256" → ∀ oa ob, convertAlice tp sa = .ok oa → convertBob tp sb = .ok ob → ∃ ma mb,
      convertAliceToV1 tk tp name c ck cp reg state = (true, .ok ma) ∧ convertBobToV1 tk tp name d dk dp reg state' = (true, .ok mb) ∧
      (Dkls.decodeWith Dkls.aliceResultDec cp true (some ma)).2 = .ok oa ∧ (Dkls.decodeWith Dkls.bobResultDec dp true (some mb)).2 = .ok ob) := by
  have hne : ("P-256" : String) ≠ "secp256k1" := by decide
  constructor
  · rintro rfl oa ob ha hb
    obtain ⟨ma, h1, h2⟩ := encodeOut_ok ck "alice-output" reg oa Dkls.aliceResultDec rfl
    obtain ⟨mb, h3, h4⟩ := encodeOut_ok dk "bob-output" reg ob Dkls.bobResultDec rfl
    refine ⟨ma, mb, ?_, ?_, h2, h4⟩
    · simp only [convertAliceToV1, convertWith, hs, if_true, ha, h1]
    · simp only [convertBobToV1, convertWith, hs', if_true, hb, h3]
  · rintro rfl oa ob ha hb
    obtain ⟨ma, h1, h2⟩ := encodeOut_ok cp "alice-output" reg oa Dkls.aliceResultDec rfl
    obtain ⟨mb, h3, h4⟩ := encodeOut_ok dp "bob-output" reg ob Dkls.bobResultDec rfl
    refine ⟨ma, mb, ?_, ?_, h2, h4⟩
    · simp only [convertAliceToV1, convertWith, hs, if_neg hne, if_true, ha, h1]
    · simp only [convertBobToV1, convertWith, hs', if_neg hne, if_true, hb, h3]

end

/-! ## From the older key generation to a signature of the newer protocol -/

section
variable {env : Env} {F A : Type} [Field F] [DecidableEq F] [AddCommGroup A] [Module F A] [DecidableEq A] (L : Sound env A)

/-- what the newer signing does with the two outputs: both parties have the key of the product of the shares, and whenever the first three
rounds end, the last gives a valid signature, but for the two zeros that ECDSA excludes -/
def Signs (senv : Dkls.SEnv F A) (skA skB : F) (oa : Dkls.AliceOutput F A) (ob : Dkls.BobOutput F A) : Prop :=
  oa.publicKey = some ((skA * skB) • senv.gen) ∧ ob.publicKey = some ((skA * skB) • senv.gen) ∧ oa.secretKeyShare = skA ∧ ob.secretKeyShare = skB ∧
  ∀ (pre message : List UInt8) (aliceSeed bobSeed : Digest) (kB : F) (rndB : Dkls.MulRnd) (rndA : Dkls.AliceRnd F) (m2 : Dkls.SignRound2 A)
    (b2 : Dkls.Bob2 F A) (m3 : Dkls.SignRound3 F A),
    (Dkls.newBob ob.keys ob.secretKeyShare ((skA * skB) • senv.gen) pre).round2 senv aliceSeed bobSeed kB rndB = .ok (m2, b2) →
    ((Dkls.newAlice oa.seed oa.secretKeyShare ((skA * skB) • senv.gen) pre).round1 aliceSeed).round3 senv message m2 rndA = .ok m3 →
    (∃ sig, b2.round4 senv message m3 = .ok sig ∧ Dkls.EcdsaValid F senv.q senv.gen ((skA * skB) • senv.gen) senv.xcoord
      (beNat (senv.hash (pre ++ message))) sig.R sig.S) ∨
    (b2.round4 senv message m3 = Go.err ∧ ∃ kA h r : F, senv.cd.dec (senv.hash (pre ++ message)) = some h ∧
      Dkls.sval senv.cd r = senv.xcoord ((kA * kB) • senv.gen) ∧ (r = 0 ∨ h + r * (skA * skB) = 0))

/-- C206: the older key generation, the conversion on both sides, and the newer signing -/
theorem C206_signs (hq : env.q ≤ 2 ^ 256) (t : Target F A) (hset : ∀ P, t.set (some (L.xy P).1) (some (L.xy P).2) = .ok P)
    (hint : ∀ z, t.ofInt z = (z : F)) (senv : Dkls.SEnv F A) (hg : senv.gen = L.g) (hc : Dkls.OrderCodec senv.cd senv.q) (haf : Dkls.AffineOk senv)
    (ca : Dkls.Gob AliceSaved) (cb : Dkls.Gob BobSaved) (ra : AliceRand) (rb : BobRand) :
    ∃ a b sa sb oa ob ca' cb', pingPong ra rb 5 (newAliceDkg env) (newBobDkg env) none = some (a, b) ∧
      aliceDkgResult ca a = .ok (oa, some (L.pt ((ra.sk * rb.sk) • L.g))) ∧ bobDkgResult cb b = .ok (ob, some (L.pt ((ra.sk * rb.sk) • L.g))) ∧
      ca.dec oa = some sa ∧ cb.dec ob = some sb ∧ convertAlice t sa = .ok ca' ∧ convertBob t sb = .ok cb' ∧
      SeedOk cb'.keys ca'.seed ra.packed ∧ Signs senv (ra.sk : F) (rb.sk : F) ca' cb' := by
  obtain ⟨a, b, sa, sb, oa, ob, h1, h2, h3, h4, h5, h6, h7, h8, h9, h10, h11⟩ := C204_dkg L hq ca cb ra rb
  have hP : (ra.sk * rb.sk) • L.g = ((ra.sk : F) * (rb.sk : F)) • senv.gen := by
    rw [hg, ← Int.cast_mul, Int.cast_smul_eq_zsmul]
  have hset' : ∀ P, t.set (L.pt P).X (L.pt P).Y = .ok P := hset
  obtain ⟨ca', ea⟩ : ∃ ca', convertAlice t sa = .ok ca' := by
    unfold convertAlice
    rw [h9, show deref (some _) = .ok _ from rfl, Go.ok_bind, hset', Go.ok_bind]
    exact ⟨_, rfl⟩
  obtain ⟨cb', eb⟩ : ∃ cb', convertBob t sb = .ok cb' := by
    unfold convertBob
    rw [h10, show deref (some _) = .ok _ from rfl, Go.ok_bind, hset', Go.ok_bind]
    exact ⟨_, rfl⟩
  have hok : SeedOk cb'.keys ca'.seed ra.packed := by
    rw [← h8]
    exact (C206_seed t sa sb ca' cb' ea eb).2 (by rw [h8]; exact h11)
  obtain ⟨pk, P, k1, k2, k3, k4, -⟩ := ((C206_party t sa sb).1 ca').1 ea
  obtain ⟨pk', P', l1, l2, l3, l4, -⟩ := ((C206_party t sa sb).2.1 cb').1 eb
  rw [h9] at k1
  rw [h10] at l1
  rw [← Option.some.inj k1, hset'] at k2
  rw [← Option.some.inj l1, hset'] at l2
  rw [← Except.ok.inj k2, hP] at k3
  rw [← Except.ok.inj l2, hP] at l3
  rw [hint, h6] at k4
  rw [hint, h7] at l4
  refine ⟨a, b, sa, sb, oa, ob, ca', cb', h1, h2, h3, h4, h5, ea, eb, hok, k3, l3, k4, l4, ?_⟩
  intro pre message aliceSeed bobSeed kB rndB rndA m2 b2 m3 e2 e3
  rw [l4] at e2
  rw [k4] at e3
  obtain ⟨kA, r, h, hkA, hkB, -, g7, g8, sig, -, -, -, hbad, hv⟩ := Dkls.C37_honest senv hc haf _ _ _ hok (ra.sk : F) (rb.sk : F) pre message
    aliceSeed bobSeed kB rndB rndA m2 b2 m3 e2 e3
  by_cases hr : r = 0
  · exact .inr ⟨hbad (.inl hr), kA, h, r, g7, g8, .inl hr⟩
  by_cases hs : h + r * ((ra.sk : F) * (rb.sk : F)) = 0
  · exact .inr ⟨hbad (.inr (by rw [hs, zero_div])), kA, h, r, g7, g8, .inr hs⟩
  have := hv hr (div_ne_zero hs (mul_ne_zero hkA hkB))
  exact .inl ⟨sig, this.1, this.2.1⟩

end

/-- C206: on secp256k1, as bytes: the older key generation ends with two states; both convert to messages; these decode, in a process that
has registered the types, to outputs with which the newer protocol signs for the key `skA·skB·G` -/
theorem C206_k256 {F' G' : Type} (tp : Target F' G') (refs : List ℕ) (sha : List UInt8 → Digest) (shake : ℕ → UInt8)
    (ev : EcPoint → List UInt8 → ℤ → ℤ → Bool) (H : Inst.Hashes)
    (c : Dkls.Gob AliceSaved) (ck : Dkls.Gob (Dkls.AliceOutput (ZMod k256q) K256.Group)) (cp : Dkls.Gob (Dkls.AliceOutput F' G'))
    (d : Dkls.Gob BobSaved) (dk : Dkls.Gob (Dkls.BobOutput (ZMod k256q) K256.Group)) (dp : Dkls.Gob (Dkls.BobOutput F' G')) (reg : Bool)
    (ra : AliceRand) (rb : BobRand) :
    ∃ a b oa ob pk ma mb ca' cb',
      pingPong ra rb 5 (newAliceDkg (k256Env refs sha shake ev)) (newBobDkg (k256Env refs sha shake ev)) none = some (a, b) ∧
      aliceDkgResult c a = .ok (oa, some pk) ∧ bobDkgResult d b = .ok (ob, some pk) ∧
      convertAliceToV1 k256Target tp (k256Curve refs).params.name c ck cp reg oa = (true, .ok ma) ∧
      convertBobToV1 k256Target tp (k256Curve refs).params.name d dk dp reg ob = (true, .ok mb) ∧
      (Dkls.decodeWith Dkls.aliceResultDec ck true (some ma)).2 = .ok ca' ∧ (Dkls.decodeWith Dkls.bobResultDec dk true (some mb)).2 = .ok cb' ∧
      Signs (Inst.k256Env H) (ra.sk : ZMod k256q) (rb.sk : ZMod k256q) ca' cb' := by
  obtain ⟨a, b, sa, sb, oa, ob, ca', cb', h1, h2, h3, h4, h5, h6, h7, -, h9⟩ := C206_signs (F := ZMod k256q) (k256Sound refs sha shake ev)
    (by show k256q ≤ 2 ^ 256; decide +kernel) k256Target (fun P => set_coords K256.two_ne K256.no_root P) (fun _ => rfl) (Inst.k256Env H) rfl
    (Inst.C193_env H).1.1 (Inst.C193_env H).1.2.1 c d ra rb
  obtain ⟨ma, mb, g1, g2, g3, g4⟩ := (C206_roundtrip k256Target tp c ck cp d dk dp (k256Curve refs).params.name reg sa sb oa ob h4 h5).1 rfl ca' cb' h6 h7
  exact ⟨a, b, oa, ob, _, ma, mb, ca', cb', h1, h2, h3, g1, g2, g3, g4, h9⟩

/-- C206: the same on P-256, if the `ScalarMult` of the standard library multiplies -/
theorem C206_p256 {F' G' : Type} (tk : Target F' G') (refs : List ℕ) (std : Option ℤ → Option ℤ → List UInt8 → Go XY)
    (hstd : ∀ (P : P256.Group) (k : List UInt8), beNat k < p256q → std (some (coords P).1) (some (coords P).2) k =
      .ok (some (coords (beNat k • P)).1, some (coords (beNat k • P)).2))
    (sha : List UInt8 → Digest) (shake : ℕ → UInt8) (ev : EcPoint → List UInt8 → ℤ → ℤ → Bool) (H : Inst.Hashes)
    (c : Dkls.Gob AliceSaved) (ck : Dkls.Gob (Dkls.AliceOutput F' G')) (cp : Dkls.Gob (Dkls.AliceOutput (ZMod p256q) P256.Group))
    (d : Dkls.Gob BobSaved) (dk : Dkls.Gob (Dkls.BobOutput F' G')) (dp : Dkls.Gob (Dkls.BobOutput (ZMod p256q) P256.Group)) (reg : Bool)
    (ra : AliceRand) (rb : BobRand) :
    ∃ a b oa ob pk ma mb ca' cb',
      pingPong ra rb 5 (newAliceDkg ⟨p256Curve refs std, p256q, sha, shake, ev⟩) (newBobDkg ⟨p256Curve refs std, p256q, sha, shake, ev⟩) none = some (a, b) ∧
      aliceDkgResult c a = .ok (oa, some pk) ∧ bobDkgResult d b = .ok (ob, some pk) ∧
      convertAliceToV1 tk p256Target (p256Curve refs std).params.name c ck cp reg oa = (true, .ok ma) ∧
      convertBobToV1 tk p256Target (p256Curve refs std).params.name d dk dp reg ob = (true, .ok mb) ∧
      (Dkls.decodeWith Dkls.aliceResultDec cp true (some ma)).2 = .ok ca' ∧ (Dkls.decodeWith Dkls.bobResultDec dp true (some mb)).2 = .ok cb' ∧
      Signs (Inst.p256Env H) (ra.sk : ZMod p256q) (rb.sk : ZMod p256q) ca' cb' := by
  obtain ⟨a, b, sa, sb, oa, ob, ca', cb', h1, h2, h3, h4, h5, h6, h7, -, h9⟩ := C206_signs (env := ⟨p256Curve refs std, p256q, sha, shake, ev⟩)
    (F := ZMod p256q) ⟨p256Lawful refs std hstd, rfl⟩
    (by show p256q ≤ 2 ^ 256; decide +kernel) p256Target (fun P => set_coords P256.two_ne P256.no_root P) (fun _ => rfl) (Inst.p256Env H) rfl
    (Inst.C193_env H).2.1 (Inst.C193_env H).2.2.1 c d ra rb
  obtain ⟨ma, mb, g1, g2, g3, g4⟩ := (C206_roundtrip tk p256Target c ck cp d dk dp (p256Curve refs std).params.name reg sa sb oa ob h4 h5).2 rfl ca' cb' h6 h7
  exact ⟨a, b, oa, ob, _, ma, mb, ca', cb', h1, h2, h3, g1, g2, g3, g4, h9⟩

/-- the hypothesis of `C206_p256` can be met -/
example := C206_p256 k256Target [] p256ScalarMul C186_p256_scalarMul

/-- a key on secp256k1 is refused under the name of P-256: the base point of the one is not on the other -/
example (sa : AliceSaved) (h : sa.pk = some ⟨k256Curve [], some K256.generator.x.val, some K256.generator.y.val⟩) : convertAlice p256Target sa = Go.err := by
  unfold convertAlice
  rw [h, show deref (some _) = .ok _ from rfl, Go.ok_bind]
  have : p256Target.set (some K256.generator.x.val) (some K256.generator.y.val) = Go.err := by
    refine (C206_set P256.two_ne P256.no_root _ _).2.1 fun hex => ?_
    have := (natIsOnCurve_iff P256.two_ne P256.no_root _ _).1.2 hex
    exact absurd this (by decide +kernel)
  dsimp only
  rw [this]; rfl

/-- with the conversion of the older results of secp256k1, the newer rounds do end: the hash functions of `Inst.zero_total` -/
example (sha : List UInt8 → Digest) (shake : ℕ → UInt8) (ev : EcPoint → List UInt8 → ℤ → ℤ → Bool) (c : Dkls.Gob AliceSaved) (d : Dkls.Gob BobSaved)
    (packed : Digest) (pre message : List UInt8) (aliceSeed bobSeed : Digest) (rndB : Dkls.MulRnd) :
    ∃ a b sa sb oa ob ca' cb' m2 b2, pingPong ⟨3, 7, packed, fun i => i⟩ ⟨5, 11, 13, 17⟩ 5 (newAliceDkg (k256Env [] sha shake ev))
        (newBobDkg (k256Env [] sha shake ev)) none = some (a, b) ∧
      aliceDkgResult c a = .ok oa ∧ bobDkgResult d b = .ok ob ∧ c.dec oa.1 = some sa ∧ d.dec ob.1 = some sb ∧
      convertAlice k256Target sa = .ok ca' ∧ convertBob k256Target sb = .ok cb' ∧
      (Dkls.newBob cb'.keys cb'.secretKeyShare ((3 * 5 : ZMod k256q) • Inst.k256G) pre).round2 (Inst.k256Env Inst.zeroHashes) aliceSeed bobSeed 1 rndB =
        .ok (m2, b2) ∧
      ∀ rnd, Dkls.AliceNonceOk (Inst.k256Env Inst.zeroHashes) rnd 1 →
        ∃ m3, ((Dkls.newAlice ca'.seed ca'.secretKeyShare ((3 * 5 : ZMod k256q) • Inst.k256G) pre).round1 aliceSeed).round3
          (Inst.k256Env Inst.zeroHashes) message m2 rnd = .ok m3 := by
  obtain ⟨a, b, sa, sb, oa, ob, ca', cb', h1, h2, h3, h4, h5, h6, h7, h8, -, -, h9, h10, -⟩ := C206_signs (F := ZMod k256q) (k256Sound [] sha shake ev)
    (by show k256q ≤ 2 ^ 256; decide +kernel) k256Target (fun P => set_coords K256.two_ne K256.no_root P) (fun _ => rfl)
    (Inst.k256Env Inst.zeroHashes) rfl (Inst.C193_env _).1.1 (Inst.C193_env _).1.2.1 c d ⟨3, 7, packed, fun i => i⟩ ⟨5, 11, 13, 17⟩
  obtain ⟨m2, b2, k1, k2⟩ := Dkls.C37_rounds_succeed (Inst.k256Env Inst.zeroHashes) (Inst.C193_env _).1.1 (Inst.C193_env _).1.2.1 Inst.zero_total
    cb'.keys ca'.seed packed h8 (3 : ZMod k256q) 5 pre message aliceSeed bobSeed 1 one_ne_zero rndB
  have e9 : ca'.secretKeyShare = (3 : ZMod k256q) := by rw [h9]; rfl
  have e10 : cb'.secretKeyShare = (5 : ZMod k256q) := by rw [h10]; rfl
  refine ⟨a, b, sa, sb, _, _, ca', cb', m2, b2, h1, h2, h3, h4, h5, h6, h7, ?_, fun rnd hr => ?_⟩
  · rw [e10]; exact k1
  · rw [e9]; exact k2 rnd hr

end Verif.DklsV0
