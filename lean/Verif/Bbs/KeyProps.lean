import Verif.Bbs.KeyModel
import Verif.Bbs.Props
import Verif.Bls381.SigProps
import Verif.Curves.PointProps

/-!
# C218: BBS+ keys, from the bytes to the verification
-/

namespace Verif.Bbs.Key

open Verif.Native Verif.Bls381 Verif.Primes Verif.Curves

/-! ## Arithmetic in the subgroups -/

theorem smul1 (k : ZMod blsr) (P : S1) : ((k • P : S1) : E1) = k.val • (P : E1) := by
  have e : k • P = k.val • P := by
    conv_lhs => rw [← ZMod.natCast_zmod_val k]
    exact Nat.cast_smul_eq_nsmul _ _ _
  rw [e]; rfl

theorem smul2 (k : ZMod blsr) (P : S2) : ((k • P : S2) : E2) = k.val • (P : E2) := by
  have e : k • P = k.val • P := by
    conv_lhs => rw [← ZMod.natCast_zmod_val k]
    exact Nat.cast_smul_eq_nsmul _ _ _
  rw [e]; rfl

theorem mul1 {p : Proj Fq} {P : S1} (hp : GRep p (P : E1)) (k : ZMod blsr) :
    GRep (gMultiply mulBy3b1 p (leBytes 32 k.val)) ((k • P : S1) : E1) := by
  have h := C156_g1_mul hp (bytes := leBytes 32 k.val) (leBytes_length _ _)
  rw [leNat_leBytes 32 _ (lt_trans (ZMod.val_lt k) (by decide +kernel))] at h
  rw [smul1]; exact h

theorem mul2 {p : Proj (Fp2 Fq)} {P : S2} (hp : GRep p (P : E2)) (k : ZMod blsr) :
    GRep (gMultiply mulBy3b2 p (leBytes 32 k.val)) ((k • P : S2) : E2) := by
  have h := C156_g2_mul hp (bytes := leBytes 32 k.val) (leBytes_length _ _)
  rw [leNat_leBytes 32 _ (lt_trans (ZMod.val_lt k) (by decide +kernel))] at h
  rw [smul2]; exact h

theorem gS_ne : gS1 ≠ 0 ∧ gS2 ≠ 0 := by
  obtain ⟨K, _, ⟨T⟩⟩ := C148_tower_exists
  classical
  exact ⟨(C168_nondegenerate T).2.2.1, (C168_nondegenerate T).2.2.2.1⟩

/-! ## Keys as bytes -/

/-- a secret key has one encoding, and every residue below `r` in 32 bytes is one, the one of zero included -/
theorem C218_secret_accepted (sk : Scal) (data : List UInt8) :
    (∀ s, unmarshalSecret sk data = .ok s ↔ data = marshalSecret s ∧ s.point = sk.point) ∧
    unmarshalSecret sk data ≠ Go.crash := by
  constructor
  · intro s
    simp only [unmarshalSecret, Go.guard_bind_eq_ok, Except.ok.injEq]
    constructor
    · rintro ⟨hl, hr, rfl⟩
      refine ⟨?_, rfl⟩
      rw [marshalSecret]
      simp only [ZMod.val_natCast, Nat.mod_eq_of_lt hr]
      rw [← hl, beBytes_beNat]
    · rintro ⟨rfl, hp⟩
      have hv : s.value.val < blsr := ZMod.val_lt _
      have e : beNat (beBytes 32 s.value.val) = s.value.val := beNat_beBytes _ _ (lt_trans hv (by decide +kernel))
      rw [marshalSecret, beBytes_length, e, ZMod.natCast_zmod_val, ← hp]
      exact ⟨rfl, hv, rfl⟩
  · unfold unmarshalSecret Go.guard
    split_ifs <;> intro h <;> cases h

/-- a secret key that is written and read back has the same value, but the group of the curve given to `Init`: its public key
is that of the original exactly if the curve prefers `G2` -/
theorem C218_secret_roundtrip (okm : List UInt8) (c : PCurve) :
    ∃ s, unmarshalSecret (initSecret c) (marshalSecret (newSecretKey okm)) = .ok s ∧
      s.value = (newSecretKey okm).value ∧ s.point = c.preferred ∧
      (publicKey s = publicKey (newSecretKey okm) ↔ c.preferred = some .g2) := by
  refine ⟨⟨(newSecretKey okm).value, c.preferred⟩, ?_, rfl, rfl, ?_⟩
  · exact ((C218_secret_accepted _ _).1 _).2 ⟨rfl, rfl⟩
  · have e : publicKey (newSecretKey okm) =
        .ok (.g2 (gMultiply mulBy3b2 g2Generator (leBytes 32 (newSecretKey okm).value.val))) := rfl
    rw [e]
    rcases h : c.preferred with _ | _ | _
    · simp only [publicKey]
      exact ⟨fun h => (nomatch h), fun h => (nomatch h)⟩
    · simp only [publicKey]
      exact ⟨fun h => (nomatch h), fun h => (nomatch h)⟩
    · simp only [publicKey]

/-- the curve of the name of the pairing curve itself, and that of `G1`, prefer `G1`: keys restored with them get a public key
in the wrong group -/
theorem C218_names : byName (ascii "BLS12831") = some ⟨some .g1⟩ ∧ byName (ascii "BLS12381G1") = some ⟨some .g1⟩ ∧
    byName (ascii "BLS12381G2") = some ⟨some .g2⟩ ∧
    ∀ n c, byName n = some c → c.preferred = some .g2 → n = ascii "BLS12381G2" := by
  refine ⟨?_, ?_, ?_, ?_⟩
  · rw [byName, if_neg (by decide +kernel), if_neg (by decide +kernel), if_pos rfl]
  · rw [byName, if_pos rfl]
  · rw [byName, if_neg (by decide +kernel), if_pos rfl]
  intro n c h hc
  unfold byName at h
  split_ifs at h with h1 h2 h3
  · obtain rfl := Option.some.inj h; cases hc
  · exact h2
  · obtain rfl := Option.some.inj h; cases hc

/-- the public key of a new key: a point of `G2`, the identity exactly for the secret zero -/
theorem C218_public (okm : List UInt8) : ∃ p, publicKey (newSecretKey okm) = .ok (.g2 p) ∧
    GRep p (((newSecretKey okm).value • gS2 : S2) : E2) ∧ (p.z = 0 ↔ (newSecretKey okm).value = 0) := by
  have h := mul2 (P := gS2) gen2_rep (newSecretKey okm).value
  refine ⟨_, rfl, h, ?_⟩
  rw [z_iff2 h]
  exact smul_eq_zero.trans (or_iff_left gS_ne.2)

/-- public keys survive being written and read, the identity too; the encoding is not the only one that is accepted: further bytes
are ignored -/
theorem C218_public_roundtrip {p : Proj (Fp2 Fq)} {P : S2} (hp : GRep p (P : E2)) (t : List UInt8) :
    ∃ d q, marshalPublic (.g2 p) = .ok d ∧ unmarshalPublic initPublic d = .ok (.g2 q) ∧ GRep q (P : E2) ∧
      unmarshalPublic initPublic (d ++ t) = .ok (.g2 q) := by
  obtain ⟨q, h1, h2⟩ := (Pt.C216_bls_roundtrip.2 hp P.2).1
  refine ⟨_, q, rfl, ?_, h2, ?_⟩
  · show (do .ok (.g2 (← Pt.g2Dec (g2ToCompressed p))) : Go AnyPoint) = _
    rw [h1]; rfl
  · have hl : (g2ToCompressed p).length = 96 := by rw [g2To_eq, cTo_length codec2_lawful]; rfl
    show (do .ok (.g2 (← Pt.g2Dec (g2ToCompressed p ++ t))) : Go AnyPoint) = _
    rw [(Pt.C216_bls_lengths _ t 0).2.2.1 hl, h1]; rfl

/-- a public key that has come to lie in `G1` is read back into `G1` by a key of that group, and by a key after `Init` never: what
`UnmarshalBinary` returns lies in the group of its receiver -/
theorem C218_public_group {p p' : Proj Fq} {P : S1} (hp : GRep p (P : E1)) (pk : AnyPoint) (data : List UInt8) :
    (∃ d q, marshalPublic (.g1 p) = .ok d ∧ unmarshalPublic (.g1 p') d = .ok (.g1 q) ∧ GRep q (P : E1)) ∧
    (∀ k, unmarshalPublic pk data = .ok k → ((∃ q, k = .g1 q) ↔ ∃ q, pk = .g1 q) ∧ ((∃ q, k = .g2 q) ↔ ∃ q, pk = .g2 q)) := by
  obtain ⟨q, h1, h2⟩ := (Pt.C216_bls_roundtrip.1 hp P.2).1
  refine ⟨⟨_, q, rfl, ?_, h2⟩, fun k hk => ?_⟩
  · show (do .ok (.g1 (← Pt.g1Dec (g1ToCompressed p))) : Go AnyPoint) = _
    rw [h1]; rfl
  · cases pk with
    | g1 a =>
      obtain ⟨q, -, e⟩ := Go.bind_eq_ok.1 hk
      cases e
      simp
    | g2 a =>
      obtain ⟨q, -, e⟩ := Go.bind_eq_ok.1 hk
      cases e
      simp
    | other => cases hk

/-! ## Verification -/

theorem not_interleave (a : AnyPoint) (q : Proj Fq) (l : List AnyPoint) (L : List (Proj Fq × Proj (Fp2 Fq))) :
    a :: .g1 q :: l ≠ interleave L := by
  rcases L with _ | ⟨⟨x, y⟩, L⟩
  · simp [interleave]
  · intro h
    have := congrArg (fun l => l[1]?) h
    simp [interleave] at this

/-- `computeB` returns a point or panics -/
theorem computeB_ne_error (sha : Hasher) (s : ZMod blsr) (msgs : List (ZMod blsr)) (gens : Gens AnyPoint) :
    computeB sha s msgs gens ≠ Go.err := by
  unfold computeB
  dsimp only
  split
  · exact fun h => nomatch h
  · split
    · split <;> exact fun h => nomatch h
    · split <;> exact fun h => nomatch h
    · exact fun h => nomatch h

/-- with a public key in `G1`, as a restored secret key gives it, `Verify` never accepts, and panics when its first checks
pass -/
theorem C218_wrong_group (sha : Hasher) (p : Proj Fq) (sig : Signature (ZMod blsr) AnyPoint) (gens : Gens AnyPoint)
    (msgs : List (ZMod blsr)) :
    verify sha (.g1 p) sig gens msgs ≠ .ok () ∧
    ((msgs.length : ℤ) ≤ gens.length → msgs ≠ [] → p.z ≠ 0 → isIdentity sig.a = .ok false →
      verify sha (.g1 p) sig gens msgs = Go.crash) := by
  have key : ∀ b, (do
      match ← multiPairing [sig.a, mulAdd (.g1 p) sig.e, neg b, generator (.g1 p)] with
      | none => Go.crash
      | some g => Go.guard (g.isOne = true)) = (Go.crash : Go Unit) := by
    intro b
    have h2 : multiPairing [sig.a, mulAdd (.g1 p) sig.e, neg b, generator (.g1 p)] = .ok none :=
      C168_multiPairing_nil fun L => not_interleave _ _ _ L
    rw [h2]; rfl
  constructor
  · intro h
    unfold verify at h
    simp only [Go.bind_eq_ok] at h
    obtain ⟨-, -, -, -, -, -, -, -, i, -, -, -, b, -, h⟩ := h
    obtain ⟨g, hg, h⟩ := h
    have := key b
    rw [hg] at this
    rcases g with _ | g
    · cases h
    · have h' : Go.guard (g.isOne = true) = .ok () := h
      rw [Go.ok_bind] at this
      have this' : Go.guard (g.isOne = true) = Go.crash := this
      rw [h'] at this'
      cases this'
  · intro hl hm hz ha
    unfold verify
    rw [Go.guard_true (by omega), Go.ok_bind, Go.guard_true (by
      rw [Nat.lt_one_iff, List.length_eq_zero_iff]; exact hm), Go.ok_bind]
    rw [show isIdentity (.g1 p) = .ok false by simp [isIdentity, hz], Go.ok_bind, Go.guard_true rfl, Go.ok_bind, ha, Go.ok_bind,
      Go.guard_true rfl, Go.ok_bind]
    have hc := computeB_ne_error sha sig.s msgs gens
    rcases hcb : computeB sha sig.s msgs gens with e | b
    · rcases e with _ | _
      · exact absurd hcb hc
      · rfl
    · exact key b

/-- the sum of products of the concrete generators is that of the abstract model -/
theorem computeB_rep {sha : Hasher} {gens : Gens AnyPoint} {h : Proj Fq} {H0 Hs : S1} (hg : gens.h0 = .g1 h)
    (hh : GRep h (H0 : E1)) (hs : GRep (g1Hash sha gens.state (ascii "BLS12381G1_XMD:SHA-256_SSWU_RO_")) (Hs : E1))
    {msgs : List (ZMod blsr)} (hne : msgs ≠ []) (hl : (msgs.length : ℤ) ≤ gens.length) (s : ZMod blsr) :
    ∃ b, computeB sha s msgs gens = .ok (.g1 b) ∧ GRep b ((gS1 + s • H0 + msgs.sum • Hs : S1) : E1) := by
  obtain ⟨G, L, -⟩ := Pt.C216_g1
  set hp := g1Hash sha gens.state (ascii "BLS12381G1_XMD:SHA-256_SSWU_RO_") with hhp
  have hF : List.Forall₂ (fun p P => GRep p P) (g1Generator :: h :: List.replicate msgs.length hp)
      ((gS1 : E1) :: (H0 : E1) :: List.replicate msgs.length (Hs : E1)) := by
    refine .cons gen1_rep (.cons hh ?_)
    generalize msgs.length = n
    induction n with
    | zero => exact .nil
    | succ n ih => exact .cons hs ih
  obtain ⟨b, hb, hr⟩ := (Pt.C216_sum L hF (1 :: s :: msgs)).1 (by
    rw [List.length_cons, List.length_cons, List.length_cons, List.length_replicate]; rfl)
  refine ⟨b, ?_, ?_⟩
  · have e : (some (generator gens.h0) :: gens.get (hash sha gens.h0) 0 ::
        (List.range msgs.length).map fun i : ℕ => gens.get (hash sha gens.h0) ((i : ℤ) + 1)).map as1 =
        (g1Generator :: h :: List.replicate msgs.length hp).map Pt.Arg.mine := by
      rw [List.map_cons, List.map_cons, List.map_cons, List.map_cons, List.map_map, List.map_replicate]
      have e1 : gens.get (hash sha gens.h0) 0 = some (.g1 h) := by rw [Gens.get, if_pos le_rfl, hg]
      rw [e1, hg]
      congr 2
      refine List.eq_replicate_iff.2 ⟨by simp, ?_⟩
      intro x hx
      obtain ⟨i, hi, rfl⟩ := List.mem_map.1 hx
      have hi' := List.mem_range.1 hi
      simp only [Function.comp]
      rw [Gens.get, if_neg (by omega), if_neg (by omega)]
      rfl
    obtain ⟨m, ms, rfl⟩ := List.exists_cons_of_ne_nil hne
    unfold computeB
    dsimp only
    rw [e]
    rw [hg]
    dsimp only
    have hb' : Pt.sum Pt.g1 ((g1Generator :: h :: List.replicate (m :: ms).length hp).map Pt.Arg.mine)
      ((1 :: s :: m :: ms).map Pt.Arg.mine) = some b := hb
    rw [hb']
  · have e : (List.zipWith (fun (s : ZMod blsr) (P : E1) => s.val • P) (1 :: s :: msgs)
        ((gS1 : E1) :: (H0 : E1) :: List.replicate msgs.length (Hs : E1))).sum =
        ((gS1 + s • H0 + msgs.sum • Hs : S1) : E1) := by
      have e1 : ∀ l : List (ZMod blsr), (List.zipWith (fun (s : ZMod blsr) (P : E1) => s.val • P) l
          (List.replicate l.length (Hs : E1))).sum = ((l.sum • Hs : S1) : E1) := by
        intro l
        induction l with
        | nil => simp
        | cons a l ih =>
          rw [List.length_cons, List.replicate_succ, List.zipWith_cons_cons, List.sum_cons, List.sum_cons, ih, add_smul,
            ← smul1]
          rfl
      rw [List.zipWith_cons_cons, List.zipWith_cons_cons, List.sum_cons, List.sum_cons, e1, ← smul1, ← smul1, one_smul,
        ← add_assoc]
      rfl
    rw [← e]
    exact hr

/-- `Verify` on coordinates is the verification of the abstract model with the two subgroups and the pairing of BLS12-381 -/
theorem C218_verify {K : Type} [Field K] [DecidableEq K] [DecidableEq (S3 K)] [DecidableEq S1] [DecidableEq S2]
    (T : Tower Fq K) {sha : Hasher} {pk : Proj (Fp2 Fq)} {P : S2} (hP : GRep pk (P : E2)) {a h : Proj Fq} {A H0 Hs : S1} (hA : GRep a (A : E1)) {gens : Gens AnyPoint} (hg : gens.h0 = .g1 h)
    (hh : GRep h (H0 : E1)) (hs : GRep (g1Hash sha gens.state (ascii "BLS12381G1_XMD:SHA-256_SSWU_RO_")) (Hs : E1))
    (e s : ZMod blsr) (msgs : List (ZMod blsr)) :
    verify sha (.g2 pk) ⟨.g1 a, e, s⟩ gens msgs =
      Bbs.verify (fun _ => Hs) gS1 gS2 (pair T) P ⟨A, e, s⟩ ⟨H0, gens.length, gens.state⟩ msgs := by
  unfold verify Bbs.verify
  dsimp only
  by_cases hl : gens.length < msgs.length
  · rw [Go.guard_false (not_not.2 hl)]; rfl
  rw [Go.guard_true hl, Go.ok_bind, Go.ok_bind]
  by_cases hm : msgs.length < 1
  · rw [Go.guard_false (not_not.2 hm)]; rfl
  rw [Go.guard_true hm, Go.ok_bind, Go.ok_bind]
  have hne : msgs ≠ [] := by rintro rfl; simp at hm
  rw [isIdentity, isIdentity, Go.ok_bind]
  by_cases hp : P = 0
  · rw [Go.guard_false (not_not.2 hp), Go.guard_false (by simpa using (z_iff2 hP).2 hp)]; rfl
  rw [Go.guard_true hp, Go.guard_true (by simpa using fun h => hp ((z_iff2 hP).1 h)), Go.ok_bind, Go.ok_bind, Go.ok_bind]
  by_cases ha : A = 0
  · rw [Go.guard_false (not_not.2 ha), Go.guard_false (by simpa using (z_iff1 hA).2 ha)]; rfl
  rw [Go.guard_true ha, Go.guard_true (by simpa using fun h => ha ((z_iff1 hA).1 h)), Go.ok_bind, Go.ok_bind]
  obtain ⟨b, hb, hr⟩ := computeB_rep hg hh hs hne (not_lt.1 hl) s
  rw [hb, computeB_eq (gens := (⟨H0, gens.length, gens.state⟩ : Gens S1)) hne (not_lt.1 hl), Go.ok_bind, Go.ok_bind]
  dsimp only
  set B := gS1 + s • H0 + msgs.sum • Hs
  have h2 : GRep (gAdd mulBy3b2 (gMultiply mulBy3b2 g2Generator (leBytes 32 e.val)) pk) ((e • gS2 + P : S2) : E2) :=
    C155_g2_add (mul2 (P := gS2) gen2_rep e) hP
  have h3 : GRep (gNeg b) ((-B : S1) : E1) := (C155_g1_neg_sub hr hr).1
  obtain ⟨g, hg1, -, hg2⟩ := C168_multiPairing T (l := [(a, _), (gNeg b, g2Generator)]) (L := [(A, e • gS2 + P), (-B, gS2)])
    (.cons ⟨hA, h2⟩ (.cons ⟨h3, gen2_rep⟩ .nil))
  have hg1' : multiPairing [.g1 a, mulAdd (.g2 pk) e, neg (.g1 b), generator (.g2 pk)] = .ok (some g) := hg1
  rw [hg1', Go.ok_bind]
  dsimp only
  simp only [List.map_cons, List.map_nil, List.sum_cons, List.sum_nil, add_zero] at hg2
  unfold Go.guard
  simp only [hg2]

/-- signing with a key and verifying with its public key: the signature is accepted unless the commitment to the messages is the
identity -/
theorem C218_sign_verify {sha : Hasher} {h : Proj Fq} {H0 Hs : S1} {gens : Gens AnyPoint} (hg : gens.h0 = .g1 h)
    (hh : GRep h (H0 : E1)) (hs : GRep (g1Hash sha gens.state (ascii "BLS12381G1_XMD:SHA-256_SSWU_RO_")) (Hs : E1))
    (sk : Scal) (hsk : sk.point = some .g2) (e s : ZMod blsr) (msgs : List (ZMod blsr)) :
    (∀ sig, sign sha sk e s gens msgs = .ok sig →
      ∃ pk, publicKey sk = .ok pk ∧
        (verify sha pk sig gens msgs = .ok () ↔ gS1 + s • H0 + msgs.sum • Hs ≠ 0)) ∧
    ((∃ sig, sign sha sk e s gens msgs = .ok sig) ↔
      msgs ≠ [] ∧ (msgs.length : ℤ) ≤ gens.length ∧ sk.value ≠ 0 ∧ e + sk.value ≠ 0) := by
  have hsign : ∀ (hne : msgs ≠ []) (hl : (msgs.length : ℤ) ≤ gens.length), ∃ b,
      computeB sha s msgs gens = .ok (.g1 b) ∧ GRep b ((gS1 + s • H0 + msgs.sum • Hs : S1) : E1) :=
    fun hne hl => computeB_rep hg hh hs hne hl s
  constructor
  · intro sig hsig
    unfold sign at hsig
    rw [Go.guard_bind_eq_ok, Go.guard_bind_eq_ok, Go.guard_bind_eq_ok] at hsig
    obtain ⟨hl, hm, h0, hsig⟩ := hsig
    have hne : msgs ≠ [] := by rintro rfl; simp at hm
    obtain ⟨b, hb, hr⟩ := hsign hne (not_lt.1 hl)
    rw [hb, Go.ok_bind, Go.guard_bind_eq_ok] at hsig
    obtain ⟨hes, hsig⟩ := hsig
    obtain rfl := Except.ok.inj hsig
    have hpk : publicKey sk = .ok (.g2 (gMultiply mulBy3b2 g2Generator (leBytes 32 sk.value.val))) := by
      rw [publicKey, hsk]
    refine ⟨_, hpk, ?_⟩
    obtain ⟨K, _, ⟨T⟩⟩ := C148_tower_exists
    classical
    have hv := C218_verify T (mul2 (P := gS2) gen2_rep sk.value) (mul1 hr (e + sk.value)⁻¹) hg hh hs e s msgs
    refine (Eq.congr_left hv).trans ?_
    have hnd := C168_nondegenerate T
    rw [show sk.value • gS2 = Bbs.publicKey gS2 sk.value from rfl]
    refine (C67_verify_iff (fun _ => Hs) gS1 gS2 (pair T) ?_ sk.value _ ⟨H0, gens.length, gens.state⟩ msgs
      (List.replicate msgs.length Hs) (gensAre_replicate _ _ _ (not_lt.1 hl))).trans ?_
    · exact hnd.2.1
    · have hB : gS1 + s • H0 + msgs.sum • Hs = specB gS1 H0 (List.replicate msgs.length Hs) s msgs :=
        (specB_replicate _ _ _ _ _).symm
      dsimp only
      rw [← hB]
      constructor
      · rintro ⟨-, -, -, h4, -⟩ h5
        exact h4 (by rw [h5, smul_zero])
      · intro h5
        refine ⟨hne, not_lt.1 hl, ?_, ?_, ?_⟩
        · exact fun h => (smul_eq_zero.1 h).elim h0 gS_ne.2
        · exact fun h => (smul_eq_zero.1 h).elim (inv_ne_zero hes) h5
        · rw [smul_smul, add_comm sk.value, mul_inv_cancel₀ hes, one_smul]
  · unfold sign
    simp only [Go.guard_bind_eq_ok]
    constructor
    · rintro ⟨sig, hl, hm, h0, hsig⟩
      have hne : msgs ≠ [] := by rintro rfl; simp at hm
      obtain ⟨b, hb, -⟩ := hsign hne (not_lt.1 hl)
      rw [hb, Go.ok_bind, Go.guard_bind_eq_ok] at hsig
      exact ⟨hne, not_lt.1 hl, h0, hsig.1⟩
    · rintro ⟨hne, hl, h0, hes⟩
      obtain ⟨b, hb, -⟩ := hsign hne hl
      refine ⟨⟨.g1 (gMultiply mulBy3b1 b (leBytes 32 (e + sk.value)⁻¹.val)), e, s⟩, not_lt.2 hl, ?_, h0, ?_⟩
      rotate_left
      · rw [hb, Go.ok_bind, Go.guard_bind_eq_ok]
        exact ⟨hes, rfl⟩
      · rw [Nat.lt_one_iff, List.length_eq_zero_iff]; exact hne

/-! ## Examples -/

/-- the hypotheses on the generators can be met: a generator `H0` of the subgroup -/
example : ∃ (h : Proj Fq) (H0 : S1), GRep h (H0 : E1) ∧ H0 ≠ 0 := ⟨_, gS1, gen1_rep, gS_ne.1⟩

/-- a new key from 48 bytes, restored by the curve called BLS12831: its public key is another one -/
example : ∃ s, unmarshalSecret (initSecret ⟨some .g1⟩) (marshalSecret (newSecretKey (List.replicate 48 1))) = .ok s ∧
    publicKey s ≠ publicKey (newSecretKey (List.replicate 48 1)) := by
  obtain ⟨s, h, -, -, h'⟩ := C218_secret_roundtrip (List.replicate 48 1) ⟨some .g1⟩
  exact ⟨s, h, fun e => nomatch h'.1 e⟩

/-- the bytes of `r` are refused, those of `r - 1` and of zero are secret keys -/
example : unmarshalSecret ⟨0, none⟩ (beBytes 32 blsr) = Go.err ∧
    unmarshalSecret ⟨0, some .g2⟩ (beBytes 32 (blsr - 1)) = .ok ⟨-1, some .g2⟩ ∧
    unmarshalSecret ⟨5, some .g1⟩ (List.replicate 32 0) = .ok ⟨0, some .g1⟩ := by decide +kernel

/-- `Verify` with the generator of `G1` as public key and as signature panics -/
example (sha : Hasher) : verify sha (.g1 g1Generator) ⟨.g1 g1Generator, 1, 2⟩ ⟨.g1 g1Generator, 1, []⟩ [3] = Go.crash := by
  have hz : g1Generator.z ≠ 0 := by decide +kernel
  exact (C218_wrong_group sha g1Generator _ _ [3]).2 (by simp) (by simp) hz (by simp [isIdentity, hz])

end Verif.Bbs.Key
