import Verif.Inst.WeierCodec
import Verif.Bls381.SigProps
import Verif.Bls381.GtProps
import Verif.Bbs.PokProps
import Verif.Bbs.MiscProps
import Verif.Accum.ProofProps

/-!
# Property C197: BBS+ signatures and the accumulator on the pairing of BLS12-381

The models of BBS+ and of the accumulator take groups of prime order with a non-degenerate pairing and encodings of the points.
Here they are taken at the groups of the code, its pairing and its encodings, and the checks of the models are
compared with `MultiPairing` on the coordinates of the points.
-/

set_option linter.unusedSectionVars false

namespace Verif.Inst
open Verif.Native Verif.Curves Verif.Primes Verif.Bls381 WeierstrassCurve.Affine

/-- coordinates of a point -/
noncomputable def rep1 (P : E1) : Proj Fq := (GRep.exists P).choose
noncomputable def rep2 (P : E2) : Proj (Fp2 Fq) := (GRep.exists P).choose

theorem rep1_spec (P : E1) : GRep (rep1 P) P := (GRep.exists P).choose_spec
theorem rep2_spec (P : E2) : GRep (rep2 P) P := (GRep.exists P).choose_spec

/-- `ToAffineCompressed` and `ToAffineUncompressed` of points of the subgroups (`bls12381_curve.go`) -/
noncomputable def enc1 (P : S1) : List UInt8 := g1ToCompressed (rep1 P)
noncomputable def enc1u (P : S1) : List UInt8 := g1ToUncompressed (rep1 P)
noncomputable def enc2 (P : S2) : List UInt8 := g2ToCompressed (rep2 P)
noncomputable def enc2u (P : S2) : List UInt8 := g2ToUncompressed (rep2 P)

open Classical in
/-- `FromAffineCompressed` of `G1` -/
noncomputable def dec1 (l : List UInt8) : Option S1 :=
  match g1FromCompressed l with
  | .ok q => if h : ∃ P : S1, GRep q (P : E1) then some h.choose else none
  | .error _ => none

open Classical in
/-- `FromAffineCompressed` of `G2` -/
noncomputable def dec2 (l : List UInt8) : Option S2 :=
  match g2FromCompressed l with
  | .ok q => if h : ∃ P : S2, GRep q (P : E2) then some h.choose else none
  | .error _ => none

theorem dec1_ok {l : List UInt8} {q : Proj Fq} {P : S1} (h : g1FromCompressed l = .ok q) (hq : GRep q (P : E1)) : dec1 l = some P := by
  have hx : ∃ P : S1, GRep q (P : E1) := ⟨P, hq⟩
  rw [dec1, h]
  simp only [dif_pos hx]
  exact congrArg some (Subtype.ext (hx.choose_spec.unique hq))

theorem dec2_ok {l : List UInt8} {q : Proj (Fp2 Fq)} {P : S2} (h : g2FromCompressed l = .ok q) (hq : GRep q (P : E2)) :
    dec2 l = some P := by
  have hx : ∃ P : S2, GRep q (P : E2) := ⟨P, hq⟩
  rw [dec2, h]
  simp only [dif_pos hx]
  exact congrArg some (Subtype.ext (hx.choose_spec.unique hq))

/-- C197: these are the encodings of the code for all coordinates of a point: 48, 96, 96 and 192 bytes, injective, and read back; the
decoders give what the methods give -/
theorem C197_codecs :
    (∀ (p : Proj Fq) (P : S1), GRep p (P : E1) → g1ToCompressed p = enc1 P ∧ g1ToUncompressed p = enc1u P) ∧
    (∀ (p : Proj (Fp2 Fq)) (P : S2), GRep p (P : E2) → g2ToCompressed p = enc2 P ∧ g2ToUncompressed p = enc2u P) ∧
    (∀ P, (enc1 P).length = 48 ∧ (enc1u P).length = 96) ∧ (∀ P, (enc2 P).length = 96 ∧ (enc2u P).length = 192) ∧
    (∀ P, dec1 (enc1 P) = some P) ∧ (∀ P, dec2 (enc2 P) = some P) ∧
    (Function.Injective enc1 ∧ Function.Injective enc1u ∧ Function.Injective enc2 ∧ Function.Injective enc2u) ∧
    (∀ l P, l.length = 48 → (dec1 l = some P ↔ ∃ q, g1FromCompressed l = .ok q ∧ GRep q (P : E1))) ∧
    ∀ l P, l.length = 96 → (dec2 l = some P ↔ ∃ q, g2FromCompressed l = .ok q ∧ GRep q (P : E2)) := by
  have d1 : ∀ P, dec1 (enc1 P) = some P := fun P => by
    obtain ⟨⟨q, h1, h2⟩, -⟩ := C157_g1_roundtrip (rep1_spec P) P.2
    exact dec1_ok h1 h2
  have d2 : ∀ P, dec2 (enc2 P) = some P := fun P => by
    obtain ⟨⟨q, h1, h2⟩, -⟩ := C157_g2_roundtrip (rep2_spec P) P.2
    exact dec2_ok h1 h2
  refine ⟨fun p P hp => ⟨(C157_g1_injective hp (rep1_spec P)).1.2 rfl, (C157_g1_injective hp (rep1_spec P)).2.2 rfl⟩,
    fun p P hp => ⟨(C157_g2_injective hp (rep2_spec P)).1.2 rfl, (C157_g2_injective hp (rep2_spec P)).2.2 rfl⟩,
    ?_, ?_, d1, d2, ⟨?_, ?_, ?_, ?_⟩, ?_, ?_⟩
  · exact fun P => ⟨cTo_length codec1_lawful _, cUTo_length codec1_lawful _⟩
  · exact fun P => ⟨cTo_length codec2_lawful _, by rw [enc2u, g2UTo_eq]; exact cUTo_length codec2_lawful _⟩
  · exact fun P Q h => Subtype.ext ((C157_g1_injective (rep1_spec P) (rep1_spec Q)).1.1 h)
  · exact fun P Q h => Subtype.ext ((C157_g1_injective (rep1_spec P) (rep1_spec Q)).2.1 h)
  · exact fun P Q h => Subtype.ext ((C157_g2_injective (rep2_spec P) (rep2_spec Q)).1.1 h)
  · exact fun P Q h => Subtype.ext ((C157_g2_injective (rep2_spec P) (rep2_spec Q)).2.1 h)
  · intro l P hl
    refine ⟨fun h => ?_, fun ⟨q, h1, h2⟩ => dec1_ok h1 h2⟩
    cases hd : g1FromCompressed l with
    | error => rw [dec1, hd] at h; cases h
    | ok q =>
      obtain ⟨⟨Q, hQ, hr⟩, -⟩ := C157_g1_accepted hl hd
      rw [dec1_ok (P := ⟨Q, hr⟩) hd hQ] at h
      cases h
      exact ⟨q, rfl, hQ⟩
  · intro l P hl
    refine ⟨fun h => ?_, fun ⟨q, h1, h2⟩ => dec2_ok h1 h2⟩
    cases hd : g2FromCompressed l with
    | error => rw [dec2, hd] at h; cases h
    | ok q =>
      obtain ⟨⟨Q, hQ, hr⟩, -⟩ := C157_g2_accepted hl hd
      rw [dec2_ok (P := ⟨Q, hr⟩) hd hQ] at h
      cases h
      exact ⟨q, rfl, hQ⟩

/-- the scalars -/
def blsCd : ScalarCodec (ZMod blsr) := beCodec blsr (by decide) (by decide)

/-- C197: these are the methods of `ScalarBls12381`, on the words that hold the residues -/
theorem C197_scalars : (∀ x : ZMod blsr, blsCd.enc x = scBytes blsScalar (encode blsFq x)) ∧
    ∀ b (x : ZMod blsr), blsCd.dec b = some x ↔ scSetBytes blsScalar b = .ok (encode blsFq x) :=
  ⟨fun x => (sc_enc blsScalar_ok x).symm, fun b x => sc_dec blsScalar_ok b x⟩

variable {K : Type} [Field K] [DecidableEq K] (T : Tower Fq K)

/-- an element of the target group as the code holds it -/
noncomputable def gtRep (x : S3 K) : Fp12 Fq := (T.bij.2 (val3 x)).choose

theorem gtRep_spec (x : S3 K) : T.e12 (gtRep T x) = val3 x := (T.bij.2 (val3 x)).choose_spec

/-- `Bytes` of an element of the target group -/
noncomputable def encT (x : S3 K) : List UInt8 := gtBytes (gtRep T x)

/-- C197: what the theorems on BBS+ and the accumulator ask of the groups: the pairing with the generator is injective, the scalars act
freely on the generators and the bytes of the target group are injective and of a fixed length -/
theorem C197_groups : (∀ P : S1, pair T P gS2 = 0 → P = 0) ∧ (∀ r : ZMod blsr, r • gS2 = 0 → r = 0) ∧
    (∀ r : ZMod blsr, r • gS1 = 0 → r = 0) ∧ Function.Injective (encT T) ∧ (∀ x, (encT T x).length = 576) ∧
    ∀ (g : Fp12 Fq) (x : S3 K), T.e12 g = val3 x → gtBytes g = encT T x := by
  obtain ⟨-, h1, h2, h3, -⟩ := C168_nondegenerate T
  refine ⟨h1, fun r h => (smul_eq_zero.1 h).resolve_right h3, fun r h => (smul_eq_zero.1 h).resolve_right h2, fun x y h => ?_,
    fun x => C153_bytes_length _, fun g x h => ?_⟩
  · have := C153_injective h
    exact val3_inj (by rw [← gtRep_spec T x, ← gtRep_spec T y, this])
  · exact congrArg gtBytes (T.e12_inj (h.trans (gtRep_spec T x).symm))

/-! ## The checks on coordinates -/

/-- the product of two pairings on coordinates -/
theorem two_pairs {a b : Proj Fq} {c d : Proj (Fp2 Fq)} {A B : S1} {C D : S2} (ha : GRep a (A : E1)) (hb : GRep b (B : E1))
    (hc : GRep c (C : E2)) (hd : GRep d (D : E2)) :
    ∃ g, multiPairing [.g1 a, .g2 c, .g1 b, .g2 d] = .ok (some g) ∧ T.e12 g = val3 (pair T A C + pair T B D) ∧
      (g.isOne = true ↔ pair T A C + pair T B D = 0) := by
  have := C168_multiPairing T (l := [(a, c), (b, d)]) (L := [(A, C), (B, D)]) (.cons ⟨ha, hc⟩ (.cons ⟨hb, hd⟩ .nil))
  simpa [interleave] using this

/-- `Mul` of a point by a scalar -/
theorem mul1_rep {p : Proj Fq} {P : S1} (hp : GRep p (P : E1)) (r : ZMod blsr) :
    GRep (gMultiply mulBy3b1 p (leBytes 32 r.val)) ((r • P : S1) : E1) := by
  have h := C156_g1_mul hp (bytes := leBytes 32 r.val) (leBytes_length _ _)
  rw [leNat_leBytes 32 r.val ((ZMod.val_lt r).trans (by decide +kernel))] at h
  have e : r • P = r.val • P := by rw [← Nat.cast_smul_eq_nsmul (ZMod blsr), ZMod.natCast_zmod_val]
  rw [e]
  exact h

theorem mul2_rep {p : Proj (Fp2 Fq)} {P : S2} (hp : GRep p (P : E2)) (r : ZMod blsr) :
    GRep (gMultiply mulBy3b2 p (leBytes 32 r.val)) ((r • P : S2) : E2) := by
  have h := C156_g2_mul hp (bytes := leBytes 32 r.val) (leBytes_length _ _)
  rw [leNat_leBytes 32 r.val ((ZMod.val_lt r).trans (by decide +kernel))] at h
  have e : r • P = r.val • P := by rw [← Nat.cast_smul_eq_nsmul (ZMod blsr), ZMod.natCast_zmod_val]
  rw [e]
  exact h

/-- the last step of `PublicKey.Verify` (bbs/public_key.go:58-70) on coordinates: `MultiPairing` and `IsOne` -/
def bbsPairing (pk : Proj (Fp2 Fq)) (a b : Proj Fq) (e : ZMod blsr) : Go (Option (Fp12 Fq)) :=
  multiPairing [.g1 a, .g2 (gAdd mulBy3b2 (gMultiply mulBy3b2 g2Generator (leBytes 32 e.val)) pk), .g1 (gNeg b), .g2 g2Generator]

/-- `PokSignatureProof.VerifySigPok` (bbs/pok_signature_proof.go:193) on coordinates -/
def pokPairing (pk : Proj (Fp2 Fq)) (aPrime aBar : Proj Fq) : Go (Option (Fp12 Fq)) :=
  multiPairing [.g1 aPrime, .g2 pk, .g1 aBar, .g2 (gNeg g2Generator)]

/-- the last step of `MembershipWitness.Verify` (accumulator/witness.go:65-85) on coordinates -/
def witnessPairing (pk : Proj (Fp2 Fq)) (c v : Proj Fq) (y : ZMod blsr) : Go (Option (Fp12 Fq)) :=
  multiPairing [.g1 c, .g2 (gAdd mulBy3b2 (gMultiply mulBy3b2 g2Generator (leBytes 32 y.val)) pk), .g1 (gNeg v), .g2 g2Generator]

theorem gS2_rep : GRep g2Generator (gS2 : E2) := by
  obtain ⟨K, _, ⟨T⟩⟩ := C148_tower_exists
  classical
  exact (C168_nondegenerate T).2.2.2.2.2.1

/-- C197: on all coordinates of the points, the pairing checks of the code give one exactly when those of the models hold; for the key
of `x` they are the equations between points -/
theorem C197_checks {pk : Proj (Fp2 Fq)} {a b : Proj Fq} {W : S2} {A B : S1} (hpk : GRep pk (W : E2)) (ha : GRep a (A : E1))
    (hb : GRep b (B : E1)) (e : ZMod blsr) :
    (∃ g, bbsPairing pk a b e = .ok (some g) ∧ (g.isOne = true ↔ pair T A (e • gS2 + W) + pair T (-B) gS2 = 0) ∧
      ∀ x : ZMod blsr, W = x • gS2 → (g.isOne = true ↔ (x + e) • A = B)) ∧
    (∃ g, pokPairing pk a b = .ok (some g) ∧ (g.isOne = true ↔ pair T A W + pair T B (-gS2) = 0) ∧
      ∀ x : ZMod blsr, W = x • gS2 → (g.isOne = true ↔ B = x • A)) ∧
    ∃ g, witnessPairing pk a b e = .ok (some g) ∧ (g.isOne = true ↔ pair T A (e • gS2 + W) + pair T (-B) gS2 = 0) ∧
      ∀ x : ZMod blsr, W = x • gS2 → (g.isOne = true ↔ (e + x) • A = B) := by
  have hnd := (C197_groups T).1
  have hsum : GRep (gAdd mulBy3b2 (gMultiply mulBy3b2 g2Generator (leBytes 32 e.val)) pk) ((e • gS2 + W : S2) : E2) :=
    C155_g2_add (mul2_rep gS2_rep e) hpk
  have key : ∀ x : ZMod blsr, W = x • gS2 → (pair T A (e • gS2 + W) + pair T (-B) gS2 = 0 ↔ (e + x) • A = B) := by
    rintro x rfl
    rw [← add_smul, map_smul, map_neg, LinearMap.neg_apply, ← LinearMap.smul_apply, ← map_smul, ← sub_eq_add_neg,
      ← LinearMap.sub_apply, ← map_sub, ← sub_eq_zero (a := (e + x) • A)]
    exact ⟨hnd _, fun h => by rw [h, map_zero, LinearMap.zero_apply]⟩
  have key' : ∀ x : ZMod blsr, W = x • gS2 → (pair T A W + pair T B (-gS2) = 0 ↔ B = x • A) := by
    rintro x rfl
    rw [map_smul, map_neg, ← LinearMap.smul_apply, ← map_smul, ← sub_eq_add_neg,
      ← LinearMap.sub_apply, ← map_sub, ← sub_eq_zero (a := B), ← neg_sub, map_neg, LinearMap.neg_apply, neg_eq_zero]
    exact ⟨hnd _, fun h => by rw [h, map_zero, LinearMap.zero_apply]⟩
  refine ⟨?_, ?_, ?_⟩
  · obtain ⟨g, h1, -, h3⟩ := two_pairs T ha (B := -B) (gRep_neg hb) hsum gS2_rep
    exact ⟨g, h1, h3, fun x hx => h3.trans ((key x hx).trans (by rw [add_comm]))⟩
  · obtain ⟨g, h1, -, h3⟩ := two_pairs T ha hb hpk (D := -gS2) (gRep_neg gS2_rep)
    exact ⟨g, h1, h3, fun x hx => h3.trans (key' x hx)⟩
  · obtain ⟨g, h1, -, h3⟩ := two_pairs T ha (B := -B) (gRep_neg hb) hsum gS2_rep
    exact ⟨g, h1, h3, fun x hx => h3.trans (key x hx)⟩

/-! ## The groups are cyclic -/

/-- the target group is generated by the pairing of the generators -/
theorem target_cyclic (x : S3 K) : ∃ c : ZMod blsr, x = c • pair T gS1 gS2 := by
  have h0 : pair T gS1 gS2 ≠ 0 := fun h => (C168_nondegenerate T).2.2.1 ((C197_groups T).1 _ h)
  have hr := fact_blsr.out
  have : NeZero blsr := ⟨hr.ne_zero⟩
  have h1 : addOrderOf (pair T gS1 gS2) = blsr := addOrderOf_eq_prime (S3.kill _) h0
  have h2 : Nat.card (S3 K) = blsr := by
    refine le_antisymm (card_rootsOfUnity K blsr) ?_
    rw [← h1]
    exact Nat.le_of_dvd Nat.card_pos (addOrderOf_dvd_natCard _)
  obtain ⟨n, hn⟩ := mem_multiples_of_prime_card h2 (g := pair T gS1 gS2) (g' := x) h0
  exact ⟨n, by rw [← hn, Nat.cast_smul_eq_nsmul (ZMod blsr)]⟩

/-- C197: every point of the subgroups is one multiple of the generator: so every public key that is accepted has one secret key -/
theorem C197_cyclic : (∀ P : S1, ∃! x : ZMod blsr, P = x • gS1) ∧ ∀ W : S2, ∃! x : ZMod blsr, W = x • gS2 := by
  obtain ⟨K, _, ⟨T⟩⟩ := C148_tower_exists
  classical
  obtain ⟨n1, n2, g1, g2, -⟩ := C168_nondegenerate T
  constructor
  · intro P
    obtain ⟨c, hc⟩ := target_cyclic T (pair T P gS2)
    refine ⟨c, ?_, fun y hy => ?_⟩
    · show P = c • gS1
      rw [← sub_eq_zero]
      refine n2 _ ?_
      rw [map_sub, LinearMap.sub_apply, hc, map_smul, LinearMap.smul_apply, sub_self]
    · replace hy : P = y • gS1 := hy
      rw [hy, map_smul, LinearMap.smul_apply, ← sub_eq_zero, ← sub_smul] at hc
      exact sub_eq_zero.1 ((smul_eq_zero.1 hc).resolve_right fun h => g1 (n2 _ h))
  · intro W
    obtain ⟨c, hc⟩ := target_cyclic T (pair T gS1 W)
    refine ⟨c, ?_, fun y hy => ?_⟩
    · show W = c • gS2
      rw [← sub_eq_zero]
      refine n1 _ ?_
      rw [map_sub, hc, map_smul, sub_self]
    · replace hy : W = y • gS2 := hy
      rw [hy, map_smul, ← sub_eq_zero, ← sub_smul] at hc
      exact sub_eq_zero.1 ((smul_eq_zero.1 hc).resolve_right fun h => g1 (n2 _ h))

/-! ## The schemes -/

section Schemes
open Classical Bbs

/-- C197: BBS+ on the curve: `Verify` accepts, for the public key of `x`, exactly the solutions of `(x + e)·A = B`; what `Sign` returns
is accepted unless `B` is the identity -/
theorem C197_bbs (hash : List UInt8 → S1) (x : ZMod blsr) (gens : Gens S1) (msgs : List (ZMod blsr)) (hs : List S1)
    (hgens : GensAre hash gens msgs.length hs) :
    (∀ sig : Signature (ZMod blsr) S1, Bbs.verify hash gS1 gS2 (pair T) (Bbs.publicKey gS2 x) sig gens msgs = .ok () ↔
      msgs ≠ [] ∧ (msgs.length : ℤ) ≤ gens.length ∧ x ≠ 0 ∧ sig.a ≠ 0 ∧ (x + sig.e) • sig.a = specB gS1 gens.h0 hs sig.s msgs) ∧
    ∀ (draw : List UInt8 → ZMod blsr × ZMod blsr) (sig : Signature (ZMod blsr) S1),
      Bbs.sign hash enc1u blsCd gS1 draw x gens msgs = .ok sig →
      (Bbs.verify hash gS1 gS2 (pair T) (Bbs.publicKey gS2 x) sig gens msgs = .ok () ↔ specB gS1 gens.h0 hs sig.s msgs ≠ 0) := by
  obtain ⟨hnd, hg2, -⟩ := C197_groups T
  constructor
  · intro sig
    have hx : x • gS2 ≠ 0 ↔ x ≠ 0 := ⟨fun h h0 => h (by rw [h0, zero_smul]), fun h h0 => h (hg2 _ h0)⟩
    rw [C67_verify_iff hash gS1 gS2 (pair T) hnd x sig gens msgs hs hgens, hx]
  · intro draw sig h
    exact (C67_sign_verify hash enc1u blsCd gS1 gS2 (pair T) hg2 draw x gens msgs sig hs hgens h).1

/-- C197: proofs of knowledge on the curve: honest proofs are accepted with the encodings of the code, and from two accepted proofs with
the same commitments the extractor finds a signature or a relation between the generators -/
theorem C197_pok (hash : List UInt8 → S1) (chal : Transcript → ZMod blsr) (x : ZMod blsr) (gens : Gens S1) :
    (∀ (nonce : ZMod blsr) (sig : Signature (ZMod blsr) S1) (msgs : List (ProofMsg (ZMod blsr))) (hs : List S1)
      (rnd : PokRand (ZMod blsr)) (revealed : List (ℤ × ZMod blsr)) (t : Transcript), x ≠ 0 → sig.a ≠ 0 → msgs ≠ [] →
      (msgs.length : ℤ) = gens.length → msgs.length ≤ 65534 → GensAre hash gens msgs.length hs →
      (x + sig.e) • sig.a = specB gS1 gens.h0 hs sig.s (msgs.map ProofMsg.msg) → rnd.r1 ≠ 0 → revealed.Perm (revealedFrom 0 msgs) →
      ∃ pok, newPok hash gS1 sig gens msgs rnd = .ok pok ∧
        ∃ pf, pok.generateProof (pokChallenge blsCd chal (pok.contribution enc1 t) nonce) = .ok pf ∧
          pf.verify hash enc1 blsCd chal gS1 gS2 (pair T) revealed (Bbs.publicKey gS2 x) gens nonce
            (pokChallenge blsCd chal (pok.contribution enc1 t) nonce) t = .ok true) ∧
    ∀ (p p' : PokProof (ZMod blsr) S1) (revealed : List (ℤ × ZMod blsr)) (c c' : ZMod blsr) (t u : Transcript), 0 < gens.length →
      (∀ m ∈ revealed, 0 ≤ m.1 ∧ m.1 < gens.length) → (revealed.map Prod.fst).Nodup → c ≠ c' →
      p.contribution hash enc1 gS1 gens revealed c t = .ok u → p'.contribution hash enc1 gS1 gens revealed c' t = .ok u →
      p.verifySigPok gS2 (pair T) (Bbs.publicKey gS2 x) = true →
      let X := extract gens revealed c c' p p'
      (X.scale ≠ 0 → Bbs.verify hash gS1 gS2 (pair T) (Bbs.publicKey gS2 x) X.sig gens X.msgs = .ok () ∧
        (X.msgs.length : ℤ) = gens.length ∧ ∀ m ∈ revealed, X.msgs[m.1.toNat]? = some m.2) ∧
      (X.scale = 0 → gS1 + X.relS • gens.h0 + X.relM • hash gens.state = 0) := by
  obtain ⟨hnd, hg2, -⟩ := C197_groups T
  refine ⟨?_, ?_⟩
  · intro nonce sig msgs hs rnd revealed t hx ha hne hlen hlim hgens hsig hr1 hrev
    exact C70_proof_verifies hash enc1 blsCd chal gS1 gS2 (pair T) hg2 x nonce hx sig ha gens msgs hne hlen hlim hs hgens hsig rnd hr1
      revealed hrev t
  · intro p p' revealed c c' t u hpos hrev hnd' hc h h' hpair
    exact C98_extract hash enc1 C197_codecs.2.2.2.2.2.2.1.1 gS1 gS2 (pair T) hnd x p p' gens hpos revealed hrev hnd' c c' hc t u h h' hpair

/-- C197: serialized signatures, blind contexts and proofs are read back with the encodings of the code -/
theorem C197_bbs_roundtrip (s : Signature (ZMod blsr) S1) (c : Context (ZMod blsr) S1) (p : PokProof (ZMod blsr) S1) :
    Signature.unmarshal dec1 blsCd (s.marshal enc1 blsCd) = .ok s ∧
    (c.proofs ≠ [] → Context.unmarshal dec1 blsCd (c.marshal enc1 blsCd) = .ok c) ∧
    (p.proof1.length = 2 → 2 ≤ p.proof2.length → PokProof.unmarshal dec1 blsCd (p.marshal enc1 blsCd) = .ok p) := by
  obtain ⟨-, -, l1, -, d1, -⟩ := C197_codecs
  have l1' : ∀ P, (enc1 P).length = 48 := fun P => (l1 P).1
  have hl : ∀ x, (blsCd.enc x).length = 32 := fun x => beBytes_length 32 _
  exact ⟨C97_signature_round_trip enc1 dec1 blsCd d1 l1' hl s, C97_context_round_trip enc1 dec1 blsCd d1 l1' hl c,
    C97_pok_round_trip enc1 dec1 blsCd d1 l1' hl p⟩

/-- C197: the accumulator on the curve: `Verify` accepts the pair `(C, y)` for the key of `α` and the accumulator `V` exactly when
`(y + α)·C = V` with nothing zero; an honest membership proof gives the verifier the challenge of the prover, and the bytes hashed
determine all commitments -/
theorem C197_accumulator (α : ZMod blsr) :
    (∀ (mw : Accum.Witness (ZMod blsr) S1) (acc : Option S1),
      mw.verify gS2 (pair T) (some (Accum.publicKey gS2 α)) acc = .ok () ↔
        ∃ c y v, mw = ⟨some c, some y⟩ ∧ acc = some v ∧ c ≠ 0 ∧ y ≠ 0 ∧ α ≠ 0 ∧ v ≠ 0 ∧ (y + α) • c = v) ∧
    (∀ (chal : List UInt8 → ZMod blsr) (c : S1) (y : ZMod blsr) (v : S1) (pp : Accum.Params S1) (r : Accum.Rand (ZMod blsr)),
      (y + α) • c = v →
      let m := Accum.newCommitting gS2 (pair T) c y v pp (Accum.publicKey gS2 α) r
      let ch := chal (m.challengeBytes enc1 (encT T))
      ((m.genProof ch).finalize gS2 (pair T) v pp (Accum.publicKey gS2 α) ch).challenge chal enc1 (encT T) = ch) ∧
    ∀ f f' : Accum.Final S1 (S3 K), f.bytes enc1 (encT T) = f'.bytes enc1 (encT T) → f = f' := by
  obtain ⟨hnd, hg2, -, hT, lT, -⟩ := C197_groups T
  refine ⟨fun mw acc => ?_, fun chal c y v pp r hw => ?_, fun f f' => ?_⟩
  · have hx : α • gS2 ≠ 0 ↔ α ≠ 0 := ⟨fun h h0 => h (by rw [h0, zero_smul]), fun h h0 => h (hg2 _ h0)⟩
    rw [Accum.C64_verify_iff gS2 (pair T) hnd α mw acc, hx]
  · exact Accum.C66_challenge gS2 (pair T) chal enc1 (encT T) α c y v hw pp r
  · exact (Accum.C66_challenge_binding enc1 (encT T) 48 576 C197_codecs.2.2.2.2.2.2.1.1 hT (fun P => (C197_codecs.2.2.1 P).1) lT
      (fun _ => (0 : ZMod blsr)) f f').2

end Schemes

/-- C197: a serialized witness has one accepted encoding if its point is not the identity; with the identity it has others -/
theorem C197_witness_canonical :
    (∀ (b : List UInt8) (c : S1) (y : ZMod blsr), c ≠ 0 → Accum.unmarshalPair dec1 blsCd b = .ok (c, y) →
      Accum.marshalPair enc1 blsCd (some c) (some y) = .ok b) ∧
    ∃ b b' : List UInt8, b ≠ b' ∧ Accum.unmarshalPair dec1 blsCd b = .ok (0, 1) ∧ Accum.unmarshalPair dec1 blsCd b' = .ok (0, 1) := by
  constructor
  · intro b c y hc h
    refine Accum.C100_canonical enc1 dec1 blsCd b c y (fun l hl hd => ?_) h
    obtain ⟨q, h1, h2⟩ := (C197_codecs.2.2.2.2.2.2.2.1 l c hl).1 hd
    rw [← (C197_codecs.1 q c h2).1]
    refine (C157_g1_accepted hl h1).2 fun h6 => ?_
    rcases l with _ | ⟨b0, t⟩
    · cases hl
    have hb : ∀ x : UInt8, (x >>> 6) &&& 1 = 1 → x &&& 0xC0 = 0xC0 ∨ x &&& 0x80 = 0 := by decide +kernel
    rcases hb b0 h6 with h7 | h7
    · rw [((C157_flags b0 t).1 h7).1] at h1
      cases h1
      exact hc (Subtype.ext (h2.unique gRep_identity))
    · rw [((C157_flags b0 t).2.2.2.2 h7).1] at h1
      cases h1
  · have hu : ∀ x : UInt8, x &&& 0xC0 = 0xC0 →
        Accum.unmarshalPair dec1 blsCd (x :: List.replicate 47 0 ++ blsCd.enc 1) = .ok (0, 1) := by
      intro x hx
      have he : (blsCd.enc 1).length = 32 := beBytes_length 32 _
      have hd : dec1 (x :: List.replicate 47 0) = some 0 := dec1_ok ((C157_flags x _).1 hx).1 gRep_identity
      rw [Accum.unmarshalPair, Go.guard_true (by rw [List.length_append, he]; rfl), Go.ok_bind,
        List.take_left' (by rfl), List.drop_left' (by rfl), hd, blsCd.dec_enc]
      rfl
    refine ⟨_, _, ?_, hu 0xC0 (by decide), hu 0xE0 (by decide)⟩
    intro h
    have := (List.cons.inj h).1
    revert this
    decide

/-! ## The premises can be met -/

section
open Classical Bbs

/-- the secret key 5 signs the message 7, and `Verify` accepts -/
example : ∃ sig, Bbs.sign (fun _ => (2 : ZMod blsr) • gS1) enc1u blsCd gS1 (fun _ => (6, 2)) 5 ⟨gS1, 1, []⟩ [7] = .ok sig ∧
    Bbs.verify (fun _ => (2 : ZMod blsr) • gS1) gS1 gS2 (pair T) (Bbs.publicKey gS2 (5 : ZMod blsr)) sig ⟨gS1, 1, []⟩ [7] = .ok () := by
  have hg : GensAre (fun _ => (2 : ZMod blsr) • gS1) ⟨gS1, 1, []⟩ ([7] : List (ZMod blsr)).length [(2 : ZMod blsr) • gS1] := by
    refine ⟨rfl, fun i hi => ?_⟩
    obtain rfl : i = 0 := by simpa using hi
    rfl
  obtain ⟨sig, h⟩ := (C67_sign_decision (fun _ => (2 : ZMod blsr) • gS1) enc1u blsCd gS1 (fun _ => (6, 2)) 5 ⟨gS1, 1, []⟩ [7]).2
    ⟨by simp, by simp, by decide +kernel, by show (6 : ZMod blsr) + 5 ≠ 0; decide +kernel⟩
  refine ⟨sig, h, ((C197_bbs T (fun _ => (2 : ZMod blsr) • gS1) 5 ⟨gS1, 1, []⟩ [7] _ hg).2 _ sig h).2 ?_⟩
  have hs : sig.s = 2 := by
    unfold Bbs.sign at h
    simp only [Go.bind_eq_ok] at h
    obtain ⟨-, -, -, -, -, -, b, -, -, -, h⟩ := h
    exact (congrArg Signature.s (Except.ok.inj h)).symm
  rw [hs]
  intro h0
  have h1 : specB gS1 gS1 [(2 : ZMod blsr) • gS1] (2 : ZMod blsr) [7] = (17 : ZMod blsr) • gS1 := by
    simp only [specB, List.zipWith_cons_cons, List.zipWith_nil_right, List.sum_cons, List.sum_nil]
    module
  rw [h1] at h0
  exact absurd ((C197_groups T).2.2.1 _ h0) (by decide +kernel)

/-- the witness of the element 3 in the accumulator `8·G`, with the secret key 5, is the generator -/
example : (⟨some gS1, some 3⟩ : Accum.Witness (ZMod blsr) S1).verify gS2 (pair T) (some (Accum.publicKey gS2 (5 : ZMod blsr)))
    (some ((8 : ZMod blsr) • gS1)) = .ok () :=
  ((C197_accumulator T 5).1 _ _).2 ⟨gS1, 3, _, rfl, rfl, (C168_nondegenerate T).2.2.1, by decide +kernel, by decide +kernel,
    fun h => absurd ((C197_groups T).2.2.1 _ h) (by decide +kernel), by norm_num⟩

end

end Verif.Inst
