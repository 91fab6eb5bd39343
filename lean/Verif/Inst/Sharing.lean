import Verif.Inst.Bulletproof
import Verif.Sharing.Props
import Verif.Inst.Frost

/-!
# C225: verifiable sharing on the curves of the library

The theorems on Feldman and Pedersen sharing taken at secp256k1, P-256, Ed25519 and both groups of BLS12-381, with the scalars as these
curves encode them.  Pallas is left out: it does not read back all of the scalars it writes (C215).
-/

namespace Verif.Inst
open Verif.Native Verif.Primes Verif.Sharing Verif.Bls381 Verif.Ed25519 Verif.Curves.Ed

/-- what a user of verifiable sharing relies on, for the scalars `cd` and all generators -/
structure SharingHolds {q : ℕ} [Fact q.Prime] {G : Type} [AddCommGroup G] [Module (ZMod q) G] [DecidableEq G] (cd : ScalarCodec (ZMod q)) :
    Prop where
  /-- a share passes the check of Feldman exactly if it is the value of the dealer's polynomial, and not zero -/
  feldman : ∀ (g : G), g ≠ 0 → ∀ (s : Shamir) (secret : ZMod q) (rnd : ℕ → ZMod q) (c : List G) (shares : List Share),
    feldmanSplit cd g s secret rnd = .ok (c, shares) → ∀ sh, feldmanVerify cd g c (some sh) = .ok () ↔
      sh.id ≠ 0 ∧ dealt s.threshold.toNat secret rnd (sh.id.toNat : ZMod q) ≠ 0 ∧
      sh.value = cd.enc (dealt s.threshold.toNat secret rnd (sh.id.toNat : ZMod q))
  /-- as many shares as the threshold that pass the check combine to the secret, and in the exponent to its multiple of the generator -/
  combine : ∀ (g : G), g ≠ 0 → ∀ (t n : UInt32) (s : Shamir), newShamir t n true = .ok s → ∀ (secret : ZMod q) (rnd : ℕ → ZMod q) (c : List G)
    (shares : List Share), feldmanSplit cd g s secret rnd = .ok (c, shares) → ∀ sel : List Share,
    (∀ sh ∈ sel, feldmanVerify cd g c (some sh) = .ok ()) → (∀ sh ∈ sel, sh.id ≤ n) → (sel.map Share.id).Nodup → t.toNat ≤ sel.length →
    Sharing.combine cd s (sel.map some) = .ok secret ∧ combinePoints cd g s (sel.map some) = .ok (secret • g)
  /-- two openings of one Pedersen share give the logarithm of the second generator -/
  binding : ∀ (g h : G), g ≠ 0 → ∀ (c : List G) (sh bsh sh' bsh' : Share), pedersenVerify cd g h c (some sh) (some bsh) = .ok () →
    pedersenVerify cd g h c (some sh') (some bsh') = .ok () → sh.id = sh'.id → sh.value ≠ sh'.value → ∃ a : ZMod q, h = a • g
  /-- one share fewer than the threshold and the commitments of Pedersen fit every secret -/
  hides : ∀ (g h : G), g ≠ 0 → h ≠ 0 → ∀ (t n : UInt32) (s : Shamir), newShamir t n true = .ok s → ∀ (secret secret' : ZMod q)
    (rnd : ℕ → ZMod q) (r : PedersenResult (ZMod q) G), pedersenSplit cd g h s secret rnd = .ok r → ∀ (k : ℕ), k + 1 = t.toNat →
    ∀ ids : Fin k → UInt32, Function.Injective ids → (∀ i, 1 ≤ (ids i).toNat ∧ (ids i).toNat ≤ n.toNat) →
    ∃ rnd' r', pedersenSplit cd g h s secret' rnd' = .ok r' ∧ r'.pedersen = r.pedersen ∧ ∀ i sh, sh.id = ids i →
      ((sh ∈ r.secretShares ↔ sh ∈ r'.secretShares) ∧ (sh ∈ r.blindingShares ↔ sh ∈ r'.blindingShares))

section
variable {q : ℕ} [hp : Fact q.Prime] {G : Type} [AddCommGroup G] [Module (ZMod q) G] [DecidableEq G]

omit [DecidableEq G] in
theorem smul_cancel {g : G} (hg : g ≠ 0) (r : ZMod q) (h : r • g = 0) : r = 0 := (smul_eq_zero.1 h).resolve_right hg

omit [DecidableEq G] in
theorem cyclic_of_card (h : Nat.card G = q) {g x : G} (hg : g ≠ 0) : ∃ a : ZMod q, x = a • g := by
  obtain ⟨n, hn⟩ := mem_multiples_of_prime_card h (g := g) (g' := x) hg
  exact ⟨n, by rw [← hn, Nat.cast_smul_eq_nsmul (ZMod q)]⟩

omit [DecidableEq G] in
theorem cyclic_of_gen {b : G} (hb : ∀ x : G, ∃ a : ZMod q, x = a • b) {g x : G} (hg : g ≠ 0) : ∃ a : ZMod q, x = a • g := by
  obtain ⟨u, rfl⟩ := hb g
  obtain ⟨v, rfl⟩ := hb x
  have hu : u ≠ 0 := fun h => hg (by rw [h, zero_smul])
  exact ⟨v * u⁻¹, by rw [smul_smul, mul_assoc, inv_mul_cancel₀ hu, mul_one]⟩

theorem sharing_holds (h255 : 255 < q) (cd : ScalarCodec (ZMod q)) (hcyc : ∀ {g x : G}, g ≠ 0 → ∃ a : ZMod q, x = a • g) :
    SharingHolds (G := G) cd where
  feldman g hg s secret rnd c shares h sh := C06_feldman_verify_iff cd g (smul_cancel hg) s secret rnd c shares h sh
  combine g hg t n s hs secret rnd c shares h sel h1 h2 h3 h4 := by
    have hF := byteInj_zmod q h255
    have := C06_feldman_combine hF cd g (smul_cancel hg) hs secret rnd c shares h sel h1 h2 h3 h4
    refine ⟨this, ?_⟩
    rw [C04_combinePoints hF cd g hs, this]
    rfl
  binding g h hg c sh bsh sh' bsh' h1 h2 h3 h4 := by
    obtain ⟨y, b, y', b', -, -, -, -, e⟩ := C07_pedersen_binding cd g h (smul_cancel hg) c sh bsh sh' bsh' h1 h2 h3 h4
    exact ⟨_, e⟩
  hides g h hg hh t n s hs secret secret' rnd r hsp k hk ids hi hid := by
    obtain ⟨a, rfl⟩ := hcyc (x := h) hg
    exact C07_pedersen_hiding (byteInj_zmod q h255) cd g (a • g) a (fun h0 => hh (by rw [h0, zero_smul])) rfl hs secret secret' rnd r hsp hk ids hi hid

end

/-- the scalars of Ed25519 and BLS12-381 -/
def edCd : ScalarCodec (ZMod edl) := leCodec32 edl (by decide) edl_le32
def blsScCd : ScalarCodec (ZMod blsr) := beCodec blsr (by decide) blsr_le

open Classical in
/-- C225: sharing holds on secp256k1, P-256, Ed25519 and both groups of BLS12-381 -/
theorem C225_curves : SharingHolds (G := K256.Group) k256Cd ∧ SharingHolds (G := P256.Group) p256Cd ∧
    SharingHolds (G := primeSub) edCd ∧ SharingHolds (G := S1) blsScCd ∧ SharingHolds (G := S2) blsScCd := by
  refine ⟨sharing_holds (by decide) _ fun hg => cyclic_of_card C169_k256_card.2 hg,
    sharing_holds (by decide) _ fun hg => cyclic_of_card C169_p256_card.2 hg,
    sharing_holds (by decide) _ fun hg => cyclic_of_gen (b := baseS) ?_ hg,
    sharing_holds (by decide) _ fun hg => cyclic_of_gen (b := gS1) (fun x => (C197_cyclic.1 x).exists) hg,
    sharing_holds (by decide) _ fun hg => cyclic_of_gen (b := gS2) (fun x => (C197_cyclic.2 x).exists) hg⟩
  intro x
  obtain ⟨k, hk⟩ := (C179_subgroup (x : EdPt)).1 x.2
  refine ⟨(k : ZMod edl), Subtype.ext ?_⟩
  rw [Nat.cast_smul_eq_nsmul, hk]
  rfl

/-- the secret 5 with threshold 2 among 3 on secp256k1: dealt, and the first two shares are not zero -/
example (g : K256.Group) : ∃ r : List K256.Group × List Share, feldmanSplit k256Cd g ⟨2, 3⟩ 5 (fun _ => 7) = .ok r ∧
    newShamir 2 3 true = .ok ⟨2, 3⟩ ∧ dealt 2 (5 : ZMod k256q) (fun _ => 7) 1 ≠ 0 :=
  ⟨_, feldmanSplit_eq_ok.2 ⟨by decide +kernel, by decide, rfl⟩, rfl, by decide +kernel⟩

end Verif.Inst
