import Verif.Ted.FrostSignLemmas
import Verif.Dkg.FrostProps
import Verif.Sharing.Props
import Verif.Common.Toy

/-!
# Properties of FROST signing (C27, C28, C29, C93)
-/

set_option linter.unusedSectionVars false

namespace Verif.FrostSign

open Verif.Frost (mapGet)

variable {F : Type} [Field F] [DecidableEq F]
variable {G : Type} [AddCommGroup G] [Module F G] [DecidableEq G]

/-! ## C27: honest runs -/

/-- the binding factor of signer `j` as the protocol defines it -/
def factor (hs : List UInt8 → F) (penc : G → List UInt8) (cos : List UInt32) (msg : List UInt8)
    (D E : UInt32 → G) (j : UInt32) : F :=
  hs (j.toUInt8 :: (msg ++ (cos.map fun k => k.toUInt8 :: (penc (D k) ++ penc (E k))).flatten))

/-- An honest execution of the signers `T` up to the delivery of the round 1 messages: exactly
threshold many signers, created with the same cosigner list, with Lagrange coefficients `L` that
recombine the key; everybody receives exactly the round 1 messages of all of `T` (in any order). -/
structure Honest (g : G) (T : Finset UInt32) (t : UInt32) (cos : List UInt32)
    (lc : UInt32 → List (UInt32 × F)) (L sk d e : UInt32 → F) (vk : G)
    (st0 st1 : UInt32 → Signer F G) (cm : UInt32 → Commit G)
    (inp : UInt32 → List (UInt32 × Option (Commit G))) : Prop where
  card : T.card = t.toNat
  cos_mem : ∀ j ∈ cos, j ∈ T
  lc_get : ∀ i ∈ T, ∀ j ∈ T, (lc i).lookup j = some (L j)
  key : ∑ i ∈ T, (L i * sk i) • g = vk
  new : ∀ i ∈ T, newSigner (sk i) (sk i • g) vk i t (lc i) cos = .ok (st0 i)
  r1 : ∀ i ∈ T, round1 g (st0 i) (d i) (e i) = (st1 i, .ok (cm i))
  inp_nodup : ∀ i ∈ T, ((inp i).map Prod.fst).Nodup
  inp_mem : ∀ i ∈ T, ∀ j x, (j, x) ∈ inp i ↔ j ∈ T ∧ x = some (cm j)

/-- `m` delivers exactly one message `f j` of every `j ∈ T` -/
def Delivers {V : Type} (T : Finset UInt32) (f : UInt32 → V) (m : List (UInt32 × Option V)) : Prop :=
  (m.map Prod.fst).Nodup ∧ ∀ j x, (j, x) ∈ m ↔ j ∈ T ∧ x = some (f j)

section
variable {g : G} {T : Finset UInt32} {t : UInt32} {cos : List UInt32}
  {lc : UInt32 → List (UInt32 × F)} {L sk d e : UInt32 → F} {vk : G}
  {st0 st1 : UInt32 → Signer F G} {cm : UInt32 → Commit G}
  {inp : UInt32 → List (UInt32 × Option (Commit G))}

/-- what round 2 does in an honest run -/
theorem honest_round2 (hg : ∀ r : F, r • g = 0 → r = 0)
    (H : Honest g T t cos lc L sk d e vk st0 st1 cm inp)
    (hs : List UInt8 → F) (chal : List UInt8 → G → G → Go F) (isNeg : G → Bool)
    (penc : G → List UInt8) (msg : List UInt8) (hm : msg ≠ [])
    (hd : ∀ i ∈ T, d i ≠ 0) (he : ∀ i ∈ T, e i ≠ 0) (r : UInt32 → F)
    (hr : r = factor hs penc cos msg (fun k => d k • g) fun k => e k • g)
    (R : G) (hR : R = ∑ j ∈ T, (r j • e j • g + d j • g))
    (c : F) (hc : chal msg vk R = .ok c) (i : UInt32) (hi : i ∈ T) :
    ∃ st2, round2 hs chal isNeg penc (st1 i) msg (inp i) = (st2, .ok
        ⟨L i * sk i * c + (if isNeg R then -e i else e i) * r i +
          (if isNeg R then -d i else d i), sk i • g⟩) ∧
      st2.commitments = some (inp i) ∧ st2.c = some c ∧ st2.sumR = some R ∧
      (∀ j ∈ T, st2.capRs.lookup j = some (r j • e j • g + d j • g)) ∧ st2.round = 3 ∧
      st2.msg = msg ∧ st2.smallD = some 0 ∧ st2.smallE = some 0 ∧ st2.lCoeffs = lc i ∧
      st2.vk = vk ∧ st2.threshold = t := by
  obtain ⟨_, _, _, _, _, h0⟩ := newSigner_eq_ok.1 (H.new i hi)
  obtain ⟨_, _, h1⟩ := round1_eq_ok.1 (H.r1 i hi)
  have hcm : ∀ j ∈ T, cm j = ⟨d j • g, e j • g⟩ := fun j hj => (round1_eq_ok.1 (H.r1 j hj)).2.1
  have hbs : bindings hs penc msg (st1 i).cosigners (inp i) = .ok ((inp i).map fun x =>
      (x.1, r x.1, r x.1 • e x.1 • g + d x.1 • g)) := by
    rw [bindings_eq_ok, List.forall₂_map_right_iff, List.forall₂_same]
    rintro ⟨j, x⟩ hx
    obtain ⟨hj, rfl⟩ := (H.inp_mem i hi j x).1 hx
    refine ⟨cm j, _, rfl, blob_eq_ok (cm := cm) ?_, ?_⟩
    · intro k hk
      rw [h1, h0] at hk
      unfold mapGet
      rw [lookup_of_graph (f := fun j => some (cm j)) (H.inp_mem i hi) (H.cos_mem k hk)]
      rfl
    · have : r j = hs (j.toUInt8 :: (msg ++ ((st1 i).cosigners.map fun j => j.toUInt8 ::
          (penc (cm j).D ++ penc (cm j).E)).flatten)) := by
        rw [hr, factor, h1, h0]
        congr 4
        refine List.map_congr_left fun k hk => ?_
        rw [hcm k (H.cos_mem k hk)]
      simp only
      rw [← this, hcm j hj]
  have hRs : (((inp i).map fun x => (x.1, r x.1, r x.1 • e x.1 • g + d x.1 • g)).map
      fun b => b.2.2).sum = R := by
    rw [List.map_map, hR, graph_sum (f := fun j => some (cm j)) (H.inp_nodup i hi) (H.inp_mem i hi)]
    rfl
  have hlen := (graph_length (f := fun j => some (cm j)) (H.inp_nodup i hi) (H.inp_mem i hi)).2
  have hlk : ((inp i).map fun x => (x.1, r x.1, r x.1 • e x.1 • g + d x.1 • g)).lookup i =
      some (r i, r i • e i • g + d i • g) := by
    refine lookup_of_graph (T := T) (f := fun i => (r i, r i • e i • g + d i • g)) ?_ hi
    intro j x
    rw [List.mem_map]
    constructor
    · rintro ⟨y, hy, h⟩
      cases h
      exact ⟨((H.inp_mem i hi y.1 y.2).1 hy).1, rfl⟩
    · rintro ⟨hj, rfl⟩
      exact ⟨(j, some (cm j)), (H.inp_mem i hi _ _).2 ⟨hj, rfl⟩, rfl⟩
  refine ⟨_, round2_eq_ok.2 ⟨d i, e i, _, c, L i, r i,
    r i • e i • g + d i • g, by rw [h1], by rw [h1], hd i hi, he i hi, hm,
    by rw [h1], ?_, ?_, hbs, ?_, ?_, ?_, ?_, rfl⟩, rfl, rfl, ?_, ?_, rfl, rfl, rfl, rfl, ?_, ?_, ?_⟩
  · rw [hlen, H.card, h1, h0]
    simp
  · rintro ⟨j, x⟩ hx
    obtain ⟨hj, rfl⟩ := (H.inp_mem i hi j x).1 hx
    refine ⟨cm j, rfl, ?_, ?_⟩
    · rw [hcm j hj]; exact fun h => hd j hj (hg _ h)
    · rw [hcm j hj]; exact fun h => he j hj (hg _ h)
  · rw [hRs, h1, h0]; exact hc
  · rw [h1, h0]; exact H.lc_get i hi i hi
  · rw [h1, h0]; exact hlk
  · rw [hRs, h1, h0]
  · simp only [hRs]
  · intro j hj
    simp only [List.map_map]
    refine lookup_of_graph (T := T) (f := fun i => r i • e i • g + d i • g) ?_ hj
    intro j x
    rw [List.mem_map]
    constructor
    · rintro ⟨y, hy, h⟩
      cases h
      exact ⟨((H.inp_mem i hi y.1 y.2).1 hy).1, rfl⟩
    · rintro ⟨hj, rfl⟩
      exact ⟨(j, some (cm j)), (H.inp_mem i hi _ _).2 ⟨hj, rfl⟩, rfl⟩
  · rw [h1, h0]
  · rw [h1, h0]
  · rw [h1, h0]

/-- Every honest signing run ends with the same signature at all signers and `Verify` accepts it,
provided the challenge of the common commitment `R` exists and — when `R` is "negative" — the
challenge does not depend on the sign of `R` (see `C93_negative_commitment`). -/
theorem C27_honest_run (hg : ∀ r : F, r • g = 0 → r = 0)
    (H : Honest g T t cos lc L sk d e vk st0 st1 cm inp)
    (hs : List UInt8 → F) (chal : List UInt8 → G → G → Go F) (isNeg : G → Bool)
    (penc : G → List UInt8) (msg : List UInt8) (hm : msg ≠ [])
    (hd : ∀ i ∈ T, d i ≠ 0) (he : ∀ i ∈ T, e i ≠ 0)
    (R : G) (hR : R = ∑ j ∈ T, (factor hs penc cos msg (fun k => d k • g) (fun k => e k • g) j •
      e j • g + d j • g))
    (c : F) (hc : chal msg vk R = .ok c) (hneg : isNeg R = true → chal msg vk (-R) = .ok c) :
    ∃ (st2 : UInt32 → Signer F G) (resp : UInt32 → Resp F G) (z : F),
      (∀ i ∈ T, round2 hs chal isNeg penc (st1 i) msg (inp i) = (st2 i, .ok (resp i))) ∧
      (∀ i ∈ T, ∀ inp3, Delivers T resp inp3 →
        ∃ st3, round3 g chal isNeg (st2 i) (some inp3) = (st3, .ok ⟨R, z, c, msg⟩)) ∧
      verify g chal vk msg z c = .ok true ∧
      z • g = (if isNeg R then -R else R) + c • vk := by
  set r := factor hs penc cos msg (fun k => d k • g) fun k => e k • g with hr
  have : Nonempty (Signer F G) := ⟨st0 0⟩
  choose! st2 h2 hcm2 hc2 hR2 hcap hrd hmsg hD hE hlc hvk ht using
    honest_round2 hg H hs chal isNeg penc msg hm hd he r hr R hR c hc
  set z : UInt32 → F := fun i => L i * sk i * c + (if isNeg R then -e i else e i) * r i +
          (if isNeg R then -d i else d i) with hz
  have hzi : ∀ i, z i • g = (c * L i) • sk i • g +
      (if isNeg R then -(r i • e i • g + d i • g) else r i • e i • g + d i • g) := by
    intro i
    simp only [hz]
    split <;> module
  have hzs : (∑ i ∈ T, z i) • g = (if isNeg R then -R else R) + c • vk := by
    rw [Finset.sum_smul, Finset.sum_congr rfl fun i _ => hzi i, Finset.sum_add_distrib, add_comm,
      ← H.key, Finset.smul_sum]
    congr 1
    · split
      · rw [Finset.sum_neg_distrib, hR]
      · rw [hR]
    · refine Finset.sum_congr rfl fun i _ => ?_
      module
  have hfin : chal msg vk ((∑ i ∈ T, z i) • g + (-c) • vk) = .ok c := by
    rw [hzs, show (if isNeg R then -R else R) + c • vk + (-c) • vk = if isNeg R then -R else R by
      module]
    split
    · exact hneg ‹_›
    · exact hc
  refine ⟨st2, fun i => ⟨z i, sk i • g⟩, ∑ i ∈ T, z i, h2, ?_, verify_eq_ok.2 ⟨hm, hfin, rfl⟩, hzs⟩
  intro i hi inp3 hdel
  have hlen3 := (graph_length (f := fun j => some (⟨z j, sk j • g⟩ : Resp F G)) hdel.1 hdel.2).2
  have hlen2 := (graph_length (f := fun j => some (cm j)) (H.inp_nodup i hi) (H.inp_mem i hi)).2
  refine ⟨_, round3_eq_ok.2 ⟨inp3, inp i, c, R, rfl, hD i hi, hE i hi, by rw [hmsg i hi]; exact hm,
    ?_, hcm2 i hi, by rw [hlen2, hlen3], hrd i hi, ?_, hc2 i hi, hR2 i hi, ?_, ?_, ?_, rfl⟩⟩
  · rintro ⟨j, x⟩ hx
    obtain ⟨_, rfl⟩ := (hdel.2 j x).1 hx
    rfl
  · rw [hlen3, H.card, ht i hi]; simp
  · rw [round3Loop_eq_ok]
    constructor
    · rintro ⟨j, x⟩ hx
      obtain ⟨hj, rfl⟩ := (hdel.2 j x).1 hx
      refine ⟨_, L j, _, rfl, ?_, hcap i hi j hj, hzi j⟩
      rw [hlc i hi]; exact H.lc_get i hi j hj
    · rw [zero_add, graph_sum (f := fun j => some (⟨z j, sk j • g⟩ : Resp F G)) hdel.1 hdel.2]
      rfl
  · rw [hmsg i hi, hvk i hi]; exact hfin
  · rw [hmsg i hi]

/-- If the common commitment is "negative" and its negation has another challenge, then every signer
of an honest run fails in round 3, whatever the nonces. -/
theorem C93_negative_commitment (hg : ∀ r : F, r • g = 0 → r = 0)
    (H : Honest g T t cos lc L sk d e vk st0 st1 cm inp)
    (hs : List UInt8 → F) (chal : List UInt8 → G → G → Go F) (isNeg : G → Bool)
    (penc : G → List UInt8) (msg : List UInt8) (hm : msg ≠ [])
    (hd : ∀ i ∈ T, d i ≠ 0) (he : ∀ i ∈ T, e i ≠ 0)
    (R : G) (hR : R = ∑ j ∈ T, (factor hs penc cos msg (fun k => d k • g) (fun k => e k • g) j •
      e j • g + d j • g))
    (c : F) (hc : chal msg vk R = .ok c) (hneg : isNeg R = true)
    (hne : chal msg vk (-R) ≠ .ok c) :
    ∃ (st2 : UInt32 → Signer F G) (resp : UInt32 → Resp F G),
      (∀ i ∈ T, round2 hs chal isNeg penc (st1 i) msg (inp i) = (st2 i, .ok (resp i))) ∧
      ∀ i ∈ T, ∀ inp3, Delivers T resp inp3 →
        ∃ f, (round3 g chal isNeg (st2 i) (some inp3)).2 = .error f := by
  set r := factor hs penc cos msg (fun k => d k • g) fun k => e k • g with hr
  have : Nonempty (Signer F G) := ⟨st0 0⟩
  choose! st2 h2 hcm2 hc2 hR2 hcap hrd hmsg hD hE hlc hvk ht using
    honest_round2 hg H hs chal isNeg penc msg hm hd he r hr R hR c hc
  refine ⟨st2, _, h2, ?_⟩
  simp only [hneg, if_true]
  intro i hi inp3 hdel
  cases hx : (round3 g chal isNeg (st2 i) (some inp3)).2 with
  | error f => exact ⟨f, rfl⟩
  | ok sig =>
    exfalso
    obtain ⟨inp', cm', c', R', hi', _, _, _, _, _, _, _, _, hc', hR', hl, hch, _, _⟩ :=
      round3_eq_ok.1 (Prod.ext rfl hx)
    cases hi'
    rw [hc2 i hi] at hc'
    cases hc'
    rw [hR2 i hi] at hR'
    cases hR'
    rw [round3Loop_eq_ok] at hl
    rw [hl.2, zero_add, graph_sum (f := fun j => some (_ : Resp F G)) hdel.1 hdel.2, hmsg i hi,
      hvk i hi, Finset.sum_smul] at hch
    refine hne ?_
    rw [← hch, ← H.key, hR]
    congr 1
    simp only [Option.map_some, Option.getD_some]
    rw [Finset.smul_sum, ← Finset.sum_add_distrib, ← Finset.sum_neg_distrib]
    refine Finset.sum_congr rfl fun j _ => ?_
    module

end

/-- identifiers in an honest key generation are bytes -/
theorem dkg_ids_le {cd : ScalarCodec F} {g : G} {penc : G → List UInt8}
    {hs : List UInt8 → F} {S : Frost.Setup F G} {st0 st1 : UInt32 → Frost.State F G}
    {b : UInt32 → Frost.Bcast F G} {p : UInt32 → List (UInt32 × Option Sharing.Share)}
    (H : Frost.HonestRound1 cd g penc hs S st0 st1 b p) (i : UInt32) (hi : i ∈ S.ids) :
    i.toNat ≤ 255 := by
  obtain ⟨_, hlen0, htle, ht2, _, _⟩ := Frost.newDkgParticipant_eq_ok.1 (H.new i hi)
  obtain ⟨j, hj⟩ : ∃ j, j ∈ S.others i := by
    cases ho : S.others i with
    | nil =>
      rw [ho, UInt32.le_iff_toNat_le] at htle
      rw [UInt32.le_iff_toNat_le] at ht2
      have e1 : (UInt32.ofNat ([] : List UInt32).length + 1).toNat = 1 := rfl
      have e2 : (2 : UInt32).toNat = 2 := rfl
      omega
    | cons j _ => exact ⟨j, List.mem_cons_self⟩
  obtain ⟨hj, hji⟩ := (H.others_mem i hi j).1 hj
  obtain ⟨_, _, _, _, h5, h6⟩ := Frost.newDkgParticipant_eq_ok.1 (H.new j hj)
  have hio : i ∈ (st0 j).others := by
    rw [h6]
    simp only
    rw [(H.others_nodup j hj).dedup, H.others_mem j hj]
    exact ⟨hi, hji.symm⟩
  obtain ⟨_, s, _, _, _, _, _, _, hra, _⟩ := Frost.round1_eq_ok (H.r1 j hj)
  have h7 := (hra i hio).2
  have h8 : (st0 j).feldman.limit ≤ 255 := by rw [h6]; exact h5
  rw [UInt32.le_iff_toNat_le] at h7 h8
  have e255 : (255 : UInt32).toNat = 255 := rfl
  omega

/-- Keys of an honest FROST key generation together with `LagrangeCoeffs` of the signer list are
valid inputs: for every choice of threshold many participants, every list order and all nonces, the
signers are created, round 1 succeeds, and any delivery of the round 1 messages is an honest run in
the sense of `C27_honest_run` with the common verification key of the key generation. -/
theorem C27_from_dkg (hF : ByteInj F) (cd : ScalarCodec F) (g : G) (penc : G → List UInt8)
    (hs : List UInt8 → F) (S : Frost.Setup F G) (st0 st1 st2 : UInt32 → Frost.State F G)
    (b : UInt32 → Frost.Bcast F G) (p : UInt32 → List (UInt32 × Option Sharing.Share))
    (out : UInt32 → Frost.Bcast2 G) (H : Frost.HonestRun cd g penc hs S st0 st1 st2 b p out)
    (cos : List UInt32) (hnd : cos.Nodup) (hcos : ∀ i ∈ cos, i ∈ S.ids)
    (hlen : cos.length = S.t.toNat) (hne : cos ≠ []) :
    ∃ (coeffs : List (UInt32 × F)) (L sk : UInt32 → F) (vk : G),
      Sharing.lagrangeCoeffs cos = .ok coeffs ∧
      (∀ i ∈ cos, (st2 i).skShare = some (sk i) ∧ (st2 i).vkShare = some (sk i • g) ∧
        (st2 i).verificationKey = some vk) ∧
      ∀ d e : UInt32 → F, ∃ (s0 s1 : UInt32 → Signer F G) (cm : UInt32 → Commit G),
        (∀ i ∈ cos, newSigner (sk i) (sk i • g) vk i S.t coeffs cos = .ok (s0 i)) ∧
        (∀ i ∈ cos, round1 g (s0 i) (d i) (e i) = (s1 i, .ok (cm i))) ∧
        ∀ inp, (∀ i ∈ cos, Delivers cos.toFinset cm (inp i)) →
          Honest g cos.toFinset S.t cos (fun _ => coeffs) L sk d e vk s0 s1 cm inp := by
  obtain ⟨s, sk, _, hkey, hint⟩ := Frost.C22_honest_run hF cd g penc hs S st0 st1 st2 b p out H
  set L := fun i => lag0 cos.toFinset (fun j : UInt32 => ((j.toNat : ℕ) : F)) i with hL
  have hle : ∀ i ∈ cos, i.toNat ≤ 255 := fun i hi => dkg_ids_le H.toHonestRound1 i (hcos i hi)
  have hcoef := Sharing.lagrangeCoeffs_eq hF cos hle
  rw [hnd.dedup] at hcoef
  have hcard : cos.toFinset.card = cos.length := List.toFinset_card_of_nodup hnd
  refine ⟨_, L, sk, (∑ j ∈ S.ids, s j) • g, hcoef, fun i hi => ?_, fun d e => ?_⟩
  · obtain ⟨_, h2, h3, h4, _⟩ := hkey i (hcos i hi)
    exact ⟨h3, h4, h2⟩
  · have hn : ∀ i ∈ cos, newSigner (sk i) (sk i • g) ((∑ j ∈ S.ids, s j) • g) i S.t
        (cos.map fun i => (i, L i)) cos = .ok _ := fun i hi => newSigner_eq_ok.2
      ⟨by simpa using hne, by simpa using hne, by rw [hlen]; simp, by simp, by
        intro j hj; rw [List.map_map]; exact List.mem_map.2 ⟨j, hj, rfl⟩, rfl⟩
    have hr : ∀ i ∈ cos, round1 g _ (d i) (e i) = (_, .ok _) :=
      fun i hi => (round1_eq_ok (g := g) (st := {
          skShare := sk i, vkShare := sk i • g, vk := (∑ j ∈ S.ids, s j) • g, id := i
          threshold := S.t, round := 1, lCoeffs := cos.map fun i => (i, L i), cosigners := cos }) (d := d i)
        (e := e i)).2 ⟨rfl, rfl, rfl⟩
    refine ⟨_, _, _, hn, hr, fun inp hinp => ⟨?_, ?_, ?_, ?_, ?_, ?_, ?_, ?_⟩⟩
    · rw [hcard, hlen]
    · intro j hj; exact List.mem_toFinset.2 hj
    · intro i _ j hj
      refine lookup_of_graph (T := cos.toFinset) (f := L) ?_ hj
      intro k x
      rw [List.mem_map, List.mem_toFinset]
      constructor
      · rintro ⟨y, hy, h⟩; cases h; exact ⟨hy, rfl⟩
      · rintro ⟨hk, rfl⟩; exact ⟨k, hk, rfl⟩
    · rw [← Finset.sum_smul]
      congr 1
      refine Eq.trans ?_ (hint cos.toFinset (fun i hi => hcos i (List.mem_toFinset.1 hi))
        (by rw [hcard, hlen]))
      rfl
    · intro i hi; exact hn i (List.mem_toFinset.1 hi)
    · intro i hi; exact hr i (List.mem_toFinset.1 hi)
    · intro i hi; exact (hinp i (List.mem_toFinset.1 hi)).1
    · intro i hi; exact (hinp i (List.mem_toFinset.1 hi)).2

/-! ## C28: nonces are used at most once -/

/-- a call on a signer -/
inductive Op (F G : Type)
  | r1 (d e : F)
  | r2 (msg : List UInt8) (input : List (UInt32 × Option (Commit G)))
  | r3 (input : Option (List (UInt32 × Option (Resp F G))))

/-- what a successful call reveals -/
inductive Ev (F G : Type)
  | commit (cm : Commit G)
  | resp (r : Resp F G)
  | sig (s : Sig F G)

/-- kind of an event -/
inductive Kind
  | r1 | r2 | r3
  deriving DecidableEq

def Ev.kind : Ev F G → Kind
  | .commit _ => .r1
  | .resp _ => .r2
  | .sig _ => .r3

/-- executes one call (a failing or panicking call may change the state, too) -/
def step (g : G) (hs : List UInt8 → F) (chal : List UInt8 → G → G → Go F) (isNeg : G → Bool)
    (penc : G → List UInt8) (st : Signer F G) : Op F G → Signer F G × List (Ev F G)
  | .r1 d e => match round1 g st d e with
    | (s, .ok c) => (s, [.commit c])
    | (s, .error _) => (s, [])
  | .r2 m i => match round2 hs chal isNeg penc st m i with
    | (s, .ok c) => (s, [.resp c])
    | (s, .error _) => (s, [])
  | .r3 i => match round3 g chal isNeg st i with
    | (s, .ok c) => (s, [.sig c])
    | (s, .error _) => (s, [])

/-- all outputs of a history -/
def run (g : G) (hs : List UInt8 → F) (chal : List UInt8 → G → G → Go F) (isNeg : G → Bool)
    (penc : G → List UInt8) : Signer F G → List (Op F G) → Signer F G × List (Ev F G)
  | st, [] => (st, [])
  | st, op :: ops =>
    let r := step g hs chal isNeg penc st op
    let r' := run g hs chal isNeg penc r.1 ops
    (r'.1, r.2 ++ r'.2)

theorem round2_error_round {hs : List UInt8 → F} {chal : List UInt8 → G → G → Go F}
    {isNeg : G → Bool} {penc : G → List UInt8} {st st' : Signer F G} {m : List UInt8}
    {i : List (UInt32 × Option (Commit G))} {f : Fail}
    (h : round2 hs chal isNeg penc st m i = (st', .error f)) :
    st'.round = st.round ∧ (st.round ≠ 2 → st' = st) := by
  unfold round2 at h
  split at h
  case h_2 => cases h; exact ⟨rfl, fun _ => rfl⟩
  split at h
  · cases h; exact ⟨rfl, fun _ => rfl⟩
  rename_i hg
  push Not at hg
  dsimp only at h
  refine ⟨?_, fun h2 => absurd hg.2.2.2.1 h2⟩
  repeat' split at h
  all_goals cases h
  all_goals rfl

theorem round3_error {g : G} {chal : List UInt8 → G → G → Go F}
    {isNeg : G → Bool} {st st' : Signer F G}
    {i : Option (List (UInt32 × Option (Resp F G)))} {f : Fail}
    (h : round3 g chal isNeg st i = (st', .error f)) : st' = st := by
  unfold round3 at h
  repeat' split at h
  all_goals cases h
  all_goals rfl

/-- In every history of calls on a new signer — arbitrary inputs, failing and panicking calls
included — the outputs are a prefix of one commitment, one response, one signature, in this order; and
once a response is out the nonces are zero for ever. -/
theorem C28_at_most_one_response (g : G) (hs : List UInt8 → F)
    (chal : List UInt8 → G → G → Go F) (isNeg : G → Bool) (penc : G → List UInt8)
    (skShare : F) (vkShare vk : G) (id t : UInt32) (lc : List (UInt32 × F)) (cos : List UInt32)
    (st : Signer F G) (hst : newSigner skShare vkShare vk id t lc cos = .ok st)
    (ops : List (Op F G)) :
    ((run g hs chal isNeg penc st ops).2.map Ev.kind) <+: [Kind.r1, Kind.r2, Kind.r3] ∧
    (Kind.r2 ∈ (run g hs chal isNeg penc st ops).2.map Ev.kind →
      (run g hs chal isNeg penc st ops).1.smallD = some 0 ∧
      (run g hs chal isNeg penc st ops).1.smallE = some 0) := by
  have h1 : st.round = 1 := by obtain ⟨_, _, _, _, _, rfl⟩ := newSigner_eq_ok.1 hst; rfl
  have main : ∀ (ops : List (Op F G)) (st : Signer F G) (todo : List Kind),
      (st.round = 1 ∧ todo = [.r1, .r2, .r3]) ∨ (st.round = 2 ∧ todo = [.r2, .r3]) ∨
        ((st.round = 3 ∧ todo = [.r3] ∨ st.round = 4 ∧ todo = []) ∧
          st.smallD = some 0 ∧ st.smallE = some 0) →
      ((run g hs chal isNeg penc st ops).2.map Ev.kind) <+: todo ∧
      ((Kind.r2 ∈ (run g hs chal isNeg penc st ops).2.map Ev.kind ∨ Kind.r2 ∉ todo) →
        (run g hs chal isNeg penc st ops).1.smallD = some 0 ∧
        (run g hs chal isNeg penc st ops).1.smallE = some 0) := by
    intro ops
    induction ops with
    | nil =>
      intro st todo hinv
      refine ⟨List.nil_prefix, ?_⟩
      rintro (h | h)
      · simp [run] at h
      · rcases hinv with ⟨_, rfl⟩ | ⟨_, rfl⟩ | ⟨_, h2⟩
        · exact absurd (by simp) h
        · exact absurd (by simp) h
        · exact h2
    | cons op ops ih =>
      intro st todo hinv
      unfold run
      simp only
      cases op with
      | r1 d e =>
        simp only [step]
        split
        · rename_i s c hr
          obtain ⟨hr1, _, rfl⟩ := round1_eq_ok.1 hr
          rcases hinv with ⟨_, rfl⟩ | ⟨h, _⟩ | ⟨⟨h, _⟩ | ⟨h, _⟩, _⟩
          · have := ih { st with round := 2, smallD := some d, smallE := some e } [.r2, .r3]
              (Or.inr (Or.inl ⟨rfl, rfl⟩))
            refine ⟨by simpa [Ev.kind] using this.1, fun h => this.2 ?_⟩
            simpa [Ev.kind] using h
          · omega
          · omega
          · omega
        · rename_i s f hr
          have : s = st := by
            unfold round1 at hr; split at hr
            · cases hr; rfl
            · cases hr
          rw [this]
          simpa using ih st todo hinv
      | r2 m i =>
        simp only [step]
        split
        · rename_i s c hr
          obtain ⟨_, _, _, _, _, _, _, _, _, _, _, _, hr1, _, _, _, _, _, _, _, hs'⟩ :=
            round2_eq_ok.1 hr
          rcases hinv with ⟨h, _⟩ | ⟨_, rfl⟩ | ⟨⟨h, _⟩ | ⟨h, _⟩, _⟩
          · omega
          · have := ih s [.r3] (Or.inr (Or.inr ⟨Or.inl ⟨by rw [hs'], rfl⟩, by rw [hs'], by rw [hs']⟩))
            refine ⟨by simpa [Ev.kind] using this.1, fun _ => this.2 (Or.inr (by simp))⟩
          · omega
          · omega
        · rename_i s f hr
          obtain ⟨h2, h3⟩ := round2_error_round hr
          have hinv' : (s.round = 1 ∧ todo = [.r1, .r2, .r3]) ∨ (s.round = 2 ∧ todo = [.r2, .r3]) ∨
              ((s.round = 3 ∧ todo = [.r3] ∨ s.round = 4 ∧ todo = []) ∧
              s.smallD = some 0 ∧ s.smallE = some 0) := by
            by_cases h : st.round = 2
            · rcases hinv with h' | ⟨_, h'⟩ | ⟨h' | h', _⟩
              · omega
              · exact Or.inr (Or.inl ⟨h2.trans h, h'⟩)
              · omega
              · omega
            · rw [h3 h]; exact hinv
          simpa using ih s todo hinv'
      | r3 i =>
        simp only [step]
        split
        · rename_i s c hr
          obtain ⟨_, _, _, _, _, _, _, _, _, _, _, hr1, _, _, _, _, _, _, rfl⟩ := round3_eq_ok.1 hr
          rcases hinv with ⟨h, _⟩ | ⟨h, _⟩ | ⟨⟨_, rfl⟩ | ⟨h, _⟩, hz⟩
          · omega
          · omega
          · have := ih { st with round := 4 } [] (Or.inr (Or.inr ⟨Or.inr ⟨rfl, rfl⟩, hz⟩))
            exact ⟨by simpa [Ev.kind] using this.1, fun _ => this.2 (Or.inr (by simp))⟩
          · omega
        · rename_i s f hr
          rw [round3_error hr]
          simpa using ih st todo hinv
  have := main ops st _ (Or.inl ⟨h1, rfl⟩)
  exact ⟨this.1, fun h => this.2 (Or.inl h)⟩

/-! ## C29: only valid signatures leave round 3 -/

/-- Whatever the messages, a signature that leaves round 3 is accepted by `Verify` under the signer's
key and message; every entry satisfied its equation for the commitment of that identifier, with the
coefficient of that identifier; the response is the sum of the received ones. -/
theorem C29_round3_sound (g : G) (chal : List UInt8 → G → G → Go F) (isNeg : G → Bool)
    (st st' : Signer F G) (inp : List (UInt32 × Option (Resp F G))) (sig : Sig F G)
    (h : round3 g chal isNeg st (some inp) = (st', .ok sig)) :
    verify g chal st.vk sig.msg sig.z sig.c = .ok true ∧ sig.msg = st.msg ∧
    st.c = some sig.c ∧ st.sumR = some sig.R ∧
    UInt32.ofNat inp.length = st.threshold ∧
    (∀ x ∈ inp, ∃ r Lj Rj, x.2 = some r ∧ st.lCoeffs.lookup x.1 = some Lj ∧
      st.capRs.lookup x.1 = some Rj ∧
      r.z • g = (sig.c * Lj) • r.vk + (if isNeg sig.R then -Rj else Rj)) ∧
    sig.z = (inp.map fun x => (x.2.map Resp.z).getD 0).sum := by
  obtain ⟨_, cm, c, R, hi, _, _, hm, _, _, _, _, ht, hc, hR, hl, hch, hs, _⟩ := round3_eq_ok.1 h
  cases hi
  rw [round3Loop_eq_ok, zero_add] at hl
  obtain ⟨R', z, c', m'⟩ := sig
  simp only at hl hch
  cases hs
  exact ⟨verify_eq_ok.2 ⟨hm, hch, rfl⟩, rfl, hc, hR, ht, hl.1, hl.2⟩

/-- After a successful round 2, a successful round 3 (maps, so distinct keys) has used exactly the
identifiers of the round 2 commitments, and its signature satisfies
`z·g = ±R + c·Σ L_j·vk_j` for the common commitment `R` it returns. -/
theorem C29_signature_equation (g : G) (hs : List UInt8 → F) (chal : List UInt8 → G → G → Go F)
    (isNeg : G → Bool) (penc : G → List UInt8) (st st2 st3 : Signer F G) (msg : List UInt8)
    (inp2 : List (UInt32 × Option (Commit G))) (out : Resp F G)
    (inp3 : List (UInt32 × Option (Resp F G))) (sig : Sig F G)
    (hn2 : (inp2.map Prod.fst).Nodup) (hn3 : (inp3.map Prod.fst).Nodup)
    (h2 : round2 hs chal isNeg penc st msg inp2 = (st2, .ok out))
    (h3 : round3 g chal isNeg st2 (some inp3) = (st3, .ok sig)) :
    (∀ j, j ∈ inp3.map Prod.fst ↔ j ∈ inp2.map Prod.fst) ∧
    sig.z • g = (if isNeg sig.R then -sig.R else sig.R) +
      sig.c • (inp3.map fun x => (st.lCoeffs.lookup x.1).getD 0 •
        (x.2.map Resp.vk).getD 0).sum := by
  obtain ⟨_, _, bs, c, _, _, _, _, _, _, _, _, _, hl2, _, hbs, _, _, _, _, hst2⟩ :=
    round2_eq_ok.1 h2
  obtain ⟨_, _, hc, hR, hl3, heq, hz⟩ := C29_round3_sound g chal isNeg st2 st3 inp3 sig h3
  obtain ⟨_, cm, _, _, hi, _, _, _, _, hcm, hlen, _⟩ := round3_eq_ok.1 h3
  cases hi
  rw [hst2] at hcm hR heq hc
  cases hcm
  simp only [Option.some.injEq] at hR hc
  have hkeys : bs.map Prod.fst = inp2.map Prod.fst := by
    rw [bindings_eq_ok] at hbs
    clear h2 h3 hst2 hl2 hlen hn2 heq hR
    generalize hcs : st.cosigners = cs at hbs
    have : ∀ (l : List (UInt32 × Option (Commit G))) (bs : List (UInt32 × F × G)),
        List.Forall₂ (fun e b => ∃ m bl, e.2 = some m ∧ blob penc e.1 msg inp2 cs = .ok bl ∧
        b = (e.1, hs bl, hs bl • m.E + m.D)) l bs → bs.map Prod.fst = l.map Prod.fst := by
      intro l bs h
      induction h with
      | nil => rfl
      | cons h _ ih =>
        obtain ⟨_, _, _, _, rfl⟩ := h
        simp [ih]
    exact this _ _ hbs
  have hsub : ∀ j ∈ inp3.map Prod.fst, j ∈ inp2.map Prod.fst := by
    intro j hj
    obtain ⟨x, hx, rfl⟩ := List.mem_map.1 hj
    obtain ⟨_, _, Rj, _, _, hR', _⟩ := heq x hx
    rw [← hkeys]
    have hm : (x.1, Rj) ∈ bs.map fun b => (b.1, b.2.2) := by
      rw [List.lookup_eq_some_iff] at hR'
      obtain ⟨l1, l2, h, _⟩ := hR'
      simp only at h
      rw [h]; simp
    obtain ⟨b, hb, hb2⟩ := List.mem_map.1 hm
    exact List.mem_map.2 ⟨b, hb, congrArg Prod.fst hb2⟩
  have hset : (inp3.map Prod.fst).toFinset = (inp2.map Prod.fst).toFinset := by
    refine Finset.eq_of_subset_of_card_le (fun j hj => ?_) ?_
    · rw [List.mem_toFinset] at hj ⊢; exact hsub j hj
    · rw [List.toFinset_card_of_nodup hn2, List.toFinset_card_of_nodup hn3]
      simp [hlen]
  refine ⟨fun j => by rw [← List.mem_toFinset, hset, List.mem_toFinset], ?_⟩
  -- sum of the equations
  have hsum : sig.z • g = (inp3.map fun x => sig.c • ((st.lCoeffs.lookup x.1).getD 0 •
        (x.2.map Resp.vk).getD 0) + (if isNeg sig.R then
          -(((bs.map fun b => (b.1, b.2.2)).lookup x.1).getD 0) else
          ((bs.map fun b => (b.1, b.2.2)).lookup x.1).getD 0)).sum := by
    rw [hz, List.sum_smul, List.map_map]
    congr 1
    refine List.map_congr_left fun x hx => ?_
    obtain ⟨r, Lj, Rj, e1, e2, e3, e4⟩ := heq x hx
    simp only at e2 e3
    simp only [Function.comp, e1, e2, e3, Option.map_some, Option.getD_some]
    rw [e4]
    module
  rw [hsum, List.sum_map_add, add_comm, List.smul_sum, List.map_map]
  congr 1
  -- sum of the commitments
  have hRsum : (inp3.map fun x => ((bs.map fun b => (b.1, b.2.2)).lookup x.1).getD 0).sum =
      sig.R := by
    rw [← hR, show (inp3.map fun x => ((bs.map fun b => (b.1, b.2.2)).lookup x.1).getD 0) =
      (inp3.map Prod.fst).map fun j => ((bs.map fun b => (b.1, b.2.2)).lookup j).getD 0 by
        rw [List.map_map]; rfl, ← List.sum_toFinset _ hn3, hset, ← hkeys,
        List.sum_toFinset _ (by rw [hkeys]; exact hn2), List.map_map]
    congr 1
    have hnb : (bs.map Prod.fst).Nodup := by rw [hkeys]; exact hn2
    refine List.map_congr_left fun b hb => ?_
    have : (bs.map fun b => (b.1, b.2.2)).lookup b.1 = some b.2.2 := by
      clear * - hb hnb
      induction bs with
      | nil => cases hb
      | cons a bs ih =>
        rw [List.map_cons, List.lookup_cons]
        rw [List.map_cons, List.nodup_cons] at hnb
        rcases List.mem_cons.1 hb with rfl | hb'
        · simp
        · have : (b.1 == a.1) = false := by
            rw [beq_eq_false_iff_ne]
            intro h
            exact hnb.1 (h ▸ List.mem_map.2 ⟨b, hb', rfl⟩)
          simp only [this]
          exact ih hnb.2 hb'
    simp [Function.comp, this]
  by_cases hn : isNeg sig.R
  · simp only [hn, if_true]
    rw [← hRsum, List.sum_neg, List.map_map]; rfl
  · simp only [hn]
    exact hRsum

/-! ## C93: limits of the per-signer check -/

/-- The per-signer check uses the verification share inside the received message, so it never
identifies a misbehaving signer: for every response whatsoever there is a verification share with
which it passes. -/
theorem C93_any_response_passes (g : G) (st : Signer F G) (c : F) (neg : Bool) (id : UInt32) (z : F)
    (Lj : F) (Rj : G) (hc : c ≠ 0) (hL : st.lCoeffs.lookup id = some Lj) (hL0 : Lj ≠ 0)
    (hR : st.capRs.lookup id = some Rj) :
    ∃ vk : G, round3Loop g st c neg [(id, some ⟨z, vk⟩)] 0 = .ok z := by
  refine ⟨(c * Lj)⁻¹ • (z • g - if neg then -Rj else Rj), ?_⟩
  rw [round3Loop_eq_ok]
  refine ⟨?_, by simp⟩
  intro x hx
  rw [List.mem_singleton] at hx
  subst hx
  refine ⟨_, Lj, Rj, rfl, hL, hR, ?_⟩
  rw [smul_smul, mul_inv_cancel₀ (mul_ne_zero hc hL0), one_smul]
  abel

/-- The binding factor only sees the identifier modulo 256: two signers whose identifiers agree modulo
256 get the same factor. -/
theorem C93_factor_mod_256 (hs : List UInt8 → F) (penc : G → List UInt8) (cos : List UInt32)
    (msg : List UInt8) (D E : UInt32 → G) (i j : UInt32) (h : i.toNat % 256 = j.toNat % 256) :
    factor hs penc cos msg D E i = factor hs penc cos msg D E j := by
  unfold factor
  have : i.toUInt8 = j.toUInt8 := by
    rw [← UInt8.toNat_inj, UInt32.toNat_toUInt8, UInt32.toNat_toUInt8]
    simpa using h
  rw [this]

end Verif.FrostSign

namespace Verif.FrostSign.ToyRun

open Verif.Frost (mapGet)
open Verif.Frost.ToyRun (get hs)

/-! ### A concrete run: participants 1 and 3 of the toy key generation sign -/

instance : Inhabited (Signer Toy.K Toy.K) := ⟨⟨0, 0, 0, 0, 0, 0, [], [], none, none, none, [], none, [], none⟩⟩
instance : Inhabited (Commit Toy.K) := ⟨⟨0, 0⟩⟩
instance : Inhabited (Sig Toy.K Toy.K) := ⟨⟨0, 0, 0, []⟩⟩
instance : Inhabited (Resp Toy.K Toy.K) := ⟨⟨0, 0⟩⟩

def chal (msg : List UInt8) (vk r : Toy.K) : Go Toy.K :=
  ed25519Challenge hs Toy.codec.enc msg vk r
/-- an even "challenge" -/
def chalE (msg : List UInt8) (_vk r : Toy.K) : Go Toy.K :=
  .ok (r ^ 2 + hs msg)
def msg : List UInt8 := [1, 2, 3]
def cos : List UInt32 := [3, 1]
def coeffs : List (UInt32 × Toy.K) := get (Sharing.lagrangeCoeffs cos)
def sk (i : UInt32) : Toy.K := ((Frost.ToyRun.r2 i).1.skShare).getD 0
def vk : Toy.K := (Frost.ToyRun.r2 1).2.verificationKey
def d (i : UInt32) : Toy.K := (i.toNat : Toy.K) + 5
def e (i : UInt32) : Toy.K := (i.toNat : Toy.K) * 7 + 2
def st0 (i : UInt32) : Signer Toy.K Toy.K := get (newSigner (sk i) (sk i) vk i 2 coeffs cos)
def st1 (i : UInt32) : Signer Toy.K Toy.K := (round1 (1 : Toy.K) (st0 i) (d i) (e i)).1
def cm (i : UInt32) : Commit Toy.K := get (round1 (1 : Toy.K) (st0 i) (d i) (e i)).2
def inp (_ : UInt32) : List (UInt32 × Option (Commit Toy.K)) := [(1, some (cm 1)), (3, some (cm 3))]

theorem honest : Honest (1 : Toy.K) {1, 3} 2 cos (fun _ => coeffs)
    (fun i => (coeffs.lookup i).getD 0) sk d e vk st0 st1 cm inp where
  card := by decide +kernel
  cos_mem := by decide +kernel
  lc_get := by decide +kernel
  key := by decide +kernel
  new := by
    intro i hi
    rcases (by simpa using hi : i = 1 ∨ i = 3) with rfl | rfl <;> rfl
  r1 := by
    intro i hi
    rcases (by simpa using hi : i = 1 ∨ i = 3) with rfl | rfl <;> rfl
  inp_nodup := by decide +kernel
  inp_mem := by
    intro i _ j x
    simp only [inp, List.mem_cons, Prod.mk.injEq, List.not_mem_nil, or_false, Finset.mem_insert,
      Finset.mem_singleton]
    constructor
    · rintro (⟨rfl, rfl⟩ | ⟨rfl, rfl⟩) <;> simp
    · rintro ⟨rfl | rfl, rfl⟩ <;> simp

/-- the side conditions of `C27_honest_run` for `isNeg = false` (as for Ed25519) -/
example : (∀ i ∈ ({1, 3} : Finset UInt32), d i ≠ 0 ∧ e i ≠ 0) ∧
    ∃ c, chal msg vk (∑ j ∈ ({1, 3} : Finset UInt32), (factor hs Toy.codec.enc cos msg
      (fun k => d k • (1 : Toy.K)) (fun k => e k • (1 : Toy.K)) j • e j • (1 : Toy.K) +
      d j • (1 : Toy.K))) = .ok c := ⟨by decide +kernel, _, rfl⟩

def r2 (i : UInt32) := round2 hs chal (fun _ => false) Toy.codec.enc (st1 i) msg (inp i)
def inp3 : List (UInt32 × Option (Resp Toy.K Toy.K)) := [(3, some (get (r2 3).2)), (1, some (get (r2 1).2))]

/-- the run ends with a signature at signer 1 and it is accepted (hypotheses of C29) -/
example : ∃ s, (round3 (1 : Toy.K) chal (fun _ => false) (r2 1).1 (some inp3)).2 = .ok s ∧
    verify (1 : Toy.K) chal vk msg s.z s.c = .ok true ∧ s.c ≠ 0 := by
  refine ⟨Frost.ToyRun.get (round3 (1 : Toy.K) chal (fun _ => false)
    (r2 1).1 (some inp3)).2, ?_⟩
  decide +kernel

/-- and the sign-sensitive challenge makes the same run fail when `R` counts as negative -/
example : (∀ c, chal msg vk (∑ j ∈ ({1, 3} : Finset UInt32), (factor hs Toy.codec.enc cos msg
      (fun k => d k • (1 : Toy.K)) (fun k => e k • (1 : Toy.K)) j • e j • (1 : Toy.K) +
      d j • (1 : Toy.K))) = .ok c →
    chal msg vk (-(∑ j ∈ ({1, 3} : Finset UInt32), (factor hs Toy.codec.enc cos msg
      (fun k => d k • (1 : Toy.K)) (fun k => e k • (1 : Toy.K)) j • e j • (1 : Toy.K) +
      d j • (1 : Toy.K)))) ≠ .ok c) := by
  intro c hc h
  have h' := hc.trans h.symm
  revert h'
  clear hc h
  decide +kernel

/-- an even challenge satisfies the sign condition of `C27_honest_run` -/
example (m : List UInt8) (v R c : Toy.K) (h : chalE m v R = .ok c) : chalE m v (-R) = .ok c := by
  unfold chalE at *; rw [neg_sq]; exact h

/-- `C93_any_response_passes` applies in this run -/
example : ∃ Lj Rj, (r2 1).1.lCoeffs.lookup 3 = some Lj ∧ Lj ≠ 0 ∧ (r2 1).1.capRs.lookup 3 = some Rj ∧
    (r2 1).1.c ≠ some 0 := by
  refine ⟨((r2 1).1.lCoeffs.lookup 3).getD 0, ((r2 1).1.capRs.lookup 3).getD 0, ?_⟩
  decide +kernel

/-- an order-sensitive toy hash -/
def hsO (m : List UInt8) : Toy.K := m.foldl (fun a b => a * 3 + (b.toNat : Toy.K)) 1
def r2O := round2 hsO chal (fun _ => false) Toy.codec.enc (st1 1) msg (inp 1)

/-- Signers created with the same cosigners in another order derive different binding factors: with
signer 3 using `[1, 3]` instead of `[3, 1]` signer 1 gets no signature although both are honest. -/
theorem C93_cosigner_order :
    ∃ st3 : Signer Toy.K Toy.K, newSigner (sk 3) (sk 3) vk 3 2 coeffs [1, 3] = .ok st3 ∧
      (round1 (1 : Toy.K) st3 (d 3) (e 3)).2 = .ok (cm 3) ∧
      ∃ resp, (round2 hsO chal (fun _ => false) Toy.codec.enc (round1 (1 : Toy.K) st3 (d 3) (e 3)).1
        msg (inp 3)).2 = .ok resp ∧
      (round3 (1 : Toy.K) chal (fun _ => false) r2O.1
        (some [(3, some resp), (1, some (get r2O.2))])).2 = Go.err := by
  refine ⟨get (newSigner (sk 3) (sk 3) vk 3 2 coeffs [1, 3]), rfl, rfl, get (round2 hsO chal
    (fun _ => false) Toy.codec.enc (round1 (1 : Toy.K) (get (newSigner (sk 3) (sk 3) vk 3 2 coeffs
      [1, 3])) (d 3) (e 3)).1 msg (inp 3)).2, ?_⟩
  decide +kernel

end Verif.FrostSign.ToyRun
