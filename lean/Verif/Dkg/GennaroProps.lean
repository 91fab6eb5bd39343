import Verif.Dkg.GennaroLemmas
import Verif.Dkg.FrostProps

set_option linter.unusedSectionVars false

/-!
# Properties of the Gennaro DKG (C24, C25, C26, C92)
-/

namespace Verif.Gennaro

open V1
open Verif.Frost (mapGet sum_filter_map)

variable {q : ℕ} [Fact q.Prime]
variable {G : Type} [AddCommGroup G] [Module (ZMod q) G] [DecidableEq G]

/-! ## C24: creation -/

theorem ofNat_succ_inj {n a b : ℕ} (hn : n < 2 ^ 32) (ha : a < n) (hb : b < n)
    (h : UInt32.ofNat (a + 1) = UInt32.ofNat (b + 1)) : a = b := by
  have := congrArg UInt32.toNat h
  rw [UInt32.toNat_ofNat', UInt32.toNat_ofNat', Nat.mod_eq_of_lt (by omega),
    Nat.mod_eq_of_lt (by omega)] at this
  omega

/-- A participant is created exactly when its identifier together with the others is `1..n` in some
order and `2 ≤ t ≤ n`. -/
theorem C24_new_decision (id t : UInt32) (os : List UInt32) (hlen : os.length + 1 < 2 ^ 32) :
    (∃ st, newParticipant (q := q) (G := G) id t os = .ok st) ↔
      os ≠ [] ∧ 2 ≤ t.toNat ∧ t.toNat ≤ os.length + 1 ∧
      (os ++ [id]).Perm ((List.range (os.length + 1)).map fun i => UInt32.ofNat (i + 1)) := by
  have hL : ((List.range (os.length + 1)).map fun i => UInt32.ofNat (i + 1)).Nodup := by
    refine List.Nodup.map_on ?_ List.nodup_range
    intro a ha b hb
    rw [List.mem_range] at ha hb
    exact ofNat_succ_inj hlen ha hb
  have hlim : (UInt32.ofNat os.length + 1).toNat = os.length + 1 := by
    rw [UInt32.toNat_add, UInt32.toNat_ofNat', Nat.mod_eq_of_lt (a := os.length) (by omega)]
    exact Nat.mod_eq_of_lt (by simpa using hlen)
  have h2 : (2 : UInt32).toNat = 2 := rfl
  simp only [newParticipant_eq_ok, UInt32.le_iff_toNat_le, hlim, h2]
  constructor
  · rintro ⟨st, h1, hv, h3, h4, -⟩
    refine ⟨h1, h4, h3, ?_⟩
    have hsub : ((List.range (os.length + 1)).map fun i => UInt32.ofNat (i + 1)) ⊆ os ++ [id] := by
      intro x hx
      obtain ⟨i, hi, rfl⟩ := List.mem_map.1 hx
      exact hv i hi
    exact ((hL.subperm hsub).perm_of_length_le (by simp)).symm
  · rintro ⟨h1, h3, h4, hp⟩
    refine ⟨_, h1, ?_, h4, h3, rfl⟩
    intro i hi
    exact hp.mem_iff.2 (List.mem_map_of_mem hi)

example : ∃ st, newParticipant (q := 257) (G := ZMod 257) 2 2 [3, 1] = .ok st := ⟨_, rfl⟩

/-! ## C24: the honest run -/

/-- All inputs of one honest execution among the participants `ids`. -/
structure Setup (q : ℕ) (G : Type) where
  ids : Finset UInt32
  t : UInt32
  others : UInt32 → List UInt32
  secret : UInt32 → Option (List UInt8)
  sampled : UInt32 → ZMod q
  blinding : UInt32 → ZMod q
  rnd : UInt32 → ℕ → ZMod q
  rndB : UInt32 → ℕ → ZMod q

/-- `i` receives exactly the broadcasts `b j` of all others (in any order; its own may be
included, whatever its content). -/
def Delivered (ids : Finset UInt32) (i : UInt32) (b : UInt32 → List G)
    (bc : List (UInt32 × List G)) : Prop :=
  (bc.map Prod.fst).Nodup ∧ ∀ j x, j ≠ i → ((j, x) ∈ bc ↔ j ∈ ids ∧ x = b j)

/-- An honest execution of round 1: every participant is created with all the others and runs
round 1 with its own randomness. -/
structure HonestRound1 (g h : G) (S : Setup q G) (st0 st1 : UInt32 → State q G)
    (b : UInt32 → List G) (p : UInt32 → List (UInt32 × Option (Packet q))) : Prop where
  others_nodup : ∀ i ∈ S.ids, (S.others i).Nodup
  others_mem : ∀ i ∈ S.ids, ∀ j, j ∈ S.others i ↔ j ∈ S.ids ∧ j ≠ i
  new : ∀ i ∈ S.ids, newParticipant i S.t (S.others i) = .ok (st0 i)
  r1 : ∀ i ∈ S.ids, round1 g h (st0 i) (S.secret i) (S.sampled i) (S.blinding i) (S.rnd i)
    (S.rndB i) = (st1 i, .ok (b i, p i))

theorem ids_facts {i t : UInt32} {ids : Finset UInt32} {os : List UInt32} {st : State q G}
    (hi : i ∈ ids) (hnd : os.Nodup) (hmem : ∀ j, j ∈ os ↔ j ∈ ids ∧ j ≠ i)
    (h : newParticipant i t os = .ok st) :
    st = { round := 1, id := i, others := os, scheme := ⟨t, UInt32.ofNat ids.card⟩ } ∧
    2 ≤ t.toNat ∧ t.toNat ≤ ids.card ∧ ids.card < 2 ^ 32 ∧
    ∀ j ∈ ids, j ≠ 0 ∧ j ≤ UInt32.ofNat ids.card := by
  classical
  have hlen : os.length + 1 = ids.card := by
    rw [← List.toFinset_card_of_nodup hnd, ← Finset.card_erase_add_one hi]
    congr 2
    ext j
    rw [List.mem_toFinset, hmem, Finset.mem_erase, and_comm]
  have hle : ids.card ≤ 2 ^ 32 := by
    rw [← Finset.card_image_of_injective ids (f := UInt32.toNat)
      (fun a b hab => UInt32.toNat_inj.1 hab)]
    have : ids.image UInt32.toNat ⊆ Finset.range (2 ^ 32) := by
      intro x hx
      obtain ⟨a, _, rfl⟩ := Finset.mem_image.1 hx
      exact Finset.mem_range.2 a.toNat_lt
    simpa using Finset.card_le_card this
  obtain ⟨h1, hv, h3, h4, rfl⟩ := newParticipant_eq_ok.1 h
  have e2 : (2 : UInt32).toNat = 2 := rfl
  rw [UInt32.le_iff_toNat_le] at h3 h4
  rw [e2] at h4
  have hlt : ids.card < 2 ^ 32 := by
    rcases Nat.lt_or_ge ids.card (2 ^ 32) with h | h
    · exact h
    · exfalso
      have : os.length = 2 ^ 32 - 1 := by omega
      rw [this] at h3
      have : (UInt32.ofNat (2 ^ 32 - 1) + 1).toNat = 0 := by decide
      omega
  have hlim : UInt32.ofNat os.length + 1 = UInt32.ofNat ids.card := by
    rw [← hlen, UInt32.ofNat_add]
    rfl
  have hlim2 : (UInt32.ofNat os.length + 1).toNat = ids.card := by
    rw [hlim, UInt32.toNat_ofNat', Nat.mod_eq_of_lt hlt]
  rw [hlim2] at h3
  obtain ⟨_, _, _, hp⟩ := (C24_new_decision (q := q) (G := G) i t os (by omega)).1 ⟨_, h⟩
  refine ⟨by rw [hnd.dedup, hlim], h4, h3, hlt, fun j hj => ?_⟩
  have : j ∈ os ++ [i] := by
    by_cases hji : j = i
    · simp [hji]
    · simp [(hmem j).2 ⟨hj, hji⟩]
  obtain ⟨k, hk, rfl⟩ := List.mem_map.1 (hp.mem_iff.1 this)
  rw [List.mem_range] at hk
  have e : (UInt32.ofNat (k + 1)).toNat = k + 1 := by
    rw [UInt32.toNat_ofNat', Nat.mod_eq_of_lt (by omega)]
  refine ⟨fun h0 => ?_, ?_⟩
  · rw [h0] at e
    have : (0 : UInt32).toNat = 0 := rfl
    omega
  · rw [UInt32.le_iff_toNat_le, e, UInt32.toNat_ofNat', Nat.mod_eq_of_lt hlt]
    omega

theorem lookup_of_mem {V : Type} {l : List (UInt32 × V)} (hl : (l.map Prod.fst).Nodup)
    {k : UInt32} {v : V} (h : (k, v) ∈ l) : l.lookup k = some v := by
  induction l with
  | nil => simp at h
  | cons e l ih =>
    rw [List.map_cons, List.nodup_cons] at hl
    rw [List.lookup_cons]
    rcases List.mem_cons.1 h with rfl | h
    · simp
    · have : (k == e.1) = false := by
        rw [beq_eq_false_iff_ne]
        rintro rfl
        exact hl.1 (List.mem_map.2 ⟨_, h, rfl⟩)
      rw [this]
      exact ih hl.2 h

theorem filterMap_keys_nodup {V W : Type} (f : UInt32 → Option W) {l : List (UInt32 × V)}
    (hl : (l.map Prod.fst).Nodup) :
    ((l.filterMap fun e => (f e.1).map fun x => (e.1, x)).map Prod.fst).Nodup := by
  have : ((l.filterMap fun e => (f e.1).map fun x => (e.1, x)).map Prod.fst).Sublist
      (l.map Prod.fst) := by
    clear hl
    induction l with
    | nil => simp
    | cons e l ih =>
      rw [List.filterMap_cons]
      cases f e.1 with
      | none => exact ih.trans (List.sublist_cons_self _ _)
      | some x => simpa using ih
  exact hl.sublist this

/-- In every honest run all participants complete round 2; if the sum of the secrets does not give
the identity they all complete round 3 with the same public key `(Σ secrets)·g`; any `t` or more of
the returned shares interpolate to the sum of the secrets. -/
theorem C24_honest_run (g h : G) (S : Setup q G) (st0 st1 : UInt32 → State q G)
    (b : UInt32 → List G) (p : UInt32 → List (UInt32 × Option (Packet q)))
    (H : HonestRound1 g h S st0 st1 b p)
    (bc : UInt32 → List (UInt32 × List G)) (p2p : UInt32 → List (UInt32 × Option (Packet q)))
    (hbc : ∀ i ∈ S.ids, Delivered S.ids i b (bc i))
    (hp2p : ∀ i ∈ S.ids, ∀ j ∈ S.ids, j ≠ i → mapGet (p2p i) j = mapGet (p j) i) :
    ∃ (s sk : UInt32 → ZMod q) (st2 : UInt32 → State q G) (v : UInt32 → List G),
      (∀ i ∈ S.ids, s i ≠ 0 ∧ ((S.secret i = none ∧ s i = S.sampled i) ∨
        ∃ m, S.secret i = some m ∧ s i = (beNat m : ZMod q))) ∧
      (∀ i ∈ S.ids, round2 g h (st1 i) (some (bc i)) (some (p2p i)) = (st2 i, .ok (v i))) ∧
      (∀ i ∈ S.ids, ∀ bc2, Delivered S.ids i v bc2 →
        ((∑ j ∈ S.ids, s j) • g ≠ 0 → ∃ st3, round3 g (st2 i) bc2 =
          (st3, .ok ((∑ j ∈ S.ids, s j) • g, ⟨i, sk i⟩))) ∧
        ((∑ j ∈ S.ids, s j) • g = 0 → ∀ r st3, round3 g (st2 i) bc2 ≠ (st3, .ok r))) ∧
      ∀ T ⊆ S.ids, S.t.toNat ≤ T.card →
        ∑ i ∈ T, (∏ j ∈ T.erase i, (j.toNat : ZMod q) / ((j.toNat : ZMod q) - (i.toNat : ZMod q))) *
          sk i = ∑ j ∈ S.ids, s j := by
  classical
  have hnew := fun i hi => ids_facts hi (H.others_nodup i hi) (H.others_mem i hi) (H.new i hi)
  choose! sb bsh shs v hpick hsplit hpk hst1 using fun i (hi : i ∈ S.ids) =>
    (round1_eq_ok (H.r1 i hi)).2
  have hsch : ∀ i ∈ S.ids, (st0 i).scheme = ⟨S.t, UInt32.ofNat S.ids.card⟩ := by
    intro i hi; rw [(hnew i hi).1]
  have hsp : ∀ i ∈ S.ids, pedersenSplit g h ⟨S.t, UInt32.ofNat S.ids.card⟩ (sb i) (S.blinding i)
      (S.rnd i) (S.rndB i) = .ok (S.blinding i, bsh i, shs i, b i, v i) := by
    intro i hi; rw [← hsch i hi]; exact hsplit i hi
  let s : UInt32 → ZMod q := fun i => (beNat (sb i) : ZMod q)
  let f : UInt32 → List (ZMod q) := fun j => coeffs S.t (s j) (S.rnd j)
  let sk : UInt32 → ZMod q := fun i => ∑ j ∈ S.ids, evalL (f j) (i.toNat : ZMod q)
  have hshare : ∀ j ∈ S.ids, ∀ i ∈ S.ids,
      (shs j)[(i - 1).toNat]? = some ⟨i, evalL (f j) (i.toNat : ZMod q)⟩ := by
    intro j hj i hi
    have hj2 := (hnew j hj).2.2.2.2 i hi
    exact mkShares_getElem (pedersenSplit_eq_ok (hsp j hj)).2.2.2.2.2.1 hj2.1 hj2.2
  have hbshare : ∀ j ∈ S.ids, ∀ i ∈ S.ids, ∃ y,
      (bsh j)[(i - 1).toNat]? = some ⟨i, y⟩ := by
    intro j hj i hi
    have hj2 := (hnew j hj).2.2.2.2 i hi
    exact ⟨_, mkShares_getElem (pedersenSplit_eq_ok (hsp j hj)).2.2.2.2.2.2.1 hj2.1 hj2.2⟩
  have hst1' : ∀ i ∈ S.ids, st1 i =
      { round := 2, id := i, others := S.others i, scheme := ⟨S.t, UInt32.ofNat S.ids.card⟩,
        dealt := some ⟨bsh i, shs i, b i, v i⟩ } := by
    intro i hi
    rw [hst1 i hi, (hnew i hi).1]
  -- packets
  have hpkt : ∀ i ∈ S.ids, ∀ j ∈ S.ids, j ≠ i → ∃ y, mapGet (p2p i) j =
      some ⟨some ⟨i, evalL (f j) (i.toNat : ZMod q)⟩, some ⟨i, y⟩⟩ := by
    intro i hi j hj hne
    have hio : i ∈ (st0 j).others := by
      rw [(hnew j hj).1]; exact (H.others_mem j hj i).2 ⟨hi, hne.symm⟩
    have h2 : List.Forall₂ (fun id e => ∃ pk : Packet q, (∃ x r, (shs j)[(id - 1).toNat]? = some x ∧
        (bsh j)[(id - 1).toNat]? = some r ∧ pk = ⟨some x, some r⟩) ∧ e = (id, some pk))
        (st0 j).others (p j) :=
      (hpk j hj).imp fun id e ⟨x, r, h1, h2, h3⟩ => ⟨_, ⟨x, r, h1, h2, rfl⟩, h3⟩
    obtain ⟨pk, h3, x, r, h4, h5, rfl⟩ := forall₂_lookup h2 hio
    obtain ⟨y, hy⟩ := hbshare j hj i hi
    rw [hshare j hj i hi] at h4
    rw [hy] at h5
    obtain rfl := Option.some.inj h4
    obtain rfl := Option.some.inj h5
    exact ⟨y, by rw [hp2p i hi j hj hne, h3]⟩
  have hmemOf : ∀ i ∈ S.ids, ∀ (b : UInt32 → List G) bc, Delivered S.ids i b bc →
      ∀ j, j ∈ S.ids ∧ j ≠ i ↔ ∃ x, (j, x) ∈ bc ∧ j ≠ i := by
    intro i hi b bc hd j
    constructor
    · rintro ⟨h1, h2⟩; exact ⟨_, (hd.2 j _ h2).2 ⟨h1, rfl⟩, h2⟩
    · rintro ⟨x, h1, h2⟩; exact ⟨((hd.2 j x h2).1 h1).1, h2⟩
  have hother : ∀ i ∈ S.ids, ∃ j ∈ S.ids, j ≠ i := by
    intro i hi
    obtain ⟨_, h2, h3, _⟩ := hnew i hi
    have : 1 < S.ids.card := by omega
    obtain ⟨j, hj, hne⟩ := Finset.exists_mem_ne this i
    exact ⟨j, hj, hne⟩
  have hkk : ∀ (M : Type) [AddCommGroup M] (w : UInt32 → M), ∀ i ∈ S.ids,
      w i + ∑ j ∈ S.ids.erase i, w j = ∑ j ∈ S.ids, w j := by
    intro M _ w i hi
    exact Finset.add_sum_erase S.ids w hi
  let st2 : UInt32 → State q G := fun i =>
    { st1 i with
      shares := (((bc i).filter (·.1 ≠ i)).filterMap fun e =>
        (pktShare (p2p i) e.1).map fun x => (e.1, x)).reverse
      round := 3
      skShare := some (sk i) }
  have hr2 : ∀ i ∈ S.ids, round2 g h (st1 i) (some (bc i)) (some (p2p i)) =
      (st2 i, .ok (v i)) := by
    intro i hi
    obtain ⟨j0, hj0, hne0⟩ := hother i hi
    rw [round2_eq_ok]
    have e1 := hst1' i hi
    refine ⟨by rw [e1], bc i, p2p i, ⟨bsh i, shs i, b i, v i⟩,
      ⟨i, evalL (f i) (i.toNat : ZMod q)⟩, rfl, rfl, ?_, ?_, by rw [e1], ?_, rfl, ?_, ?_⟩
    · intro h0
      have := ((hbc i hi).2 j0 _ hne0).2 ⟨hj0, rfl⟩
      rw [h0] at this
      simp at this
    · intro h0
      obtain ⟨y, hy⟩ := hpkt i hi j0 hj0 hne0
      rw [h0] at hy
      simp [mapGet] at hy
    · rw [e1]
      exact hshare i hi i hi
    · intro e he hne
      rw [e1] at hne
      simp only at hne
      obtain ⟨hj, hx⟩ := ((hbc i hi).2 e.1 e.2 hne).1 he
      obtain ⟨y, hy⟩ := hpkt i hi e.1 hj hne
      refine ⟨by rw [e1]; exact (H.others_mem i hi e.1).2 ⟨hj, hne⟩, _, hy, ?_, by simp⟩
      obtain ⟨y', hy'⟩ := hbshare e.1 hj i hi
      have h6 : ∃ z, mapGet (p2p i) e.1 = some z := ⟨_, hy⟩
      -- the blinding share in the packet is the dealt one
      have hio : i ∈ (st0 e.1).others := by
        rw [(hnew e.1 hj).1]; exact (H.others_mem e.1 hj i).2 ⟨hi, hne.symm⟩
      have h2 : List.Forall₂ (fun id e' => ∃ pk : Packet q,
          (∃ x r, (shs e.1)[(id - 1).toNat]? = some x ∧
          (bsh e.1)[(id - 1).toNat]? = some r ∧ pk = ⟨some x, some r⟩) ∧ e' = (id, some pk))
          (st0 e.1).others (p e.1) :=
        (hpk e.1 hj).imp fun id e' ⟨x, r, h1, h2, h3⟩ => ⟨_, ⟨x, r, h1, h2, rfl⟩, h3⟩
      obtain ⟨pk, h3, x, r, h4, h5, hpkeq⟩ := forall₂_lookup h2 hio
      rw [← hp2p i hi e.1 hj hne, hy] at h3
      obtain rfl := Option.some.inj h3
      simp only [Packet.mk.injEq, Option.some.injEq] at hpkeq
      obtain ⟨rfl, rfl⟩ := hpkeq
      rw [hx, e1]
      exact (C87_pedersen_complete g h _ (sb e.1) (S.blinding e.1) (S.rnd e.1) (S.rndB e.1)
        (bsh e.1) (shs e.1) (b e.1) (v e.1) _ (hsp e.1 hj) _ _ (List.mem_of_getElem? h4)
        (List.mem_of_getElem? h5) rfl).2
    · have hs : (((bc i).filter (·.1 ≠ i)).map fun e =>
          ((pktShare (p2p i) e.1).map Share.value).getD 0).sum =
          ∑ j ∈ S.ids.erase i, evalL (f j) (i.toNat : ZMod q) := by
        refine sum_filter_map _ (hbc i hi).1 i S.ids (hmemOf i hi b _ (hbc i hi)) _ _
          fun e he hne => ?_
        obtain ⟨hj, hx⟩ := ((hbc i hi).2 e.1 e.2 hne).1 he
        obtain ⟨y, hy⟩ := hpkt i hi e.1 hj hne
        simp [pktShare, hy]
      have hk := hkk _ (fun j => evalL (f j) (i.toNat : ZMod q)) i hi
      simp only [e1, st2, hs, hk, sk, List.append_nil]
  refine ⟨s, sk, st2, v, ?_, hr2, ?_, ?_⟩
  · intro i hi
    obtain ⟨h1, h2, _⟩ := pedersenSplit_eq_ok (hsp i hi)
    have hne : s i ≠ 0 ↔ beNat (sb i) ≠ 0 := by
      rw [Ne, Ne, not_iff_not]
      change ((beNat (sb i) : ℕ) : ZMod q) = 0 ↔ _
      constructor
      · intro h
        rw [ZMod.natCast_eq_zero_iff] at h
        exact Nat.eq_zero_of_dvd_of_lt h h2
      · intro h; rw [h]; simp
    rcases pickSecret_eq_ok.1 (hpick i hi) with ⟨h3, h4⟩ | ⟨h3, h4, h5⟩
    · have hb : s i = S.sampled i := by
        change ((beNat (sb i) : ℕ) : ZMod q) = _
        rw [h4, beNat_natBytes, ZMod.natCast_zmod_val]
      refine ⟨?_, Or.inl ⟨h3, hb⟩⟩
      rw [hb]
      intro h0
      rw [h0] at h4
      exact h1 (by rw [h4]; simp [natBytes])
    · exact ⟨hne.2 h5, Or.inr ⟨_, h3, rfl⟩⟩
  · intro i hi bc2 hd
    have e1 := hst1' i hi
    have hvi : ∀ j ∈ S.ids, v j = (f j).map (· • g) :=
      fun j hj => (pedersenSplit_eq_ok (hsp j hj)).2.2.2.2.2.2.2.1
    have hvh : ∀ j ∈ S.ids, (v j).headD 0 = s j • g := by
      intro j hj; rw [hvi j hj]; simp [f, coeffs]
    obtain ⟨j0, hj0, hne0⟩ := hother i hi
    have hs : ((bc2.filter (·.1 ≠ i)).map fun e => e.2.headD 0).sum =
        ∑ j ∈ S.ids.erase i, s j • g := by
      refine sum_filter_map _ hd.1 i S.ids (hmemOf i hi v _ hd) _ _ fun e he hne => ?_
      obtain ⟨hj, hx⟩ := (hd.2 e.1 e.2 hne).1 he
      rw [hx, hvh _ hj]
    have hk : s i • g + ∑ j ∈ S.ids.erase i, s j • g = (∑ j ∈ S.ids, s j) • g := by
      rw [Finset.sum_smul]
      exact hkk _ (fun j => s j • g) i hi
    have hid : (st2 i).id = i := by simp only [st2, e1]
    constructor
    · intro h0
      refine ⟨_, round3_eq_ok.2 ⟨rfl, ?_, ⟨bsh i, shs i, b i, v i⟩, s i • g, (v i).tail, sk i,
        ?_, ?_, rfl, ?_, ?_, h0, ?_, rfl⟩⟩
      · intro h0
        have := (hd.2 j0 _ hne0).2 ⟨hj0, rfl⟩
        rw [h0] at this
        simp at this
      · simp only [st2, e1]
      · rw [hvi i hi]; simp [f, coeffs]
      · intro e he hne
        rw [hid] at hne
        obtain ⟨hj, hx⟩ := (hd.2 e.1 e.2 hne).1 he
        have hlook : (st2 i).shares.lookup e.1 =
            some ⟨i, evalL (f e.1) (i.toNat : ZMod q)⟩ := by
          refine lookup_of_mem ?_ ?_
          · simp only [st2]
            rw [List.map_reverse, List.nodup_reverse]
            refine filterMap_keys_nodup _ ?_
            exact (hbc i hi).1.sublist ((List.filter_sublist).map _)
          · simp only [st2, List.mem_reverse, List.mem_filterMap, List.mem_filter]
            obtain ⟨y, hy⟩ := hpkt i hi e.1 hj hne
            refine ⟨(e.1, b e.1), ⟨((hbc i hi).2 e.1 _ hne).2 ⟨hj, rfl⟩, by simpa using hne⟩, ?_⟩
            simp [pktShare, hy]
        refine ⟨?_, ?_, ?_⟩
        · simp only [st2, e1]; exact (H.others_mem i hi e.1).2 ⟨hj, hne⟩
        · rw [hx, hvi _ hj]; simp [f, coeffs]
        · rw [hlook, hx]
          have : (st2 i).scheme = ⟨S.t, UInt32.ofNat S.ids.card⟩ := by simp only [st2, e1]
          rw [this]
          exact C87_feldman_complete g _ (sb e.1) (S.rnd e.1) (v e.1) (shs e.1)
            (pedersenSplit_eq_ok (hsp e.1 hj)).2.2.2.2.2.2.2.2.2 _
            (List.mem_of_getElem? (hshare e.1 hj i hi))
      · rw [hid, hs, hk]
      · rw [hid]
    · rintro h0 ⟨pk, sh⟩ st3 hr
      obtain ⟨_, _, d, v0, vt, sk', h1, h2, _, _, h3, h4, _⟩ := round3_eq_ok.1 hr
      have hd1 : d = ⟨bsh i, shs i, b i, v i⟩ := by
        simp only [st2, e1] at h1
        exact (Option.some.inj h1).symm
      rw [hd1, hvi i hi] at h2
      have : v0 = s i • g := by
        simp only [f, coeffs, List.map_cons, List.cons.injEq] at h2
        exact h2.1.symm
      rw [hid, hs, this, hk] at h3
      exact h4 (h3.trans h0)
  · intro T hT hcard
    have hinj : Set.InjOn (fun i : UInt32 => (i.toNat : ZMod q)) T := by
      intro i hi j hj hij
      have hq := (pedersenSplit_eq_ok (hsp i (hT hi))).2.2.1
      have h1 := (hnew i (hT hi)).2.2.2.2 i (hT hi)
      have h2 := (hnew i (hT hi)).2.2.2.2 j (hT hj)
      rw [UInt32.le_iff_toNat_le] at h1 h2
      simp only at hq
      exact UInt32.toNat_inj.1 (natCast_inj_lt (by omega) (by omega) hij)
    simp only [sk, Finset.mul_sum]
    rw [Finset.sum_comm]
    refine Finset.sum_congr rfl fun j hj => ?_
    have ht := (hnew j hj).2.1
    have := sum_lag0_evalL T (fun i : UInt32 => (i.toNat : ZMod q)) hinj (f j)
      (by simp [f, coeffs]; omega)
    simp only [lag0, smul_eq_mul] at this
    rw [this]
    simp [f, coeffs]


/-! ### A concrete honest run -/

namespace ToyRun

instance : Fact (Nat.Prime 257) := ⟨by norm_num⟩

def get {α : Type} [Inhabited α] : Go α → α
  | .ok a => a
  | .error _ => default

abbrev St := State 257 (ZMod 257)
instance : Inhabited St := ⟨{ round := 0, id := 0, others := [], scheme := ⟨0, 0⟩ }⟩

def others (i : UInt32) : List UInt32 := [3, 1, 2].filter (· ≠ i)
def st0 (i : UInt32) : St := get (newParticipant i 2 (others i))
def setup : Setup 257 (ZMod 257) where
  ids := {1, 2, 3}
  t := 2
  others := others
  secret := fun i => if i = 1 then some [0, 11] else none
  sampled := fun i => (i.toNat : ZMod 257) + 20
  blinding := fun i => (i.toNat : ZMod 257) + 40
  rnd := fun i k => (i.toNat : ZMod 257) * 3 + k + 1
  rndB := fun i k => (i.toNat : ZMod 257) * 5 + k + 2
def r1 (i : UInt32) := round1 (1 : ZMod 257) 3 (st0 i) (setup.secret i) (setup.sampled i)
  (setup.blinding i) (setup.rnd i) (setup.rndB i)
def bv (i : UInt32) : List (ZMod 257) := (get (r1 i).2).1
def p (i : UInt32) : List (UInt32 × Option (Packet 257)) := (get (r1 i).2).2
def bc (i : UInt32) : List (UInt32 × List (ZMod 257)) := (others i).map fun j => (j, bv j)
def p2p (i : UInt32) : List (UInt32 × Option (Packet 257)) :=
  (others i).map fun j => (j, mapGet (p j) i)
def r2 (i : UInt32) := round2 (1 : ZMod 257) 3 (r1 i).1 (some (bc i)) (some (p2p i))
def bc2 (i : UInt32) : List (UInt32 × List (ZMod 257)) :=
  (others i).map fun j => (j, get (r2 j).2)
def r3 (i : UInt32) := round3 (1 : ZMod 257) (r2 i).1 (bc2 i)

theorem mem_ids {i : UInt32} (h : i ∈ setup.ids) : i = 1 ∨ i = 2 ∨ i = 3 := by
  simpa [setup] using h

theorem delivered (i : UInt32) (b : UInt32 → List (ZMod 257)) :
    Delivered setup.ids i b ((others i).map fun j => (j, b j)) := by
  refine ⟨?_, ?_⟩
  · rw [List.map_map]
    have : (others i).map (Prod.fst ∘ fun j => (j, b j)) = others i := List.map_id _
    rw [this]
    exact List.Nodup.filter _ (by decide)
  · intro j x hne
    have : j ∈ setup.ids ↔ j = 1 ∨ j = 2 ∨ j = 3 := by simp [setup]
    rw [this]
    simp only [others, List.mem_map, List.mem_filter, List.mem_cons, List.not_mem_nil,
      or_false, decide_eq_true_eq, Prod.mk.injEq]
    constructor
    · rintro ⟨a, ⟨h1, h2⟩, rfl, rfl⟩; exact ⟨by tauto, rfl⟩
    · rintro ⟨h1, rfl⟩; exact ⟨j, ⟨by tauto, hne⟩, rfl, rfl⟩

theorem honest : HonestRound1 (1 : ZMod 257) 3 setup st0 (fun i => (r1 i).1) bv p where
  others_nodup := by intro i hi; rcases mem_ids hi with rfl | rfl | rfl <;> decide +kernel
  others_mem := by
    intro i hi j
    have : j ∈ setup.ids ↔ j = 1 ∨ j = 2 ∨ j = 3 := by simp [setup]
    rw [this]
    simp only [setup, others, List.mem_filter, List.mem_cons, List.not_mem_nil, or_false,
      decide_eq_true_eq]
    tauto
  new := by intro i hi; rcases mem_ids hi with rfl | rfl | rfl <;> decide +kernel
  r1 := by intro i hi; rcases mem_ids hi with rfl | rfl | rfl <;> decide +kernel

/-- the hypotheses of `C24_honest_run` hold, and the key is the sum `11 + 22 + 23` -/
example : (∀ i ∈ setup.ids, Delivered setup.ids i bv (bc i)) ∧
    (∀ i ∈ setup.ids, ∀ j ∈ setup.ids, j ≠ i → mapGet (p2p i) j = mapGet (p j) i) ∧
    (∀ i ∈ setup.ids, ((r3 i).2.toOption.map Prod.fst) = some 56) := by
  refine ⟨fun i _ => delivered i bv, ?_, ?_⟩
  · intro i hi j hj hne
    rcases mem_ids hi with rfl | rfl | rfl <;> rcases mem_ids hj with rfl | rfl | rfl <;>
      first | exact absurd rfl hne | decide +kernel
  · intro i hi
    rcases mem_ids hi with rfl | rfl | rfl <;> decide +kernel

end ToyRun

/-! ## C25: Round 4 -/

theorem publicShare_total {pk : G} {t : ℕ} {j : UInt32} {v : List G} (h : t ≤ v.length) :
    ∃ w, publicShare (q := q) pk t j v = .ok w := by
  unfold publicShare
  induction t with
  | zero => exact ⟨_, rfl⟩
  | succ t ih =>
    obtain ⟨w, hw⟩ := ih (by omega)
    rw [List.range_succ, List.foldlM_append]
    rw [hw, Go.ok_bind, List.foldlM_cons, List.getElem?_eq_getElem (by omega)]
    exact ⟨_, rfl⟩

/-- What Round 4 returns, in every state: one entry for the participant itself and one for each
other participant `j`, with the value `Pk + Σ_{k<t} (j·(k+1))·R_{j,k}`. -/
theorem C25_formula (st : State q G) (W : List (UInt32 × G)) (h : round4 st = .ok W) :
    st.round = 4 ∧ ∃ d pk, st.dealt = some d ∧ st.verificationKey = some pk ∧
      W.map Prod.fst = st.id :: st.others ∧
      List.Forall₂ (fun (jv : UInt32 × List G) w => w = pk + ∑ k ∈ Finset.range d.verifiers.length,
          ((jv.1.toNat : ZMod q) * ((k + 1 : ℕ) : ZMod q)) • jv.2.getD k 0)
        ((st.id, d.verifiers) :: st.others.map fun j => (j, (st.vs.lookup j).getD []))
        (W.map Prod.snd) := by
  unfold round4 at h
  rw [Go.guard_bind_eq_ok] at h
  obtain ⟨hr, h⟩ := h
  refine ⟨hr, ?_⟩
  cases hd : st.dealt with
  | none => simp [hd] at h
  | some d =>
    cases hk : st.verificationKey with
    | none => simp [hd, hk] at h
    | some pk =>
      simp only [hd, hk] at h
      rw [Go.mapM_eq_ok] at h
      have h' : List.Forall₂ (fun (jv : UInt32 × List G) (b : UInt32 × G) =>
          ∃ w, publicShare (q := q) pk d.verifiers.length jv.1 jv.2 = .ok w ∧ b = (jv.1, w))
          ((st.id, d.verifiers) :: st.others.map fun j => (j, (st.vs.lookup j).getD [])) W := by
        refine h.imp fun jv b hb => ?_
        rw [Go.bind_eq_ok] at hb
        obtain ⟨w, h1, h2⟩ := hb
        exact ⟨w, h1, (Except.ok.inj h2).symm⟩
      refine ⟨d, pk, rfl, rfl, ?_, ?_⟩
      · have : ∀ (L : List (UInt32 × List G)), List.Forall₂ (fun (jv : UInt32 × List G)
            (b : UInt32 × G) => ∃ w, publicShare (q := q) pk d.verifiers.length jv.1 jv.2 = .ok w ∧
              b = (jv.1, w)) L W → W.map Prod.fst = L.map Prod.fst := by
          clear h h'
          intro L hL
          induction hL with
          | nil => rfl
          | cons a _ ih => obtain ⟨w, _, rfl⟩ := a; simp [ih]
        rw [this _ h']
        simp [Function.comp_def]
      · rw [List.forall₂_map_right_iff]
        refine h'.imp fun jv b hb => ?_
        obtain ⟨w, h1, rfl⟩ := hb
        exact (publicShare_eq_ok h1).2

/-- The published public shares are wrong: in an honest run in which everybody completes, participant
1 publishes for *every* participant (itself included) a point different from the signing share times
the generator, and all participants agree on these wrong values for participant 1. -/
theorem C25_wrong : ∃ W : List (UInt32 × ZMod 257),
    round4 (ToyRun.r3 1).1 = .ok W ∧
    ∀ i ∈ [1, 2, 3], ∃ sh, (ToyRun.r3 i).2.toOption.map Prod.snd = some sh ∧ sh.id = i ∧
      W.lookup i ≠ some (sh.value • (1 : ZMod 257)) := by
  refine ⟨ToyRun.get (round4 (ToyRun.r3 1).1), by decide +kernel, ?_⟩
  intro i hi
  rcases ToyRun.mem_ids (by simpa [ToyRun.setup] using hi) with rfl | rfl | rfl
  · exact ⟨⟨1, ((ToyRun.r3 1).1.skShare).getD 0⟩, by decide +kernel⟩
  · exact ⟨⟨2, ((ToyRun.r3 2).1.skShare).getD 0⟩, by decide +kernel⟩
  · exact ⟨⟨3, ((ToyRun.r3 3).1.skShare).getD 0⟩, by decide +kernel⟩

/-! ## C26: the two-party wrapper -/

theorem round1_2p_eq_ok {g h : G} {c : UInt32} {st st' : State q G} {secret : Option (List UInt8)}
    {sampled blinding : ZMod q} {rnd rndB : ℕ → ZMod q} {m : Msg1 q G}
    (hr : round1_2p g h c st secret sampled blinding rnd rndB = (st', .ok m)) :
    ∃ p, round1 g h st secret sampled blinding rnd rndB = (st', .ok (m.verifiers, p)) ∧
      mapGet p c = some ⟨m.secretShare, m.blindingShare⟩ := by
  unfold round1_2p at hr
  split at hr
  · simp at hr
  · rename_i st'' bc p hr1
    split at hr
    · simp at hr
    · rename_i pk hpk
      simp only [Prod.mk.injEq, Except.ok.injEq] at hr
      obtain ⟨rfl, rfl⟩ := hr
      exact ⟨p, hr1, hpk⟩

/-- Two honest parties with identifiers 1 and 2 both finish (unless the key would be the identity)
with the same public key, and their shares satisfy `2·x₁ - x₂ = log(key)`, i.e. they interpolate with
the coefficients of the identifiers 1 and 2. -/
theorem C26_two_party (g h : G) (a1 a2 a1' a2' : State q G) (sec1 sec2 : Option (List UInt8))
    (sm1 sm2 bl1 bl2 : ZMod q) (rnd1 rnd2 rb1 rb2 : ℕ → ZMod q) (m1 m2 : Msg1 q G)
    (hn1 : new2p 1 2 = .ok a1) (hn2 : new2p 2 1 = .ok a2)
    (hr1 : round1_2p g h 2 a1 sec1 sm1 bl1 rnd1 rb1 = (a1', .ok m1))
    (hr2 : round1_2p g h 1 a2 sec2 sm2 bl2 rnd2 rb2 = (a2', .ok m2)) :
    ∃ (s1 s2 : ZMod q) (b1 b2 : State q G) (v1 v2 : List G),
      ((sec1 = none ∧ s1 = sm1) ∨ ∃ m, sec1 = some m ∧ s1 = (beNat m : ZMod q)) ∧
      ((sec2 = none ∧ s2 = sm2) ∨ ∃ m, sec2 = some m ∧ s2 = (beNat m : ZMod q)) ∧
      round2_2p g h 2 a1' m2 = (b1, .ok v1) ∧ round2_2p g h 1 a2' m1 = (b2, .ok v2) ∧
      ((s1 + s2) • g ≠ 0 → ∃ c1 c2 x1 x2 W1 W2,
        finalize2p g 2 b1 v2 = (c1, .ok ((s1 + s2) • g, ⟨1, x1⟩, W1)) ∧
        finalize2p g 1 b2 v1 = (c2, .ok ((s1 + s2) • g, ⟨2, x2⟩, W2)) ∧
        2 * x1 - x2 = s1 + s2) := by
  classical
  obtain ⟨p1, hr1', hp1⟩ := round1_2p_eq_ok hr1
  obtain ⟨p2, hr2', hp2⟩ := round1_2p_eq_ok hr2
  let S : Setup q G :=
    { ids := {1, 2}, t := 2, others := fun i => if i = 1 then [2] else [1]
      secret := fun i => if i = 1 then sec1 else sec2
      sampled := fun i => if i = 1 then sm1 else sm2
      blinding := fun i => if i = 1 then bl1 else bl2
      rnd := fun i => if i = 1 then rnd1 else rnd2
      rndB := fun i => if i = 1 then rb1 else rb2 }
  have hmem : ∀ i, i ∈ S.ids ↔ i = 1 ∨ i = 2 := by intro i; simp [S]
  have h21 : (2 : UInt32) ≠ 1 := by decide
  let bb : UInt32 → List G := fun i => if i = 1 then m1.verifiers else m2.verifiers
  have H : HonestRound1 g h S (fun i => if i = 1 then a1 else a2)
      (fun i => if i = 1 then a1' else a2') bb (fun i => if i = 1 then p1 else p2) := by
    refine ⟨?_, ?_, ?_, ?_⟩
    · intro i hi; rcases (hmem i).1 hi with rfl | rfl <;> simp [S]
    · intro i hi j
      rw [hmem]
      rcases (hmem i).1 hi with rfl | rfl
      · simp only [S, if_true, List.mem_singleton]
        constructor
        · rintro rfl; exact ⟨Or.inr rfl, h21⟩
        · tauto
      · simp only [S, if_neg h21, List.mem_singleton]
        constructor
        · rintro rfl; exact ⟨Or.inl rfl, h21.symm⟩
        · tauto
    · intro i hi
      rcases (hmem i).1 hi with rfl | rfl
      · exact hn1
      · simp only [S, if_neg h21]; exact hn2
    · intro i hi
      rcases (hmem i).1 hi with rfl | rfl
      · exact hr1'
      · simp only [S, bb, if_neg h21]; exact hr2'
  have hdel : ∀ (b : UInt32 → List G), ∀ i ∈ S.ids,
      Delivered S.ids i b (if i = 1 then [(2, b 2)] else [(1, b 1)]) := by
    intro b i hi
    rcases (hmem i).1 hi with rfl | rfl
    · refine ⟨by simp, fun j x hne => ?_⟩
      rw [hmem]
      simp only [if_true, List.mem_singleton, Prod.mk.injEq]
      constructor
      · rintro ⟨rfl, rfl⟩; exact ⟨Or.inr rfl, rfl⟩
      · rintro ⟨h1 | rfl, rfl⟩
        · exact absurd h1 hne
        · exact ⟨rfl, rfl⟩
    · refine ⟨by simp, fun j x hne => ?_⟩
      rw [hmem]
      simp only [if_neg h21, List.mem_singleton, Prod.mk.injEq]
      constructor
      · rintro ⟨rfl, rfl⟩; exact ⟨Or.inl rfl, rfl⟩
      · rintro ⟨rfl | h1, rfl⟩
        · exact ⟨rfl, rfl⟩
        · exact absurd h1 hne
  obtain ⟨s, sk, st2, v, hs, hround2, hround3, hint⟩ := C24_honest_run g h S _ _ _ _ H
    (fun i => if i = 1 then [(2, bb 2)] else [(1, bb 1)])
    (fun i => if i = 1 then [(2, some ⟨m2.secretShare, m2.blindingShare⟩)]
      else [(1, some ⟨m1.secretShare, m1.blindingShare⟩)])
    (hdel bb)
    (by
      intro i hi j hj hne
      rcases (hmem i).1 hi with rfl | rfl <;> rcases (hmem j).1 hj with rfl | rfl
      · exact absurd rfl hne
      · simp only [if_true, if_neg h21, hp2]; simp [mapGet]
      · simp only [if_true, if_neg h21, hp1]; simp [mapGet]
      · exact absurd rfl hne)
  have hsum : ∑ j ∈ S.ids, s j = s 1 + s 2 := by
    simp only [S]
    rw [Finset.sum_pair h21.symm]
  have m1' : (1 : UInt32) ∈ S.ids := (hmem 1).2 (Or.inl rfl)
  have m2' : (2 : UInt32) ∈ S.ids := (hmem 2).2 (Or.inr rfl)
  refine ⟨s 1, s 2, st2 1, st2 2, v 1, v 2, ?_, ?_, ?_, ?_, ?_⟩
  · exact (hs 1 m1').2
  · have := (hs 2 m2').2; simpa only [S, if_neg h21] using this
  · exact hround2 1 m1'
  · exact hround2 2 m2'
  · intro h0
    rw [hsum] at hround3
    have fin : ∀ (c : UInt32) (st : State q G) (i : UInt32) (x : ZMod q) (vv : List G) (st3),
        st.others = [c] → c ≠ st.id → st.scheme.threshold = 2 →
        (∀ d, st.dealt = some d → d.verifiers.length = 2) →
        round3 g st [(c, vv)] = (st3, .ok ((s 1 + s 2) • g, ⟨i, x⟩)) →
        ∃ W, finalize2p g c st vv = (st3, .ok ((s 1 + s 2) • g, ⟨i, x⟩, W)) := by
      intro c st i x vv st3 ho hcid ht hd hr
      unfold finalize2p
      rw [hr]
      obtain ⟨_, _, d, v0, vt, sk', hd', hv, _, hall, hpk, _, _, rfl⟩ := round3_eq_ok.1 hr
      have hlen := hd d hd'
      have hvv : 2 ≤ vv.length := by
        have := (hall (c, vv) (by simp) hcid).2.2
        unfold feldmanVerify at this
        rw [Go.guard_bind_eq_ok, ht] at this
        have e2 : (2 : UInt32).toNat = 2 := rfl
        have := this.1
        rw [e2] at this
        simp only at this
        omega
      obtain ⟨w1, hw1⟩ := publicShare_total (q := q) (pk := (s 1 + s 2) • g)
        (t := d.verifiers.length) (j := st.id) (v := d.verifiers) le_rfl
      obtain ⟨w2, hw2⟩ := publicShare_total (q := q) (pk := (s 1 + s 2) • g)
        (t := d.verifiers.length) (j := c) (v := vv) (by omega)
      have : round4 { st with vs := ([(c, vv)].filter (·.1 ≠ st.id)).reverse ++ st.vs
                              verificationKey := some ((s 1 + s 2) • g), round := 4 } =
          .ok [(st.id, w1), (c, w2)] := by
        unfold round4
        rw [Go.guard_true rfl, Go.ok_bind]
        have hf : [(c, vv)].filter (·.1 ≠ st.id) = [(c, vv)] := by simp [hcid]
        simp only [hd', hf, ho, List.map_cons, List.map_nil, List.reverse_singleton,
          List.singleton_append, List.lookup_cons, beq_self_eq_true, Option.getD_some]
        rw [Go.mapM_eq_ok]
        refine .cons ?_ (.cons ?_ .nil)
        · rw [hw1]; rfl
        · rw [hw2]; rfl
      simp only [this]
      exact ⟨_, rfl⟩
    have h1 := hround2 1 m1'
    have h2 := hround2 2 m2'
    simp only [if_true] at h1
    simp only [if_neg h21] at h2
    obtain ⟨_, _, _, d1, _, _, _, _, _, hd1, _, hv1, _, e1⟩ := round2_eq_ok.1 h1
    obtain ⟨_, _, _, d2, _, _, _, _, _, hd2, _, hv2, _, e2⟩ := round2_eq_ok.1 h2
    have new1 := newParticipant_eq_ok.1 hn1
    have new2 := newParticipant_eq_ok.1 hn2
    have f1 : a1'.others = [2] ∧ a1'.id = 1 ∧ a1'.scheme.threshold = 2 ∧
        (∀ d, a1'.dealt = some d → d.verifiers.length = 2) := by
      obtain ⟨_, s, bsh, shs, v, _, hsp, _, e⟩ := round1_eq_ok hr1'
      rw [e, new1.2.2.2.2]
      refine ⟨rfl, rfl, rfl, ?_⟩
      intro d hd
      simp only [Option.some.injEq] at hd
      have := (pedersenSplit_eq_ok hsp).2.2.2.2.2.2.2.1
      rw [new1.2.2.2.2] at this
      rw [← hd, this]
      simp [coeffs]
    have f2 : a2'.others = [1] ∧ a2'.id = 2 ∧ a2'.scheme.threshold = 2 ∧
        (∀ d, a2'.dealt = some d → d.verifiers.length = 2) := by
      obtain ⟨_, s, bsh, shs, v, _, hsp, _, e⟩ := round1_eq_ok hr2'
      rw [e, new2.2.2.2.2]
      refine ⟨rfl, rfl, rfl, ?_⟩
      intro d hd
      simp only [Option.some.injEq] at hd
      have := (pedersenSplit_eq_ok hsp).2.2.2.2.2.2.2.1
      rw [new2.2.2.2.2] at this
      rw [← hd, this]
      simp [coeffs]
    obtain ⟨c1, hc1⟩ := (hround3 1 m1' _ (hdel v 1 m1')).1 h0
    obtain ⟨c2, hc2⟩ := (hround3 2 m2' _ (hdel v 2 m2')).1 h0
    simp only [if_true] at hc1
    simp only [if_neg h21] at hc2
    obtain ⟨W1, hW1⟩ := fin 2 (st2 1) 1 (sk 1) (v 2) c1 (by rw [e1]; exact f1.1)
      (by rw [e1]; simp only; rw [f1.2.1]; exact h21) (by rw [e1]; exact f1.2.2.1)
      (by rw [e1]; exact f1.2.2.2) hc1
    obtain ⟨W2, hW2⟩ := fin 1 (st2 2) 2 (sk 2) (v 1) c2 (by rw [e2]; exact f2.1)
      (by rw [e2]; simp only; rw [f2.2.1]; exact h21.symm) (by rw [e2]; exact f2.2.2.1)
      (by rw [e2]; exact f2.2.2.2) hc2
    refine ⟨c1, c2, sk 1, sk 2, W1, W2, hW1, hW2, ?_⟩
    have := hint S.ids (Finset.Subset.refl _) (by simp [S])
    rw [hsum] at this
    rw [← this]
    have hp1 : S.ids.erase 1 = {2} := by simp only [S]; decide
    have hp2 : S.ids.erase 2 = {1} := by simp only [S]; decide
    have hset : S.ids = {1, 2} := rfl
    rw [hset, Finset.sum_pair h21.symm, ← hset, hp1, hp2]
    simp only [Finset.prod_singleton]
    have t1 : (((1 : UInt32).toNat : ℕ) : ZMod q) = 1 := by
      have : (1 : UInt32).toNat = 1 := rfl
      rw [this]; simp
    have t2 : (((2 : UInt32).toNat : ℕ) : ZMod q) = 2 := by
      have : (2 : UInt32).toNat = 2 := rfl
      rw [this]; simp
    rw [t1, t2]
    have q1 : (2 : ZMod q) - 1 = 1 := by ring
    have q2 : (1 : ZMod q) - 2 = -1 := by ring
    rw [q1, q2]
    field_simp
    ring

/-- the hypotheses of `C26_two_party` are met by concrete runs -/
example : ∃ (a1 a2 a1' a2' : State 257 (ZMod 257)) (m1 m2 : Msg1 257 (ZMod 257)),
    new2p 1 2 = .ok a1 ∧ new2p 2 1 = .ok a2 ∧
    round1_2p (1 : ZMod 257) 3 2 a1 none 5 6 (fun _ => 7) (fun _ => 8) = (a1', .ok m1) ∧
    round1_2p (1 : ZMod 257) 3 1 a2 (some [9]) 0 2 (fun _ => 3) (fun _ => 4) = (a2', .ok m2) :=
  ⟨_, _, _, _, _, _, rfl, rfl, rfl, rfl⟩

/-! ## C92: round order and what rounds 2 and 3 establish against arbitrary messages -/

/-- A call on a participant. -/
inductive Op (q : ℕ) (G : Type) where
  | round1 (secret : Option (List UInt8)) (sampled blinding : ZMod q) (rnd rndB : ℕ → ZMod q)
  | round2 (bcast : Option (List (UInt32 × List G)))
      (p2p : Option (List (UInt32 × Option (Packet q))))
  | round3 (bcast : List (UInt32 × List G))
  | round4

/-- the rounds that succeeded, oldest first -/
inductive Kind where | r1 | r2 | r3 | r4
  deriving DecidableEq

/-- One call: the new state (also after a failure) and the round that succeeded, if any. -/
def step (g h : G) (st : State q G) : Op q G → State q G × Option Kind
  | .round1 a b c d e => let r := round1 g h st a b c d e; (r.1, r.2.toOption.map fun _ => .r1)
  | .round2 a b => let r := round2 g h st a b; (r.1, r.2.toOption.map fun _ => .r2)
  | .round3 a => let r := round3 g st a; (r.1, r.2.toOption.map fun _ => .r3)
  | .round4 => (st, (round4 st).toOption.map fun _ => .r4)

/-- the successful rounds of a sequence of calls -/
def run (g h : G) : State q G → List (Op q G) → List Kind
  | _, [] => []
  | st, op :: ops => let r := step g h st op; r.2.toList ++ run g h r.1 ops

theorem round1_fail {g h : G} {st : State q G} {a : Option (List UInt8)} {b c : ZMod q}
    {d e : ℕ → ZMod q} {f : Fail} (hr : (round1 g h st a b c d e).2 = .error f) :
    (round1 g h st a b c d e).1.round = st.round := by
  revert hr
  unfold round1
  split
  · simp
  · split
    · simp
    · split
      · simp
      · simp only
        split <;> simp

theorem round2_fail {g h : G} {st : State q G} {a : Option (List (UInt32 × List G))}
    {b : Option (List (UInt32 × Option (Packet q)))} {f : Fail}
    (hr : (round2 g h st a b).2 = .error f) : (round2 g h st a b).1.round = st.round := by
  revert hr
  unfold round2
  split
  · simp
  · split
    · split
      · simp
      · split
        · simp
        · split
          · simp
          · split <;> simp
    · simp

theorem round3_fail {g : G} {st : State q G} {a : List (UInt32 × List G)} {f : Fail}
    (hsk : st.round = 3 → st.skShare ≠ none)
    (hr : (round3 g st a).2 = .error f) : (round3 g st a).1.round = st.round ∧
      (round3 g st a).1.skShare = st.skShare := by
  revert hr
  unfold round3
  split
  · simp
  · rename_i h3
    split
    · simp
    · split
      · simp
      · split
        · simp
        · split
          · simp
          · split
            · simp
            · split
              · rename_i h; exact absurd h (hsk (by simpa using h3))
              · simp

/-- In any sequence of calls with any inputs, failures included, on a new participant the rounds
succeed in the order 1, 2, 3, each at most once, and afterwards only round 4 succeeds (any number of
times). -/
theorem C92_round_order (g h : G) (st : State q G) (hst : st.round = 1) (ops : List (Op q G)) :
    ∃ n, run g h st ops <+: [.r1, .r2, .r3] ++ List.replicate n .r4 := by
  have main : ∀ (ops : List (Op q G)) (st : State q G) (todo : List Kind),
      (st.round = 3 → st.skShare ≠ none) →
      ((st.round = 1 ∧ todo = [.r1, .r2, .r3]) ∨ (st.round = 2 ∧ todo = [.r2, .r3]) ∨
        (st.round = 3 ∧ todo = [.r3]) ∨ (st.round = 4 ∧ todo = [])) →
      ∃ n, run g h st ops <+: todo ++ List.replicate n .r4 := by
    intro ops
    induction ops with
    | nil => intro st todo _ _; exact ⟨0, List.nil_prefix⟩
    | cons op ops ih =>
      intro st todo hsk hinv
      unfold run
      simp only
      cases op with
      | round1 a b c d e =>
        simp only [step]
        cases hr : (round1 g h st a b c d e).2 with
        | error f =>
          have := round1_fail hr
          refine ih _ _ ?_ (by rw [this]; exact hinv)
          intro h3
          have : st.round = 3 := by omega
          have h1 : round1 g h st a b c d e = (st, Go.err) := by
            unfold round1; rw [if_pos (by omega)]
          rw [h1]
          exact hsk this
        | ok r =>
          obtain ⟨bv, p⟩ := r
          obtain ⟨h1, s, bsh, shs, v, _, _, _, ee⟩ :=
            round1_eq_ok (Prod.ext rfl hr : round1 g h st a b c d e = (_, .ok (bv, p)))
          rcases hinv with ⟨_, rfl⟩ | ⟨h, _⟩ | ⟨h, _⟩ | ⟨h, _⟩ <;> try omega
          have e' : (round1 g h st a b c d e).1 = _ := ee
          obtain ⟨n, hn⟩ := ih (round1 g h st a b c d e).1 [.r2, .r3] (by rw [e']; simp)
            (by rw [e']; simp)
          exact ⟨n, by simpa [Except.toOption] using hn⟩
      | round2 a b =>
        simp only [step]
        cases hr : (round2 g h st a b).2 with
        | error f =>
          have := round2_fail hr
          refine ih _ _ ?_ (by rw [this]; exact hinv)
          intro h3
          have : st.round = 3 := by omega
          have h1 : round2 g h st a b = (st, Go.err) := by
            unfold round2; rw [if_pos (by omega)]
          rw [h1]
          exact hsk this
        | ok v =>
          obtain ⟨h2, bc, pp, d, own, _, _, _, _, _, _, _, _, e⟩ :=
            round2_eq_ok.1 (Prod.ext rfl hr : round2 g h st a b = (_, .ok v))
          rcases hinv with ⟨h, _⟩ | ⟨_, rfl⟩ | ⟨h, _⟩ | ⟨h, _⟩ <;> try omega
          have e' : (round2 g h st a b).1 = _ := e
          obtain ⟨n, hn⟩ := ih (round2 g h st a b).1 [.r3] (by rw [e']; simp) (by rw [e']; simp)
          exact ⟨n, by simpa [Except.toOption] using hn⟩
      | round3 a =>
        simp only [step]
        cases hr : (round3 g st a).2 with
        | error f =>
          have := round3_fail hsk hr
          refine ih _ _ ?_ (by rw [this.1]; exact hinv)
          rw [this.1, this.2]
          exact hsk
        | ok r =>
          obtain ⟨pk, sh⟩ := r
          obtain ⟨h3, _, d, v0, vt, sk, _, _, _, _, _, _, _, e⟩ :=
            round3_eq_ok.1 (Prod.ext rfl hr : round3 g st a = (_, .ok (pk, sh)))
          rcases hinv with ⟨h, _⟩ | ⟨h, _⟩ | ⟨_, rfl⟩ | ⟨h, _⟩ <;> try omega
          have e' : (round3 g st a).1 = _ := e
          obtain ⟨n, hn⟩ := ih (round3 g st a).1 [] (by rw [e']; simp) (by rw [e']; simp)
          exact ⟨n, by simpa [Except.toOption] using hn⟩
      | round4 =>
        simp only [step]
        cases hr : round4 st with
        | error f => exact ih _ _ hsk hinv
        | ok W =>
          have h4 := (C25_formula st W hr).1
          rcases hinv with ⟨h, _⟩ | ⟨h, _⟩ | ⟨h, _⟩ | ⟨_, rfl⟩ <;> try omega
          obtain ⟨n, hn⟩ := ih st [] hsk (by simp [h4])
          exact ⟨n + 1, by simpa [Except.toOption, List.replicate_succ] using hn⟩
  exact main ops st _ (by omega) (Or.inl ⟨hst, rfl⟩)

/-- a full run of four successful rounds exists -/
example : run (1 : ZMod 257) 3 (ToyRun.st0 1)
    [.round1 (some [0, 11]) 21 41 (ToyRun.setup.rnd 1) (ToyRun.setup.rndB 1),
     .round1 none 21 41 (ToyRun.setup.rnd 1) (ToyRun.setup.rndB 1),
     .round2 (some (ToyRun.bc 1)) (some (ToyRun.p2p 1)), .round4,
     .round3 (ToyRun.bc2 1), .round4, .round4] = [.r1, .r2, .r3, .r4, .r4] := by decide +kernel

/-- Against arbitrary messages: if rounds 2 and 3 succeed with broadcasts from the same set of
senders, every accepted share was addressed to this participant and its own share is consistent with
its own commitments, then the returned key share lies on the sum of the committed polynomials whose
constant term is the returned public key. -/
theorem C92_rounds_sound (g h : G) (st st2 st3 : State q G) (bc2 bc3 : List (UInt32 × List G))
    (p2p : List (UInt32 × Option (Packet q))) (v : List G) (pk : G) (sh : Share q)
    (hn2 : (bc2.map Prod.fst).Nodup) (hn3 : (bc3.map Prod.fst).Nodup)
    (hr2 : round2 g h st (some bc2) (some p2p) = (st2, .ok v))
    (hr3 : round3 g st2 bc3 = (st3, .ok (pk, sh)))
    (hkeys : ∀ j, j ≠ st.id → ((∃ x, (j, x) ∈ bc2) ↔ ∃ x, (j, x) ∈ bc3))
    (hids : ∀ e ∈ bc2, e.1 ≠ st.id → ∀ x, pktShare p2p e.1 = some x → x.id = st.id)
    (hown : ∀ d own, st.dealt = some d → d.secretShares[(st.id - 1).toNat]? = some own →
      own.value • g = evalL d.verifiers (st.id.toNat : ZMod q)) :
    sh.id = st.id ∧
    sh.value • g = evalL v (st.id.toNat : ZMod q) +
      ((bc3.filter (·.1 ≠ st.id)).map fun e => evalL e.2 (st.id.toNat : ZMod q)).sum ∧
    pk = v.headD 0 + ((bc3.filter (·.1 ≠ st.id)).map fun e => e.2.headD 0).sum := by
  classical
  obtain ⟨_, bc', pp', d, own, hb, hp, _, _, hd, ho, rfl, hall, e2⟩ := round2_eq_ok.1 hr2
  obtain rfl := Option.some.inj hb
  obtain rfl := Option.some.inj hp
  obtain ⟨_, _, d', v0, vt, sk, hd', hv, hsk, hall3, hpk, _, hsh, _⟩ := round3_eq_ok.1 hr3
  have hid : st2.id = st.id := by rw [e2]
  have hdd : d' = d := by
    rw [e2] at hd'
    exact (Option.some.inj (hd.symm.trans hd')).symm
  subst hdd
  rw [hid] at hsh hpk hall3
  subst hsh
  rw [e2] at hsk
  obtain rfl := Option.some.inj hsk
  refine ⟨rfl, ?_, by rw [hpk, hv]; rfl⟩
  simp only
  rw [add_smul, hown _ _ hd ho]
  congr 1
  -- both sums run over the common set of senders
  let ids : Finset UInt32 := (bc2.map Prod.fst).toFinset
  have hm2 : ∀ j, j ∈ ids ∧ j ≠ st.id ↔ ∃ x, (j, x) ∈ bc2 ∧ j ≠ st.id := by
    intro j
    simp only [ids, List.mem_toFinset, List.mem_map, Prod.exists, exists_and_right, exists_eq_right]
  have hm3 : ∀ j, j ∈ ids ∧ j ≠ st.id ↔ ∃ x, (j, x) ∈ bc3 ∧ j ≠ st.id := by
    intro j
    rw [hm2]
    simp only [exists_and_right]
    constructor
    · rintro ⟨h1, h2⟩; exact ⟨(hkeys j h2).1 h1, h2⟩
    · rintro ⟨h1, h2⟩; exact ⟨(hkeys j h2).2 h1, h2⟩
  let val : UInt32 → ZMod q := fun j => ((pktShare p2p j).map Share.value).getD 0
  have s2 := sum_filter_map bc2 hn2 st.id ids hm2
    (fun e => ((pktShare p2p e.1).map Share.value).getD 0) val (fun e _ _ => rfl)
  have s3 := sum_filter_map bc3 hn3 st.id ids hm3
    (fun e => evalL e.2 (st.id.toNat : ZMod q)) (fun j => val j • g) (by
      intro e he hne
      obtain ⟨_, _, hf⟩ := hall3 e he hne
      obtain ⟨x, hx⟩ := (hkeys e.1 hne).2 ⟨e.2, he⟩
      obtain ⟨_, pkt, hpkt, _, hss⟩ := hall (e.1, x) hx hne
      obtain ⟨y, hy⟩ := Option.ne_none_iff_exists'.1 hss
      have hps : pktShare p2p e.1 = some y := by simp [pktShare, hpkt, hy]
      have hlook : st2.shares.lookup e.1 = some y := by
        rw [e2]
        simp only
        rw [List.lookup_append]
        rw [lookup_of_mem (v := y)]
        · rfl
        · rw [List.map_reverse, List.nodup_reverse]
          refine filterMap_keys_nodup _ ?_
          exact hn2.sublist ((List.filter_sublist).map _)
        · simp only [List.mem_reverse, List.mem_filterMap, List.mem_filter]
          exact ⟨(e.1, x), ⟨hx, by simpa using hne⟩, by simp [hps]⟩
      rw [hlook] at hf
      unfold feldmanVerify at hf
      rw [Go.guard_bind_eq_ok] at hf
      obtain ⟨_, hf⟩ := hf
      simp only at hf
      split at hf
      · simp at hf
      · split at hf
        · simp at hf
        · rename_i c0 cs hc
          simp only [Except.ok.injEq, decide_eq_true_eq, commitEval_eq] at hf
          have hyid := hids (e.1, x) hx hne y hps
          rw [hyid] at hf
          rw [hc, ← hf]
          simp [val, hps])
  rw [s2, s3, Finset.sum_smul]

/-- The same set of senders is not enforced: round 3 accepts a single broadcast although round 2 heard
two senders; the key share then contains a contribution which is missing from the public key. -/
theorem C92_round3_subset_accepted : ∃ (pk pk' : ZMod 257) (sh : Share 257) (s s' : ToyRun.St),
    round3 (1 : ZMod 257) (ToyRun.r2 1).1 (ToyRun.bc2 1) = (s, .ok (pk, sh)) ∧
    round3 (1 : ZMod 257) (ToyRun.r2 1).1 ((ToyRun.bc2 1).take 1) = (s', .ok (pk', sh)) ∧
    pk ≠ pk' := by
  refine ⟨((ToyRun.r3 1).1.verificationKey).getD 0, ((round3 (1 : ZMod 257) (ToyRun.r2 1).1
    ((ToyRun.bc2 1).take 1)).1.verificationKey).getD 0, ⟨1, ((ToyRun.r3 1).1.skShare).getD 0⟩,
    (ToyRun.r3 1).1, (round3 (1 : ZMod 257) (ToyRun.r2 1).1 ((ToyRun.bc2 1).take 1)).1, ?_⟩
  decide +kernel

/-- A failed round 2 leaves the shares it had accepted behind: after a call that fails on sender 2 a
second call with sender 2 only, and a round 3 with both broadcasts, the public key contains sender 3's
contribution but the key share does not. -/
theorem C92_failed_round2_leaves_share : ∃ (sa sb sc : ToyRun.St) (v : List (ZMod 257))
    (pk : ZMod 257) (sh : Share 257),
    round2 (1 : ZMod 257) 3 (ToyRun.r1 1).1 (some (ToyRun.bc 1))
      (some ((ToyRun.p2p 1).take 1)) = (sa, Go.err) ∧
    round2 (1 : ZMod 257) 3 sa (some ((ToyRun.bc 1).drop 1))
      (some (ToyRun.p2p 1)) = (sb, .ok v) ∧
    round3 (1 : ZMod 257) sb (ToyRun.bc2 1) = (sc, .ok (pk, sh)) ∧
    some pk = (ToyRun.r3 1).1.verificationKey ∧ some sh.value ≠ (ToyRun.r3 1).1.skShare := by
  let sa := (round2 (1 : ZMod 257) 3 (ToyRun.r1 1).1 (some (ToyRun.bc 1))
      (some ((ToyRun.p2p 1).take 1))).1
  let sb := (round2 (1 : ZMod 257) 3 sa (some ((ToyRun.bc 1).drop 1)) (some (ToyRun.p2p 1))).1
  let sc := (round3 (1 : ZMod 257) sb (ToyRun.bc2 1)).1
  refine ⟨sa, sb, sc, ToyRun.get (ToyRun.r2 1).2, sc.verificationKey.getD 0,
    ⟨1, sc.skShare.getD 0⟩, ?_⟩
  decide +kernel

end Verif.Gennaro
