import Verif.Bls.Props

/-! # Properties of the threshold BLS signatures (C75, C104) -/

set_option linter.unusedSectionVars false

namespace Verif.Bls

open Finset

variable {F : Type} [Field F] [DecidableEq F]
variable {G H GT : Type} [AddCommGroup G] [Module F G] [DecidableEq G]
  [AddCommGroup H] [Module F H] [DecidableEq H] [AddCommGroup GT] [Module F GT] [DecidableEq GT]

/-- interpolation as a sum over the list of points -/
theorem interpolate_list (pts : List (F × H)) (h : (pts.map Prod.fst).Nodup) :
    Sharing.interpolate pts =
      .ok (pts.map fun p => lag0 (pts.map Prod.fst).toFinset id p.1 • p.2).sum := by
  rw [Sharing.interpolate_eq _ h]
  congr 1
  have hinj := Sharing.nodup_node_inj pts h
  have himg : (pts.map Prod.fst).toFinset = (range pts.length).image (Sharing.node pts) := by
    ext x
    rw [List.mem_toFinset, Finset.mem_image, List.mem_iff_getElem]
    constructor
    · rintro ⟨i, hi, rfl⟩
      exact ⟨i, by simpa using hi, List.getD_eq_getElem _ _ hi⟩
    · rintro ⟨i, hi, rfl⟩
      have hi' : i < (pts.map Prod.fst).length := by simpa using hi
      exact ⟨i, hi', (List.getD_eq_getElem _ _ hi').symm⟩
  have hlag : ∀ i ∈ range pts.length, lag0 (range pts.length) (Sharing.node pts) i =
      lag0 (pts.map Prod.fst).toFinset id (Sharing.node pts i) := by
    intro i hi
    unfold lag0
    have : (pts.map Prod.fst).toFinset.erase (Sharing.node pts i) =
        ((range pts.length).erase i).image (Sharing.node pts) := by
      rw [himg]
      ext x
      simp only [Finset.mem_erase, Finset.mem_image]
      constructor
      · rintro ⟨hx, j, hj, rfl⟩
        exact ⟨j, ⟨fun he => hx (by rw [he]), hj⟩, rfl⟩
      · rintro ⟨j, ⟨hji, hj⟩, rfl⟩
        exact ⟨fun he => hji (hinj hj hi he), j, hj, rfl⟩
    rw [this, Finset.prod_image]
    · rfl
    · intro a ha b hb
      exact hinj (Finset.mem_of_mem_erase ha) (Finset.mem_of_mem_erase hb)
  have hz := Sharing.zipIdx_map_sum pts (0, 0)
    (fun (p : F × H) (_ : ℕ) => lag0 (pts.map Prod.fst).toFinset id p.1 • p.2)
  have hz' : (pts.zipIdx.map fun p => lag0 (pts.map Prod.fst).toFinset id p.1.1 • p.1.2) =
      pts.map fun p => lag0 (pts.map Prod.fst).toFinset id p.1 • p.2 := by
    generalize (pts.map Prod.fst).toFinset = S
    conv_rhs => rw [← List.zipIdx_map_fst 0 pts, List.map_map]
    rfl
  rw [← hz', hz]
  refine Finset.sum_congr rfl fun i hi => ?_
  rw [hlag i hi]
  rw [mem_range] at hi
  unfold Sharing.node
  rw [List.getD_eq_getElem _ _ hi, List.getD_eq_getElem _ _ (by simpa using hi),
    List.getD_eq_getElem _ _ (by simpa using hi)]
  simp

/-- the identifiers as nodes -/
def nodesOf (F : Type) [Field F] [DecidableEq F] (ids : List UInt8) : Finset F :=
  (ids.map fun i : UInt8 => ((i.toNat : ℕ) : F)).toFinset

/-! ## C75: combining partial signatures -/

/-- C75: `CombineSignatures` succeeds exactly for 2 to 255 non-nil partial signatures with distinct
identifiers, and returns the combination of the partial signatures with the Lagrange coefficients at zero
`∏ xⱼ / (xⱼ − xᵢ)` of the identifiers. -/
theorem C75_decision (hF : ByteInj F) (ps : List (Option (Partial H))) (s : H) :
    combineSigs F ps = .ok s ↔ ∃ l : List (Partial H), ps = l.map some ∧ 2 ≤ l.length ∧
      l.length ≤ 255 ∧ (l.map Partial.identifier).Nodup ∧
      s = (l.map fun p => lag0 (nodesOf F (l.map Partial.identifier)) id (p.identifier.toNat : F) •
        p.signature).sum := by
  have hfst : ∀ l : List (Partial H), (l.map fun p => ((p.identifier.toNat : F), p.signature)).map
      Prod.fst = (l.map Partial.identifier).map fun i : UInt8 => ((i.toNat : ℕ) : F) := by
    intro l; simp [Function.comp_def]
  have hval : ∀ l : List (Partial H), (l.map Partial.identifier).Nodup →
      combineLoop (l.map fun p => ((p.identifier.toNat : F), p.signature)) =
      .ok (l.map fun p => lag0 (nodesOf F (l.map Partial.identifier)) id (p.identifier.toNat : F) •
        p.signature).sum := by
    intro l hn
    have hnd := ids_nodup hF _ hn
    rw [combineLoop_eq _ (by rw [hfst]; exact hnd), interpolate_list _ (by rw [hfst]; exact hnd), hfst,
      List.map_map]
    rfl
  unfold combineSigs
  rw [Go.guard_bind_eq_ok, Go.guard_bind_eq_ok, Go.bind_eq_ok]
  simp only [splitXY_iff]
  constructor
  · rintro ⟨h1, h2, _, ⟨l, rfl, hn, -, rfl⟩, h⟩
    rw [hval l hn] at h
    cases h
    rw [List.length_map] at h1 h2
    exact ⟨l, rfl, by omega, by omega, hn, rfl⟩
  · rintro ⟨l, rfl, h1, h2, hn, rfl⟩
    rw [List.length_map]
    exact ⟨by omega, by omega, _, ⟨l, rfl, hn, by simp, rfl⟩, hval l hn⟩

/-- C75: `CombineSignatures` never panics. -/
theorem C75_no_panic (hF : ByteInj F) (ps : List (Option (Partial H))) :
    combineSigs F ps ≠ Go.crash := by
  unfold combineSigs Go.guard
  split
  · rw [Go.ok_bind]
    split
    · rw [Go.ok_bind]
      cases hx : splitXY (F := F) [] ps with
      | error f =>
        cases f with
        | error => intro h; cases h
        | panic => exact absurd hx (splitXY_ne_panic _ _)
      | ok r =>
        obtain ⟨l, rfl, hn, -, rfl⟩ := (splitXY_iff _ _ _).1 hx
        have hfst : (l.map fun p => ((p.identifier.toNat : F), p.signature)).map Prod.fst =
            (l.map Partial.identifier).map fun i : UInt8 => ((i.toNat : ℕ) : F) := by
          simp [Function.comp_def]
        have hnd := ids_nodup hF _ hn
        rw [Go.ok_bind, combineLoop_eq _ (by rw [hfst]; exact hnd),
          interpolate_list _ (by rw [hfst]; exact hnd)]
        intro h; cases h
    · intro h; cases h
  · intro h; cases h

/-- C75: the key is split exactly for 2 ≤ threshold ≤ total ≤ 255 and a non-zero non-nil key; the shares are the
values at 1 … total of the polynomial with the key as constant term and the random coefficients. -/
theorem C75_thresholdize (cd : ScalarCodec F) (sk : Option F) (t n : ℕ) (rnd : ℕ → F)
    (shares : List KeyShare) :
    thresholdize cd sk t n rnd = .ok shares ↔ ∃ s, sk = some s ∧ s ≠ 0 ∧ 2 ≤ t ∧ t ≤ n ∧ n ≤ 255 ∧
      shares = (List.range n).map fun i : ℕ => (⟨UInt8.ofNat (i + 1),
        cd.enc (evalL (s :: (List.range (t - 1)).map rnd) ((i + 1 : ℕ) : F))⟩ : KeyShare) :=
  thresholdize_eq_ok

/-- the partial signature of a share of the polynomial `cs` -/
theorem partials_of_shares (cd : ScalarCodec F) (hash : Bytes → Bytes → H) (m dst : Bytes) (hm : m ≠ [])
    (cs : List F) (L : List KeyShare)
    (hL : ∀ s ∈ L, s.value = cd.enc (evalL cs (s.identifier.toNat : F))) :
    L.mapM (fun s => partialSign cd hash s (some m) dst) =
      .ok (L.map fun s => (⟨s.identifier, evalL cs (s.identifier.toNat : F) • hash m dst⟩ : Partial H)) := by
  rw [Go.mapM_eq_ok]
  induction L with
  | nil => exact .nil
  | cons s L ih =>
    refine .cons ?_ (ih fun q hq => hL q (by simp [hq]))
    unfold partialSign
    rw [Option.getD_some, Go.guard_true hm, Go.ok_bind, hL s (by simp), cd.dec_enc]
    rfl

/-- facts about shares of a split key -/
theorem share_facts {cd : ScalarCodec F} {sk : F} {t n : ℕ} {rnd : ℕ → F} {shares : List KeyShare}
    (h : thresholdize cd (some sk) t n rnd = .ok shares) (L : List KeyShare)
    (hsub : ∀ s ∈ L, s ∈ shares) (hnd : L.Nodup) :
    (∀ s ∈ L, s.identifier ≠ 0 ∧ s.value = cd.enc (evalL (sk :: (List.range (t - 1)).map rnd)
      (s.identifier.toNat : F))) ∧ (L.map KeyShare.identifier).Nodup ∧ L.length ≤ 255 ∧ 2 ≤ t ∧ sk ≠ 0 := by
  obtain ⟨s, hs, h0, h2, htn, hn, rfl⟩ := thresholdize_eq_ok.1 h
  cases hs
  have hval : ∀ s ∈ L, s.identifier ≠ 0 ∧ s.value = cd.enc (evalL (sk :: (List.range (t - 1)).map rnd)
      (s.identifier.toNat : F)) := by
    intro s hs
    obtain ⟨i, hi, rfl⟩ := List.mem_map.1 (hsub s hs)
    rw [List.mem_range] at hi
    have : (UInt8.ofNat (i + 1)).toNat = i + 1 :=
      UInt8.toNat_ofNat_of_lt (by show i + 1 < 2 ^ 8; omega)
    constructor
    · intro hz
      have hz' : (UInt8.ofNat (i + 1)).toNat = 0 := by
        have := congrArg UInt8.toNat hz
        simpa using this
      omega
    · simp only [this]
  have hids : (L.map KeyShare.identifier).Nodup := by
    refine List.Nodup.map_on ?_ hnd
    rintro ⟨i, v⟩ ha ⟨j, w⟩ hb hij
    have e1 := (hval _ ha).2
    have e2 := (hval _ hb).2
    simp only at hij e1 e2
    subst hij
    rw [e1, e2]
  refine ⟨hval, hids, ?_, h2, h0⟩
  have := (List.subperm_of_subset hnd hsub).length_le
  simp only [List.length_map, List.length_range] at this
  omega

theorem combine_shares (hF : ByteInj F) (cs : List F) (h : H) (ids : List UInt8) (hn : ids.Nodup)
    (h2 : 2 ≤ ids.length) (h255 : ids.length ≤ 255) :
    combineSigs F ((ids.map fun i => (⟨i, evalL cs (i.toNat : F) • h⟩ : Partial H)).map some) =
      .ok ((∑ x ∈ nodesOf F ids, lag0 (nodesOf F ids) id x * evalL cs x) • h) := by
  rw [C75_decision hF]
  refine ⟨_, rfl, by simpa using h2, by simpa using h255, by simpa [Function.comp_def] using hn, ?_⟩
  have hid : (ids.map fun i => (⟨i, evalL cs (i.toNat : F) • h⟩ : Partial H)).map Partial.identifier =
      ids := by simp [Function.comp_def]
  rw [hid, List.map_map, nodesOf, List.sum_toFinset _ (ids_nodup hF ids hn), List.sum_smul, List.map_map,
    List.map_map]
  refine congrArg List.sum (List.map_congr_left fun i _ => ?_)
  simp only [Function.comp, smul_smul]

theorem nodesOf_card (hF : ByteInj F) (ids : List UInt8) (hn : ids.Nodup) :
    (nodesOf F ids).card = ids.length := by
  rw [nodesOf, List.toFinset_card_of_nodup (ids_nodup hF ids hn), List.length_map]

/-- C75: the partial signatures of any `t` or more distinct shares of a split key combine to the signature of the
key, which verifies under its public key. -/
theorem C75_any_threshold (hF : ByteInj F) {g : G} {e : G →ₗ[F] H →ₗ[F] GT}
    (he : ∀ S, e g S = 0 → S = 0) (hg : ∀ r : F, r • g = 0 → r = 0) (cd : ScalarCodec F)
    (hash : Bytes → Bytes → H) (sk : F)
    (t n : ℕ) (rnd : ℕ → F) (shares : List KeyShare)
    (h : thresholdize cd (some sk) t n rnd = .ok shares) (L : List KeyShare)
    (hsub : ∀ s ∈ L, s ∈ shares) (hnd : L.Nodup) (ht : t ≤ L.length) (m dst : Bytes) (hm : m ≠ []) :
    ∃ ps sig, L.mapM (fun s => partialSign cd hash s (some m) dst) = .ok ps ∧
      combineSigs F (ps.map some) = .ok sig ∧ createSignature hash sk (some m) dst = .ok sig ∧
      (hash m dst ≠ 0 → verifySignature g e hash (sk • g) (some m) (some sig) dst = .ok true) := by
  obtain ⟨hval, hids, h255, h2, h0⟩ := share_facts h L hsub hnd
  refine ⟨_, sk • hash m dst, partials_of_shares cd hash m dst hm _ L fun s hs => (hval s hs).2, ?_, ?_, ?_⟩
  · have := combine_shares hF (sk :: (List.range (t - 1)).map rnd) (hash m dst)
      (L.map KeyShare.identifier) hids (by simp; omega) (by simpa using h255)
    rw [List.map_map (f := KeyShare.identifier)] at this
    refine Eq.trans this ?_
    have hs := sum_lag0_evalL (nodesOf F (L.map KeyShare.identifier)) id (Set.injOn_id _)
      (sk :: (List.range (t - 1)).map rnd) (by
        rw [nodesOf_card hF _ hids]; simp; omega)
    simp only [smul_eq_mul, id, List.headD_cons] at hs
    rw [hs]
  · unfold createSignature
    rw [Go.ofOption_eq_ok.2 rfl, Go.ok_bind, Go.guard_true h0, Go.ok_bind]
  · intro hh
    rw [C73_decision he]
    exact ⟨_, _, rfl, rfl, fun hz => h0 (hg _ hz), smul_ne_zero h0 hh, by simp⟩

/-- C75: the same for message augmentation: when every holder is given the common public key, the combination
is the signature `SigAug.Sign` makes with the whole key. -/
theorem C75_aug_threshold (hF : ByteInj F) {g : G} (hg : ∀ r : F, r • g = 0 → r = 0)
    (encP : G → Bytes) (cd : ScalarCodec F) (hash : Bytes → Bytes → H) (sk : F)
    (t n : ℕ) (rnd : ℕ → F) (shares : List KeyShare)
    (h : thresholdize cd (some sk) t n rnd = .ok shares) (L : List KeyShare)
    (hsub : ∀ s ∈ L, s ∈ shares) (hnd : L.Nodup) (ht : t ≤ L.length) (m dst : Bytes) (hm : m ≠ []) :
    ∃ ps sig, L.mapM (fun s => augPartialSign encP cd hash s (some (sk • g)) (some m) dst) = .ok ps ∧
      combineSigs F (ps.map some) = .ok sig ∧ augSign g encP hash sk (some m) dst = .ok sig := by
  obtain ⟨-, -, -, -, h0⟩ := share_facts h L hsub hnd
  have hne : encP (sk • g) ++ m ≠ [] := fun hh => hm (List.append_eq_nil_iff.1 hh).2
  obtain ⟨hval, hids, h255, h2, -⟩ := share_facts h L hsub hnd
  refine ⟨L.map fun s => (⟨s.identifier, evalL (sk :: (List.range (t - 1)).map rnd)
      (s.identifier.toNat : F) • hash (encP (sk • g) ++ m) dst⟩ : Partial H),
    sk • hash (encP (sk • g) ++ m) dst, ?_, ?_, ?_⟩
  · rw [← partials_of_shares cd hash (encP (sk • g) ++ m) dst hne _ L fun s hs => (hval s hs).2]
    congr 1
    funext s
    unfold augPartialSign
    rw [Go.guard_true (by simpa using hm), Go.ok_bind]
    rfl
  · have := combine_shares hF (sk :: (List.range (t - 1)).map rnd) (hash (encP (sk • g) ++ m) dst)
      (L.map KeyShare.identifier) hids (by simp; omega) (by simpa using h255)
    rw [List.map_map (f := KeyShare.identifier)] at this
    refine Eq.trans this ?_
    have hs := sum_lag0_evalL (nodesOf F (L.map KeyShare.identifier)) id (Set.injOn_id _)
      (sk :: (List.range (t - 1)).map rnd) (by
        rw [nodesOf_card hF _ hids]; simp; omega)
    simp only [smul_eq_mul, id, List.headD_cons] at hs
    rw [hs]
  · unfold augSign getPublicKey createSignature
    simp only [Option.getD_some]
    rw [Go.guard_true hm, Go.ok_bind, Go.guard_true (show sk • g ≠ 0 from fun hz => h0 (hg _ hz)), Go.ok_bind,
      Go.ok_bind, Go.ofOption_eq_ok.2 rfl, Go.ok_bind, Go.guard_true h0, Go.ok_bind]

/-! ## C104: too few and foreign partial signatures -/

/-- C104: `t − 1 ≥ 2` partial signatures are combined without an error; the result differs from the signature by
`−∏(−xᵢ)` times the leading coefficient, so it is the signature only when that coefficient is zero. -/
theorem C104_one_too_few (hF : ByteInj F) (cd : ScalarCodec F)
    (hash : Bytes → Bytes → H) (sk : F)
    (t n : ℕ) (rnd : ℕ → F) (shares : List KeyShare)
    (h : thresholdize cd (some sk) t n rnd = .ok shares) (L : List KeyShare)
    (hsub : ∀ s ∈ L, s ∈ shares) (hnd : L.Nodup) (ht : L.length + 1 = t) (h2 : 2 ≤ L.length)
    (m dst : Bytes) (hm : m ≠ []) (hh : hash m dst ≠ 0) :
    ∃ ps sig, L.mapM (fun s => partialSign cd hash s (some m) dst) = .ok ps ∧
      combineSigs F (ps.map some) = .ok sig ∧
      sig = (sk - (∏ x ∈ nodesOf F (L.map KeyShare.identifier), -x) * rnd (t - 2)) • hash m dst ∧
      (sig = sk • hash m dst ↔ rnd (t - 2) = 0) := by
  obtain ⟨hval, hids, h255, -, h0⟩ := share_facts h L hsub hnd
  set N := nodesOf F (L.map KeyShare.identifier) with hN
  have hcard : N.card = L.length := by rw [hN, nodesOf_card hF _ hids, List.length_map]
  have hne : (∏ x ∈ N, -x) ≠ 0 := by
    refine Finset.prod_ne_zero_iff.2 fun x hx => neg_ne_zero.2 ?_
    rw [hN, nodesOf, List.mem_toFinset, List.mem_map] at hx
    obtain ⟨i, hi, rfl⟩ := hx
    obtain ⟨s, hs, rfl⟩ := List.mem_map.1 hi
    have := (hval s hs).1
    have hlt := s.identifier.toNat_lt
    refine hF _ (Nat.pos_of_ne_zero fun hz => this (UInt8.toNat_inj.1 (by simpa using hz))) (by omega)
  have hsig : combineSigs F ((L.map fun s => (⟨s.identifier,
      evalL (sk :: (List.range (t - 1)).map rnd) (s.identifier.toNat : F) • hash m dst⟩ : Partial H)).map
        some) = .ok ((sk - (∏ x ∈ N, -x) * rnd (t - 2)) • hash m dst) := by
    have := combine_shares hF (sk :: (List.range (t - 1)).map rnd) (hash m dst)
      (L.map KeyShare.identifier) hids (by simpa using h2) (by simpa using h255)
    rw [List.map_map (f := KeyShare.identifier)] at this
    refine Eq.trans this ?_
    rw [← hN]
    have hcs : sk :: (List.range (t - 1)).map rnd =
        (sk :: (List.range (t - 2)).map rnd) ++ [rnd (t - 2)] := by
      have : t - 1 = (t - 2) + 1 := by omega
      rw [this, List.range_succ]
      simp
    have happ : ∀ (as : List F) (b x : F), evalL (as ++ [b]) x = evalL as x + x ^ as.length * b := by
      intro as b x
      induction as with
      | nil => simp [evalL]
      | cons a as ih =>
        rw [List.cons_append, evalL_cons, ih, evalL_cons, List.length_cons, pow_succ]
        simp only [smul_eq_mul]; ring
    have hlen : (sk :: (List.range (t - 2)).map rnd).length = N.card := by
      rw [hcard]; simp; omega
    have hlow := sum_lag0_evalL N id (Set.injOn_id _) (sk :: (List.range (t - 2)).map rnd) (by
      rw [hlen])
    have htop := sum_lag0_pow_card N id (Set.injOn_id _) (by omega)
    simp only [smul_eq_mul, id, List.headD_cons] at hlow htop
    congr 2
    rw [hcs]
    calc ∑ x ∈ N, lag0 N id x * evalL ((sk :: (List.range (t - 2)).map rnd) ++ [rnd (t - 2)]) x
        = ∑ x ∈ N, lag0 N id x * evalL (sk :: (List.range (t - 2)).map rnd) x +
          (∑ x ∈ N, lag0 N id x * x ^ N.card) * rnd (t - 2) := by
          rw [Finset.sum_mul, ← Finset.sum_add_distrib]
          refine Finset.sum_congr rfl fun x _ => ?_
          rw [happ, hlen]; ring
      _ = sk - (∏ x ∈ N, -x) * rnd (t - 2) := by
          rw [htop]
          rw [show (∑ x ∈ N, lag0 N id x * evalL (sk :: (List.range (t - 2)).map rnd) x) = sk from hlow]
          ring
  refine ⟨_, _, partials_of_shares cd hash m dst hm _ L fun s hs => (hval s hs).2, hsig, rfl, ?_⟩
  constructor
  · intro heq
    have hz : ((∏ x ∈ N, -x) * rnd (t - 2)) • hash m dst = 0 := by
      have := sub_eq_zero.2 heq
      rw [← sub_smul] at this
      rw [← neg_eq_zero, ← neg_smul]
      rw [← this]
      congr 1
      ring
    rcases smul_eq_zero.1 hz with hz | hz
    · exact (mul_eq_zero.1 hz).resolve_left hne
    · exact absurd hz hh
  · intro hz
    rw [hz, mul_zero, sub_zero]

/-- C104: a partial signature with identifier 0 decides the result alone: the combination is that partial
signature whatever the others are. -/
theorem C104_zero_identifier (hF : ByteInj F) (z : H) (l₁ l₂ : List (Partial H)) (s : H)
    (h : combineSigs F ((l₁ ++ ⟨0, z⟩ :: l₂).map some) = .ok s) : s = z := by
  obtain ⟨l, hl, h2, -, hn, rfl⟩ := (C75_decision hF _ _).1 h
  have hll : l = l₁ ++ ⟨0, z⟩ :: l₂ := (List.map_injective_iff.2 (Option.some_injective _) hl).symm
  subst hll
  set N := nodesOf F ((l₁ ++ ⟨0, z⟩ :: l₂).map Partial.identifier) with hN
  have hmem : (0 : F) ∈ N := by
    rw [hN, nodesOf, List.mem_toFinset, List.mem_map]
    exact ⟨0, by simp, by simp⟩
  have hne : ∀ p ∈ l₁ ++ l₂, p.identifier ≠ 0 := by
    intro p hp hz
    rw [List.map_append, List.map_cons, List.nodup_middle, List.nodup_cons] at hn
    apply hn.1
    rw [← List.map_append]
    exact List.mem_map.2 ⟨p, hp, hz⟩
  have hzero : ∀ p ∈ l₁ ++ l₂, lag0 N id (p.identifier.toNat : F) • p.signature = 0 := by
    intro p hp
    have hlt := p.identifier.toNat_lt
    have hx : ((p.identifier.toNat : ℕ) : F) ≠ 0 :=
      hF _ (Nat.pos_of_ne_zero fun hz => hne p hp (UInt8.toNat_inj.1 (by simpa using hz))) (by omega)
    have : lag0 N id ((p.identifier.toNat : ℕ) : F) = 0 := by
      unfold lag0
      exact Finset.prod_eq_zero (Finset.mem_erase.2 ⟨Ne.symm hx, hmem⟩) (by simp)
    rw [this, zero_smul]
  have hone : lag0 N id (0 : F) = 1 := by
    unfold lag0
    refine Finset.prod_eq_one fun x hx => ?_
    have := (Finset.mem_erase.1 hx).1
    simp only [id, sub_zero]
    exact div_self this
  rw [List.map_append, List.map_cons, List.sum_append, List.sum_cons,
    List.map_congr_left (f := fun p : Partial H => lag0 N id (p.identifier.toNat : F) • p.signature)
      (g := fun _ => 0) (l := l₁) fun p hp => hzero p (by simp [hp]),
    List.map_congr_left (f := fun p : Partial H => lag0 N id (p.identifier.toNat : F) • p.signature)
      (g := fun _ => 0) (l := l₂) fun p hp => hzero p (by simp [hp])]
  simp [hone]

/-- C104: empty messages cannot be signed with a share, although `Sign` accepts the empty message. -/
theorem C104_empty_message (cd : ScalarCodec F) (hash : Bytes → Bytes → H) (share : KeyShare) (sk : F)
    (hsk : sk ≠ 0) (dst : Bytes) :
    partialSign cd hash share (some []) dst = Go.err ∧
    createSignature hash sk (some []) dst = .ok (sk • hash [] dst) := by
  constructor
  · unfold partialSign
    rw [Go.guard_false (by simp)]
    rfl
  · unfold createSignature
    rw [Go.ofOption_eq_ok.2 rfl, Go.ok_bind, Go.guard_true hsk, Go.ok_bind]

example : ∃ shares, thresholdize Toy.codec (some (5 : Toy.K)) 2 3 (fun _ => 3) = .ok shares ∧
    shares = [⟨1, [0, 8]⟩, ⟨2, [0, 11]⟩, ⟨3, [0, 14]⟩] ∧
    (do let ps ← [(⟨3, [0, 14]⟩ : KeyShare), ⟨1, [0, 8]⟩].mapM fun s =>
          partialSign Toy.codec (fun m d => ((m ++ d).length : Toy.K)) s (some [1, 2]) [9]
        combineSigs Toy.K (ps.map some)) = .ok (15 : Toy.K) := by
  refine ⟨_, rfl, ?_, ?_⟩ <;> decide +kernel

example : (do
    let shares ← thresholdize Toy.codec (some (5 : Toy.K)) 3 3 (fun _ => 1)
    let ps ← (shares.take 2).mapM fun s =>
          partialSign Toy.codec (fun m d => ((m ++ d).length : Toy.K)) s (some [1, 2]) [9]
    combineSigs Toy.K (ps.map some)) = .ok (9 : Toy.K) ∧
    combineSigs Toy.K [some (⟨4, (9 : Toy.K)⟩ : Partial Toy.K), some ⟨0, 77⟩, some ⟨2, 1⟩] =
      .ok (77 : Toy.K) := by
  constructor <;> decide +kernel

end Verif.Bls
