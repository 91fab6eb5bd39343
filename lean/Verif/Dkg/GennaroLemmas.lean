import Verif.Dkg.GennaroModel
import Verif.Sharing.V1Props
import Verif.Common.GoList

set_option linter.unusedSectionVars false

/-! Lemmas about the Gennaro DKG model. -/

namespace Verif.Gennaro

open V1
open Verif.Frost (mapGet)

variable {q : ℕ} [Fact q.Prime]
variable {G : Type} [AddCommGroup G] [Module (ZMod q) G] [DecidableEq G]

theorem newParticipant_eq_ok {id t : UInt32} {os : List UInt32} {st : State q G} :
    newParticipant id t os = .ok st ↔ os ≠ [] ∧
      (∀ i ∈ List.range (os.length + 1), UInt32.ofNat (i + 1) ∈ os ++ [id]) ∧
      t ≤ UInt32.ofNat os.length + 1 ∧ 2 ≤ t ∧
      st = { round := 1, id := id, others := os.dedup,
             scheme := ⟨t, UInt32.ofNat os.length + 1⟩ } := by
  unfold newParticipant validIds
  simp only [Go.guard_bind_eq_ok, Except.ok.injEq, UInt32.not_lt, List.length_append, List.length_cons,
    List.length_nil, Nat.zero_add, ne_eq, List.length_eq_zero_iff]
  rw [eq_comm (b := st)]

theorem pickSecret_eq_ok {secret : Option (List UInt8)} {sampled : ZMod q} {s : List UInt8} :
    pickSecret q secret sampled = .ok s ↔
      (secret = none ∧ s = natBytes sampled.val) ∨
      (secret = some s ∧ beNat s < q ∧ beNat s ≠ 0) := by
  unfold pickSecret
  cases secret with
  | none => simp [eq_comm]
  | some b =>
    simp only [Go.guard_bind_eq_ok, Except.ok.injEq, Option.some.injEq, reduceCtorEq, false_and,
      false_or]
    constructor
    · rintro ⟨h1, h2, rfl⟩; exact ⟨rfl, h1, h2⟩
    · rintro ⟨rfl, h1, h2⟩; exact ⟨h1, h2, rfl⟩

/-- dealing polynomial -/
def coeffs (t : UInt32) (s : ZMod q) (rnd : ℕ → ZMod q) : List (ZMod q) :=
  s :: (List.range (t.toNat - 1)).map rnd

/-- What a successful `Pedersen.Split` returns. -/
theorem pedersenSplit_eq_ok {g h : G} {s : Shamir} {secret : List UInt8} {blinding b : ZMod q}
    {rnd rndB : ℕ → ZMod q} {bsh shs : List (Share q)} {bv v : List G}
    (hsp : pedersenSplit g h s secret blinding rnd rndB = .ok (b, bsh, shs, bv, v)) :
    secret ≠ [] ∧ beNat secret < q ∧ s.limit.toNat < q ∧ s.threshold.toNat ≠ 0 ∧ blinding ≠ 0 ∧
    mkShares s.limit (coeffs s.threshold (beNat secret : ZMod q) rnd) = .ok shs ∧
    mkShares s.limit (coeffs s.threshold blinding rndB) = .ok bsh ∧
    v = (coeffs s.threshold (beNat secret : ZMod q) rnd).map (· • g) ∧
    bv = List.zipWith (fun a c => a + c • h) v (coeffs s.threshold blinding rndB) ∧
    feldmanSplit g s secret rnd = .ok (v, shs) := by
  unfold pedersenSplit at hsp
  rw [Go.bind_eq_ok] at hsp
  obtain ⟨r, hr, he⟩ := hsp
  rw [Go.bind_eq_ok] at he
  obtain ⟨rb, hrb, he⟩ := he
  simp only [Except.ok.injEq, Prod.mk.injEq] at he
  obtain ⟨rfl, rfl, rfl, rfl, rfl⟩ := he
  obtain ⟨h1, h2, ht0, hp, hmk⟩ := getSharesAndPolynomial_eq_ok.1 hr
  obtain ⟨hne, _, _, hpb, hmkb⟩ := getSharesAndPolynomial_eq_ok.1 hrb
  have hq : s.limit.toNat < q := by
    unfold mkShares at hmk
    split at hmk
    · exact absurd hmk (by simp)
    · omega
  have hb : ((beNat (natBytes blinding.val) : ℕ) : ZMod q) = blinding := by
    rw [beNat_natBytes, ZMod.natCast_zmod_val]
  rw [hb] at hpb
  refine ⟨h1, h2, hq, ht0, ?_, ?_, ?_, ?_, ?_, ?_⟩
  · rintro rfl; simp [natBytes] at hne
  · rw [← hmk, hp]; rfl
  · rw [← hmkb, hpb]; rfl
  · rw [hp]; rfl
  · rw [hpb]; rfl
  · unfold feldmanSplit
    rw [hr]
    rfl

theorem mkShares_getElem {limit : UInt32} {poly : List (ZMod q)} {shs : List (Share q)}
    (h : mkShares limit poly = .ok shs) {id : UInt32} (h0 : id ≠ 0) (hl : id ≤ limit) :
    shs[(id - 1).toNat]? = some ⟨id, evalL poly (id.toNat : ZMod q)⟩ := by
  have hsub : (id - 1).toNat = id.toNat - 1 := by
    rw [UInt32.toNat_sub_of_le]
    · rfl
    · rw [UInt32.le_iff_toNat_le]
      have : id.toNat ≠ 0 := fun h => h0 (UInt32.toNat_inj.1 h)
      change 1 ≤ _
      omega
  have hpos : id.toNat ≠ 0 := fun h => h0 (UInt32.toNat_inj.1 h)
  rw [UInt32.le_iff_toNat_le] at hl
  unfold mkShares at h
  split at h
  · exact absurd h (by simp)
  · obtain rfl := Except.ok.inj h
    rw [hsub, List.getElem?_map, List.getElem?_range (by omega)]
    simp only [Option.map_some, evaluate_eq]
    have e : id.toNat - 1 + 1 = id.toNat := by omega
    rw [e]
    simp

/-- What a successful `Round1` returns. -/
theorem round1_eq_ok {g h : G} {st st' : State q G} {secret : Option (List UInt8)}
    {sampled blinding : ZMod q} {rnd rndB : ℕ → ZMod q} {bv : List G}
    {p2p : List (UInt32 × Option (Packet q))}
    (h1 : round1 g h st secret sampled blinding rnd rndB = (st', .ok (bv, p2p))) :
    st.round = 1 ∧ ∃ s bsh shs v, pickSecret q secret sampled = .ok s ∧
      pedersenSplit g h st.scheme s blinding rnd rndB = .ok (blinding, bsh, shs, bv, v) ∧
      List.Forall₂ (fun id e => ∃ x r, shs[(id - 1).toNat]? = some x ∧
        bsh[(id - 1).toNat]? = some r ∧ e = (id, some ⟨some x, some r⟩)) st.others p2p ∧
      st' = { st with dealt := some ⟨bsh, shs, bv, v⟩, round := 2 } := by
  unfold round1 at h1
  split at h1
  · simp at h1
  rename_i hr
  split at h1
  · simp at h1
  rename_i s hs
  split at h1
  · simp at h1
  rename_i b bsh shs bv' v hsp
  simp only at h1
  split at h1
  · simp at h1
  rename_i p hp
  simp only [Prod.mk.injEq, Except.ok.injEq] at h1
  obtain ⟨rfl, rfl, rfl⟩ := h1
  have hb : b = blinding := by
    unfold pedersenSplit at hsp
    rw [Go.bind_eq_ok] at hsp
    obtain ⟨r, hr, he⟩ := hsp
    rw [Go.bind_eq_ok] at he
    obtain ⟨rb, hrb, he⟩ := he
    simp only [Except.ok.injEq, Prod.mk.injEq] at he
    exact he.1.symm
  subst hb
  refine ⟨by simpa using hr, s, bsh, shs, v, hs, hsp, ?_, rfl⟩
  rw [Go.mapM_eq_ok] at hp
  refine hp.imp fun id e he => ?_
  revert he
  cases shs[(id - 1).toNat]? <;> cases bsh[(id - 1).toNat]? <;> simp [eq_comm]

theorem forall₂_lookup {V : Type} {P : UInt32 → V → Prop} {os : List UInt32}
    {l : List (UInt32 × Option V)}
    (h : List.Forall₂ (fun id e => ∃ x, P id x ∧ e = (id, some x)) os l) {id : UInt32}
    (hid : id ∈ os) : ∃ x, mapGet l id = some x ∧ P id x := by
  induction h with
  | nil => simp at hid
  | @cons a e os l h1 _ ih =>
    obtain ⟨x, hx, rfl⟩ := h1
    unfold mapGet
    by_cases ha : id = a
    · subst ha
      refine ⟨x, ?_, hx⟩
      simp
    · rw [List.lookup_cons, show (id == a) = false from by simpa using ha]
      exact ih ((List.mem_cons.1 hid).resolve_left ha)

/-- share value which `Round2` takes from the packet of `id` -/
def pktShare (p2p : List (UInt32 × Option (Packet q))) (id : UInt32) : Option (Share q) :=
  (mapGet p2p id).bind Packet.secretShare

/-- what `Round2` requires of one sender -/
def SenderOk (g h : G) (st : State q G) (p2p : List (UInt32 × Option (Packet q)))
    (e : UInt32 × List G) : Prop :=
  e.1 ∈ st.others ∧ ∃ pk, mapGet p2p e.1 = some pk ∧
    pedersenVerify g h st.scheme pk.secretShare pk.blindingShare e.2 = .ok true ∧
    pk.secretShare ≠ none

theorem round2Loop_eq_ok {g h : G} {st : State q G} {p2p : List (UInt32 × Option (Packet q))}
    {bc : List (UInt32 × List G)} {acc acc' : List (UInt32 × Share q)} {sk sk' : ZMod q} :
    round2Loop g h st p2p bc acc sk = (acc', .ok sk') ↔
      (∀ e ∈ bc, e.1 ≠ st.id → SenderOk g h st p2p e) ∧
      sk' = sk + ((bc.filter (·.1 ≠ st.id)).map fun e =>
        ((pktShare p2p e.1).map Share.value).getD 0).sum ∧
      acc' = ((bc.filter (·.1 ≠ st.id)).filterMap fun e =>
        (pktShare p2p e.1).map fun x => (e.1, x)).reverse ++ acc := by
  induction bc generalizing acc sk with
  | nil => simp [round2Loop, eq_comm, and_comm]
  | cons e bc ih =>
    obtain ⟨id, bvs⟩ := e
    unfold round2Loop
    by_cases hid : id = st.id
    · rw [if_pos hid, ih]
      simp [hid]
    · rw [if_neg hid]
      have hf : ((id, bvs) :: bc).filter (·.1 ≠ st.id) =
          (id, bvs) :: bc.filter (·.1 ≠ st.id) := by simp [hid]
      rw [hf]
      cases hm : mapGet p2p id with
      | none =>
        simp only [Prod.mk.injEq, reduceCtorEq, and_false, false_iff, not_and]
        intro h1
        obtain ⟨_, pk, h2, _⟩ := h1 (id, bvs) (by simp) hid
        rw [hm] at h2
        exact absurd h2 (by simp)
      | some pk =>
        simp only
        have hno : ∀ {P : Prop}, (pedersenVerify g h st.scheme pk.secretShare pk.blindingShare bvs
            ≠ .ok true) → ((∀ e ∈ (id, bvs) :: bc, e.1 ≠ st.id → SenderOk g h st p2p e) → P) := by
          intro P hv h1
          obtain ⟨_, pk', h2, h3, _⟩ := h1 (id, bvs) (by simp) hid
          rw [hm] at h2
          obtain rfl := Option.some.inj h2
          exact absurd h3 hv
        split
        · rename_i e he
          simp only [Prod.mk.injEq, reduceCtorEq, and_false, false_iff, not_and]
          exact hno (by rw [he]; simp)
        · rename_i he
          simp only [Prod.mk.injEq, reduceCtorEq, and_false, false_iff, not_and]
          exact hno (by rw [he]; simp)
        · rename_i he
          have hpk : pktShare p2p id = pk.secretShare := by simp [pktShare, hm]
          split
          · rename_i hs
            unfold pedersenVerify at he
            rw [hs] at he
            rw [Go.guard_bind_eq_ok] at he
            simp at he
          · rename_i x hx
            rw [hx] at hpk
            split
            · rename_i hmem
              rw [ih]
              simp only [List.mem_cons, forall_eq_or_imp, List.map_cons, List.sum_cons, hpk,
                Option.map_some, Option.getD_some, List.filterMap_cons, List.reverse_cons,
                List.append_assoc, List.cons_append, List.nil_append]
              constructor
              · rintro ⟨a, b, c⟩
                exact ⟨⟨fun _ => ⟨hmem, pk, hm, he, by simp [hx]⟩, a⟩, by rw [b]; ring, c⟩
              · rintro ⟨⟨_, a⟩, b, c⟩
                exact ⟨a, by rw [b]; ring, c⟩
            · rename_i hmem
              simp only [Prod.mk.injEq, reduceCtorEq, and_false, false_iff, not_and]
              intro h1
              exact absurd (h1 (id, bvs) (by simp) hid).1 hmem

/-- What `Round2` does when it succeeds, and when it does. -/
theorem round2_eq_ok {g h : G} {st st' : State q G} {bcast : Option (List (UInt32 × List G))}
    {p2p : Option (List (UInt32 × Option (Packet q)))} {v : List G} :
    round2 g h st bcast p2p = (st', .ok v) ↔
      st.round = 2 ∧ ∃ bc pp d own, bcast = some bc ∧ p2p = some pp ∧ bc ≠ [] ∧ pp ≠ [] ∧
        st.dealt = some d ∧ d.secretShares[(st.id - 1).toNat]? = some own ∧ v = d.verifiers ∧
        (∀ e ∈ bc, e.1 ≠ st.id → SenderOk g h st pp e) ∧
        st' = { st with
          shares := ((bc.filter (·.1 ≠ st.id)).filterMap fun e =>
            (pktShare pp e.1).map fun x => (e.1, x)).reverse ++ st.shares
          round := 3
          skShare := some (own.value + ((bc.filter (·.1 ≠ st.id)).map fun e =>
            ((pktShare pp e.1).map Share.value).getD 0).sum) } := by
  unfold round2
  split
  · rename_i hr
    simp only [Prod.mk.injEq, reduceCtorEq, and_false, false_iff, not_and]
    exact fun h => absurd h hr
  rename_i hr
  have hr : st.round = 2 := by simpa using hr
  split
  · rename_i bc pp
    split
    · rename_i hl
      simp only [Prod.mk.injEq, reduceCtorEq, and_false, false_iff, not_and, not_exists]
      rintro _ bc' pp' d own hb hp h1 h2
      obtain rfl := Option.some.inj hb
      obtain rfl := Option.some.inj hp
      simp only [List.length_eq_zero_iff] at hl
      tauto
    · rename_i hl
      simp only [List.length_eq_zero_iff, not_or] at hl
      split
      · rename_i hd
        simp [hd]
      · rename_i d hd
        split
        · rename_i ho
          simp [hd, ho]
        · rename_i own ho
          split
          · rename_i acc e he
            simp only [Prod.mk.injEq, reduceCtorEq, and_false, false_iff, not_and, not_exists]
            rintro _ bc' pp' d' own' hb hp h1 h2 h3 h4 _ h5
            obtain rfl := Option.some.inj hb
            obtain rfl := Option.some.inj hp
            have := (round2Loop_eq_ok (acc := st.shares) (sk := own.value)).2 ⟨h5, rfl, rfl⟩
            rw [he] at this
            simp at this
          · rename_i acc sk he
            obtain ⟨a, b, c⟩ := round2Loop_eq_ok.1 he
            simp only [Prod.mk.injEq, Except.ok.injEq]
            constructor
            · rintro ⟨rfl, rfl⟩
              exact ⟨hr, bc, pp, d, own, rfl, rfl, hl.1, hl.2, hd, ho, rfl, a, by rw [b, c]⟩
            · rintro ⟨_, bc', pp', d', own', hb, hp, _, _, h3, h4, rfl, _, h6⟩
              obtain rfl := Option.some.inj hb
              obtain rfl := Option.some.inj hp
              obtain rfl := Option.some.inj (hd.symm.trans h3)
              obtain rfl := Option.some.inj (ho.symm.trans h4)
              exact ⟨by rw [h6, b, c], rfl⟩
  · rename_i hno
    simp only [Prod.mk.injEq, reduceCtorEq, and_false, false_iff, not_and, not_exists]
    rintro _ bc pp _ _ rfl rfl
    exact absurd rfl (hno bc pp rfl)

/-- what `Round3` requires of one sender -/
def Sender3Ok (g : G) (st : State q G) (e : UInt32 × List G) : Prop :=
  e.1 ∈ st.others ∧ e.2 ≠ [] ∧ feldmanVerify g st.scheme (st.shares.lookup e.1) e.2 = .ok true

theorem round3Loop_eq_ok {g : G} {st : State q G} {bc : List (UInt32 × List G)}
    {acc acc' : List (UInt32 × List G)} {pk pk' : G} :
    round3Loop g st bc acc pk = (acc', .ok pk') ↔
      (∀ e ∈ bc, e.1 ≠ st.id → Sender3Ok g st e) ∧
      pk' = pk + ((bc.filter (·.1 ≠ st.id)).map fun e => e.2.headD 0).sum ∧
      acc' = (bc.filter (·.1 ≠ st.id)).reverse ++ acc := by
  induction bc generalizing acc pk with
  | nil => simp [round3Loop, eq_comm, and_comm]
  | cons e bc ih =>
    obtain ⟨id, vs⟩ := e
    unfold round3Loop
    by_cases hid : id = st.id
    · rw [if_pos hid, ih]
      simp [hid]
    · rw [if_neg hid]
      have hf : ((id, vs) :: bc).filter (·.1 ≠ st.id) =
          (id, vs) :: bc.filter (·.1 ≠ st.id) := by simp [hid]
      rw [hf]
      have hno : ∀ {P : Prop}, ¬ Sender3Ok g st (id, vs) →
          ((∀ e ∈ (id, vs) :: bc, e.1 ≠ st.id → Sender3Ok g st e) → P) :=
        fun hv h1 => absurd (h1 (id, vs) (by simp) hid) hv
      split
      · rename_i hmem
        simp only [Prod.mk.injEq, reduceCtorEq, and_false, false_iff, not_and]
        exact hno fun h => hmem h.1
      · rename_i hmem
        split
        · rename_i e he
          simp only [Prod.mk.injEq, reduceCtorEq, and_false, false_iff, not_and]
          exact hno fun h => by have := h.2.2; rw [he] at this; simp at this
        · rename_i he
          simp only [Prod.mk.injEq, reduceCtorEq, and_false, false_iff, not_and]
          exact hno fun h => by have := h.2.2; rw [he] at this; simp at this
        · rename_i he
          split
          · simp only [Prod.mk.injEq, reduceCtorEq, and_false, false_iff, not_and]
            exact hno fun h => h.2.1 rfl
          · rename_i v0 vt
            rw [ih]
            simp only [List.mem_cons, forall_eq_or_imp, List.map_cons, List.sum_cons,
              List.headD_cons, List.reverse_cons, List.append_assoc, List.cons_append,
              List.nil_append]
            constructor
            · rintro ⟨a, b, c⟩
              exact ⟨⟨fun _ => ⟨not_not.1 hmem, by simp, he⟩, a⟩, by rw [b]; abel, c⟩
            · rintro ⟨⟨_, a⟩, b, c⟩
              exact ⟨a, by rw [b]; abel, c⟩

theorem round3_eq_ok {g : G} {st st' : State q G} {bc : List (UInt32 × List G)} {pk : G}
    {sh : Share q} :
    round3 g st bc = (st', .ok (pk, sh)) ↔
      st.round = 3 ∧ bc ≠ [] ∧ ∃ d v0 vt sk, st.dealt = some d ∧ d.verifiers = v0 :: vt ∧
        st.skShare = some sk ∧
        (∀ e ∈ bc, e.1 ≠ st.id → Sender3Ok g st e) ∧
        pk = v0 + ((bc.filter (·.1 ≠ st.id)).map fun e => e.2.headD 0).sum ∧ pk ≠ 0 ∧
        sh = ⟨st.id, sk⟩ ∧
        st' = { st with vs := (bc.filter (·.1 ≠ st.id)).reverse ++ st.vs
                        verificationKey := some pk, round := 4 } := by
  unfold round3
  split
  · rename_i hr
    simp only [Prod.mk.injEq, reduceCtorEq, and_false, false_iff, not_and]
    exact fun h => absurd h hr
  rename_i hr
  have hr : st.round = 3 := by simpa using hr
  split
  · rename_i hl
    rw [List.length_eq_zero_iff] at hl
    simp [hl]
  rename_i hl
  rw [List.length_eq_zero_iff] at hl
  split
  · rename_i hd
    simp [hd]
  rename_i d hd
  split
  · rename_i hv
    simp [hd, hv]
  rename_i v0 vt hv
  have uni : ∀ {d' : Dealt q G} {v0' vt'}, st.dealt = some d' → d'.verifiers = v0' :: vt' →
      v0' = v0 := by
    intro d' v0' vt' h1 h2
    obtain rfl := Option.some.inj (hd.symm.trans h1)
    rw [hv] at h2
    exact (List.cons.inj h2).1.symm
  split
  · rename_i acc e he
    simp only [Prod.mk.injEq, reduceCtorEq, and_false, false_iff, not_and, not_exists]
    rintro _ _ d' v0' vt' sk h1 h2 _ h4
    have := (round3Loop_eq_ok (acc := st.vs) (pk := v0)).2 ⟨h4, rfl, rfl⟩
    rw [he] at this
    simp at this
  · rename_i acc pk' he
    obtain ⟨a, b, c⟩ := round3Loop_eq_ok.1 he
    split
    · rename_i h0
      simp only [Prod.mk.injEq, reduceCtorEq, and_false, false_iff, not_and, not_exists]
      rintro _ _ d' v0' vt' sk h1 h2 _ h4 h5 h6
      rw [uni h1 h2, ← b] at h5
      exact absurd (h5.trans h0) h6
    · rename_i h0
      split
      · rename_i hs
        simp [hs]
      · rename_i sk hs
        simp only [Prod.mk.injEq, Except.ok.injEq]
        constructor
        · rintro ⟨rfl, rfl, rfl⟩
          exact ⟨hr, hl, d, v0, vt, sk, hd, hv, hs, a, b, h0, rfl, by rw [c]⟩
        · rintro ⟨_, _, d', v0', vt', sk', h1, h2, h3, _, h5, _, rfl, rfl⟩
          rw [uni h1 h2, ← b] at h5
          obtain rfl := Option.some.inj (hs.symm.trans h3)
          subst h5
          exact ⟨by rw [c], rfl, rfl⟩

/-- Exact value of a public share. -/
theorem publicShare_eq_ok {pk w : G} {t : ℕ} {j : UInt32} {v : List G}
    (h : publicShare (q := q) pk t j v = .ok w) :
    t ≤ v.length ∧
    w = pk + ∑ k ∈ Finset.range t, ((j.toNat : ZMod q) * ((k + 1 : ℕ) : ZMod q)) • v.getD k 0 := by
  unfold publicShare at h
  induction t generalizing w with
  | zero => simp at h; simp [h]
  | succ t ih =>
    rw [List.range_succ, List.foldlM_append, Go.bind_eq_ok] at h
    obtain ⟨u, hu, h⟩ := h
    obtain ⟨h1, h2⟩ := ih hu
    rw [List.foldlM_cons, Go.bind_eq_ok] at h
    obtain ⟨y, hy, h⟩ := h
    replace h : (Except.ok y : Go G) = .ok w := h
    obtain rfl := Except.ok.inj h
    cases hv : v[t]? with
    | none => rw [hv] at hy; simp at hy
    | some vk =>
      rw [hv] at hy
      obtain rfl := Except.ok.inj hy
      obtain ⟨hlt, hval⟩ := List.getElem?_eq_some_iff.1 hv
      refine ⟨by omega, ?_⟩
      rw [Finset.sum_range_succ, h2, add_assoc]
      congr 2
      rw [List.getD_eq_getElem?_getD, hv]
      rfl

end Verif.Gennaro
