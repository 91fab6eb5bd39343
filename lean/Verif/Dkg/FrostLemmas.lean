import Verif.Dkg.FrostModel
import Verif.Common.GoList
import Verif.Sharing.Props

set_option linter.unusedSectionVars false

/-! Lemmas about the FROST DKG model. -/

namespace Verif.Frost

open Sharing

variable {F : Type} [Field F] [DecidableEq F]
variable {G : Type} [AddCommGroup G] [Module F G] [DecidableEq G]

theorem newDkgParticipant_eq_ok {id t : UInt32} {ctx : List Char} {b : Bool} {os : List UInt32}
    {st : State F G} : newDkgParticipant id t ctx b os = .ok st ↔
      b = true ∧ os.length ≠ 0 ∧ t ≤ UInt32.ofNat os.length + 1 ∧ 2 ≤ t ∧
      UInt32.ofNat os.length + 1 ≤ 255 ∧
      st = { round := 1, others := os.dedup, id := id,
             feldman := ⟨t, UInt32.ofNat os.length + 1⟩, ctx := UInt8.ofInt (atoi ctx) } := by
  unfold newDkgParticipant
  rw [Go.guard_bind_eq_ok, Go.bind_eq_ok]
  constructor
  · rintro ⟨⟨h1, h2⟩, s, hs, h⟩
    obtain ⟨a, b, c, d, rfl⟩ := newShamir_eq_ok.1 hs
    exact ⟨h1, h2, a, b, c, (Except.ok.inj h).symm⟩
  · rintro ⟨h1, h2, a, b, c, rfl⟩
    exact ⟨⟨h1, h2⟩, _, newShamir_eq_ok.2 ⟨a, b, c, rfl, rfl⟩, rfl⟩

theorem pickSecret_eq_ok {cd : ScalarCodec F} {secret : Option (List UInt8)} {sampled s : F} :
    pickSecret cd secret sampled = .ok s ↔
      (secret = none ∧ s = sampled) ∨ (∃ b, secret = some b ∧ cd.dec b = some s ∧ s ≠ 0) := by
  unfold pickSecret
  cases secret with
  | none => simp [eq_comm]
  | some b =>
    simp only [Go.bind_eq_ok, Go.ofOption_eq_ok, Go.guard_eq_ok, Except.ok.injEq]
    constructor
    · rintro ⟨a, h1, _, h2, rfl⟩; exact Or.inr ⟨b, rfl, h1, h2⟩
    · rintro (⟨h, _⟩ | ⟨b', h, h1, h2⟩)
      · simp at h
      · obtain rfl := Option.some.inj h
        exact ⟨s, h1, (), h2, rfl⟩

/-- the dealing polynomial -/
def coeffs (t : UInt32) (s : F) (rnd : ℕ → F) : List F :=
  s :: (List.range (t.toNat - 1)).map rnd

theorem round1_eq_ok {cd : ScalarCodec F} {g : G} {penc : G → List UInt8} {hs : List UInt8 → F}
    {st st' : State F G} {secret : Option (List UInt8)} {sampled : F} {rnd : ℕ → F} {ki : F}
    {b : Bcast F G} {p2p : List (UInt32 × Option Share)}
    (h : round1 cd g penc hs st secret sampled rnd ki = .ok (st', b, p2p)) :
    st.round = 1 ∧ ∃ s, pickSecret cd secret sampled = .ok s ∧ s ≠ 0 ∧
      b.verifiers = (coeffs st.feldman.threshold s rnd).map (· • g) ∧
      b.ci = hs (hashMsg penc st.id st.ctx (s • g) (ki • g)) ∧ b.wi = s * b.ci + ki ∧
      (∀ id ∈ st.others, ∃ sh, mapGet p2p id = some sh ∧
        sh ∈ mkShares cd st.feldman.limit (coeffs st.feldman.threshold s rnd) ∧
        sh.id = id) ∧
      (∀ id ∈ st.others, id ≠ 0 ∧ id ≤ st.feldman.limit) ∧
      st' = { st with verifiers := b.verifiers,
                      secretShares := mkShares cd st.feldman.limit
                        (coeffs st.feldman.threshold s rnd), round := 2 } := by
  unfold round1 at h
  rw [Go.guard_bind_eq_ok, Go.guard_bind_eq_ok, Go.bind_eq_ok] at h
  obtain ⟨h1, _, s, hs1, h⟩ := h
  rw [Go.bind_eq_ok] at h
  obtain ⟨⟨vs, shares⟩, hsp, h⟩ := h
  obtain ⟨hs0, _, he⟩ := feldmanSplit_eq_ok.1 hsp
  obtain ⟨rfl, rfl⟩ := Prod.mk.inj he
  simp only [List.map_cons] at h
  rw [Go.bind_eq_ok] at h
  obtain ⟨p, hp, h⟩ := h
  obtain ⟨rfl, h'⟩ := Prod.mk.inj (Except.ok.inj h)
  obtain ⟨rfl, rfl⟩ := Prod.mk.inj h'
  rw [Go.mapM_eq_ok] at hp
  have key : ∀ id ∈ st.others, id ≠ 0 ∧ id ≤ st.feldman.limit ∧ ∃ sh, mapGet p id = some sh ∧
      sh ∈ mkShares cd st.feldman.limit (coeffs st.feldman.threshold s rnd) ∧ sh.id = id := by
    clear hsp hs1 he h h'
    generalize st.others = os at hp
    induction hp with
    | nil => simp
    | @cons a e l r h1 _ ih =>
      intro id hid
      cases hsh : (mkShares cd st.feldman.limit
        (s :: (List.range (st.feldman.threshold.toNat - 1)).map rnd))[(a - 1).toNat]? with
      | none => rw [hsh] at h1; simp at h1
      | some sh =>
        rw [hsh] at h1
        obtain rfl := Except.ok.inj h1
        by_cases hia : id = a
        · subst hia
          have hlt := (List.getElem?_eq_some_iff.1 hsh).1
          have hval := (List.getElem?_eq_some_iff.1 hsh).2
          simp only [mkShares, List.length_map, List.length_range] at hlt
          have hlim := st.feldman.limit.toNat_lt
          have e1 : (id - 1 + 1 : UInt32) = id := by
            rw [UInt32.sub_add_cancel]
          have e2 : (id - 1 + 1 : UInt32).toNat = (id - 1).toNat + 1 := by
            rw [UInt32.toNat_add]
            exact Nat.mod_eq_of_lt (by simp; omega)
          rw [e1] at e2
          have hsid : sh.id = id := by
            rw [← hval]
            simp only [mkShares, List.getElem_map, List.getElem_range]
            rw [← UInt32.toNat_inj, UInt32.toNat_ofNat', e2]
            exact Nat.mod_eq_of_lt (by omega)
          refine ⟨?_, ?_, sh, ?_, ?_, hsid⟩
          · intro h0; rw [h0] at e2; simp at e2
          · rw [UInt32.le_iff_toNat_le]; omega
          · simp [mapGet, List.lookup]
          · rw [← hval]; exact List.getElem_mem _
        · have hid' : id ∈ l := by
            rcases List.mem_cons.1 hid with h | h
            · exact absurd h hia
            · exact h
          obtain ⟨a1, a2, sh', a3, a4, a5⟩ := ih id hid'
          refine ⟨a1, a2, sh', ?_, a4, a5⟩
          unfold mapGet at a3 ⊢
          have hb : (id == a) = false := by simpa using hia
          rw [List.lookup_cons, hb]
          exact a3
  exact ⟨h1, s, hs1, hs0, rfl, rfl, rfl, fun id hid => (key id hid).2.2,
    fun id hid => ⟨(key id hid).1, (key id hid).2.1⟩, rfl⟩

/-- What `Round2` establishes about one sender `j`: a valid proof of knowledge for the constant
commitment, and a share consistent with the commitments *at the identifier inside the share*. -/
structure PeerOk (cd : ScalarCodec F) (g : G) (penc : G → List UInt8) (hs : List UInt8 → F)
    (ctx : UInt8) (j : UInt32) (b : Bcast F G) (sh : Share) (y : F) : Prop where
  ne_nil : b.verifiers ≠ []
  head_ne : b.verifiers.headD 0 ≠ 0
  pok : ∃ R, b.wi • g = R + b.ci • b.verifiers.headD 0 ∧
    b.ci = hs (j.toUInt8 :: ctx :: (penc (b.verifiers.headD 0) ++ penc R))
  id_ne : sh.id ≠ 0
  dec : cd.dec sh.value = some y
  y_ne : y ≠ 0
  onPoly : y • g = evalL b.verifiers (sh.id.toNat : F)

theorem checkPeer_eq_ok {cd : ScalarCodec F} {g : G} {penc : G → List UInt8} {hs : List UInt8 → F}
    {ctx : UInt8} {id : UInt32} {b : Bcast F G} {share : Option Share} (hci : b.ci ≠ 0) :
    checkPeer cd g penc hs ctx id b share = .ok () ↔
      ∃ sh y, share = some sh ∧ PeerOk cd g penc hs ctx id b sh y := by
  unfold checkPeer
  cases hv : b.verifiers with
  | nil =>
    constructor
    · intro h; simp at h
    · rintro ⟨sh, y, _, h⟩; exact absurd hv h.ne_nil
  | cons a0 as =>
    simp only
    rw [Go.guard_bind_eq_ok, Go.guard_bind_eq_ok]
    constructor
    · rintro ⟨h1, h2, h3⟩
      cases share with
      | none => simp [feldmanVerify] at h3
      | some sh =>
        obtain ⟨e1, y, e2, e3, e4⟩ := (feldmanVerify_ok_iff ..).1 h3
        rw [not_or] at h1
        refine ⟨sh, y, rfl, by simp [hv], by simpa [hv] using h1.1, ?_, e1, e2, e3, by rw [hv]; exact e4⟩
        refine ⟨b.wi • g + (-b.ci) • a0, ?_, ?_⟩
        · simp [hv]
        · rw [hv]; exact h2.symm
    · rintro ⟨sh, y, rfl, hp⟩
      obtain ⟨R, hR, hc⟩ := hp.pok
      have h0 := hp.head_ne
      have h5 := hp.onPoly
      rw [hv] at hR hc h0 h5
      simp only [List.headD_cons] at hR hc h0
      refine ⟨?_, ?_, (feldmanVerify_ok_iff ..).2 ⟨hp.id_ne, y, hp.dec, hp.y_ne, h5⟩⟩
      · rw [not_or]
        exact ⟨h0, fun h => (smul_eq_zero.1 h).elim (fun h => hci (neg_eq_zero.1 h)) h0⟩
      · have : b.wi • g + (-b.ci) • a0 = R := by rw [hR]; simp
        rw [this]; exact hc.symm

/-- decoded value of the share received from `j` -/
def shareVal (cd : ScalarCodec F) (p2p : List (UInt32 × Option Share)) (j : UInt32) : F :=
  ((mapGet p2p j).bind fun sh => cd.dec sh.value).getD 0

/-- constant commitment of a map entry -/
def a0Of (b : Option (Bcast F G)) : G := (b.map fun b => b.verifiers.headD 0).getD 0

theorem round2_eq_ok {cd : ScalarCodec F} {g : G} {penc : G → List UInt8} {hs : List UInt8 → F}
    {st st' : State F G} {bcast : Option (List (UInt32 × Option (Bcast F G)))}
    {p2psend : Option (List (UInt32 × Option Share))} {out : Bcast2 G} :
    round2 cd g penc hs st bcast p2psend = .ok (st', out) ↔
      st.round = 2 ∧ ∃ bc p2p, bcast = some bc ∧ p2psend = some p2p ∧ p2p.length ≠ 0 ∧
      (¬ (UInt32.ofNat bc.length > st.feldman.limit ∨
        UInt32.ofNat bc.length < st.feldman.threshold - 1)) ∧
      (¬ (UInt32.ofNat p2p.length > st.feldman.limit - 1 ∨
        UInt32.ofNat p2p.length < st.feldman.threshold - 1)) ∧
      (∀ e ∈ bc, ∃ b, e.2 = some b ∧ b.ci ≠ 0 ∧ (∀ c ∈ b.verifiers, c ≠ 0) ∧
        (e.1 ≠ st.id → ∃ sh y, mapGet p2p e.1 = some sh ∧
          PeerOk cd g penc hs st.ctx e.1 b sh y)) ∧
      ∃ own sk0, st.secretShares[(st.id - 1).toNat]? = some own ∧ cd.dec own.value = some sk0 ∧
        st.verifiers ≠ [] ∧
        out.vkShare = (sk0 + ((bc.filter (·.1 ≠ st.id)).map fun e => shareVal cd p2p e.1).sum) • g ∧
        out.verificationKey =
          st.verifiers.headD 0 + ((bc.filter (·.1 ≠ st.id)).map fun e => a0Of e.2).sum ∧
        st' = { st with
          skShare := some (sk0 + ((bc.filter (·.1 ≠ st.id)).map fun e => shareVal cd p2p e.1).sum),
          vkShare := some out.vkShare, verificationKey := some out.verificationKey, round := 3 } := by
  unfold round2
  rw [Go.guard_bind_eq_ok]
  refine and_congr_right fun _ => ?_
  cases bcast with
  | none => simp
  | some bc =>
  cases p2psend with
  | none => simp
  | some p2p =>
  simp only [Go.guard_bind_eq_ok]
  have hsplit : ∀ {α : Type} (x : α → UInt32) (l : List α) (M : Type) [AddCommGroup M] (w : α → M),
      (l.map fun e => if x e = st.id then 0 else w e).sum =
        ((l.filter (x · ≠ st.id)).map w).sum := by
    intro α x l M _ w
    induction l with
    | nil => simp
    | cons e l ih =>
      rw [List.map_cons, List.sum_cons, ih, List.filter_cons]
      by_cases he : x e = st.id
      · simp [he]
      · simp [he]
  constructor
  · rintro ⟨h1, h2, h3, h⟩
    rw [Go.bind_eq_ok] at h
    obtain ⟨_, hA, h⟩ := h
    rw [Go.bind_eq_ok] at h
    obtain ⟨_, hB, h⟩ := h
    rw [Go.bind_eq_ok] at h
    obtain ⟨_, hC, h⟩ := h
    rw [Go.forM_eq_ok] at hA hB hC
    have hall : ∀ e ∈ bc, ∃ b, e.2 = some b ∧ b.ci ≠ 0 ∧ (∀ c ∈ b.verifiers, c ≠ 0) ∧
        (e.1 ≠ st.id → ∃ sh y, mapGet p2p e.1 = some sh ∧
          PeerOk cd g penc hs st.ctx e.1 b sh y) := by
      intro e he
      have a := hA e he
      have b := hB e he
      have c := hC e he
      cases hb : e.2 with
      | none => rw [hb] at a; simp at a
      | some x =>
        rw [hb] at a b c
        simp only at a b c
        rw [Go.guard_eq_ok] at a
        rw [Go.forM_eq_ok] at b
        refine ⟨x, rfl, a, fun c hc => Go.guard_eq_ok.1 (b c hc), fun hne => ?_⟩
        rw [if_neg hne] at c
        exact (checkPeer_eq_ok a).1 c
    refine ⟨bc, p2p, rfl, rfl, h1, h2, h3, hall, ?_⟩
    cases hown : st.secretShares[(st.id - 1).toNat]? with
    | none => rw [hown] at h; simp at h
    | some own =>
    rw [hown] at h
    simp only [Go.bind_eq_ok, Go.ofOption_eq_ok] at h
    obtain ⟨sk0, hsk, h⟩ := h
    cases hver : st.verifiers with
    | nil => rw [hver] at h; simp at h
    | cons vk0 vks =>
    rw [hver] at h
    simp only [Go.bind_eq_ok] at h
    obtain ⟨sk, hsk1, vk, hvk1, h⟩ := h
    rw [Go.foldlM_add (w := fun e => if e.1 = st.id then 0 else shareVal cd p2p e.1)] at hsk1
    rotate_left
    · intro e he a
      by_cases hid : e.1 = st.id
      · simp [hid]
      · obtain ⟨b, _, _, _, hb⟩ := hall e he
        obtain ⟨sh, y, hm, hp⟩ := hb hid
        simp [hid, hm, shareVal, hp.dec, Go.ofOption]
    rw [Go.foldlM_add (w := fun e => if e.1 = st.id then 0 else a0Of e.2)] at hvk1
    rotate_left
    · intro e he a
      by_cases hid : e.1 = st.id
      · simp [hid]
      · obtain ⟨b, hb0, _, _, hb⟩ := hall e he
        obtain ⟨sh, y, hm, hp⟩ := hb hid
        cases hbv : b.verifiers with
        | nil => exact absurd hbv hp.ne_nil
        | cons a0 as => simp [hid, hb0, a0Of, hbv]
    rw [hsplit Prod.fst] at hsk1 hvk1
    obtain rfl := Except.ok.inj hsk1
    obtain rfl := Except.ok.inj hvk1
    obtain ⟨rfl, rfl⟩ := Prod.mk.inj (Except.ok.inj h)
    exact ⟨own, sk0, rfl, hsk, by simp, rfl, rfl, by simp⟩
  · rintro ⟨bc', p2p', hb, hp, h1, h2, h3, hall, own, sk0, hown, hsk, hver, ho1, ho2, rfl⟩
    obtain rfl := Option.some.inj hb
    obtain rfl := Option.some.inj hp
    refine ⟨h1, h2, h3, ?_⟩
    rw [Go.bind_eq_ok]
    refine ⟨(), ?_, ?_⟩
    · rw [Go.forM_eq_ok]
      intro e he
      obtain ⟨b, hb, hc, _⟩ := hall e he
      rw [hb]; exact Go.guard_true hc
    rw [Go.bind_eq_ok]
    refine ⟨(), ?_, ?_⟩
    · rw [Go.forM_eq_ok]
      intro e he
      obtain ⟨b, hb, _, hc, _⟩ := hall e he
      rw [hb]
      simp only
      rw [Go.forM_eq_ok]
      exact fun c h => Go.guard_true (hc c h)
    rw [Go.bind_eq_ok]
    refine ⟨(), ?_, ?_⟩
    · rw [Go.forM_eq_ok]
      intro e he
      obtain ⟨b, hb, hc, _, hd⟩ := hall e he
      by_cases hid : e.1 = st.id
      · rw [if_pos hid]
      · rw [if_neg hid, hb]
        obtain ⟨sh, y, hs1, hs2⟩ := hd hid
        exact (checkPeer_eq_ok hc).2 ⟨sh, y, hs1, hs2⟩
    rw [hown]
    simp only [hsk, Go.ofOption, Go.ok_bind]
    cases hver' : st.verifiers with
    | nil => exact absurd hver' hver
    | cons vk0 vks =>
    simp only
    rw [Go.foldlM_add (w := fun e => if e.1 = st.id then 0 else shareVal cd p2p e.1)]
    rotate_left
    · intro e he a
      by_cases hid : e.1 = st.id
      · simp [hid]
      · obtain ⟨b, _, _, _, hb⟩ := hall e he
        obtain ⟨sh, y, hm, hp⟩ := hb hid
        simp [hid, hm, shareVal, hp.dec]
    rw [Go.ok_bind, Go.foldlM_add (w := fun e => if e.1 = st.id then 0 else a0Of e.2)]
    rotate_left
    · intro e he a
      by_cases hid : e.1 = st.id
      · simp [hid]
      · obtain ⟨b, hb0, _, _, hb⟩ := hall e he
        obtain ⟨sh, y, hm, hp⟩ := hb hid
        cases hbv : b.verifiers with
        | nil => exact absurd hbv hp.ne_nil
        | cons a0 as => simp [hid, hb0, a0Of, hbv]
    rw [hsplit Prod.fst, hsplit Prod.fst, Go.ok_bind]
    rw [hver'] at ho2
    simp only [List.headD_cons] at ho2
    cases out
    simp only at ho1 ho2
    subst ho1 ho2
    rfl

end Verif.Frost
