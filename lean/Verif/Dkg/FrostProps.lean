import Verif.Dkg.FrostLemmas
import Verif.Common.Toy

/-!
# Properties of the FROST DKG (C22, C23, C91)
-/

set_option linter.unusedSectionVars false

namespace Verif.Frost

open Sharing

variable {F : Type} [Field F] [DecidableEq F]
variable {G : Type} [AddCommGroup G] [Module F G] [DecidableEq G]

/-! ## C23: what a successful Round2 guarantees, against arbitrary messages -/

/-- Every entry of the broadcast map other than the own one comes with a valid proof of knowledge
of the constant term and a share on the committed polynomial at the identifier in the share; the
signing share is the own share plus the received ones, the verification key the sum of the constant
commitments. -/
theorem C23_round2_sound (cd : ScalarCodec F) (g : G) (penc : G → List UInt8) (hs : List UInt8 → F)
    (st st' : State F G) (bc : List (UInt32 × Option (Bcast F G)))
    (p2p : List (UInt32 × Option Share)) (out : Bcast2 G)
    (h : round2 cd g penc hs st (some bc) (some p2p) = .ok (st', out)) :
    (∀ e ∈ bc, e.1 ≠ st.id → ∃ b sh y R, e.2 = some b ∧ b.ci ≠ 0 ∧ b.verifiers ≠ [] ∧
      (∀ c ∈ b.verifiers, c ≠ 0) ∧ p2p.lookup e.1 = some (some sh) ∧
      b.wi • g = R + b.ci • b.verifiers.headD 0 ∧
      b.ci = hs (e.1.toUInt8 :: st.ctx :: (penc (b.verifiers.headD 0) ++ penc R)) ∧
      sh.id ≠ 0 ∧ cd.dec sh.value = some y ∧ y ≠ 0 ∧
      y • g = ∑ k ∈ Finset.range b.verifiers.length,
        ((sh.id.toNat : F)) ^ k • b.verifiers.getD k 0) ∧
    (∃ sk, st'.skShare = some sk ∧ out.vkShare = sk • g ∧ st'.vkShare = some (sk • g) ∧
      st'.verificationKey = some out.verificationKey ∧ st'.round = 3) := by
  obtain ⟨_, bc', p', hb, hp, _, _, _, hall, own, sk0, _, _, _, h1, h2, rfl⟩ := round2_eq_ok.1 h
  obtain rfl := Option.some.inj hb
  obtain rfl := Option.some.inj hp
  refine ⟨fun e he hid => ?_, ⟨_, rfl, h1, by rw [h1], rfl, rfl⟩⟩
  obtain ⟨b, hb, hc, hv, hd⟩ := hall e he
  obtain ⟨sh, y, hm, hpk⟩ := hd hid
  obtain ⟨R, hR, hR2⟩ := hpk.pok
  refine ⟨b, sh, y, R, hb, hc, hpk.ne_nil, hv, ?_, hR, hR2, hpk.id_ne, hpk.dec, hpk.y_ne, ?_⟩
  · unfold mapGet at hm
    cases hl : p2p.lookup e.1 with
    | none => rw [hl] at hm; simp at hm
    | some o => rw [hl] at hm; simpa using hm
  · rw [hpk.onPoly, evalL_eq_sum]

/-! ### State machine -/

/-- A call on a participant. -/
inductive Op (F G : Type)
  | round1 (secret : Option (List UInt8)) (sampled : F) (rnd : ℕ → F) (ki : F)
  | round2 (bcast : Option (List (UInt32 × Option (Bcast F G))))
      (p2p : Option (List (UInt32 × Option Share)))

/-- which call succeeded -/
inductive Kind
  | r1 | r2
  deriving DecidableEq, Repr

/-- Executes a call; a failing call leaves the participant unchanged (all error returns of the code
precede its assignments). -/
def step (cd : ScalarCodec F) (g : G) (penc : G → List UInt8) (hs : List UInt8 → F)
    (st : State F G) : Op F G → State F G × List Kind
  | .round1 a b c d => match round1 cd g penc hs st a b c d with
    | .ok r => (r.1, [.r1])
    | .error _ => (st, [])
  | .round2 a b => match round2 cd g penc hs st a b with
    | .ok r => (r.1, [.r2])
    | .error _ => (st, [])

/-- The successful calls of a history, in order. -/
def run (cd : ScalarCodec F) (g : G) (penc : G → List UInt8) (hs : List UInt8 → F) :
    State F G → List (Op F G) → State F G × List Kind
  | st, [] => (st, [])
  | st, op :: ops =>
    let r := step cd g penc hs st op
    let r' := run cd g penc hs r.1 ops
    (r'.1, r.2 ++ r'.2)

/-- In every history of calls on a new participant, with arbitrary (adversarial) arguments, the
successful calls are a prefix of `Round1, Round2`: none is repeated, skipped or reordered. -/
theorem C23_round_order (cd : ScalarCodec F) (g : G) (penc : G → List UInt8) (hs : List UInt8 → F)
    (id t : UInt32) (ctx : List Char) (os : List UInt32) (st : State F G)
    (hst : newDkgParticipant id t ctx true os = .ok st) (ops : List (Op F G)) :
    (run cd g penc hs st ops).2 <+: [Kind.r1, Kind.r2] := by
  have h1 : st.round = 1 := by
    obtain ⟨_, _, _, _, _, rfl⟩ := newDkgParticipant_eq_ok.1 hst; rfl
  have main : ∀ (ops : List (Op F G)) (st : State F G) (todo : List Kind),
      (st.round = 1 ∧ todo = [.r1, .r2]) ∨ (st.round = 2 ∧ todo = [.r2]) ∨
        (st.round = 3 ∧ todo = []) →
      (run cd g penc hs st ops).2 <+: todo := by
    intro ops
    induction ops with
    | nil => intro st todo _; exact List.nil_prefix
    | cons op ops ih =>
      intro st todo hinv
      unfold run
      simp only
      cases op with
      | round1 a b c d =>
        simp only [step]
        split
        · rename_i r hr
          obtain ⟨st', bb, pp⟩ := r
          obtain ⟨hr1, s, _, _, _, _, _, _, _, rfl⟩ := round1_eq_ok hr
          rcases hinv with ⟨_, rfl⟩ | ⟨h, _⟩ | ⟨h, _⟩
          · simp only [List.cons_append, List.nil_append, List.cons_prefix_cons, true_and]
            exact ih _ _ (Or.inr (Or.inl ⟨rfl, rfl⟩))
          · omega
          · omega
        · simpa using ih st todo hinv
      | round2 a b =>
        simp only [step]
        split
        · rename_i r hr
          obtain ⟨st', bb⟩ := r
          obtain ⟨hr1, bc, p, _, _, _, _, _, _, _, _, _, _, _, _, _, rfl⟩ := round2_eq_ok.1 hr
          rcases hinv with ⟨h, _⟩ | ⟨_, rfl⟩ | ⟨h, _⟩
          · omega
          · simp only [List.cons_append, List.nil_append, List.cons_prefix_cons, true_and]
            exact ih _ _ (Or.inr (Or.inr ⟨rfl, rfl⟩))
          · omega
        · simpa using ih st todo hinv
  exact main ops st _ (Or.inl ⟨h1, rfl⟩)

/-! ## C22: the honest run -/

/-- All inputs of one honest execution among the participants `ids`. -/
structure Setup (F G : Type) where
  ids : Finset UInt32
  t : UInt32
  ctx : List Char
  others : UInt32 → List UInt32
  secret : UInt32 → Option (List UInt8)
  sampled : UInt32 → F
  rnd : UInt32 → ℕ → F
  ki : UInt32 → F
  bc : UInt32 → List (UInt32 × Option (Bcast F G))
  p2p : UInt32 → List (UInt32 × Option Share)

/-- An honest execution up to the delivery of the round 1 messages: every participant is created with
all the others, runs round 1 with its own randomness and receives exactly the broadcasts and private
messages of the others (in any order; its own broadcast may be included). -/
structure HonestRound1 (cd : ScalarCodec F) (g : G) (penc : G → List UInt8) (hs : List UInt8 → F)
    (S : Setup F G) (st0 st1 : UInt32 → State F G) (b : UInt32 → Bcast F G)
    (p : UInt32 → List (UInt32 × Option Share)) : Prop where
  others_nodup : ∀ i ∈ S.ids, (S.others i).Nodup
  others_mem : ∀ i ∈ S.ids, ∀ j, j ∈ S.others i ↔ j ∈ S.ids ∧ j ≠ i
  new : ∀ i ∈ S.ids, newDkgParticipant i S.t S.ctx true (S.others i) = .ok (st0 i)
  r1 : ∀ i ∈ S.ids, round1 cd g penc hs (st0 i) (S.secret i) (S.sampled i) (S.rnd i) (S.ki i) =
    .ok (st1 i, b i, p i)
  bc_nodup : ∀ i ∈ S.ids, ((S.bc i).map Prod.fst).Nodup
  bc_mem : ∀ i ∈ S.ids, ∀ j x, j ≠ i → ((j, x) ∈ S.bc i ↔ j ∈ S.ids ∧ x = some (b j))
  p2p_get : ∀ i ∈ S.ids, ∀ j ∈ S.ids, j ≠ i → mapGet (S.p2p i) j = mapGet (p j) i

/-- An honest execution in which everybody also completes round 2. -/
structure HonestRun (cd : ScalarCodec F) (g : G) (penc : G → List UInt8) (hs : List UInt8 → F)
    (S : Setup F G) (st0 st1 st2 : UInt32 → State F G) (b : UInt32 → Bcast F G)
    (p : UInt32 → List (UInt32 × Option Share)) (out : UInt32 → Bcast2 G) : Prop extends
    HonestRound1 cd g penc hs S st0 st1 b p where
  r2 : ∀ i ∈ S.ids, round2 cd g penc hs (st1 i) (some (S.bc i)) (some (S.p2p i)) =
    .ok (st2 i, out i)

theorem sum_filter_map {V M : Type} [AddCommGroup M] (l : List (UInt32 × V))
    (hl : (l.map Prod.fst).Nodup) (i : UInt32) (ids : Finset UInt32)
    (hmem : ∀ j, j ∈ ids ∧ j ≠ i ↔ ∃ x, (j, x) ∈ l ∧ j ≠ i) (w : UInt32 × V → M) (f : UInt32 → M)
    (hw : ∀ e ∈ l, e.1 ≠ i → w e = f e.1) :
    ((l.filter (·.1 ≠ i)).map w).sum = ∑ j ∈ ids.erase i, f j := by
  have h1 : (l.filter (·.1 ≠ i)).map w = ((l.filter (·.1 ≠ i)).map Prod.fst).map f := by
    rw [List.map_map]
    refine List.map_congr_left fun e he => ?_
    rw [List.mem_filter] at he
    exact hw e he.1 (by simpa using he.2)
  have hnd : ((l.filter (·.1 ≠ i)).map Prod.fst).Nodup :=
    hl.sublist ((List.filter_sublist).map _)
  rw [h1, ← List.sum_toFinset f hnd]
  refine Finset.sum_congr ?_ fun _ _ => rfl
  ext j
  simp only [List.mem_toFinset, List.mem_map, List.mem_filter, Finset.mem_erase]
  rw [and_comm (a := j ≠ i), hmem j]
  constructor
  · rintro ⟨e, ⟨he, hne⟩, rfl⟩
    exact ⟨e.2, he, by simpa using hne⟩
  · rintro ⟨x, hx, hne⟩
    exact ⟨(j, x), ⟨hx, by simpa using hne⟩, rfl⟩

/-- In every honest run there are non-zero secrets (`secret i` as given, or the sampled one) such
that all participants hold the same verification key `(Σ secrets)·g`, each public share is the signing
share times `g`, and any `t` or more signing shares interpolate to the sum of the secrets. -/
theorem C22_honest_run (hF : ByteInj F) (cd : ScalarCodec F) (g : G) (penc : G → List UInt8)
    (hs : List UInt8 → F) (S : Setup F G) (st0 st1 st2 : UInt32 → State F G)
    (b : UInt32 → Bcast F G) (p : UInt32 → List (UInt32 × Option Share)) (out : UInt32 → Bcast2 G)
    (H : HonestRun cd g penc hs S st0 st1 st2 b p out) :
    ∃ s sk : UInt32 → F,
      (∀ i ∈ S.ids, s i ≠ 0 ∧ ((S.secret i = none ∧ s i = S.sampled i) ∨
        S.secret i = some (cd.enc (s i)))) ∧
      (∀ i ∈ S.ids, (out i).verificationKey = (∑ j ∈ S.ids, s j) • g ∧
        (st2 i).verificationKey = some ((∑ j ∈ S.ids, s j) • g) ∧
        (st2 i).skShare = some (sk i) ∧ (st2 i).vkShare = some (sk i • g) ∧
        (out i).vkShare = sk i • g) ∧
      ∀ T ⊆ S.ids, S.t.toNat ≤ T.card →
        ∑ i ∈ T, (∏ j ∈ T.erase i, (j.toNat : F) / ((j.toNat : F) - (i.toNat : F))) * sk i =
          ∑ j ∈ S.ids, s j := by
  classical
  -- extract round 1
  have hr1 := fun i hi => round1_eq_ok (H.r1 i hi)
  have hnew := fun i hi => newDkgParticipant_eq_ok.1 (H.new i hi)
  choose! s hs1 hs2 using fun i (hi : i ∈ S.ids) => (hr1 i hi).2
  have hst0 : ∀ i ∈ S.ids, (st0 i).id = i ∧ (st0 i).feldman.threshold = S.t ∧
      (st0 i).others = (S.others i) ∧ (st0 i).feldman.limit = UInt32.ofNat (S.others i).length + 1 ∧
      (st0 i).feldman.limit ≤ 255 := by
    intro i hi
    obtain ⟨_, _, _, _, h5, h6⟩ := hnew i hi
    rw [h6]
    exact ⟨rfl, rfl, (H.others_nodup i hi).dedup, rfl, h5⟩
  have hlim : ∀ i ∈ S.ids, ∀ j ∈ S.ids, (st0 i).feldman.limit = (st0 j).feldman.limit := by
    intro i hi j hj
    rw [(hst0 i hi).2.2.2.1, (hst0 j hj).2.2.2.1]
    have hc : ∀ i ∈ S.ids, (S.others i).length = S.ids.card - 1 := by
      intro i hi
      rw [← List.toFinset_card_of_nodup (H.others_nodup i hi), ← Finset.card_erase_of_mem hi]
      congr 1
      ext j
      rw [List.mem_toFinset, H.others_mem i hi, Finset.mem_erase, and_comm]
    rw [hc i hi, hc j hj]
  -- polynomial of participant j
  let f : UInt32 → List F := fun j => coeffs S.t (s j) (S.rnd j)
  have hflen : ∀ j, (f j).length = S.t.toNat - 1 + 1 := fun j => by simp [f, coeffs]
  -- extract round 2
  have key : ∀ i ∈ S.ids,
      (out i).verificationKey = (∑ j ∈ S.ids, s j) • g ∧
      (st2 i).skShare = some (∑ j ∈ S.ids, evalL (f j) (i.toNat : F)) ∧
      (out i).vkShare = (∑ j ∈ S.ids, evalL (f j) (i.toNat : F)) • g ∧
      (st2 i).verificationKey = some (out i).verificationKey ∧
      (st2 i).vkShare = some (out i).vkShare ∧ i.toNat ≤ 255 := by
    intro i hi
    obtain ⟨hs0, hver, _, _, hp2p, hrange, hst1⟩ := hs2 i hi
    obtain ⟨_, bc, p2, hb, hp, _, _, _, hall, own, sk0, hown, hsk, _, ho1, ho2, hst2⟩ :=
      round2_eq_ok.1 (H.r2 i hi)
    obtain rfl := Option.some.inj hb
    obtain rfl := Option.some.inj hp
    have hid1 : (st1 i).id = i := by rw [hst1]; exact (hst0 i hi).1
    rw [hid1] at hown ho1 ho2 hst2
    have hth := (hst0 i hi).2.1
    rw [hth] at hst1 hver
    rw [hst1] at hown ho2
    simp only at hown ho2
    -- own share
    obtain ⟨hlt, hval⟩ := List.getElem?_eq_some_iff.1 hown
    simp only [mkShares, List.length_map, List.length_range] at hlt
    have hl255 := (hst0 i hi).2.2.2.2
    rw [UInt32.le_iff_toNat_le] at hl255
    have e255 : (255 : UInt32).toNat = 255 := rfl
    rw [e255] at hl255
    have e2 : i.toNat = (i - 1).toNat + 1 := by
      have e1 : (i - 1 + 1 : UInt32) = i := UInt32.sub_add_cancel _ _
      have e2 : (i - 1 + 1 : UInt32).toNat = (i - 1).toNat + 1 := by
        rw [UInt32.toNat_add]
        exact Nat.mod_eq_of_lt (by simp; omega)
      rwa [e1] at e2
    have hsk0 : sk0 = evalL (f i) (i.toNat : F) := by
      have hv : own.value = cd.enc (evalL (f i) (i.toNat : F)) := by
        rw [← hval]
        simp only [mkShares, List.getElem_map, List.getElem_range, polyEval_eq, ← e2]
        rfl
      rw [hv, cd.dec_enc] at hsk
      exact (Option.some.inj hsk).symm
    have hmem : ∀ j, j ∈ S.ids ∧ j ≠ i ↔ ∃ x, (j, x) ∈ S.bc i ∧ j ≠ i := by
      intro j
      constructor
      · rintro ⟨h1, h2⟩; exact ⟨_, (H.bc_mem i hi j _ h2).2 ⟨h1, rfl⟩, h2⟩
      · rintro ⟨x, h1, h2⟩; exact ⟨((H.bc_mem i hi j x h2).1 h1).1, h2⟩
    have hsum1 : (((S.bc i).filter (·.1 ≠ i)).map fun e => shareVal cd (S.p2p i) e.1).sum =
        ∑ j ∈ S.ids.erase i, evalL (f j) (i.toNat : F) := by
      refine sum_filter_map _ (H.bc_nodup i hi) i S.ids hmem _ _ fun e he hne => ?_
      have hj : e.1 ∈ S.ids := ((H.bc_mem i hi e.1 e.2 hne).1 he).1
      obtain ⟨_, _, _, _, hpj, _, _⟩ := hs2 e.1 hj
      have hio : i ∈ (st0 e.1).others := by
        rw [(hst0 e.1 hj).2.2.1, H.others_mem e.1 hj]; exact ⟨hi, hne.symm⟩
      obtain ⟨sh, g1, g2, g3⟩ := hpj i hio
      rw [mem_mkShares] at g2
      unfold shareVal
      rw [H.p2p_get i hi e.1 hj hne, g1, Option.bind_some, g2.2.2, cd.dec_enc, g3,
        (hst0 e.1 hj).2.1]
      rfl
    have hsum2 : (((S.bc i).filter (·.1 ≠ i)).map fun e => a0Of e.2).sum =
        ∑ j ∈ S.ids.erase i, s j • g := by
      refine sum_filter_map _ (H.bc_nodup i hi) i S.ids hmem _ _ fun e he hne => ?_
      obtain ⟨hj, hx⟩ := (H.bc_mem i hi e.1 e.2 hne).1 he
      rw [hx]
      have hv := (hs2 e.1 hj).2.1
      simp only [a0Of, Option.map_some, Option.getD_some, hv]
      simp [coeffs]
    have hkk : ∀ (M : Type) [AddCommGroup M] (w : UInt32 → M),
        w i + ∑ j ∈ S.ids.erase i, w j = ∑ j ∈ S.ids, w j := by
      intro M _ w
      exact Finset.add_sum_erase S.ids w hi
    rw [hsum1, hsk0, hkk F (fun j => evalL (f j) (i.toNat : F))] at hst2 ho1
    rw [hsum2] at ho2
    have hhead : (b i).verifiers.headD 0 = s i • g := by rw [hver]; simp [coeffs]
    rw [hhead, hkk G (fun j => s j • g), ← Finset.sum_smul] at ho2
    refine ⟨ho2, ?_, ho1, ?_, ?_, ?_⟩
    · rw [hst2]
    · rw [hst2]
    · rw [hst2]
    · omega
  refine ⟨s, fun i => ∑ j ∈ S.ids, evalL (f j) (i.toNat : F), ?_, ?_, ?_⟩
  · intro i hi
    refine ⟨(hs2 i hi).1, ?_⟩
    rcases pickSecret_eq_ok.1 (hs1 i hi) with h | ⟨bb, h1, h2, _⟩
    · exact Or.inl h
    · exact Or.inr (by rw [h1, cd.enc_dec _ _ h2])
  · intro i hi
    obtain ⟨h1, h2, h3, h4, h5, _⟩ := key i hi
    exact ⟨h1, by rw [h4, h1], h2, by rw [h5, h3], h3⟩
  · intro T hT hcard
    have hinj : Set.InjOn (fun i : UInt32 => (i.toNat : F)) T := by
      intro i hi j hj hij
      have h1 := (key i (hT hi)).2.2.2.2.2
      have h2 := (key j (hT hj)).2.2.2.2.2
      exact UInt32.toNat_inj.1 (hF.inj h1 h2 hij)
    simp only [Finset.mul_sum]
    rw [Finset.sum_comm]
    refine Finset.sum_congr rfl fun j hj => ?_
    have ht2 : S.t.toNat ≠ 0 := by
      obtain ⟨_, _, _, h4, _, _⟩ := hnew j hj
      rw [UInt32.le_iff_toNat_le] at h4
      have e2 : (2 : UInt32).toNat = 2 := rfl
      omega
    have := sum_lag0_evalL T (fun i : UInt32 => (i.toNat : F)) hinj (f j)
      (by rw [hflen]; omega)
    simp only [lag0, smul_eq_mul] at this
    rw [this]
    simp [f, coeffs]

/-- Honest executions go through: if nobody's challenge is zero, no committed coefficient is zero and
no exchanged share is zero, then every participant's round 2 succeeds. -/
theorem C22_completes (cd : ScalarCodec F) (g : G) (penc : G → List UInt8)
    (hs : List UInt8 → F) (S : Setup F G) (st0 st1 : UInt32 → State F G)
    (b : UInt32 → Bcast F G) (p : UInt32 → List (UInt32 × Option Share))
    (H : HonestRound1 cd g penc hs S st0 st1 b p)
    (hci : ∀ j ∈ S.ids, (b j).ci ≠ 0) (hco : ∀ j ∈ S.ids, ∀ c ∈ (b j).verifiers, c ≠ 0)
    (hsh : ∀ i ∈ S.ids, ∀ j ∈ S.ids, j ≠ i → ∀ sh, mapGet (p j) i = some sh → sh.value ≠ cd.enc 0)
    (i : UInt32) (hi : i ∈ S.ids) (hown : ∀ x, (i, x) ∈ S.bc i → x = some (b i))
    (hlen : (S.p2p i).length = S.ids.card - 1) :
    ∃ st2 out, round2 cd g penc hs (st1 i) (some (S.bc i)) (some (S.p2p i)) = .ok (st2, out) := by
  classical
  have hr1 := fun i hi => round1_eq_ok (H.r1 i hi)
  have hnew := fun i hi => newDkgParticipant_eq_ok.1 (H.new i hi)
  choose! s hs1 hs2 using fun i (hi : i ∈ S.ids) => (hr1 i hi).2
  have hc' : ∀ i ∈ S.ids, (S.others i).length = S.ids.card - 1 := by
    intro i hi
    rw [← List.toFinset_card_of_nodup (H.others_nodup i hi), ← Finset.card_erase_of_mem hi]
    congr 1
    ext j
    rw [List.mem_toFinset, H.others_mem i hi, Finset.mem_erase, and_comm]
  have hc := hc' i hi
  have hst0 : ∀ i ∈ S.ids, (st0 i).id = i ∧ (st0 i).feldman.threshold = S.t ∧
      (st0 i).others = (S.others i) ∧ (st0 i).feldman.limit = UInt32.ofNat (S.others i).length + 1 ∧
      (st0 i).feldman.limit ≤ 255 ∧ (st0 i).ctx = UInt8.ofInt (atoi S.ctx) := by
    intro i hi
    obtain ⟨_, _, _, _, h5, h6⟩ := hnew i hi
    rw [h6]
    exact ⟨rfl, rfl, (H.others_nodup i hi).dedup, rfl, h5, rfl⟩
  have e255 : (255 : UInt32).toNat = 255 := rfl
  have hcard : S.ids.card ≤ 257 := by
    -- all other participants have an identifier in 1..255
    have hsub : ∀ j ∈ S.ids.erase i, j.toNat ∈ Finset.range 256 := by
      intro j hj
      have hjo : j ∈ (st0 i).others := by
        rw [(hst0 i hi).2.2.1, H.others_mem i hi]
        exact ⟨Finset.mem_of_mem_erase hj, Finset.ne_of_mem_erase hj⟩
      obtain ⟨_, _, _, _, _, hra, _⟩ := hs2 i hi
      have h1 := (hra j hjo).2
      have h2 := (hst0 i hi).2.2.2.2.1
      rw [UInt32.le_iff_toNat_le] at h1 h2
      rw [Finset.mem_range]; omega
    have h3 := Finset.card_le_card_of_injOn (fun j : UInt32 => j.toNat) hsub
      (fun a _ b _ h => UInt32.toNat_inj.1 h)
    rw [Finset.card_erase_of_mem hi, Finset.card_range] at h3
    omega
  have hlimN' : ∀ j ∈ S.ids, (st0 j).feldman.limit.toNat = S.ids.card := by
    intro j hj
    have hpos : 0 < S.ids.card := Finset.card_pos.2 ⟨i, hi⟩
    rw [(hst0 j hj).2.2.2.1, hc' j hj, UInt32.toNat_add, UInt32.toNat_ofNat']
    have e1 : (1 : UInt32).toNat = 1 := rfl
    rw [e1, Nat.mod_eq_of_lt (a := S.ids.card - 1) (by omega), Nat.mod_eq_of_lt (by omega)]
    omega
  have hlimN := hlimN' i hi
  obtain ⟨_, hlen0, htle, ht2, _, _⟩ := hnew i hi
  have htle' : S.t.toNat ≤ S.ids.card := by
    rw [← hlimN, (hst0 i hi).2.2.2.1, ← UInt32.le_iff_toNat_le]; exact htle
  have ht2' : 2 ≤ S.t.toNat := by
    rw [UInt32.le_iff_toNat_le] at ht2
    exact ht2
  obtain ⟨_, hver, _, _, _, _, hst1⟩ := hs2 i hi
  have hrange : i ≠ 0 ∧ i.toNat ≤ S.ids.card := by
    obtain ⟨j, hj, hji⟩ := Finset.exists_mem_ne (by omega : 1 < S.ids.card) i
    have hio : i ∈ (st0 j).others := by
      rw [(hst0 j hj).2.2.1, H.others_mem j hj]; exact ⟨hi, hji.symm⟩
    obtain ⟨_, _, _, _, _, hra, _⟩ := hs2 j hj
    refine ⟨(hra i hio).1, ?_⟩
    rw [← hlimN' j hj, ← UInt32.le_iff_toNat_le]
    exact (hra i hio).2
  -- key set of the broadcast map
  have hbl : (S.bc i).length ≤ S.ids.card ∧ S.ids.card - 1 ≤ (S.bc i).length := by
    have hl : (S.bc i).length = ((S.bc i).map Prod.fst).toFinset.card := by
      rw [List.toFinset_card_of_nodup (H.bc_nodup i hi), List.length_map]
    constructor
    · rw [hl]
      apply Finset.card_le_card
      intro j hj
      rw [List.mem_toFinset, List.mem_map] at hj
      obtain ⟨e, he, rfl⟩ := hj
      by_cases hei : e.1 = i
      · rw [hei]; exact hi
      · exact ((H.bc_mem i hi e.1 e.2 hei).1 he).1
    · rw [hl, ← Finset.card_erase_of_mem hi]
      apply Finset.card_le_card
      intro j hj
      rw [List.mem_toFinset, List.mem_map]
      exact ⟨_, (H.bc_mem i hi j _ (Finset.ne_of_mem_erase hj)).2
        ⟨Finset.mem_of_mem_erase hj, rfl⟩, rfl⟩
  have hsmall : ∀ m : ℕ, m ≤ 257 → (UInt32.ofNat m).toNat = m := by
    intro m hm
    rw [UInt32.toNat_ofNat']
    exact Nat.mod_eq_of_lt (by omega)
  have hsub1 : ∀ x : UInt32, 1 ≤ x.toNat → (x - 1).toNat = x.toNat - 1 := by
    intro x hx
    have e1 : (1 : UInt32).toNat = 1 := rfl
    rw [UInt32.toNat_sub_of_le]
    · rfl
    · rw [UInt32.le_iff_toNat_le, e1]; exact hx
  have hfe : (st1 i).feldman = (st0 i).feldman := by rw [hst1]
  have hid : (st1 i).id = i := by rw [hst1]; exact (hst0 i hi).1
  have hctx : (st1 i).ctx = UInt8.ofInt (atoi S.ctx) := by
    rw [hst1]; exact (hst0 i hi).2.2.2.2.2
  have hown' : ∃ own sk0, (st1 i).secretShares[(i - 1).toNat]? = some own ∧
      cd.dec own.value = some sk0 := by
    rw [hst1]
    simp only
    have hi1 : 1 ≤ i.toNat := by
      rcases Nat.eq_zero_or_pos i.toNat with h | h
      · exact absurd (UInt32.toNat_inj.1 h) hrange.1
      · exact h
    have hlt : (i - 1).toNat < (mkShares cd (st0 i).feldman.limit
        (coeffs (st0 i).feldman.threshold (s i) (S.rnd i))).length := by
      simp only [mkShares, List.length_map, List.length_range]
      rw [hlimN, hsub1 i hi1]
      omega
    rw [List.getElem?_eq_getElem hlt]
    have hm := List.getElem_mem hlt
    rw [mem_mkShares] at hm
    exact ⟨_, _, rfl, by rw [hm.2.2, cd.dec_enc]⟩
  obtain ⟨own, sk0, ho, hd⟩ := hown'
  refine ⟨_, ⟨_, _⟩, round2_eq_ok.2 ⟨by rw [hst1], S.bc i, S.p2p i, rfl, rfl, ?_, ?_, ?_, ?_, own, sk0,
    by rw [hid]; exact ho, hd, ?_, rfl, rfl, rfl⟩⟩
  · rw [hlen, ← hc]; exact hlen0
  · rw [hfe, not_or, gt_iff_lt, UInt32.not_lt, UInt32.not_lt, UInt32.le_iff_toNat_le,
      UInt32.le_iff_toNat_le, hsmall _ (by omega), hlimN, (hst0 i hi).2.1, hsub1 _ (by omega)]
    omega
  · rw [hfe, not_or, gt_iff_lt, UInt32.not_lt, UInt32.not_lt, UInt32.le_iff_toNat_le,
      UInt32.le_iff_toNat_le, hsmall _ (by omega), hsub1 _ (by rw [hlimN]; omega), hlimN,
      (hst0 i hi).2.1, hsub1 _ (by omega), hlen]
    omega
  · intro e he
    by_cases hei : e.1 = i
    · have := hown e.2 (by rw [show (i, e.2) = e by rw [← hei]]; exact he)
      exact ⟨b i, this, hci i hi, hco i hi, fun h => absurd (hei.trans hid.symm) h⟩
    · obtain ⟨hj, hx⟩ := (H.bc_mem i hi e.1 e.2 hei).1 he
      refine ⟨b e.1, hx, hci _ hj, hco _ hj, fun _ => ?_⟩
      obtain ⟨hs0, hv, hcj, hwj, hpj, _, _⟩ := hs2 e.1 hj
      have hio : i ∈ (st0 e.1).others := by
        rw [(hst0 e.1 hj).2.2.1, H.others_mem e.1 hj]; exact ⟨hi, fun h => hei h.symm⟩
      obtain ⟨sh, g1, g2, g3⟩ := hpj i hio
      rw [mem_mkShares] at g2
      have hhead : (b e.1).verifiers.headD 0 = s e.1 • g := by rw [hv]; simp [coeffs]
      refine ⟨sh, _, by rw [H.p2p_get i hi e.1 hj hei]; exact g1, ?_, ?_, ⟨S.ki e.1 • g, ?_, ?_⟩,
        g2.1, by rw [g2.2.2, cd.dec_enc], ?_, ?_⟩
      · rw [hv]; simp [coeffs]
      · rw [hhead]
        exact hco _ hj _ (by rw [hv]; simp [coeffs])
      · rw [hhead, hwj, ← mul_smul, ← add_smul]; congr 1; ring
      · rw [hhead, hctx, hcj, (hst0 e.1 hj).1, (hst0 e.1 hj).2.2.2.2.2]; rfl
      · intro h0
        exact hsh i hi e.1 hj hei sh g1 (by rw [g2.2.2, h0])
      · rw [hv, evalL_map_smul]
  · rw [hst1]; rw [hver]; simp [coeffs]

/-! ## A concrete honest run: three participants, threshold two -/

namespace ToyRun

/-- value of a successful call -/
def get {α : Type} [Inhabited α] : Go α → α
  | .ok a => a
  | .error _ => default

instance : Inhabited (State Toy.K Toy.K) := ⟨⟨0, [], 0, ⟨0, 0⟩, 0, [], [], none, none, none⟩⟩
instance : Inhabited (Bcast Toy.K Toy.K) := ⟨⟨[], 0, 0⟩⟩
instance : Inhabited (Bcast2 Toy.K) := ⟨⟨0, 0⟩⟩

/-- toy challenge hash -/
def hs (m : List UInt8) : Toy.K := 1 + (m.map fun b => (b.toNat : Toy.K)).sum ^ 2

def others (i : UInt32) : List UInt32 := [3, 1, 2].filter (· ≠ i)
def st0 (i : UInt32) : State Toy.K Toy.K := get (newDkgParticipant i 2 "7".toList true (others i))
def r1 (i : UInt32) := get (round1 Toy.codec (1 : Toy.K) Toy.codec.enc hs (st0 i) none
  ((i.toNat : Toy.K) + 10) (fun k => (i.toNat : Toy.K) * 3 + k + 1) 77)
def bc (i : UInt32) : List (UInt32 × Option (Bcast Toy.K Toy.K)) :=
  (others i).map fun j => (j, some (r1 j).2.1)
def p2p (i : UInt32) : List (UInt32 × Option Share) :=
  (others i).map fun j => (j, mapGet (r1 j).2.2 i)
def r2 (i : UInt32) := get (round2 Toy.codec (1 : Toy.K) Toy.codec.enc hs (r1 i).1
  (some (bc i)) (some (p2p i)))
def setup : Setup Toy.K Toy.K where
  ids := {1, 2, 3}
  t := 2
  ctx := "7".toList
  others := others
  secret := fun _ => none
  sampled := fun i => (i.toNat : Toy.K) + 10
  rnd := fun i k => (i.toNat : Toy.K) * 3 + k + 1
  ki := fun _ => 77
  bc := bc
  p2p := p2p

theorem mem_ids {i : UInt32} (h : i ∈ setup.ids) : i = 1 ∨ i = 2 ∨ i = 3 := by
  simpa [setup] using h

theorem honest : HonestRun Toy.codec (1 : Toy.K) Toy.codec.enc hs setup st0 (fun i => (r1 i).1)
    (fun i => (r2 i).1) (fun i => (r1 i).2.1) (fun i => (r1 i).2.2) (fun i => (r2 i).2) where
  others_nodup := by intro i hi; rcases mem_ids hi with rfl | rfl | rfl <;> decide +kernel
  others_mem := by
    intro i hi j
    have : j ∈ setup.ids ↔ j = 1 ∨ j = 2 ∨ j = 3 := by simp [setup]
    rw [this]
    simp only [setup, others, List.mem_filter, List.mem_cons, List.not_mem_nil, or_false,
      decide_eq_true_eq]
    tauto
  new := by intro i hi; rcases mem_ids hi with rfl | rfl | rfl <;> decide +kernel
  r1 := by intro i hi; rcases mem_ids hi with rfl | rfl | rfl <;> decide +kernel
  bc_nodup := by intro i hi; rcases mem_ids hi with rfl | rfl | rfl <;> decide +kernel
  bc_mem := by
    intro i hi j x hji
    have : j ∈ setup.ids ↔ j = 1 ∨ j = 2 ∨ j = 3 := by simp [setup]
    rw [this]
    simp only [setup, bc, others, List.mem_map, List.mem_filter, List.mem_cons, List.not_mem_nil,
      or_false, decide_eq_true_eq, Prod.mk.injEq]
    constructor
    · rintro ⟨a, ⟨h1, h2⟩, rfl, rfl⟩; exact ⟨by tauto, rfl⟩
    · rintro ⟨h1, rfl⟩; exact ⟨j, ⟨by tauto, hji⟩, rfl, rfl⟩
  p2p_get := by
    intro i hi j hj _
    rcases mem_ids hi with rfl | rfl | rfl <;> rcases mem_ids hj with rfl | rfl | rfl <;>
      first | exact absurd rfl ‹_› | decide +kernel
  r2 := by intro i hi; rcases mem_ids hi with rfl | rfl | rfl <;> decide +kernel

/-- The theorem applies: three participants agree on the key `36·g`. -/
example : (r2 1).2.verificationKey = 36 ∧ (r2 2).2.verificationKey = 36 ∧
    (r2 3).2.verificationKey = 36 := by decide +kernel

/-- `C22_completes` is not vacuous either. -/
example : (∀ j ∈ [1, 2, 3], (r1 j).2.1.ci ≠ 0) ∧
    (∀ j ∈ [1, 2, 3], ∀ c ∈ (r1 j).2.1.verifiers, c ≠ 0) := by decide +kernel

end ToyRun

/-! ## Checks that Round2 does not make -/

/-- Round2 uses the identifier found inside the received share: a sender can hand participant 1 the
share of participant 2; it is accepted although it differs from the committed polynomial at 1, and the
participant ends up with a signing share that does not belong to the key. -/
theorem C23_share_id_unchecked :
    ∃ (p : List (UInt32 × Option Share)) (sh : Share) (r : State Toy.K Toy.K × Bcast2 Toy.K),
      round2 Toy.codec (1 : Toy.K) Toy.codec.enc ToyRun.hs (ToyRun.r1 1).1
        (some (ToyRun.bc 1)) (some p) = .ok r ∧
      mapGet p 2 = some sh ∧ sh.id = 2 ∧
      Toy.codec.dec sh.value ≠
        some (evalL (ToyRun.r1 2).2.1.verifiers (1 : Toy.K)) ∧
      r.2.verificationKey = (ToyRun.r2 1).2.verificationKey ∧
      r.1.skShare ≠ (ToyRun.r2 1).1.skShare := by
  refine ⟨[(3, mapGet (ToyRun.r1 3).2.2 1), (2, (ToyRun.r1 2).1.secretShares[1]?)],
    ((ToyRun.r1 2).1.secretShares[1]?).getD ⟨0, []⟩, ToyRun.get (round2 Toy.codec (1 : Toy.K)
      Toy.codec.enc ToyRun.hs (ToyRun.r1 1).1 (some (ToyRun.bc 1)) (some
      [(3, mapGet (ToyRun.r1 3).2.2 1), (2, (ToyRun.r1 2).1.secretShares[1]?)])), ?_⟩
  decide +kernel

/-- Round2 accepts messages from only `t - 1` of the other participants, so two participants of the
same execution who saw different subsets complete with different verification keys. -/
theorem C23_subset_accepted :
    ∃ r r' : State Toy.K Toy.K × Bcast2 Toy.K,
      round2 Toy.codec (1 : Toy.K) Toy.codec.enc ToyRun.hs (ToyRun.r1 1).1
        (some [(2, some (ToyRun.r1 2).2.1)]) (some [(2, mapGet (ToyRun.r1 2).2.2 1)]) = .ok r ∧
      round2 Toy.codec (1 : Toy.K) Toy.codec.enc ToyRun.hs (ToyRun.r1 2).1
        (some (ToyRun.bc 2)) (some (ToyRun.p2p 2)) = .ok r' ∧
      r.2.verificationKey ≠ r'.2.verificationKey := by
  refine ⟨ToyRun.get (round2 Toy.codec (1 : Toy.K) Toy.codec.enc ToyRun.hs (ToyRun.r1 1).1
        (some [(2, some (ToyRun.r1 2).2.1)]) (some [(2, mapGet (ToyRun.r1 2).2.2 1)])),
    ToyRun.r2 2, ?_⟩
  decide +kernel

/-- The number of commitments is not checked: a sender in a threshold-2 execution is accepted with
three commitments (a polynomial of degree 2), so two shares no longer determine its contribution. -/
theorem C23_commitment_count_unchecked :
    ∃ (b : Bcast Toy.K Toy.K) (sh : Share) (r : State Toy.K Toy.K × Bcast2 Toy.K),
      (ToyRun.r1 1).1.feldman.threshold = 2 ∧ b.verifiers.length = 3 ∧
      round2 Toy.codec (1 : Toy.K) Toy.codec.enc ToyRun.hs (ToyRun.r1 1).1
        (some [(2, some b), (3, some (ToyRun.r1 3).2.1)])
        (some [(2, some sh), (3, mapGet (ToyRun.r1 3).2.2 1)]) = .ok r := by
  let c := (ToyRun.r1 2).2.1
  refine ⟨⟨c.verifiers ++ [9], c.wi, c.ci⟩,
    ⟨1, Toy.codec.enc (evalL (c.verifiers ++ [9]) (1 : Toy.K))⟩,
    ToyRun.get (round2 Toy.codec (1 : Toy.K) Toy.codec.enc ToyRun.hs (ToyRun.r1 1).1
        (some [(2, some ⟨c.verifiers ++ [9], c.wi, c.ci⟩), (3, some (ToyRun.r1 3).2.1)])
        (some [(2, some ⟨1, Toy.codec.enc (evalL (c.verifiers ++ [9]) (1 : Toy.K))⟩),
          (3, mapGet (ToyRun.r1 3).2.2 1)])), ?_⟩
  decide +kernel

/-! ## C91: the context string -/

/-- Specification: a decimal numeral with optional sign. -/
def IsNumeral (s : List Char) : Prop :=
  ∃ sign ds, s = sign ++ ds ∧ (sign = [] ∨ sign = ['+'] ∨ sign = ['-']) ∧ ds ≠ [] ∧
    ∀ c ∈ ds, '0' ≤ c ∧ c ≤ '9'

theorem atoiDigits_some {cs : List Char} {acc v : ℕ} (h : atoiDigits cs acc = some v) :
    ∀ c ∈ cs, '0' ≤ c ∧ c ≤ '9' := by
  induction cs generalizing acc with
  | nil => simp
  | cons c cs ih =>
    unfold atoiDigits at h
    split at h
    · rename_i hc
      intro d hd
      rcases List.mem_cons.1 hd with rfl | hd
      · exact hc
      · exact ih h d hd
    · simp at h

theorem atoi_not_numeral {s : List Char} (h : ¬ IsNumeral s) : atoi s = 0 := by
  unfold atoi
  have key : ∀ (sign ds : List Char), s = sign ++ ds →
      (sign = [] ∨ sign = ['+'] ∨ sign = ['-']) → ds ≠ [] → atoiDigits ds 0 = none := by
    intro sign ds h1 h2 h3
    cases hd : atoiDigits ds 0 with
    | none => rfl
    | some v => exact absurd ⟨sign, ds, h1, h2, h3, atoiDigits_some hd⟩ h
  split
  · simp only
    split
    · rfl
    · rw [key ['+'] _ rfl (by simp) ‹_›]
  · simp only
    split
    · rfl
    · rw [key ['-'] _ rfl (by simp) ‹_›]
  · simp only
    split
    · rfl
    · rw [key [] _ rfl (by simp) ‹_›]

/-- The context is reduced to one byte: all contexts which are not decimal numerals give identical
participants, so proofs made under one such context are valid under any other. -/
theorem C91_context_collapses (id t : UInt32) (b : Bool) (os : List UInt32) (c c' : List Char)
    (hc : ¬ IsNumeral c) (hc' : ¬ IsNumeral c') :
    (newDkgParticipant id t c b os : Go (State F G)) = newDkgParticipant id t c' b os := by
  unfold newDkgParticipant
  rw [atoi_not_numeral hc, atoi_not_numeral hc']

/-- Numerals congruent modulo 256 give identical participants as well. -/
theorem C91_context_mod_256 (id t : UInt32) (b : Bool) (os : List UInt32) (c c' : List Char)
    (h : atoi c % 256 = atoi c' % 256) :
    (newDkgParticipant id t c b os : Go (State F G)) = newDkgParticipant id t c' b os := by
  have e : UInt8.ofInt (atoi c) = UInt8.ofInt (atoi c') := by
    unfold UInt8.ofInt
    norm_num
    rw [h]
  unfold newDkgParticipant
  rw [e]

example : ¬ IsNumeral "session-A".toList ∧ ¬ IsNumeral "session-B".toList := by
  constructor <;>
  · rintro ⟨sign, ds, h, hs, hne, hd⟩
    rcases hs with rfl | rfl | rfl
    · rw [List.nil_append] at h
      exact absurd (hd 's' (by rw [← h]; decide)) (by decide)
    · simp at h
    · simp at h

example : atoi "1".toList % 256 = atoi "257".toList % 256 := by decide +kernel

end Verif.Frost
