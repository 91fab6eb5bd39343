import Verif.Gg20.DkgProps

/-! # What the GG20 key generation does and does not guarantee (C49, C123, C124, C129) -/

set_option linter.unusedSectionVars false
set_option exponentiation.threshold 2000

namespace Verif.Gg20

variable {q : ℕ} {G : Type} [AddCommGroup G] [Module (ZMod q) G]

/-! ## The shares and the published points -/

theorem ids_inj (hq : ∀ i : UInt32, i ∈ T → i.toNat < q) :
    Set.InjOn (fun k : UInt32 => (k.toNat : ZMod q)) (T : Finset UInt32) := by
  intro a ha b hb hab
  dsimp only at hab
  rw [ZMod.natCast_eq_natCast_iff] at hab
  unfold Nat.ModEq at hab
  rw [Nat.mod_eq_of_lt (hq a ha), Nat.mod_eq_of_lt (hq b hb)] at hab
  exact UInt32.toNat_inj.1 hab

/-- **C49.**  Any `t` of the shares interpolate to the secret key of the public key. -/
theorem C49_interpolates [Fact q.Prime] {t : ℕ} (ht : 0 < t) {S T : Finset UInt32}
    (hT : ∀ i ∈ T, i.toNat < q) (hcard : t ≤ T.card) (rnd : UInt32 → DkgRnd q) :
    ∑ i ∈ T, lag0 T (fun k => (k.toNat : ZMod q)) i * jointAt t S rnd (i.toNat : ZMod q) =
      ∑ j ∈ S, (((rnd j).ui.natAbs : ℕ) : ZMod q) := by
  have h := sum_lag0_evalL T (fun k : UInt32 => (k.toNat : ZMod q)) (ids_inj hT)
    ((List.range t).map (joint t S rnd)) (by simpa using hcard)
  have h0 : ((List.range t).map (joint t S rnd)).headD 0 = joint t S rnd 0 := by
    obtain ⟨t, rfl⟩ := Nat.exists_eq_succ_of_ne_zero ht.ne'
    simp [List.range_succ_eq_map]
  rw [h0, joint_zero] at h
  rw [← h]
  refine Finset.sum_congr rfl fun i _ => ?_
  rw [smul_eq_mul, jointAt_eq ht, evalL_eq_sum, List.length_map, List.length_range]
  congr 1
  refine Finset.sum_congr rfl fun k hk => ?_
  rw [Finset.mem_range] at hk
  rw [List.getD_eq_getElem _ _ (by simpa using hk), List.getElem_map, List.getElem_range, smul_eq_mul,
    mul_comm]

/-- The difference between the published public share and the right one. -/
theorem published_sub [Fact q.Prime] {t : ℕ} (ht : 0 < t) (S : Finset UInt32)
    (rnd : UInt32 → DkgRnd q) (j : ℕ) :
    published t S rnd j - jointAt t S rnd (j : ZMod q) = j * joint t S rnd 0 +
      ∑ k ∈ Finset.Ico 1 t, ((j : ZMod q) * (k + 1) - (j : ZMod q) ^ k) * joint t S rnd k := by
  rw [published, jointAt_eq ht, Finset.range_eq_Ico, Finset.sum_eq_sum_Ico_succ_bot ht,
    Finset.sum_eq_sum_Ico_succ_bot ht]
  simp only [sub_mul, Finset.sum_sub_distrib]
  have h1 : ∀ k ∈ Finset.Ico (0 + 1) t, ((j * (k + 1) : ℕ) : ZMod q) * joint t S rnd k =
      (j : ZMod q) * (k + 1) * joint t S rnd k := by
    intro k _
    push_cast
    ring
  have h2 : ∀ k ∈ Finset.Ico (0 + 1) t, joint t S rnd k * (j : ZMod q) ^ k =
      (j : ZMod q) ^ k * joint t S rnd k := fun k _ => mul_comm _ _
  rw [Finset.sum_congr rfl h1, Finset.sum_congr rfl h2]
  push_cast
  ring

/-- **C49.**  The published public share of `j` belongs to the share of `j` only for one value of the
joint secret: given the other joint coefficients, every other secret key gets a wrong public
share. -/
theorem C49_published_iff [Fact q.Prime] {t : ℕ} (ht : 0 < t) (S : Finset UInt32)
    (rnd : UInt32 → DkgRnd q) {j : ℕ} (h1 : 1 ≤ j) (hq : j < q) :
    published t S rnd j = jointAt t S rnd (j : ZMod q) ↔
      ∑ i ∈ S, (((rnd i).ui.natAbs : ℕ) : ZMod q) =
        -((j : ZMod q)⁻¹ * ∑ k ∈ Finset.Ico 1 t,
          ((j : ZMod q) * (k + 1) - (j : ZMod q) ^ k) * joint t S rnd k) := by
  have hj : (j : ZMod q) ≠ 0 := by
    intro h
    have := Nat.le_of_dvd h1 ((ZMod.natCast_eq_zero_iff _ _).1 h)
    omega
  rw [← sub_eq_zero, published_sub ht, ← joint_zero t S rnd]
  constructor
  · intro h
    rw [eq_neg_of_add_eq_zero_right h]
    field_simp
  · intro h
    rw [h]
    field_simp
    ring

section
variable [Fact q.Prime] [DecidableEq G] {E : DkgEnv q G} {t n : UInt32} {s0 : UInt32 → Dkg q G}
  {rnd : UInt32 → DkgRnd q} {fuel : ℕ}

/-! ## Shares for the wrong identifier (C123) and missing participants (C129) -/

/-- **C123.**  Round 3 does not check that a received share is the one for the own identifier: if
participant `m` sends its share for any other identifier `k`, everything is accepted, public key and
public shares are those of the honest run, and the signing share is off by the difference of the two
shares of `m`. -/
theorem C123_share_of_other_id_accepted (hE : GoodEnv E) (ht : 2 ≤ t.toNat)
    (htn : t.toNat ≤ n.toNat) (hn : n.toNat < q) {i m : UInt32} (hi : i ∈ parts n)
    (hm : m ∈ parts n) (hmi : m ≠ i) (k : UInt32) (hk : k.toNat < q)
    (hg : ∀ j ∈ parts n, GoodDkg E t.toNat (rnd j)) (hkey : joint t.toNat (parts n) rnd 0 ≠ 0)
    (hpsf : ∃ xs, Paillier.generateChallenges E.kdf
      (psfParams E i (joint t.toNat (parts n) rnd 0 • E.gen)) ((rnd i).p * (rnd i).q) fuel =
        some (.ok xs))
    {s : Dkg q G} (A : AtRound3 E t n i (parts n) rnd s)
    (hown : s.X[(i - 1).toNat]? = some ⟨i, polyAt t.toNat (rnd i) (i.toNat : ZMod q)⟩)
    {ld lx : List UInt32} (hld : Visits (parts n) i ld) (hlx : Visits (parts n) i lx) :
    ∃ s' proof, dkgRound3 E s fuel
        (ld.map fun j => (j, some ⟨dkgMsg E t.toNat (rnd j), (rnd j).open_⟩))
        (lx.map fun j => (j, some (if j = m then ⟨k, polyAt t.toNat (rnd m) (k.toNat : ZMod q)⟩
          else ⟨i, polyAt t.toNat (rnd j) (i.toNat : ZMod q)⟩))) = (s', .ok proof) ∧
      AfterRound3 E t n i (parts n) rnd (jointAt t.toNat (parts n) rnd (i.toNat : ZMod q) +
        (polyAt t.toNat (rnd m) (k.toNat : ZMod q) -
          polyAt t.toNat (rnd m) (i.toNat : ZMod q))) s s' := by
  have hi' := mem_parts.1 hi
  obtain ⟨s', proof, h1, _, h2⟩ := dkgRound3_ok (rnd := rnd) (fuel := fuel) hE ht htn hn hi
    ⟨m, hm, hmi⟩ hg hkey hpsf A hown hld hlx (κ := fun j => if j = m then k else i)
    (wit := fun j => some ⟨dkgMsg E t.toNat (rnd j), (rnd j).open_⟩)
    (sh := fun j => some (if j = m then ⟨k, polyAt t.toNat (rnd m) (k.toNat : ZMod q)⟩
          else ⟨i, polyAt t.toNat (rnd j) (i.toNat : ZMod q)⟩))
    ⟨fun _ _ _ => rfl, fun j _ _ => by
      by_cases h : j = m
      · subst h
        simp
      · simp [h], fun j _ _ => by
      split
      · exact hk
      · omega⟩
  refine ⟨s', proof, h1, ?_⟩
  convert h2 using 1
  have hm' : m ∈ (parts n).erase i := Finset.mem_erase.2 ⟨hmi, hm⟩
  rw [jointAt, ← Finset.add_sum_erase _ _ hi, ← Finset.add_sum_erase _ _ hm',
    ← Finset.add_sum_erase ((parts n).erase i) (fun j => polyAt t.toNat (rnd j)
      (((if j = m then k else i).toNat : ℕ) : ZMod q)) hm']
  have : ∑ j ∈ ((parts n).erase i).erase m, polyAt t.toNat (rnd j)
        (((if j = m then k else i).toNat : ℕ) : ZMod q) =
      ∑ j ∈ ((parts n).erase i).erase m, polyAt t.toNat (rnd j) (i.toNat : ZMod q) :=
    Finset.sum_congr rfl fun j hj => by rw [if_neg (Finset.ne_of_mem_erase hj)]
  rw [this, if_pos rfl]
  ring

/-- **C129.**  Round 3 does not ask for the messages of all participants: with those of any set `S`
of at least two it succeeds, for the key `(Σ_{j∈S} u_j) g`. -/
theorem C129_subset_accepted (hE : GoodEnv E) (ht : 2 ≤ t.toNat)
    (htn : t.toNat ≤ n.toNat) (hn : n.toNat < q) {S : Finset UInt32} (hS : S ⊆ parts n) {i : UInt32}
    (hi : i ∈ S) (h2 : 2 ≤ S.card) (hg : ∀ j ∈ S, GoodDkg E t.toNat (rnd j))
    (hkey : joint t.toNat S rnd 0 ≠ 0)
    (hpsf : ∃ xs, Paillier.generateChallenges E.kdf
      (psfParams E i (joint t.toNat S rnd 0 • E.gen)) ((rnd i).p * (rnd i).q) fuel =
        some (.ok xs))
    {s : Dkg q G} (A : AtRound3 E t n i (parts n) rnd s)
    (hown : s.X[(i - 1).toNat]? = some ⟨i, polyAt t.toNat (rnd i) (i.toNat : ZMod q)⟩)
    {ld lx : List UInt32} (hld : Visits S i ld) (hlx : Visits S i lx) :
    ∃ s' proof, dkgRound3 E s fuel
        (ld.map fun j => (j, some ⟨dkgMsg E t.toNat (rnd j), (rnd j).open_⟩))
        (lx.map fun j => (j, some ⟨i, polyAt t.toNat (rnd j) (i.toNat : ZMod q)⟩)) =
          (s', .ok proof) ∧
      AfterRound3 E t n i S rnd (jointAt t.toNat S rnd (i.toNat : ZMod q)) s s' := by
  have hi' := mem_parts.1 (hS hi)
  obtain ⟨s', proof, h1, _, h2⟩ := dkgRound3_ok (rnd := rnd) (fuel := fuel) hE ht htn hn hi
    (by
      by_contra hcon
      push Not at hcon
      have : S.card ≤ 1 := Finset.card_le_one.2 fun a ha b hb => by rw [hcon a ha, hcon b hb]
      omega) hg hkey hpsf
    (s := s) ⟨A.id, A.round, A.threshold, A.limit, A.V, A.sk, fun j hj => A.others j (hS hj)⟩
    hown hld hlx (κ := fun _ => i)
    (wit := fun j => some ⟨dkgMsg E t.toNat (rnd j), (rnd j).open_⟩)
    (sh := fun j => some ⟨i, polyAt t.toNat (rnd j) (i.toNat : ZMod q)⟩)
    ⟨fun _ _ _ => rfl, fun _ _ _ => rfl, fun _ _ _ => by omega⟩
  refine ⟨s', proof, h1, ?_⟩
  rw [jointAt, ← Finset.add_sum_erase _ _ hi]
  exact h2

/-! ## A failed round 3 (C124) -/

theorem dkgLoop3_err {fe : V1.Shamir} {s : Dkg q G}
    {x : List (UInt32 × Option (V1.Share q))} {w : UInt32 → Option Core.Witness}
    {V : UInt32 → List G} {v : UInt32 → ZMod q} (l : List UInt32)
    (h : ∀ j ∈ l, j ≠ s.id → dkgStep3 E fe s x j (w j) = .ok (V j, v j)) {b : UInt32}
    (hb : b ≠ s.id) {wb : Option Core.Witness} {e : Fail} (he : dkgStep3 E fe s x b wb = .error e)
    (rest : List (UInt32 × Option Core.Witness)) (xi : ZMod q) (vs : List (List G)) :
    dkgLoop3 E fe s x ((l.map fun j => (j, w j)) ++ (b, wb) :: rest) xi vs =
      (xi + ((l.filter (· ≠ s.id)).map v).sum, .error e) := by
  induction l generalizing xi vs with
  | nil => simp [dkgLoop3, hb, he]
  | cons j l ih =>
    have ih := ih fun k hk => h k (by simp [hk])
    rw [List.map_cons, List.cons_append, dkgLoop3]
    by_cases hj : j = s.id
    · rw [if_pos hj, ih]
      simp [hj]
    · rw [if_neg hj, h j (by simp) hj]
      dsimp only
      rw [ih]
      simp [hj, add_assoc]

/-- **C124.**  A failing round 3 has already added the shares of the senders visited before the bad
one to the own share in the state, and leaves the round counter at 3: when the call is repeated with
all the right messages it succeeds, with the right public key and public shares, but with these
shares counted twice in the signing share. -/
theorem C124_retry_counts_twice (hE : GoodEnv E) (ht : 2 ≤ t.toNat)
    (htn : t.toNat ≤ n.toNat) (hn : n.toNat < q) {i b : UInt32} (hi : i ∈ parts n)
    (hbi : b ≠ i) (hg : ∀ j ∈ parts n, GoodDkg E t.toNat (rnd j))
    (hkey : joint t.toNat (parts n) rnd 0 ≠ 0)
    (hpsf : ∃ xs, Paillier.generateChallenges E.kdf
      (psfParams E i (joint t.toNat (parts n) rnd 0 • E.gen)) ((rnd i).p * (rnd i).q) fuel =
        some (.ok xs))
    {s : Dkg q G} (A : AtRound3 E t n i (parts n) rnd s)
    (hown : s.X[(i - 1).toNat]? = some ⟨i, polyAt t.toNat (rnd i) (i.toNat : ZMod q)⟩)
    {ld lx : List UInt32} (hld : Visits (parts n) i ld) (hlx : Visits (parts n) i lx)
    -- the first call: the honest messages of `pre`, then something bad from `b`
    {pre : List UInt32} (hpre : pre.Nodup) (hpre' : ∀ j ∈ pre, j ∈ parts n)
    {wb : Option Core.Witness} (rest : List (UInt32 × Option Core.Witness)) {e : Fail}
    (hbad : dkgStep3 E ⟨t, n⟩ s (lx.map fun j => (j, some ⟨i, polyAt t.toNat (rnd j)
      (i.toNat : ZMod q)⟩)) b wb = .error e) :
    ∃ s1 s2 proof,
      dkgRound3 E s fuel
        ((pre.map fun j => (j, some ⟨dkgMsg E t.toNat (rnd j), (rnd j).open_⟩)) ++ (b, wb) :: rest)
        (lx.map fun j => (j, some ⟨i, polyAt t.toNat (rnd j) (i.toNat : ZMod q)⟩)) =
          (s1, .error e) ∧
      dkgRound3 E s1 fuel
        (ld.map fun j => (j, some ⟨dkgMsg E t.toNat (rnd j), (rnd j).open_⟩))
        (lx.map fun j => (j, some ⟨i, polyAt t.toNat (rnd j) (i.toNat : ZMod q)⟩)) =
          (s2, .ok proof) ∧
      AfterRound3 E t n i (parts n) rnd (jointAt t.toNat (parts n) rnd (i.toNat : ZMod q) +
        ∑ j ∈ pre.toFinset.erase i, polyAt t.toNat (rnd j) (i.toNat : ZMod q)) s s2 := by
  have hi' := mem_parts.1 hi
  have hid := A.id
  have hxne : (lx.map fun j => (j, some (⟨i, polyAt t.toNat (rnd j) (i.toNat : ZMod q)⟩ :
      V1.Share q))) ≠ [] := by
    obtain ⟨j0, hj0, hj0i⟩ := exists_other (n := n) (by omega) i
    have := (hlx.mem j0 hj0i).2 hj0
    intro h
    rw [List.map_eq_nil_iff] at h
    rw [h] at this
    simp at this
  have hloop := dkgLoop3_err (E := E) (fe := ⟨t, n⟩) (s := s)
    (x := lx.map fun j => (j, some ⟨i, polyAt t.toNat (rnd j) (i.toNat : ZMod q)⟩))
    (w := fun j => some ⟨dkgMsg E t.toNat (rnd j), (rnd j).open_⟩)
    (V := fun j => (polyCoeffs t.toNat (rnd j)).map (· • E.gen))
    (v := fun j => polyAt t.toNat (rnd j) (i.toNat : ZMod q)) pre (by
      intro j hj hji
      rw [hid] at hji
      have hjS := hpre' j hj
      obtain ⟨o, ho1, ho2⟩ := A.others j hjS hji
      exact dkgStep3_ok hE ht hn (hg j hjS).ui (hg j hjS).coeffs A.threshold ho1 ho2 _
        (by omega) (lookup_map_of_mem (fun j => some (⟨i, polyAt t.toNat (rnd j)
          (i.toNat : ZMod q)⟩ : V1.Share q)) lx ((hlx.mem j hji).2 hjS)))
    (by rw [hid]; exact hbi) hbad rest (polyAt t.toNat (rnd i) (i.toNat : ZMod q)) [s.V]
  have hsum : ((pre.filter (· ≠ i)).map fun j => polyAt t.toNat (rnd j) (i.toNat : ZMod q)).sum =
      ∑ j ∈ pre.toFinset.erase i, polyAt t.toNat (rnd j) (i.toNat : ZMod q) := by
    rw [← List.sum_toFinset _ (hpre.filter _)]
    congr 1
    ext j
    simp [and_comm]
  rw [hid, hsum] at hloop
  set own' := polyAt t.toNat (rnd i) (i.toNat : ZMod q) +
    ∑ j ∈ pre.toFinset.erase i, polyAt t.toNat (rnd j) (i.toNat : ZMod q) with hown'
  obtain ⟨s1, hs1, hX⟩ : ∃ s1 : Dkg q G, s1 = { s with X := setOwn s.X (i - 1).toNat own' } ∧
      s1.X[(i - 1).toNat]? = some ⟨i, own'⟩ := by
    refine ⟨_, rfl, ?_⟩
    show (setOwn s.X (i - 1).toNat own')[(i - 1).toNat]? = _
    unfold setOwn
    rw [List.getElem?_modify_eq, hown]
    rfl
  have hsk1 : s1.sk = s.sk := by rw [hs1]
  have hoth1 : s1.others = s.others := by rw [hs1]
  have hpar1 : s1.params = s.params := by rw [hs1]
  have A1 : AtRound3 E t n i (parts n) rnd s1 := by
    subst hs1
    exact ⟨A.id, A.round, A.threshold, A.limit, A.V, A.sk, A.others⟩
  obtain ⟨s2, proof, h1, _, h2⟩ := dkgRound3_ok (rnd := rnd) (fuel := fuel) hE ht htn hn hi
    (exists_other (by omega) i) hg hkey hpsf A1 hX hld hlx (κ := fun _ => i)
    (wit := fun j => some ⟨dkgMsg E t.toNat (rnd j), (rnd j).open_⟩)
    (sh := fun j => some ⟨i, polyAt t.toNat (rnd j) (i.toNat : ZMod q)⟩)
    ⟨fun _ _ _ => rfl, fun _ _ _ => rfl, fun _ _ _ => by omega⟩
  refine ⟨s1, s2, proof, ?_, h1, ?_⟩
  · have hfe : newFeldman s.threshold s.limit = .ok ⟨t, n⟩ := by
      rw [A.threshold, A.limit, newFeldman_ok ht htn]
    have hr := A.round
    subst hid
    unfold dkgRound3
    rw [if_neg (by simp [hxne]), if_neg (by rw [hr]; simp), hfe]
    dsimp only
    rw [hown]
    dsimp only
    rw [hloop, hs1]
  · have hval : own' + ∑ j ∈ (parts n).erase i, polyAt t.toNat (rnd j) (i.toNat : ZMod q) =
        jointAt t.toNat (parts n) rnd (i.toNat : ZMod q) +
        ∑ j ∈ pre.toFinset.erase i, polyAt t.toNat (rnd j) (i.toNat : ZMod q) := by
      rw [hown', jointAt, ← Finset.add_sum_erase _ _ hi]
      ring
    dsimp only at h2
    rw [hval] at h2
    exact ⟨h2.id, h2.round, h2.sk.trans hsk1, h2.others.trans hoth1, h2.params.trans hpar1, h2.y,
      h2.xi, h2.publicShares⟩

/-- A message that does not open the commitment is an error (one way to fail as in
`C124_retry_counts_twice`). -/
theorem dkgStep3_bad_opening {fe : V1.Shamir} {s : Dkg q G}
    {x : List (UInt32 × Option (V1.Share q))} {j : UInt32} {o : Other} {w : Core.Witness}
    (ho : s.others.lookup j = some o) (hlen : o.C.length = 32)
    (hne : E.hmac w.r w.msg ≠ o.C) : dkgStep3 E fe s x j (some w) = Go.err := by
  unfold dkgStep3
  rw [ho]
  simp only [deref, Go.ok_bind]
  unfold Core.openC
  rw [Go.guard_true hlen, Go.ok_bind, Go.ok_bind, Go.guard_false]
  · rfl
  · simpa [eq_comm] using hne

/-! ## What round 3 does check -/

theorem mem_mapM_ok {α β : Type} {f : α → Go β} {l : List α} {r : List β} (h : l.mapM f = .ok r)
    {a : α} (ha : a ∈ l) : ∃ b, f a = .ok b := by
  have := Go.mapM_eq_ok.1 h
  induction this with
  | nil => simp at ha
  | cons h1 _ ih =>
    rcases List.mem_cons.1 ha with rfl | ha
    · exact ⟨_, h1⟩
    · exact ih (Go.mapM_eq_ok.2 ‹_›) ha

/-- What one sender has to deliver: an opening of its commitment to `t` points of the curve, and a
share on the committed polynomial at the identifier the share carries. -/
def Consistent (E : DkgEnv q G) (s : Dkg q G) (x : List (UInt32 × Option (V1.Share q)))
    (j : UInt32) (wit : Option Core.Witness) (V : List G) (v : ZMod q) : Prop :=
  ∃ o w sh, s.others.lookup j = some o ∧ wit = some w ∧ o.C = E.hmac w.r w.msg ∧
    V.length = s.threshold.toNat ∧ w.msg.length = s.threshold.toNat * E.size ∧
    (∀ k (hk : k < V.length), E.dec ((w.msg.drop (k * E.size)).take E.size) = some V[k]) ∧
    x.lookup j = some (some sh) ∧ sh.id.toNat < q ∧ sh.value = v ∧
    v • E.gen = evalL V (sh.id.toNat : ZMod q)

theorem dkgStep3_sound {fe : V1.Shamir} {s : Dkg q G} {x : List (UInt32 × Option (V1.Share q))}
    {j : UInt32} {wit : Option Core.Witness} {V : List G} {v : ZMod q}
    (h : dkgStep3 E fe s x j wit = .ok (V, v)) : Consistent E s x j wit V v := by
  unfold dkgStep3 at h
  simp only [Go.bind_eq_ok] at h
  obtain ⟨o, ho, w, hw, ok, hok, _, hg, V', hV, ok2, hv, _, hg2, sh, hsh, h⟩ := h
  have hd : ∀ {α : Type} {a : Option α} {b : α}, deref a = .ok b → a = some b := by
    intro α a b h
    cases a with
    | none => exact absurd h (by simp [deref, Go.crash])
    | some a => exact congrArg some (Except.ok.inj h)
  have ho := hd ho
  have hw := hd hw
  have hsh := hd hsh
  obtain ⟨rfl, rfl⟩ := Prod.mk.inj (Except.ok.inj h)
  rw [Go.guard_eq_ok] at hg hg2
  subst hg hg2
  refine ⟨o, w, sh, ho, hw, ?_, ?_⟩
  · unfold Core.openC at hok
    obtain ⟨_, _, hok⟩ := Go.bind_eq_ok.1 hok
    have := Except.ok.inj hok
    simpa [eq_comm] using this
  have hs0 : E.size ≠ 0 := by
    intro h0
    unfold unmarshalVerifiers at hV
    rw [if_pos h0] at hV
    exact absurd hV (by simp [Go.crash, Go.error_bind])
  unfold unmarshalVerifiers at hV
  rw [if_neg hs0] at hV
  simp only [Go.ok_bind, Go.bind_eq_ok, Go.guard_eq_ok] at hV
  obtain ⟨_, hmod, _, hdiv, hV⟩ := hV
  have hF := Go.mapM_eq_ok.1 hV
  have hlen : V'.length = s.threshold.toNat := by
    rw [← hF.length_eq, List.length_range, hdiv]
  refine ⟨hlen, ?_, ?_, ?_, ?_, rfl, ?_⟩
  · rw [← hdiv, Nat.div_mul_cancel (Nat.dvd_of_mod_eq_zero hmod)]
  · intro k hk
    have := List.forall₂_iff_get.1 hF
    have := this.2 k (by rw [this.1]; exact hk) hk
    simp only [List.get_eq_getElem, List.getElem_range] at this
    exact Go.ofOption_eq_ok.1 this
  · cases hx : x.lookup j with
    | none => rw [hx] at hsh; simp at hsh
    | some a => rw [hx] at hsh; simp only [Option.join_some] at hsh; rw [hsh]
  all_goals
    rw [hsh] at hv
    unfold V1.feldmanVerify at hv
    obtain ⟨_, _, hv⟩ := Go.bind_eq_ok.1 hv
    dsimp only at hv
    split at hv
    · exact absurd hv (by simp [Go.crash])
    · match V', hv with
      | [], hv => exact absurd hv (by simp [Go.crash])
      | c0 :: cs, hv =>
        have := Except.ok.inj hv
        rw [decide_eq_true_iff, V1.commitEval_eq] at this
        first | exact this | omega

theorem dkgLoop3_sound {fe : V1.Shamir} {s : Dkg q G} {x : List (UInt32 × Option (V1.Share q))}
    (d : List (UInt32 × Option Core.Witness)) {xi xi' : ZMod q} {vs vs' : List (List G)}
    (h : dkgLoop3 E fe s x d xi vs = (xi', .ok vs')) :
    ∃ r : List (List G × ZMod q), List.Forall₂ (fun p r => Consistent E s x p.1 p.2 r.1 r.2)
        (d.filter fun p => p.1 ≠ s.id) r ∧
      xi' = xi + (r.map (·.2)).sum ∧ vs' = vs ++ r.map (·.1) := by
  induction d generalizing xi vs with
  | nil =>
    rw [dkgLoop3] at h
    obtain ⟨rfl, hv⟩ := Prod.mk.inj h
    exact ⟨[], by simp, by simp, by simp [Except.ok.inj hv]⟩
  | cons p d ih =>
    obtain ⟨j, wit⟩ := p
    rw [dkgLoop3] at h
    by_cases hj : j = s.id
    · rw [if_pos hj] at h
      obtain ⟨r, h1, h2, h3⟩ := ih h
      exact ⟨r, by simpa [hj] using h1, h2, h3⟩
    · rw [if_neg hj] at h
      cases hstep : dkgStep3 E fe s x j wit with
      | error e => rw [hstep] at h; simp at h
      | ok Vv =>
        obtain ⟨V, v⟩ := Vv
        rw [hstep] at h
        obtain ⟨r, h1, h2, h3⟩ := ih h
        refine ⟨(V, v) :: r, ?_, ?_, ?_⟩
        · rw [List.filter_cons_of_pos (by simpa using hj)]
          exact .cons (dkgStep3_sound hstep) h1
        · rw [h2]; simp [add_assoc]
        · rw [h3]; simp

/-- **C123.**  Whatever the messages are, a successful round 3 has checked every opened commitment
and that every share lies on the committed polynomial at the identifier it carries (which need not
be the own one); the public key is the sum of the committed constant terms and the signing share
belongs to the sum of the committed polynomials at these identifiers. -/
theorem C123_round3_sound {s s' : Dkg q G} {d : List (UInt32 × Option Core.Witness)}
    {x : List (UInt32 × Option (V1.Share q))} {proof : List (Option ℤ)}
    (h : dkgRound3 E s fuel d x = (s', .ok proof)) :
    s.round = 3 ∧ s'.round = 4 ∧
    ∃ (own : V1.Share q) (r : List (List G × ZMod q)), s.X[(s.id - 1).toNat]? = some own ∧
      List.Forall₂ (fun p r => Consistent E s x p.1 p.2 r.1 r.2)
        (d.filter fun p => p.1 ≠ s.id) r ∧
      s'.xi = ((own.value + (r.map (·.2)).sum).cast : ℤ) ∧
      s'.y = (s.V.getD 0 0) + (r.map fun r => r.1.getD 0 0).sum ∧ s'.y ≠ 0 := by
  unfold dkgRound3 at h
  split at h
  · exact absurd (congrArg Prod.snd h) (by simp [Go.err])
  split at h
  · exact absurd (congrArg Prod.snd h) (by simp [Go.err])
  rename_i h0 hround
  split at h
  · exact absurd (congrArg Prod.snd h) (by simp)
  rename_i fe hfe
  split at h
  · exact absurd (congrArg Prod.snd h) (by simp [Go.crash])
  rename_i own hown
  have ht0 : 0 < s.threshold.toNat := by
    unfold newFeldman at hfe
    simp only [Go.bind_eq_ok, Go.guard_eq_ok] at hfe
    obtain ⟨_, _, _, h2, _⟩ := hfe
    rw [UInt32.lt_iff_toNat_lt] at h2
    have : (2 : UInt32).toNat = 2 := rfl
    omega
  split at h
  rename_i xi r hloop
  dsimp only at h
  split at h
  · exact absurd (congrArg Prod.snd h) (by simp)
  rename_i vs
  obtain ⟨rr, h1, h2, h3⟩ := dkgLoop3_sound _ hloop
  split at h
  · exact absurd (congrArg Prod.snd h) (by simp)
  rename_i s2 pf hfin
  obtain ⟨rfl, hp⟩ := Prod.mk.inj h
  unfold dkgFinish3 at hfin
  dsimp only at hfin
  simp only [Go.bind_eq_ok, Go.guard_eq_ok] at hfin
  obtain ⟨_, hy, pr, _, hfin⟩ := hfin
  obtain ⟨rfl, _⟩ := Prod.mk.inj (Except.ok.inj hfin)
  have hsum : (sumVerifiers s.threshold.toNat vs).getD 0 0 =
      (s.V.getD 0 0) + (rr.map fun r => r.1.getD 0 0).sum := by
    unfold sumVerifiers
    rw [List.getD_eq_getElem _ _ (by simpa using ht0), List.getElem_map, List.getElem_range, h3]
    simp [List.map_map, Function.comp_def]
  refine ⟨not_not.1 hround, rfl, own, rr, hown, h1, ?_, ?_, ?_⟩
  · rw [← h2]
  · exact hsum
  · exact hy

end

end Verif.Gg20
