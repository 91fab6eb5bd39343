import Verif.Gg20.DkgLemmas

/-! # C49: an honest run of the GG20 key generation, and what it publishes -/

set_option linter.unusedSectionVars false
set_option exponentiation.threshold 2000

namespace Verif.Gg20

variable {q : ℕ} {G : Type} [AddCommGroup G] [Module (ZMod q) G]

/-- The public share published for the identifier `j` (what the code computes): the `k`-th
coefficient is weighted with `j (k + 1)`, and the constant term is added once more. -/
def published (t : ℕ) (S : Finset UInt32) (rnd : UInt32 → DkgRnd q) (j : ℕ) : ZMod q :=
  joint t S rnd 0 + ∑ k ∈ Finset.range t, ((j * (k + 1) : ℕ) : ZMod q) * joint t S rnd k

/-- Everything about an honest run: environment, sizes, the fresh participants and the values they
draw; `fuel` is enough for all searches for challenges. -/
structure DkgSetup (E : DkgEnv q G) (t n : UInt32) (s0 : UInt32 → Dkg q G)
    (rnd : UInt32 → DkgRnd q) (fuel : ℕ) : Prop where
  env : GoodEnv E
  t2 : 2 ≤ t.toNat
  tn : t.toNat ≤ n.toNat
  nq : n.toNat < q
  id : ∀ i ∈ parts n, (s0 i).id = i
  round : ∀ i ∈ parts n, (s0 i).round = 1
  good : ∀ i ∈ parts n, GoodDkg E t.toNat (rnd i)
  key : joint t.toNat (parts n) rnd 0 ≠ 0
  psf : ∀ i ∈ parts n, ∃ xs, Paillier.generateChallenges E.kdf
    (psfParams E i (joint t.toNat (parts n) rnd 0 • E.gen)) ((rnd i).p * (rnd i).q) fuel =
      some (.ok xs)

/-- A participant `i` between rounds 2 and 3 which drew `r` and knows the commitments of `S`. -/
structure AtRound3 (E : DkgEnv q G) (t n i : UInt32) (S : Finset UInt32) (rnd : UInt32 → DkgRnd q)
    (s : Dkg q G) : Prop where
  id : s.id = i
  round : s.round = 3
  threshold : s.threshold = t
  limit : s.limit = n
  V : s.V = (polyCoeffs t.toNat (rnd i)).map (· • E.gen)
  sk : Paillier.newSecretKey (some (rnd i).p) (some (rnd i).q) = .ok s.sk
  others : ∀ j ∈ S, j ≠ i → ∃ o, s.others.lookup j = some o ∧
    o.C = E.hmac (rnd j).open_ (dkgMsg E t.toNat (rnd j))

/-- What the honest messages of `S` to `i` amount to, except that the share of `j` is the one for
the identifier `κ j`. -/
structure Inbox3 (E : DkgEnv q G) (t i : UInt32) (S : Finset UInt32) (rnd : UInt32 → DkgRnd q)
    (κ : UInt32 → UInt32) (wit : UInt32 → Option Core.Witness)
    (sh : UInt32 → Option (V1.Share q)) : Prop where
  wit : ∀ j ∈ S, j ≠ i → wit j = some ⟨dkgMsg E t.toNat (rnd j), (rnd j).open_⟩
  sh : ∀ j ∈ S, j ≠ i → sh j = some ⟨κ j, polyAt t.toNat (rnd j) ((κ j).toNat : ZMod q)⟩
  lt : ∀ j ∈ S, j ≠ i → (κ j).toNat < q

/-- What round 3 leaves behind for the contributions of `S`, with the signing share `x`. -/
structure AfterRound3 (E : DkgEnv q G) (t n i : UInt32) (S : Finset UInt32)
    (rnd : UInt32 → DkgRnd q) (x : ZMod q) (s s' : Dkg q G) : Prop where
  id : s'.id = i
  round : s'.round = 4
  sk : s'.sk = s.sk
  others : s'.others = s.others
  params : s'.params = s.params
  y : s'.y = joint t.toNat S rnd 0 • E.gen
  xi : s'.xi = (x.cast : ℤ)
  publicShares : s'.publicShares = (List.range n.toNat).map fun j =>
    published t.toNat S rnd (j + 1) • E.gen

section
variable [Fact q.Prime] [DecidableEq G] {E : DkgEnv q G} {t n : UInt32} {s0 : UInt32 → Dkg q G}
  {rnd : UInt32 → DkgRnd q} {fuel : ℕ}

/-- Round 3 with honest openings of some set `S` of participants, shares for arbitrary identifiers
and an arbitrary value in the place of the own share: it succeeds. -/
theorem dkgRound3_ok (hE : GoodEnv E) (ht : 2 ≤ t.toNat) (htn : t.toNat ≤ n.toNat)
    (hn : n.toNat < q) {S : Finset UInt32} {i : UInt32} (hi : i ∈ S) (hS : ∃ j ∈ S, j ≠ i)
    (hg : ∀ j ∈ S, GoodDkg E t.toNat (rnd j)) (hkey : joint t.toNat S rnd 0 ≠ 0)
    (hpsf : ∃ xs, Paillier.generateChallenges E.kdf
      (psfParams E i (joint t.toNat S rnd 0 • E.gen)) ((rnd i).p * (rnd i).q) fuel = some (.ok xs))
    {s : Dkg q G} (A : AtRound3 E t n i S rnd s) {own : V1.Share q}
    (hown : s.X[(i - 1).toNat]? = some own) {ld lx : List UInt32} (hld : Visits S i ld)
    (hlx : Visits S i lx) {κ : UInt32 → UInt32} {wit : UInt32 → Option Core.Witness}
    {sh : UInt32 → Option (V1.Share q)} (hin : Inbox3 E t i S rnd κ wit sh) :
    ∃ s' proof,
      dkgRound3 E s fuel (ld.map fun j => (j, wit j)) (lx.map fun j => (j, sh j)) =
        (s', .ok proof) ∧
      Paillier.psfProve E.kdf (psfParams E i (joint t.toNat S rnd 0 • E.gen)) s.sk fuel =
        some (.ok proof) ∧
      AfterRound3 E t n i S rnd
        (own.value + ∑ j ∈ S.erase i, polyAt t.toNat (rnd j) ((κ j).toNat : ZMod q)) s s' := by
  obtain ⟨j0, hj0, hj0i⟩ := hS
  have hid := A.id
  have hdne : (ld.map fun j => (j, wit j)) ≠ [] := by
    have := (hld.mem j0 hj0i).2 hj0
    intro h
    rw [List.map_eq_nil_iff] at h
    rw [h] at this
    simp at this
  have hxne : (lx.map fun j => (j, sh j)) ≠ [] := by
    have := (hlx.mem j0 hj0i).2 hj0
    intro h
    rw [List.map_eq_nil_iff] at h
    rw [h] at this
    simp at this
  have hloop := dkgLoop3_ok (E := E) (fe := ⟨t, n⟩) (s := s) (x := lx.map fun j => (j, sh j))
    (w := wit) (V := fun j => (polyCoeffs t.toNat (rnd j)).map (· • E.gen))
    (v := fun j => polyAt t.toNat (rnd j) ((κ j).toNat : ZMod q)) ld (by
      intro j hj hji
      rw [hid] at hji
      have hjS := (hld.mem j hji).1 hj
      obtain ⟨o, ho1, ho2⟩ := A.others j hjS hji
      rw [hin.wit j hjS hji]
      refine dkgStep3_ok hE ht hn (hg j hjS).ui (hg j hjS).coeffs A.threshold ho1 ho2 _
        (hin.lt j hjS hji) ?_
      rw [lookup_map_of_mem sh lx ((hlx.mem j hji).2 hjS), hin.sh j hjS hji])
    own.value [s.V]
  rw [hid, ← List.sum_toFinset _ (hld.nodup.filter _), hld.toFinset] at hloop
  obtain ⟨xs, hxs⟩ := hpsf
  obtain ⟨proof, hproof⟩ := psfProve_ok (hg i hi).primes A.sk hxs
  have hy : joint t.toNat S rnd 0 • E.gen ≠ 0 := fun h => hkey (hE.gen _ h)
  have hsum := sumVerifiers_eq (t := t.toNat) (by omega) E.gen hld hi rnd
  have hget : ((List.range t.toNat).map fun k => joint t.toNat S rnd k • E.gen).getD 0 0 =
      joint t.toNat S rnd 0 • E.gen := by
    rw [List.getD_eq_getElem _ _ (by simp; omega), List.getElem_map, List.getElem_range]
  have hpub' : publicShares (q := q) t.toNat n.toNat
      ((List.range t.toNat).map fun k => joint t.toNat S rnd k • E.gen) =
      (List.range n.toNat).map fun j => published t.toNat S rnd (j + 1) • E.gen := by
    rw [publicShares_eq (q := q) (t := t.toNat) (by omega) n.toNat
      (fun k => joint t.toNat S rnd k • E.gen)]
    refine List.map_congr_left fun j _ => ?_
    rw [published, add_smul, Finset.sum_smul]
    congr 1
    refine Finset.sum_congr rfl fun k _ => ?_
    rw [mul_smul]
  have hpp : Paillier.psfProve E.kdf
      ⟨(E.xy E.gen).1, (E.xy E.gen).2, q, i, (E.xy (joint t.toNat S rnd 0 • E.gen)).1,
        (E.xy (joint t.toNat S rnd 0 • E.gen)).2⟩ s.sk fuel = some (.ok proof) := hproof
  set xi := own.value + ∑ j ∈ S.erase i, polyAt t.toNat (rnd j) ((κ j).toNat : ZMod q) with hxi
  have hfin : ∃ s', dkgFinish3 E { s with X := (setOwn s.X (i - 1).toNat xi) } fuel xi
      ([s.V] ++ (ld.filter (· ≠ i)).map fun j => (polyCoeffs t.toNat (rnd j)).map (· • E.gen)) =
      .ok (s', proof) ∧ AfterRound3 E t n i S rnd xi s s' := by
    unfold dkgFinish3
    dsimp only
    rw [A.threshold, A.limit, A.V, hsum, hget, Go.guard_true hy, Go.ok_bind, hid, hpp,
      Option.getD_some, Go.ok_bind, hpub']
    exact ⟨_, rfl, ⟨rfl, rfl, rfl, rfl, rfl, rfl, rfl, rfl⟩⟩
  obtain ⟨s', hfin, hs'⟩ := hfin
  refine ⟨s', proof, ?_, hproof, hs'⟩
  have hfe : newFeldman s.threshold s.limit = .ok ⟨t, n⟩ := by
    rw [A.threshold, A.limit, newFeldman_ok ht htn]
  have hr := A.round
  subst hid
  unfold dkgRound3
  rw [if_neg (by tauto), if_neg (by rw [hr]; simp), hfe]
  dsimp only
  rw [hown]
  dsimp only
  rw [hloop]
  dsimp only at hfin ⊢
  rw [hfin]

theorem exists_other {n : UInt32} (h2 : 2 ≤ n.toNat) (i : UInt32) : ∃ j ∈ parts n, j ≠ i := by
  by_contra hcon
  push Not at hcon
  have : (parts n).card ≤ 1 := Finset.card_le_one.2 fun a ha b hb => by
    rw [hcon a ha, hcon b hb]
  rw [card_parts] at this
  omega

/-- Round 4 with the honest proofs of all others. -/
theorem dkgRound4_ok {s : Dkg q G} {i : UInt32} (hid : s.id = i) (hr : s.round = 4)
    (h2 : 2 ≤ n.toNat) {l lp : List UInt32} (hl : Visits (parts n) i l)
    (hlp : Visits (parts n) i lp) {o : UInt32 → Other}
    (ho : s.others = (l.filter (· ≠ i)).map fun j => (j, o j)) {pr : UInt32 → List (Option ℤ)}
    (hv : ∀ j ∈ parts n, j ≠ i →
      Paillier.psfVerify E.kdf (psfParams E j s.y) (o j).pk (pr j) fuel = some (.ok ())) :
    dkgRound4 E s fuel (lp.map fun j => (j, pr j)) =
      .ok ⟨s.publicShares, s.y, s.xi, s.sk,
        (l.filter (· ≠ i)).map fun j => (j, (o j).pk, (o j).params)⟩ := by
  obtain ⟨j0, hj0, hj0i⟩ := exists_other h2 i
  have hne : (lp.map fun j => (j, pr j)) ≠ [] := by
    have := (hlp.mem j0 hj0i).2 hj0
    intro h
    rw [List.map_eq_nil_iff] at h
    rw [h] at this
    simp at this
  unfold dkgRound4
  rw [Go.guard_true hne, Go.ok_bind, Go.guard_true hr, Go.ok_bind, hid, filter_map_key]
  have h1 : (s.others.filter fun o => decide (o.1 ≠ i)).forM (fun o =>
      Go.guard (((lp.map fun j => (j, pr j)).lookup o.1).isSome = true)) = .ok () := by
    refine Go.forM_eq_ok.2 fun p hp => ?_
    rw [ho, filter_map_key] at hp
    obtain ⟨j, hj, rfl⟩ := List.mem_map.1 hp
    have hj := List.mem_of_mem_filter hj
    obtain ⟨hjS, hji⟩ := hl.mem_filter.1 hj
    rw [lookup_map_of_mem pr lp ((hlp.mem j hji).2 hjS)]
    exact Go.guard_eq_ok.2 rfl
  have h2 : ((lp.filter fun j => decide (j ≠ i)).map fun j => (j, pr j)).forM
      (fun p => dkgStep4 E s fuel p.1 p.2) = .ok () := by
    refine Go.forM_eq_ok.2 fun p hp => ?_
    obtain ⟨j, hj, rfl⟩ := List.mem_map.1 hp
    obtain ⟨hjS, hji⟩ := hlp.mem_filter.1 hj
    have hv := hv j hjS hji
    unfold psfParams at hv
    unfold dkgStep4
    rw [ho, lookup_map_of_mem o _ (hl.mem_filter.2 ⟨hjS, hji⟩)]
    simp only [deref, Go.ok_bind]
    rw [hv]
    rfl
  rw [h1, Go.ok_bind, h2, Go.ok_bind, ho, List.map_map]
  rfl

/-- The participants' data in the result: everyone else's, not the own. -/
def dataOf (n i : UInt32) (pk : UInt32 → Paillier.PublicKey) (D : UInt32 → Dealer) (j : UInt32) :
    Option (Paillier.PublicKey × Dealer) :=
  if j ∈ parts n ∧ j ≠ i then some (pk j, D j) else none

/-- **C49.**  In an honest run, whatever the orders in which the messages are visited, every round of
every participant succeeds; all compute the key `(Σ u_j) g`, participant `i` the value at `i` of the
sum of the polynomials, and the published public shares are `published`. -/
theorem C49_honest_run (H : DkgSetup E t n s0 rnd fuel) (l1 ld lx lp : UInt32 → List UInt32)
    (hl1 : ∀ i ∈ parts n, Visits (parts n) i (l1 i)) (hld : ∀ i ∈ parts n, Visits (parts n) i (ld i))
    (hlx : ∀ i ∈ parts n, Visits (parts n) i (lx i))
    (hlp : ∀ i ∈ parts n, Visits (parts n) i (lp i)) :
    ∃ (s1 : UInt32 → Dkg q G) (b : UInt32 → DkgBcast) (s2 : UInt32 → Dkg q G)
      (D : UInt32 → Core.Witness) (sh : UInt32 → List (UInt32 × V1.Share q))
      (s3 : UInt32 → Dkg q G) (proof : UInt32 → List (Option ℤ)) (res : UInt32 → DkgResult G),
      (∀ i ∈ parts n, dkgRound1 E (s0 i) t n (rnd i) = .ok (s1 i, b i)) ∧
      (∀ i ∈ parts n, dkgRound2 E (s1 i) ((l1 i).map fun j => (j, some (b j))) =
        .ok (s2 i, D i, sh i)) ∧
      (∀ i ∈ parts n, dkgRound3 E (s2 i) fuel ((ld i).map fun j => (j, some (D j)))
        ((lx i).map fun j => (j, (sh j).lookup i)) = (s3 i, .ok (proof i))) ∧
      (∀ i ∈ parts n, dkgRound4 E (s3 i) fuel ((lp i).map fun j => (j, proof j)) = .ok (res i)) ∧
      ∀ i ∈ parts n,
        (res i).y = (∑ j ∈ parts n, (((rnd j).ui.natAbs : ℕ) : ZMod q)) • E.gen ∧
        (res i).xi = ((∑ j ∈ parts n, polyAt t.toNat (rnd j) (i.toNat : ZMod q)).cast : ℤ) ∧
        (res i).publicShares = ((List.range n.toNat).map fun j =>
          published t.toNat (parts n) rnd (j + 1) • E.gen) ∧
        Paillier.newSecretKey (some (rnd i).p) (some (rnd i).q) = .ok (res i).sk ∧
        ∀ j, (res i).data.lookup j =
          dataOf n i (fun j => (res j).sk.pk) (fun j => dkgParams (rnd j)) j := by
  have ht := H.t2
  have htn := H.tn
  have R1 := fun i (hi : i ∈ parts n) =>
    dkgRound1_ok (E := E) (H.round i hi) H.t2 H.tn H.nq (H.good i hi)
  have : Nonempty Paillier.SecretKey := ⟨⟨⟨0, 0⟩, 0, 0, 0⟩⟩
  have : Nonempty CdlProof := ⟨⟨[], []⟩⟩
  choose! sk p1 p2 hsk hr1 hv1 hv2 using R1
  set s1 : UInt32 → Dkg q G := fun i => dkgAfter1 E (s0 i) t n (rnd i) (sk i) with hs1
  set b : UInt32 → DkgBcast := fun i => ⟨E.hmac (rnd i).open_ (dkgMsg E t.toNat (rnd i)),
    (sk i).pk, dkgParams (rnd i), p1 i, p2 i⟩ with hb
  have hid1 : ∀ i ∈ parts n, (s1 i).id = i := fun i hi => H.id i hi
  have R2 : ∀ i ∈ parts n, dkgRound2 E (s1 i) ((l1 i).map fun j => (j, some (b j))) = .ok
      (dkgAfter2 (s1 i) (l1 i) b, (s1 i).D, ((l1 i).filter (· ≠ i)).map fun j =>
          (j, ⟨j, polyAt t.toNat (rnd i) (j.toNat : ZMod q)⟩)) := by
    intro i hi
    have h := dkgRound2_ok (E := E) (s := s1 i) (t := t.toNat) (n := n) (rnd := rnd i) (l := l1 i)
      rfl rfl (by rw [hid1 i hi]; exact hi) rfl (by rw [hid1 i hi]; exact hl1 i hi) (b := b)
      (fun j hj hji => ⟨by
        have hpk := Paillier.pk_honest (H.good j hj).primes (hsk j hj)
        have : (b j).pk.N.natAbs = (rnd j).p * (rnd j).q := by
          show (sk j).pk.N.natAbs = _
          rw [hpk, Int.natAbs_mul, Int.natAbs_natCast, Int.natAbs_natCast]
        rw [this]
        exact (H.good j hj).keySize, hv1 j hj, hv2 j hj⟩)
    rw [hid1 i hi] at h
    exact h
  set s2 : UInt32 → Dkg q G := fun i => dkgAfter2 (s1 i) (l1 i) b with hs2
  have ho2 : ∀ i ∈ parts n, (s2 i).others =
      ((l1 i).filter (· ≠ i)).map fun j => (j, ⟨(b j).pk, (b j).C, (b j).params⟩) := by
    intro i hi
    show ((l1 i).filter (· ≠ (s1 i).id)).map _ = _
    rw [hid1 i hi]
  set D : UInt32 → Core.Witness := fun i => (s1 i).D with hD
  set sh : UInt32 → List (UInt32 × V1.Share q) := fun i => ((l1 i).filter (· ≠ i)).map fun j =>
    (j, ⟨j, polyAt t.toNat (rnd i) (j.toNat : ZMod q)⟩) with hsh
  have R3 : ∀ i ∈ parts n, ∃ s' proof,
      dkgRound3 E (s2 i) fuel ((ld i).map fun j => (j, some (D j)))
        ((lx i).map fun j => (j, (sh j).lookup i)) = (s', .ok proof) ∧
      Paillier.psfProve E.kdf (psfParams E i (joint t.toNat (parts n) rnd 0 • E.gen)) (s2 i).sk
        fuel = some (.ok proof) ∧
      AfterRound3 E t n i (parts n) rnd (polyAt t.toNat (rnd i) (i.toNat : ZMod q) +
        ∑ j ∈ (parts n).erase i, polyAt t.toNat (rnd j) (i.toNat : ZMod q)) (s2 i) s' := by
    intro i hi
    have hi' := mem_parts.1 hi
    have A : AtRound3 E t n i (parts n) rnd (s2 i) :=
      ⟨hid1 i hi, rfl, rfl, rfl, rfl, hsk i hi, fun j hj hji =>
        ⟨⟨(b j).pk, (b j).C, (b j).params⟩, by
          rw [ho2 i hi]
          exact lookup_map_of_mem (fun j => (⟨(b j).pk, (b j).C, (b j).params⟩ : Other)) _
            ((hl1 i hi).mem_filter.2 ⟨hj, hji⟩), rfl⟩⟩
    refine dkgRound3_ok (κ := fun _ => i)
      (own := ⟨i, polyAt t.toNat (rnd i) (i.toNat : ZMod q)⟩) H.env H.t2 H.tn H.nq hi
      (exists_other (by omega) i) H.good H.key (H.psf i hi) A
      (polyShares_get (rnd i) hi'.1 hi'.2) (hld i hi) (hlx i hi)
      ⟨fun j _ _ => rfl, fun j hj hji => ?_, fun _ _ _ => lt_of_le_of_lt hi'.2 H.nq⟩
    exact lookup_map_of_mem (fun k => (⟨k, polyAt t.toNat (rnd j) (k.toNat : ZMod q)⟩ : V1.Share q))
      _ ((hl1 j hj).mem_filter.2 ⟨hi, Ne.symm hji⟩)
  have : Nonempty (Dkg q G) := ⟨s0 0⟩
  choose! s3 proof hr3 hproof A3 using R3
  have R4 : ∀ i ∈ parts n, dkgRound4 E (s3 i) fuel ((lp i).map fun j => (j, proof j)) =
      .ok ⟨(s3 i).publicShares, (s3 i).y, (s3 i).xi, (s3 i).sk,
        ((l1 i).filter (· ≠ i)).map fun j => (j, (b j).pk, (b j).params)⟩ := by
    intro i hi
    refine dkgRound4_ok (l := l1 i) (o := fun j => ⟨(b j).pk, (b j).C, (b j).params⟩) (A3 i hi).id
      (A3 i hi).round (by omega) (hl1 i hi) (hlp i hi) ((A3 i hi).others.trans (ho2 i hi))
      fun j hj hji => ?_
    rw [(A3 i hi).y]
    refine Paillier.C18_complete E.kdf _ (H.good j hj).primes (sk j) (hsk j hj) fuel _
      (hproof j hj) ?_ ?_
    · show (q : ℤ) ≠ 0
      exact_mod_cast (Fact.out : q.Prime).ne_zero
    · show ¬ (q : ℤ) ∣ _
      have := (H.good j hj).order
      intro hd
      exact this (by exact_mod_cast hd)
  refine ⟨s1, b, s2, D, sh, s3, proof, fun i => ⟨(s3 i).publicShares, (s3 i).y, (s3 i).xi,
    (s3 i).sk, ((l1 i).filter (· ≠ i)).map fun j => (j, (b j).pk, (b j).params)⟩, hr1, R2, hr3, R4,
    fun i hi => ⟨?_, ?_, (A3 i hi).publicShares, ?_, ?_⟩⟩
  · exact (A3 i hi).y
  · rw [← Finset.add_sum_erase _ _ hi]
    exact (A3 i hi).xi
  · show _ = Except.ok (s3 i).sk
    rw [(A3 i hi).sk]
    exact hsk i hi
  · intro j
    unfold dataOf
    by_cases hj : j ∈ parts n ∧ j ≠ i
    · rw [if_pos hj]
      show List.lookup j (((l1 i).filter (· ≠ i)).map fun j => (j, (b j).pk, (b j).params)) = _
      rw [lookup_map_of_mem (fun j => ((b j).pk, (b j).params)) _ ((hl1 i hi).mem_filter.2 hj)]
      show some ((sk j).pk, dkgParams (rnd j)) = some ((s3 j).sk.pk, dkgParams (rnd j))
      rw [(A3 j hj.1).sk]
      rfl
    · rw [if_neg hj]
      exact lookup_map_of_not_mem (fun j => ((b j).pk, (b j).params)) _
        fun hm => hj ((hl1 i hi).mem_filter.1 hm)

end

end Verif.Gg20
