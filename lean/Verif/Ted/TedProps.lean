import Verif.Ted.TedLemmas
import Verif.Common.Toy
import Mathlib.Tactic.Ring
import Mathlib.Tactic.Module

/-!
# Properties of threshold Ed25519 (C30, C31, C94, C95)
-/

set_option linter.unusedSectionVars false

namespace Verif.Ted

variable {q : ℕ} [Fact q.Prime]
variable {G : Type} [AddCommGroup G] [Module (ZMod q) G] [DecidableEq G]

theorem pow_253_le : (2 : ℕ) ^ 253 ≤ 256 ^ 32 := by norm_num

/-! ## C30: aggregation -/

theorem sigShare_eq (hq : q ≤ 256 ^ 32) (id : UInt8) (R : List UInt8) (s : ZMod q) :
    sigShare (q := q) ⟨id, pad32 R ++ leBytes 32 s.val⟩ = .ok (some ⟨id.toUInt32, s⟩) := by
  unfold sigShare
  have hs := ZMod.val_lt s
  have h : beNat ((pad32 R ++ leBytes 32 s.val).drop 32).reverse = s.val := by
    rw [List.drop_append_of_le_length (by rw [pad32_length]), List.drop_of_length_le (by rw [pad32_length]),
      List.nil_append, beNat_eq_leNat_reverse, List.reverse_reverse, leNat_leBytes _ _ (by omega)]
  simp only [h]
  rw [if_neg (by omega), ZMod.natCast_zmod_val]

theorem aggregate_cons (p0 : PartialSig) (tl sigs : List PartialSig) (T N : ℤ)
    (h : sigs = p0 :: tl) : aggregate q sigs T N =
    (if sigs.any (fun p => p.sig.length < 32) then Go.crash else do
      Go.guard (∀ p ∈ tl, p.sig.take 32 = p0.sig.take 32)
      let s ← V1.newShamir T N
      let shares ← sigs.mapM (sigShare (q := q))
      let v ← V1.combine s shares
      .ok (p0.sig.take 32 ++ pad32 v.reverse)) := by
  subst h; rfl

/-- Let key shares lie on a polynomial with at most `T` coefficients and nonce shares on another one.
Whenever at least `T` holders with distinct identifiers in `1..min(N,255)` sign, `Aggregate` returns
`R` followed by the encoding of `r + H(R‖pk‖m)·sk` where `sk` and `r` are the shared secrets. -/
theorem C30_aggregate (hq : q ≤ 256 ^ 32) (sha512 : List UInt8 → List UInt8)
    (wide : List UInt8 → ZMod q) (T N : ℤ) (s : V1.Shamir) (hs : V1.newShamir T N = .ok s)
    (hN : s.limit.toNat < q) (h0 : 0 < s.threshold.toNat)
    (kp np : List (ZMod q)) (hk : kp.length = s.threshold.toNat) (hn : np.length = s.threshold.toNat)
    (pub msg R : List UInt8) (hR : R.length = 32)
    (signers : List (V1.Share q × V1.Share q × PartialSig))
    (hlen : s.threshold.toNat ≤ signers.length)
    (hok : ∀ e ∈ signers, 1 ≤ e.1.id.toNat ∧ e.1.id.toNat ≤ s.limit.toNat ∧ e.1.id.toNat ≤ 255 ∧
      e.1.value = evalL kp (e.1.id.toNat : ZMod q) ∧
      e.2.1.value = evalL np (e.1.id.toNat : ZMod q) ∧
      tSign sha512 wide msg e.1 pub e.2.1 R = .ok e.2.2)
    (hnd : (signers.map fun e => e.1.id).Nodup) :
    aggregate q (signers.map fun e => e.2.2) T N = .ok (R ++ leBytes 32
      (wide (sha512 (R ++ pub ++ msg)) * kp.headD 0 + np.headD 0).val) := by
  set c := wide (sha512 (R ++ pub ++ msg)) with hc
  have hsig : ∀ e ∈ signers, e.2.2 = ⟨e.1.id.toUInt8, R ++ leBytes 32
      (c * e.1.value + e.2.1.value).val⟩ := by
    intro e he
    have := ((tSign_eq_ok hq _ _ _ _ _ _ _ _).1 (hok e he).2.2.2.2.2).2.2
    rwa [pad32_of_eq hR] at this
  have hidc : ∀ e ∈ signers, e.1.id.toUInt8.toUInt32 = e.1.id := by
    intro e he
    rw [← UInt32.toNat_inj, UInt8.toNat_toUInt32, UInt32.toNat_toUInt8]
    have := (hok e he).2.2.1
    omega
  cases hsg : signers with
  | nil => rw [hsg] at hlen; simp at hlen; omega
  | cons e0 rest =>
    rw [← hsg, aggregate_cons e0.2.2 (rest.map fun e => e.2.2) (signers.map fun e => e.2.2) T N
      (by rw [hsg]; rfl)]
    have hany : ¬ ((signers.map fun e => e.2.2).any fun p => decide (p.sig.length < 32)) = true := by
      simp only [List.any_eq_true, List.mem_map, decide_eq_true_eq, not_exists, not_and, not_lt]
      rintro p ⟨e, he, rfl⟩
      rw [hsig e he]
      simp only [List.length_append, hR]
      omega
    have hR0 : ∀ e ∈ signers, e.2.2.sig.take 32 = R := by
      intro e he
      rw [hsig e he]
      simp only
      rw [List.take_append_of_le_length hR.ge, List.take_of_length_le hR.le]
    have hmap : (signers.map fun e => e.2.2).mapM (sigShare (q := q)) =
        .ok ((signers.map fun e => (⟨e.1.id, c * e.1.value + e.2.1.value⟩ : V1.Share q)).map some) := by
      rw [Go.mapM_eq_ok, List.forall₂_map_left_iff, List.map_map, List.forall₂_map_right_iff,
        List.forall₂_same]
      intro e he
      have := sigShare_eq hq e.1.id.toUInt8 R (c * e.1.value + e.2.1.value)
      rw [pad32_of_eq hR, hidc e he] at this
      rw [hsig e he, this]
      rfl
    have hcomb := combine_evalL s hN h0 (List.zipWith (fun a b => c * a + b) kp np)
      (by rw [List.length_zipWith]; omega)
      (signers.map fun e => (⟨e.1.id, c * e.1.value + e.2.1.value⟩ : V1.Share q))
      (by simpa using hlen) (by
        intro sh hsh
        obtain ⟨e, he, rfl⟩ := List.mem_map.1 hsh
        obtain ⟨h1, h2, _, h4, h5, _⟩ := hok e he
        refine ⟨h1, h2, ?_⟩
        simp only
        rw [evalL_combo c kp np (by omega), h4, h5]) (by
        rw [List.map_map]; exact hnd)
    rw [if_neg hany, Go.guard_true (by
      intro p hp
      obtain ⟨e, he, rfl⟩ := List.mem_map.1 hp
      rw [hR0 e (by rw [hsg]; exact List.mem_cons_of_mem _ he), hR0 e0 (by rw [hsg]; exact List.mem_cons_self)])]
    simp only [Go.ok_bind]
    rw [hs]
    simp only [Go.ok_bind]
    rw [hmap]
    simp only [Go.ok_bind]
    rw [hcomb]
    simp only [Go.ok_bind]
    rw [hR0 e0 (by rw [hsg]; exact List.mem_cons_self)]
    have hv := ZMod.val_lt ((List.zipWith (fun a b => c * a + b) kp np).headD 0)
    rw [pad32_eq_leBytes (by rw [List.length_reverse]; exact natBytes_length_le (by omega)),
      leNat_natBytes_reverse]
    congr 4
    cases kp with
    | nil => simp at hk; omega
    | cons a kp => cases np with
      | nil => simp at hn; omega
      | cons b np => rfl

/-- A signature `R ‖ s` with `s = r + H(R‖pk‖m)·sk`, `R = r·g`, `pk = sk·g` is accepted by `Verify`. -/
theorem C30_verifies (hq : q ≤ 2 ^ 253) (g : G) (penc : G → List UInt8)
    (pdec : List UInt8 → Option G) (hpl : ∀ P, (penc P).length = 32)
    (hpd : ∀ P, pdec (penc P) = some P) (sha512 : List UInt8 → List UInt8)
    (wide : List UInt8 → ZMod q) (sk r : ZMod q) (msg : List UInt8) :
    verify g penc pdec sha512 wide (penc (sk • g)) msg (penc (r • g) ++ leBytes 32
      (wide (sha512 (penc (r • g) ++ penc (sk • g) ++ msg)) * sk + r).val) = .ok true := by
  set s := wide (sha512 (penc (r • g) ++ penc (sk • g) ++ msg)) * sk + r with hs
  have hv := ZMod.val_lt s
  have hq' : q ≤ 256 ^ 32 := hq.trans pow_253_le
  have htake : (penc (r • g) ++ leBytes 32 s.val).take 32 = penc (r • g) := by
    rw [List.take_append_of_le_length (hpl _).ge, List.take_of_length_le (hpl _).le]
  have hdrop : (penc (r • g) ++ leBytes 32 s.val).drop 32 = leBytes 32 s.val := by
    rw [List.drop_append_of_le_length (hpl _).ge, List.drop_of_length_le (hpl _).le,
      List.nil_append]
  have hlast : (penc (r • g) ++ leBytes 32 s.val).getD 63 0 &&& 224 = 0 := by
    have h1 : (penc (r • g) ++ leBytes 32 s.val).getD 63 0 = (leBytes 32 s.val).getD 31 0 := by
      rw [List.getD_append_right _ _ _ _ (by rw [hpl]; norm_num), hpl]
    have hgen : ∀ (k n i : ℕ), i < k → ((leBytes k n).getD i 0).toNat = n / 256 ^ i % 256 := by
      intro k
      induction k with
      | zero => intro n i hi; omega
      | succ k ih =>
        intro n i hi
        cases i with
        | zero => simp [leBytes]
        | succ i =>
          rw [leBytes, List.getD_cons_succ, ih _ _ (by omega), pow_succ', Nat.div_div_eq_div_mul]
    have h2 := hgen 32 s.val 31 (by norm_num)
    have h3 : s.val / 256 ^ 31 < 32 := by
      rw [Nat.div_lt_iff_lt_mul (by positivity)]
      calc s.val < 2 ^ 253 := by omega
        _ = 32 * 256 ^ 31 := by norm_num
    rw [h1]
    generalize (leBytes 32 s.val).getD 31 0 = b at h2
    have h4 : b.toNat < 32 := by rw [h2]; omega
    have hall : ∀ n < 32, UInt8.ofNat n &&& 224 = 0 := by decide
    have := hall b.toNat h4
    rwa [UInt8.ofNat_toNat] at this
  unfold verify
  rw [Go.guard_true (hpl _), Go.guard_true ⟨by simp [hpl, leBytes_length], hlast⟩, hpd, htake, hdrop,
    scalarLE_leBytes hq']
  simp only [Go.ok_bind, Go.ofOption]
  rw [decide_eq_true]
  congr 1
  rw [hs]
  module

/-! ### End to end -/

theorem prune_clamp (d : List UInt8) (hd : 32 ≤ d.length) :
    clampScalar (q := q) (prune d) = .ok ((leNat (prune d) : ℕ) : ZMod q) := by
  unfold clampScalar
  have hl : (prune d).length = 32 := by
    unfold prune; rw [List.length_modify, List.length_modify, List.length_take]; omega
  rw [Go.guard_true hl]
  simp only [Go.ok_bind]
  congr 3
  have h8 : ∀ n < 256, (UInt8.ofNat n &&& 248) &&& 248 = UInt8.ofNat n &&& 248 := by decide +kernel
  have h8' : ∀ b : UInt8, (b &&& 248) &&& 248 = b &&& 248 := fun b => by
    have := h8 b.toNat b.toNat_lt; rwa [UInt8.ofNat_toNat] at this
  have h3 : ∀ n < 256, (UInt8.ofNat n &&& 127 ||| 64) &&& 63 ||| 64 = UInt8.ofNat n &&& 127 ||| 64 := by
    decide +kernel
  have h3' : ∀ b : UInt8, (b &&& 127 ||| 64) &&& 63 ||| 64 = b &&& 127 ||| 64 := fun b => by
    have := h3 b.toNat b.toNat_lt; rwa [UInt8.ofNat_toNat] at this
  unfold prune
  refine List.ext_getElem (by simp) fun i h1 h2 => ?_
  simp only [List.getElem_modify]
  by_cases hi0 : i = 0
  · subst hi0
    simp [h8']
  · by_cases hi : i = 31
    · subst hi
      simp [h3']
    · have e1 : ¬ 0 = i := fun h => hi0 h.symm
      have e2 : ¬ 31 = i := fun h => hi h.symm
      simp [e1, e2]

theorem generateSharedKey_spec (hq : q ≤ 256 ^ 32) {g : G} {penc : G → List UInt8}
    (hpl : ∀ P, (penc P).length = 32) {sha512 : List UInt8 → List UInt8}
    (hsha : ∀ m, (sha512 m).length = 64) {T N : ℤ} {seed : List UInt8} {rnd : ℕ → ZMod q}
    {pub : List UInt8} {ks : List (V1.Share q)} {cs : List G}
    (h : generateSharedKey g penc sha512 T N seed rnd = .ok (pub, ks, cs)) :
    ∃ (sk : ZMod q) (s : V1.Shamir), sk ≠ 0 ∧
      sk = ((leNat (prune (sha512 seed)) : ℕ) : ZMod q) ∧ pub = penc (sk • g) ∧
      V1.newShamir T N = .ok s ∧ s.threshold.toNat ≠ 0 ∧
      V1.mkShares s.limit (sk :: (List.range (s.threshold.toNat - 1)).map rnd) = .ok ks ∧
      cs = (sk :: (List.range (s.threshold.toNat - 1)).map rnd).map (· • g) := by
  unfold generateSharedKey newKeyFromSeed at h
  rw [Go.bind_eq_ok] at h
  obtain ⟨priv, hp, h⟩ := h
  rw [Go.guard_bind_eq_ok] at hp
  obtain ⟨hseed, hp⟩ := hp
  rw [prune_clamp _ (by rw [hsha]; norm_num)] at hp
  simp only [Go.ok_bind, Except.ok.injEq] at hp
  subst hp
  rw [pad32_of_eq hseed, pad32_of_eq (hpl _), List.take_append_of_le_length hseed.ge,
    List.take_of_length_le hseed.le, List.drop_append_of_le_length hseed.ge,
    List.drop_of_length_le hseed.le, List.nil_append, beNat_eq_leNat_reverse,
    List.reverse_reverse] at h
  set sk : ZMod q := ((leNat (prune (sha512 seed)) : ℕ) : ZMod q) with hsk
  rw [Go.bind_eq_ok] at h
  obtain ⟨r, hr, h⟩ := h
  rw [Except.ok.injEq, Prod.mk.injEq] at h
  obtain ⟨rfl, rfl⟩ := h
  obtain ⟨s, poly, hs, hg, hc⟩ := (splitKey_eq_ok hq).1 hr
  obtain ⟨hne, hlt, ht0, hp, hmk⟩ := V1.getSharesAndPolynomial_eq_ok.1 hg
  simp only at hp hmk
  rw [beNat_natBytes, ZMod.natCast_zmod_val] at hp
  subst hp
  refine ⟨sk, s, ?_, rfl, rfl, hs, ht0, hmk, hc⟩
  intro h0
  rw [h0] at hne
  exact hne (by simp [natBytes])

theorem generateSharedNonce_spec (hq : q ≤ 256 ^ 32) {g : G} {penc : G → List UInt8}
    {T N : ℤ} {r : ZMod q} {rnd : ℕ → ZMod q}
    {pub : List UInt8} {ks : List (V1.Share q)} {cs : List G}
    (h : generateSharedNonce g penc T N r rnd = .ok (pub, ks, cs)) :
    ∃ s : V1.Shamir, pub = penc (r • g) ∧
      V1.newShamir T N = .ok s ∧ s.threshold.toNat ≠ 0 ∧
      V1.mkShares s.limit (r :: (List.range (s.threshold.toNat - 1)).map rnd) = .ok ks := by
  unfold generateSharedNonce at h
  rw [scalarLE_reverse hq] at h
  simp only [Go.ofOption, Go.ok_bind] at h
  rw [Go.bind_eq_ok] at h
  obtain ⟨p, hp, h⟩ := h
  rw [Except.ok.injEq, Prod.mk.injEq] at h
  obtain ⟨rfl, rfl⟩ := h
  obtain ⟨s, poly, hs, hg, _⟩ := (splitKey_eq_ok hq).1 hp
  obtain ⟨_, _, ht0, hp, hmk⟩ := V1.getSharesAndPolynomial_eq_ok.1 hg
  simp only at hp hmk
  rw [beNat_natBytes, ZMod.natCast_zmod_val] at hp
  subst hp
  exact ⟨s, rfl, hs, ht0, hmk⟩

/-- The full protocol: a key from `GenerateSharedKey`, any number of nonces from
`GenerateSharedNonce`, nonce public keys added with `GeAdd` and nonce shares with `Add`.  Every list of
at least `T` distinct signers with identifiers at most 255 whose partial signatures were produced by
`TSign` aggregates to a signature that `Verify` accepts under the public key. -/
theorem C30_end_to_end (hq : q ≤ 2 ^ 253) (g : G) (penc : G → List UInt8)
    (pdec : List UInt8 → Option G) (hpl : ∀ P, (penc P).length = 32)
    (hpd : ∀ P, pdec (penc P) = some P) (sha512 : List UInt8 → List UInt8)
    (hsha : ∀ m, (sha512 m).length = 64)
    (wide : List UInt8 → ZMod q) (T N : ℤ) (seed : List UInt8) (rndK : ℕ → ZMod q)
    (pub : List UInt8) (ks : List (V1.Share q)) (cs : List G)
    (hkey : generateSharedKey g penc sha512 T N seed rndK = .ok (pub, ks, cs))
    (n0 : List UInt8 × List (V1.Share q) × List G)
    (ns : List (List UInt8 × List (V1.Share q) × List G))
    (hns : ∀ n ∈ n0 :: ns, ∃ r rnd, generateSharedNonce g penc T N r rnd = .ok n)
    (R : List UInt8) (hR : (ns.map Prod.fst).foldlM (geAdd penc pdec) n0.1 = .ok R)
    (msg : List UInt8) (signers : List (V1.Share q × V1.Share q × PartialSig))
    (hlen : T ≤ signers.length) (hnd : (signers.map fun e => e.1.id).Nodup)
    (hok : ∀ e ∈ signers, e.1 ∈ ks ∧ e.1.id.toNat ≤ 255 ∧
      (∃ p0 ps, p0 ∈ n0.2.1 ∧ p0.id = e.1.id ∧
        List.Forall₂ (fun n p => p ∈ n.2.1 ∧ p.id = e.1.id) ns ps ∧
        ps.foldlM V1.Share.add p0 = .ok e.2.1) ∧
      tSign sha512 wide msg e.1 pub e.2.1 R = .ok e.2.2) :
    ∃ sig, aggregate q (signers.map fun e => e.2.2) T N = .ok sig ∧ sig.take 32 = R ∧
      verify g penc pdec sha512 wide pub msg sig = .ok true := by
  have hq' : q ≤ 256 ^ 32 := hq.trans pow_253_le
  obtain ⟨sk, s, _, _, rfl, hs, ht0, hmk, _⟩ := generateSharedKey_spec hq' hpl hsha hkey
  have hN : s.limit.toNat < q := by
    unfold V1.mkShares at hmk
    split at hmk
    · cases hmk
    · omega
  have htlen : s.threshold.toNat ≤ signers.length := by
    obtain ⟨_, h2, rfl⟩ := newShamir_eq_ok.1 hs
    simp only [UInt32.ofInt, UInt32.toNat_ofNat']
    have := Nat.mod_le (T % 2 ^ 32).toNat (2 ^ 32)
    omega
  -- sum of nonce sharings
  obtain ⟨r, np, hnp, hhead, hRr, hsum⟩ : ∃ (r : ZMod q) (np : List (ZMod q)),
      np.length = s.threshold.toNat ∧ np.headD 0 = r ∧ R = penc (r • g) ∧
      ∀ (id : UInt32) p0 ps tot, p0 ∈ n0.2.1 → p0.id = id →
        List.Forall₂ (fun n p => p ∈ n.2.1 ∧ p.id = id) ns ps →
        ps.foldlM V1.Share.add p0 = .ok tot → tot.value = evalL np (id.toNat : ZMod q) := by
    have step : ∀ (ns : List (List UInt8 × List (V1.Share q) × List G)) (r0 : ZMod q)
        (np0 : List (ZMod q)), np0.length = s.threshold.toNat → np0.headD 0 = r0 →
        (∀ n ∈ ns, ∃ r rnd, generateSharedNonce g penc T N r rnd = .ok n) →
        (ns.map Prod.fst).foldlM (geAdd penc pdec) (penc (r0 • g)) = .ok R →
        ∃ (r : ZMod q) (np : List (ZMod q)), np.length = s.threshold.toNat ∧ np.headD 0 = r ∧
          R = penc (r • g) ∧ ∀ (id : UInt32) p0 ps tot, p0.id = id →
          p0.value = evalL np0 (id.toNat : ZMod q) →
          List.Forall₂ (fun n p => p ∈ n.2.1 ∧ p.id = id) ns ps →
          ps.foldlM V1.Share.add p0 = .ok tot → tot.value = evalL np (id.toNat : ZMod q) := by
      intro ns
      induction ns with
      | nil =>
        intro r0 np0 h1 h2 _ h4
        replace h4 : (Except.ok (penc (r0 • g)) : Go _) = .ok R := h4
        refine ⟨r0, np0, h1, h2, (Except.ok.inj h4).symm, ?_⟩
        intro id p0 ps tot _ hv hf ht
        cases hf
        replace ht : (Except.ok p0 : Go (V1.Share q)) = .ok tot := ht
        rw [← Except.ok.inj ht, hv]
      | cons n ns ih =>
        intro r0 np0 h1 h2 h3 h4
        obtain ⟨⟨r1, rnd1, hn1⟩, h3'⟩ := List.forall_mem_cons.1 h3
        obtain ⟨pn, shs, cn⟩ := n
        obtain ⟨s', hpn, hs', _, hmk1⟩ := generateSharedNonce_spec hq' hn1
        rw [hs] at hs'
        obtain rfl := Except.ok.inj hs'
        rw [List.map_cons, List.foldlM_cons] at h4
        simp only [hpn, geAdd, hpd, Go.ok_bind] at h4
        rw [← add_smul] at h4
        set np1 := r1 :: (List.range (s.threshold.toNat - 1)).map rnd1 with hnp1
        have hl1 : np1.length = s.threshold.toNat := by simp [np1]; omega
        obtain ⟨r, np, g1, g2, g3, g4⟩ := ih (r0 + r1)
          (List.zipWith (fun a b => 1 * a + b) np0 np1) (by rw [List.length_zipWith]; omega)
          (by
            cases np0 with
            | nil => simp at h1; omega
            | cons a np0 => simp only [hnp1, List.zipWith_cons_cons, List.headD_cons] at h2 ⊢; rw [h2, one_mul])
          h3' h4
        refine ⟨r, np, g1, g2, g3, ?_⟩
        intro id p0 ps tot hid hv hf ht
        cases hf with
        | cons hp hf =>
          rename_i p ps
          rw [List.foldlM_cons, Go.bind_eq_ok] at ht
          obtain ⟨p1, hp1, ht⟩ := ht
          unfold V1.Share.add at hp1
          rw [if_neg (by rw [hid, hp.2]; simp), Except.ok.injEq] at hp1
          subst hp1
          refine g4 id ⟨p0.id, p0.value + p.value⟩ ps tot hid ?_ hf ht
          simp only
          have hpv := ((V1.mem_mkShares hmk1 p).1 hp.1).2.2
          rw [hp.2] at hpv
          rw [evalL_combo 1 np0 np1 (by omega), hv, hpv, one_mul]
    obtain ⟨⟨r0, rnd0, hn0⟩, h3⟩ := List.forall_mem_cons.1 hns
    obtain ⟨p0', sh0, c0⟩ := n0
    obtain ⟨s', hp0, hs', _, hmk0⟩ := generateSharedNonce_spec hq' hn0
    rw [hs] at hs'
    obtain rfl := Except.ok.inj hs'
    simp only [hp0] at hR
    obtain ⟨r, np, g1, g2, g3, g4⟩ := step ns r0 (r0 :: (List.range (s.threshold.toNat - 1)).map rnd0)
      (by simp; omega) rfl h3 hR
    refine ⟨r, np, g1, g2, g3, fun id p ps tot hp hid hf ht => g4 id p ps tot hid ?_ hf ht⟩
    have := ((V1.mem_mkShares hmk0 p).1 hp).2.2
    rwa [hid] at this
  subst hRr
  refine ⟨_, C30_aggregate hq' sha512 wide T N s hs hN (by omega)
    (sk :: (List.range (s.threshold.toNat - 1)).map rndK) np (by simp; omega) hnp (penc (sk • g)) msg (penc (r • g)) (hpl _) signers
    htlen ?_ hnd, ?_, ?_⟩
  · intro e he
    obtain ⟨h1, h2, ⟨p0, ps, h3, h4, h5, h6⟩, h7⟩ := hok e he
    obtain ⟨g1, g2, g3⟩ := (V1.mem_mkShares hmk e.1).1 h1
    exact ⟨g1, g2, h2, g3, hsum _ _ _ _ h3 h4 h5 h6, h7⟩
  · rw [List.take_append_of_le_length (hpl _).ge, List.take_of_length_le (hpl _).le]
  · rw [List.headD_cons, hhead]
    exact C30_verifies hq g penc pdec hpl hpd sha512 wide sk r msg

/-- A zero share cannot sign: `TSign` panics (its minimal byte string is empty). -/
theorem C30_zero_share_panics (sha512 : List UInt8 → List UInt8)
    (wide : List UInt8 → ZMod q) (msg : List UInt8) (key nonce : V1.Share q)
    (pub R : List UInt8) (h : key.value = 0 ∨ nonce.value = 0) :
    tSign sha512 wide msg key pub nonce R = Go.crash := by
  unfold tSign thresholdSign
  rw [if_pos]
  · rfl
  · rcases h with h | h
    · exact Or.inl (by simp [natBytes, h])
    · exact Or.inr (Or.inr (Or.inl (by simp [natBytes, h])))

/-! ## C31: VerifyVSS reverses the byte order of the powers -/

/-- what the scalar becomes: the big-endian bytes read as little-endian -/
def swapped (n : ℕ) : ℕ := leNat (natBytes n)

theorem scalarLE_swapped (hq : q ≤ 256 ^ 32) (x : ZMod q) :
    scalarLE (q := q) (pad32 (natBytes x.val)) =
      if swapped x.val < q then some ((swapped x.val : ℕ) : ZMod q) else none := by
  have hl : (natBytes x.val).length ≤ 32 := natBytes_length_le (by have := ZMod.val_lt x; omega)
  unfold scalarLE swapped
  simp [pad32_length, leNat_pad32 hl]

theorem vssLoop_eq (hq : q ≤ 256 ^ 32) (x : ZMod q) (cs : List G) (i : ZMod q) (rhs : G)
    (h : ∀ j < cs.length, swapped (i * x ^ (j + 1)).val < q) :
    vssLoop x cs i rhs = .ok (rhs + ∑ j ∈ Finset.range cs.length,
      ((swapped (i * x ^ (j + 1)).val : ℕ) : ZMod q) • cs.getD j 0) := by
  induction cs generalizing i rhs with
  | nil => simp [vssLoop]
  | cons C cs ih =>
    have h0 := h 0 (by simp)
    rw [zero_add, pow_one] at h0
    rw [vssLoop, scalarLE_swapped hq, if_pos h0]
    simp only [Go.ofOption, Go.ok_bind]
    rw [ih]
    · rw [List.length_cons, Finset.sum_range_succ' _ cs.length]
      simp only [List.getD_cons_succ, List.getD_cons_zero, zero_add, pow_one]
      rw [add_assoc, add_comm (((swapped (i * x).val : ℕ) : ZMod q) • C)]
      have hh : ∀ j, i * x * x ^ (j + 1) = i * x ^ (j + 1 + 1) := fun j => by
        rw [mul_assoc, ← pow_succ']
      simp only [hh]
    · intro j hj
      have := h (j + 1) (by simpa using hj)
      rwa [pow_succ', ← mul_assoc] at this

/-- Exact behaviour: as long as every swapped power is a canonical scalar, the check compares the share
with the commitments evaluated at the *swapped* powers of the identifier. -/
theorem C31_exact (hq : q ≤ 256 ^ 32) (g : G) (share : V1.Share q) (c0 : G) (cs : List G) (T : ℤ)
    (hT : T ≤ (cs.length : ℤ) + 1) (hid : share.id.toNat < q)
    (h : ∀ j < cs.length, swapped ((share.id.toNat : ZMod q) ^ (j + 1)).val < q) :
    verifyVSS g share (c0 :: cs) T = .ok (decide (share.value • g =
      c0 + ∑ j ∈ Finset.range cs.length,
        ((swapped ((share.id.toNat : ZMod q) ^ (j + 1)).val : ℕ) : ZMod q) • cs.getD j 0)) := by
  unfold verifyVSS
  rw [Go.guard_true (by simp; omega)]
  simp only [Go.ok_bind]
  rw [if_neg (by omega), vssLoop_eq hq _ _ _ _ (by simpa using h)]
  simp only [Go.ok_bind, scalarLE_reverse hq, Go.ofOption, one_mul]

theorem vssLoop_err (hq : q ≤ 256 ^ 32) (x : ZMod q) (cs : List G) (i : ZMod q) (rhs : G)
    (h : ∃ j < cs.length, q ≤ swapped (i * x ^ (j + 1)).val) : vssLoop x cs i rhs = Go.err := by
  induction cs generalizing i rhs with
  | nil => obtain ⟨j, hj, _⟩ := h; simp at hj
  | cons C cs ih =>
    rw [vssLoop, scalarLE_swapped hq]
    by_cases h0 : swapped (i * x).val < q
    · rw [if_pos h0]
      simp only [Go.ofOption, Go.ok_bind]
      refine ih _ _ ?_
      obtain ⟨j, hj, h⟩ := h
      cases j with
      | zero => rw [zero_add, pow_one] at h; omega
      | succ j =>
        refine ⟨j, by simpa using hj, ?_⟩
        rwa [mul_assoc, ← pow_succ']
    · rw [if_neg h0]; rfl

/-- A power of the identifier whose swapped encoding is not canonical makes the check fail with an
error, whatever the share and the commitments are. -/
theorem C31_error (hq : q ≤ 256 ^ 32) (g : G) (share : V1.Share q) (c0 : G) (cs : List G) (T : ℤ)
    (hT : T ≤ (cs.length : ℤ) + 1) (hid : share.id.toNat < q)
    (h : ∃ j < cs.length, q ≤ swapped ((share.id.toNat : ZMod q) ^ (j + 1)).val) :
    verifyVSS g share (c0 :: cs) T = Go.err := by
  unfold verifyVSS
  rw [Go.guard_true (by simp; omega)]
  simp only [Go.ok_bind]
  rw [if_neg (by omega), vssLoop_err hq _ _ _ _ (by simpa using h)]
  rfl

/-- Fewer commitments than the threshold are rejected. -/
theorem C31_too_few (g : G) (share : V1.Share q) (cs : List G) (T : ℤ) (hT : (cs.length : ℤ) < T) :
    verifyVSS g share cs T = Go.err := by
  unfold verifyVSS
  rw [Go.guard_false (by omega)]; rfl

theorem swapped_small {n : ℕ} (h : n < 256) : swapped n = n := by
  have : ∀ n < 256, swapped n = n := by decide +kernel
  exact this n h

/-- As long as all powers of the identifier are below 256 (in the field representation) the check is
the Feldman check. -/
theorem C31_correct_below_256 (hq : q ≤ 256 ^ 32) (hq1 : 256 ≤ q) (g : G) (share : V1.Share q)
    (c0 : G) (cs : List G) (T : ℤ) (hT : T ≤ (cs.length : ℤ) + 1)
    (h : ∀ j < cs.length, share.id.toNat ^ (j + 1) < 256) (hid : share.id.toNat < q) :
    verifyVSS g share (c0 :: cs) T = .ok (decide (share.value • g =
      ∑ j ∈ Finset.range (cs.length + 1), (share.id.toNat : ZMod q) ^ j • (c0 :: cs).getD j 0)) := by
  have hv : ∀ j < cs.length, ((share.id.toNat : ZMod q) ^ (j + 1)).val = share.id.toNat ^ (j + 1) := by
    intro j hj
    rw [← Nat.cast_pow, ZMod.val_natCast, Nat.mod_eq_of_lt (by have := h j hj; omega)]
  rw [C31_exact hq g share c0 cs T hT hid]
  · congr 3
    rw [Finset.sum_range_succ' _ cs.length]
    simp only [List.getD_cons_succ, List.getD_cons_zero, pow_zero, one_smul]
    rw [add_comm]
    congr 1
    refine Finset.sum_congr rfl fun j hj => ?_
    rw [hv j (Finset.mem_range.1 hj), swapped_small (h j (Finset.mem_range.1 hj)), Nat.cast_pow]
  · intro j hj
    rw [hv j hj, swapped_small (h j hj)]
    have := h j hj
    omega

/-- Every honest share with identifier 16 of a dealing with three coefficients is rejected unless the
top coefficient is zero, and the wrong value `a + 16·b + c` is accepted in its place. -/
theorem C31_rejects_honest (hq : q ≤ 256 ^ 32) (hq1 : 256 < q) (g : G)
    (hg : ∀ r : ZMod q, r • g = 0 → r = 0) (a b c : ZMod q) (hc : c ≠ 0) :
    verifyVSS g ⟨16, a + 16 * b + 256 * c⟩ [a • g, b • g, c • g] 3 = .ok false ∧
    verifyVSS g ⟨16, a + 16 * b + c⟩ [a • g, b • g, c • g] 3 = .ok true := by
  have hid : (16 : UInt32).toNat = 16 := rfl
  have h16 : ((16 : ℕ) : ZMod q).val = 16 := by
    rw [ZMod.val_natCast, Nat.mod_eq_of_lt (by omega)]
  have h256 : (((16 : ℕ) : ZMod q) ^ 2).val = 256 := by
    rw [← Nat.cast_pow, ZMod.val_natCast, Nat.mod_eq_of_lt (by norm_num; omega)]
    norm_num
  have s16 : swapped 16 = 16 := by decide +kernel
  have s256 : swapped 256 = 1 := by decide +kernel
  have key : ∀ v : ZMod q, verifyVSS g ⟨16, v⟩ [a • g, b • g, c • g] 3 =
      .ok (decide (v • g = a • g + (16 * b) • g + c • g)) := by
    intro v
    rw [C31_exact hq g ⟨16, v⟩ (a • g) [b • g, c • g] 3 (by simp) (by simp only [hid]; omega)]
    · simp only [hid, List.length_cons, List.length_nil, Finset.sum_range_succ, Finset.sum_range_zero]
      simp only [zero_add, pow_one, h16, s16, one_add_one_eq_two, h256, s256, List.getD_cons_zero,
        List.getD_cons_succ, Nat.cast_one, one_smul]
      congr 2
      rw [add_assoc, ← smul_smul]
      norm_num
    · intro j hj
      simp only [hid, List.length_cons, List.length_nil] at *
      have : j = 0 ∨ j = 1 := by omega
      rcases this with rfl | rfl
      · simp only [zero_add, pow_one, h16, s16]; omega
      · simp only [one_add_one_eq_two, h256, s256]; omega
  rw [key, key]
  constructor
  · rw [decide_eq_false]
    intro h
    have h1 : (a + 16 * b + 256 * c - (a + 16 * b + c)) • g = 0 := by
      rw [sub_smul, h]; module
    have h2 := hg _ h1
    have h3 : (255 : ZMod q) * c = 0 := by rw [← h2]; ring
    rcases mul_eq_zero.1 h3 with h4 | h4
    · have : ((255 : ℕ) : ZMod q) = 0 := by exact_mod_cast h4
      rw [ZMod.natCast_eq_zero_iff] at this
      exact absurd (Nat.le_of_dvd (by norm_num) this) (by omega)
    · exact hc h4
  · rw [decide_eq_true]
    module

/-! ## C94: identifiers and serialization -/

/-- The identifier of a partial signature is the share identifier modulo 256. -/
theorem C94_id_truncated (hq : q ≤ 256 ^ 32) (sha512 : List UInt8 → List UInt8)
    (wide : List UInt8 → ZMod q) (msg : List UInt8) (key nonce : V1.Share q)
    (pub R : List UInt8) (p : PartialSig)
    (h : tSign sha512 wide msg key pub nonce R = .ok p) : p.id.toNat = key.id.toNat % 256 := by
  obtain ⟨_, _, rfl⟩ := (tSign_eq_ok hq _ _ _ _ _ _ _ _).1 h
  simp

/-- Consequence: the partial signatures of the holders 2 and 257 of any 2-of-`N` sharing aggregate
without an error to `s + 512·(c·b + b')`, where `b`, `b'` are the linear coefficients of key and
nonce, instead of `s`. -/
theorem C94_wrong_aggregate (hq : q ≤ 256 ^ 32) (hq1 : 2 ^ 32 < q)
    (sha512 : List UInt8 → List UInt8) (wide : List UInt8 → ZMod q) (N : ℤ) (hN : 257 ≤ N)
    (hN' : N < 2 ^ 32) (sk b r b' : ZMod q) (pub msg R : List UInt8) (hR : R.length = 32)
    (p2 p257 : PartialSig)
    (h2 : tSign sha512 wide msg ⟨2, sk + 2 * b⟩ pub ⟨2, r + 2 * b'⟩ R = .ok p2)
    (h257 : tSign sha512 wide msg ⟨257, sk + 257 * b⟩ pub ⟨257, r + 257 * b'⟩ R = .ok p257) :
    aggregate q [p2, p257] 2 N = .ok (R ++ leBytes 32
      (wide (sha512 (R ++ pub ++ msg)) * sk + r +
        512 * (wide (sha512 (R ++ pub ++ msg)) * b + b')).val) := by
  set c := wide (sha512 (R ++ pub ++ msg)) with hc
  obtain ⟨_, _, rfl⟩ := (tSign_eq_ok hq _ _ _ _ _ _ _ _).1 h2
  obtain ⟨_, _, rfl⟩ := (tSign_eq_ok hq _ _ _ _ _ _ _ _).1 h257
  rw [← hc, pad32_of_eq hR]
  simp only
  obtain ⟨s, hs, hst, hsl⟩ := V1.newShamir_ok (t := 2) (n := N) (by omega) (by norm_num) hN'
  set y2 := c * (sk + 2 * b) + (r + 2 * b') with hy2
  set y1 := c * (sk + 257 * b) + (r + 257 * b') with hy1
  have hs2 : sigShare (q := q) ⟨(2 : UInt32).toUInt8, R ++ leBytes 32 y2.val⟩ = .ok (some ⟨2, y2⟩) := by
    have := sigShare_eq hq (2 : UInt32).toUInt8 R y2
    rwa [pad32_of_eq hR] at this
  have hs1 : sigShare (q := q) ⟨(257 : UInt32).toUInt8, R ++ leBytes 32 y1.val⟩ =
      .ok (some ⟨1, y1⟩) := by
    have := sigShare_eq hq (257 : UInt32).toUInt8 R y1
    rwa [pad32_of_eq hR] at this
  have ht : s.threshold.toNat = 2 := by omega
  have hcomb := combine_evalL s (by omega) (by omega)
    [2 * y1 - y2, y2 - y1] (by simp [ht]) [⟨2, y2⟩, ⟨1, y1⟩] (by simp [ht]) (by
      intro sh hsh
      simp only [List.mem_cons, List.not_mem_nil, or_false] at hsh
      have e2 : (2 : UInt32).toNat = 2 := rfl
      have e1 : (1 : UInt32).toNat = 1 := rfl
      rcases hsh with rfl | rfl
      · simp only [e2]
        refine ⟨by norm_num, by omega, ?_⟩
        simp only [evalL, List.foldr_cons, List.foldr_nil, smul_eq_mul]
        push_cast; ring
      · simp only [e1]
        refine ⟨by norm_num, by omega, ?_⟩
        simp only [evalL, List.foldr_cons, List.foldr_nil, smul_eq_mul]
        push_cast; ring) (by simp)
  rw [aggregate_cons _ _ _ _ _ rfl, if_neg (by simp [hR, leBytes_length]), Go.guard_true (by
    intro p hp
    rw [List.mem_singleton] at hp
    subst hp
    simp only
    rw [List.take_append_of_le_length hR.ge, List.take_append_of_le_length hR.ge])]
  simp only [Go.ok_bind, hs, List.mapM_cons, List.mapM_nil, hs2, hs1, Go.pure_eq_ok]
  simp only [List.map_cons, List.map_nil] at hcomb
  rw [hcomb]
  simp only [Go.ok_bind, List.headD_cons]
  rw [List.take_append_of_le_length hR.ge, List.take_of_length_le hR.le]
  have hv := ZMod.val_lt (2 * y1 - y2)
  rw [pad32_eq_leBytes (by rw [List.length_reverse]; exact natBytes_length_le (by omega)),
    leNat_natBytes_reverse]
  congr 4
  rw [hy1, hy2]; ring

/-- Key shares survive serialization. -/
theorem C94_share_round_trip (s : V1.Share q) : keyShareFromBytes (shareBytes s) = .ok s := by
  have hv := ZMod.val_lt s.value
  have hlen : (beBytes 4 s.id.toNat).length = 4 := beBytes_length _ _
  unfold keyShareFromBytes shareBytes
  rw [if_neg (by rw [List.length_append, hlen]; omega),
    List.drop_append_of_le_length hlen.ge, List.drop_of_length_le hlen.le, List.nil_append,
    beNat_natBytes, if_neg (by omega), List.take_append_of_le_length hlen.ge,
    List.take_of_length_le hlen.le, beNat_beBytes _ _ (by have := s.id.toNat_lt; norm_num; omega)]
  simp

/-- `Reconstruct` returns the (reduced) secret key for every list of at least `T` distinct shares of a
key made by `GenerateSharedKey`; the public key and the first commitment are that key times the base
point. -/
theorem C94_reconstruct (hq : q ≤ 256 ^ 32) (g : G) (penc : G → List UInt8)
    (hpl : ∀ P, (penc P).length = 32) (sha512 : List UInt8 → List UInt8)
    (hsha : ∀ m, (sha512 m).length = 64) (T N : ℤ) (seed : List UInt8) (rnd : ℕ → ZMod q)
    (pub : List UInt8) (ks : List (V1.Share q)) (cs : List G)
    (h : generateSharedKey g penc sha512 T N seed rnd = .ok (pub, ks, cs))
    (l : List (V1.Share q)) (hl : T ≤ l.length) (hmem : ∀ s ∈ l, s ∈ ks)
    (hnd : (l.map V1.Share.id).Nodup) :
    ∃ sk : ZMod q, sk = ((leNat (prune (sha512 seed)) : ℕ) : ZMod q) ∧ pub = penc (sk • g) ∧
      cs.head? = some (sk • g) ∧ reconstruct (l.map some) T N = .ok (natBytes sk.val) := by
  obtain ⟨sk, s, _, hsk, rfl, hs, ht0, hmk, rfl⟩ := generateSharedKey_spec hq hpl hsha h
  refine ⟨sk, hsk, rfl, by simp, ?_⟩
  have hN : s.limit.toNat < q := by
    unfold V1.mkShares at hmk
    split at hmk
    · cases hmk
    · omega
  have htlen : s.threshold.toNat ≤ l.length := by
    obtain ⟨_, h2, rfl⟩ := newShamir_eq_ok.1 hs
    simp only [UInt32.ofInt, UInt32.toNat_ofNat']
    have := Nat.mod_le (T % 2 ^ 32).toNat (2 ^ 32)
    omega
  unfold reconstruct
  rw [hs]
  simp only [Go.ok_bind]
  rw [combine_evalL s hN (by omega) (sk :: (List.range (s.threshold.toNat - 1)).map rnd)
    (by simp; omega) l htlen (fun sh hsh => (V1.mem_mkShares hmk sh).1 (hmem sh hsh)) hnd]
  rfl

/-! ## C95: single-signer signatures -/

/-- Every signature made by `Sign` with a key from `NewKeyFromSeed` is accepted by `Verify` under the
public half of the key. -/
theorem C95_sign_verify (hq : q ≤ 2 ^ 253) (g : G) (penc : G → List UInt8)
    (pdec : List UInt8 → Option G) (hpl : ∀ P, (penc P).length = 32)
    (hpd : ∀ P, pdec (penc P) = some P) (sha512 : List UInt8 → List UInt8)
    (hsha : ∀ m, (sha512 m).length = 64)
    (wide : List UInt8 → ZMod q) (seed priv msg : List UInt8)
    (hk : newKeyFromSeed (q := q) g penc sha512 seed = .ok priv) :
    ∃ sig, sign g penc sha512 wide priv msg = .ok sig ∧
      verify g penc pdec sha512 wide (priv.drop 32) msg sig = .ok true := by
  unfold newKeyFromSeed at hk
  rw [Go.guard_bind_eq_ok] at hk
  obtain ⟨hseed, hp⟩ := hk
  have hpr := prune_clamp (q := q) (sha512 seed) (by rw [hsha]; norm_num)
  rw [hpr] at hp
  simp only [Go.ok_bind, Except.ok.injEq] at hp
  subst hp
  set sk : ZMod q := ((leNat (prune (sha512 seed)) : ℕ) : ZMod q) with hsk
  rw [pad32_of_eq hseed, pad32_of_eq (hpl _)]
  unfold sign
  rw [Go.guard_true (by simp [hseed, hpl]), List.take_append_of_le_length hseed.ge,
    List.take_of_length_le hseed.le, List.drop_append_of_le_length hseed.ge,
    List.drop_of_length_le hseed.le, List.nil_append]
  have h3 : ∀ n < 256, UInt8.ofNat n &&& 63 ||| 64 = UInt8.ofNat n &&& 127 ||| 64 := by
    decide +kernel
  have h3' : (fun b : UInt8 => b &&& 63 ||| 64) = fun b => b &&& 127 ||| 64 := by
    funext b
    have := h3 b.toNat b.toNat_lt; rwa [UInt8.ofNat_toNat] at this
  have hesk : ((List.take 32 (sha512 seed)).modify 0 fun x => x &&& 248).modify 31
      (fun b => b &&& 63 ||| 64) = prune (sha512 seed) := by
    rw [h3']; rfl
  simp only [hesk]
  rw [hpr]
  simp only [Go.ok_bind]
  rw [pad32_of_eq (hpl _)]
  exact ⟨_, rfl, C30_verifies hq g penc pdec hpl hpd sha512 wide sk _ msg⟩

/-- Exact acceptance condition of `Verify` (with an injective point encoding): canonical `s`, valid
public key and `R = s·g - H(R‖pk‖m)·A`. -/
theorem C95_verify_decision (g : G) (penc : G → List UInt8) (pdec : List UInt8 → Option G)
    (sha512 : List UInt8 → List UInt8) (wide : List UInt8 → ZMod q) (pub msg sig : List UInt8) :
    verify g penc pdec sha512 wide pub msg sig = .ok true ↔
      pub.length = 32 ∧ sig.length = 64 ∧ sig.getD 63 0 &&& 224 = 0 ∧
      leNat (sig.drop 32) < q ∧ ∃ A, pdec pub = some A ∧
      sig.take 32 = penc (((leNat (sig.drop 32) : ℕ) : ZMod q) • g -
        wide (sha512 (sig.take 32 ++ pub ++ msg)) • A) := by
  unfold verify
  rw [Go.guard_bind_eq_ok, Go.guard_bind_eq_ok]
  simp only [Go.bind_eq_ok, Go.ofOption_eq_ok, Except.ok.injEq, decide_eq_true_eq]
  constructor
  · rintro ⟨h1, ⟨h2, h3⟩, A, hA, s, hs, h4⟩
    unfold scalarLE at hs
    split at hs
    · rename_i hc
      cases hs
      refine ⟨h1, h2, h3, hc.2, A, hA, h4.trans ?_⟩
      congr 1; module
    · cases hs
  · rintro ⟨h1, h2, h3, h4, A, hA, h5⟩
    refine ⟨h1, ⟨h2, h3⟩, A, hA, ((leNat (sig.drop 32) : ℕ) : ZMod q), ?_, h5.trans ?_⟩
    · unfold scalarLE
      rw [if_pos ⟨by simp [h2], h4⟩]
    · congr 1; module

/-! ### Concrete run -/

namespace ToyRun

/-- toy group `ZMod 257` with 32-byte encodings -/
def penc (x : ZMod 257) : List UInt8 := leBytes 32 x.val
def pdec (b : List UInt8) : Option (ZMod 257) := some (leNat b : ℕ)
theorem pdec_penc (x : ZMod 257) : pdec (penc x) = some x := by
  have := ZMod.val_lt x
  unfold pdec penc
  rw [leNat_leBytes _ _ (by omega), ZMod.natCast_zmod_val]
def sha512 (m : List UInt8) : List UInt8 := (List.range 64).map fun i => UInt8.ofNat (beNat m + i)
def wide (m : List UInt8) : ZMod 257 := (leNat m : ℕ)
def seed : List UInt8 := List.replicate 32 3
def key := generateSharedKey (q := 257) (1 : ZMod 257) penc sha512 2 3 seed fun _ => 5
def n1 := generateSharedNonce (q := 257) (1 : ZMod 257) penc 2 3 11 fun _ => 6
def n2 := generateSharedNonce (q := 257) (1 : ZMod 257) penc 2 3 20 fun _ => 9
def get {α : Type} (d : α) : Go α → α
  | .ok a => a
  | .error _ => d
def K := get ([], [], []) key
def N1 := get ([], [], []) n1
def N2 := get ([], [], []) n2
def R : List UInt8 := get [] (geAdd penc pdec N1.1 N2.1)
def msg : List UInt8 := [1, 2]
def nonce (i : ℕ) : V1.Share 257 :=
  get ⟨0, 0⟩ (V1.Share.add (N1.2.1.getD i ⟨0, 0⟩) (N2.2.1.getD i ⟨0, 0⟩))
def keyShare (i : ℕ) : V1.Share 257 := K.2.1.getD i ⟨0, 0⟩
def psig (i : ℕ) : PartialSig := get ⟨0, []⟩ (tSign sha512 wide msg (keyShare i) K.1 (nonce i) R)

/-- the run of signers 3 and 1 with two nonce dealers satisfies the hypotheses of `C30_end_to_end`, and
the result is accepted -/
example : key = .ok K ∧ n1 = .ok N1 ∧ n2 = .ok N2 ∧ (geAdd penc pdec N1.1 N2.1) = .ok R ∧
    (∀ i ∈ [2, 0], tSign sha512 wide msg (keyShare i) K.1 (nonce i) R = .ok (psig i)) ∧
    ∃ sig, aggregate 257 [psig 2, psig 0] 2 3 = .ok sig ∧
      verify (1 : ZMod 257) penc pdec sha512 wide K.1 msg sig = .ok true := by
  refine ⟨by decide +kernel, by decide +kernel, by decide +kernel, by decide +kernel,
    by decide +kernel, get [] (aggregate 257 [psig 2, psig 0] 2 3), ?_⟩
  decide +kernel

example : ∃ priv, newKeyFromSeed (q := 257) (1 : ZMod 257) penc sha512 seed = .ok priv ∧
    priv.drop 32 = K.1 := ⟨get [] (newKeyFromSeed (q := 257) (1 : ZMod 257) penc sha512 seed),
  by decide +kernel⟩

/-- the polynomial `1 + 256·x` has a zero share at 1 -/
example : tSign sha512 wide msg ⟨1, (1 + 256 : ZMod 257)⟩ K.1 (nonce 0) R = Go.crash :=
  C30_zero_share_panics _ _ _ _ _ _ _ (Or.inl (by decide))

/-- C31: an honest identifier 16 share over the toy group -/
example : verifyVSS (q := 257) (1 : ZMod 257) ⟨16, 7 + 16 * 8 + 256 * 9⟩ [7, 8, 9] 3 = .ok false ∧
    verifyVSS (q := 257) (1 : ZMod 257) ⟨15, 7 + 15 * 8 + 225 * 9⟩ [7, 8, 9] 3 = .ok true := by decide +kernel

/-- the general theorem applied to it -/
example : verifyVSS (q := 257) (1 : ZMod 257) ⟨16, 7 + 16 * 8 + 256 * 9⟩ [(7 : ZMod 257) • 1, (8 : ZMod 257) • 1, (9 : ZMod 257) • 1] 3 =
    .ok false :=
  (C31_rejects_honest (q := 257) (by norm_num) (by norm_num) (1 : ZMod 257)
    (fun r h => by simpa using h) 7 8 9 (by decide)).1

/-- the swapped power is out of range: identifier 256 mod 257 has the two bytes `[1, 0]`; reading them
in the other order gives 1, while the field order 257 itself would be `[1, 1]` -/
example : swapped 256 = 1 ∧ swapped 512 = 2 ∧ swapped 255 = 255 ∧ swapped 511 = 65281 := by
  decide +kernel

/-- `C31_error` over the field with 521 elements: 30² = 379 is `[1, 123]`, read as 31489 ≥ 521 -/
instance fact521 : Fact (Nat.Prime 521) := ⟨by norm_num⟩

example : verifyVSS (q := 521) (1 : ZMod 521) ⟨30, 0⟩ [7, 8, 9] 3 = Go.err :=
  C31_error (q := 521) (by norm_num) 1 ⟨30, 0⟩ 7 [8, 9] 3 (by simp) (by decide)
    ⟨1, by simp, by decide +kernel⟩

example : keyShareFromBytes (q := 257) (shareBytes (⟨70000, 256⟩ : V1.Share 257)) = .ok ⟨70000, 256⟩ := by
  decide +kernel

end ToyRun

end Verif.Ted
