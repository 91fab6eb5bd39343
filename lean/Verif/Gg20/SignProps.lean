import Verif.Gg20.SignLemmas

/-! # C45: an honest run of GG20 signing -/

set_option linter.unusedSectionVars false
set_option exponentiation.threshold 600

namespace Verif.Gg20

variable {q : ℕ} {G : Type} [AddCommGroup G] [Module (ZMod q) G]

/-- Signers `S` prepared for the same key: honest Paillier keys of sufficient size, additive shares
`w`, matching public shares, keys and proof parameters, round counter 1. -/
structure Setup (E : Env q G) (S : Finset ℕ) (s0 : ℕ → Signer G) (Dl : ℕ → Dealer)
    (pp qq : ℕ → ℕ) (trusted : Bool) : Prop where
  decEnc : ∀ r : ZMod q, r ≠ 0 → E.dec (E.enc (r • E.gen)) = some (r • E.gen)
  hmacLen : ∀ k m, (E.hmac k m).length = 32
  kdfLen : ∀ m, (E.kdf m).length = 32
  id : ∀ i ∈ S, (s0 i).id = i
  round : ∀ i ∈ S, (s0 i).round = 1
  primes : ∀ i ∈ S, Paillier.HonestPrimes (pp i) (qq i)
  sk : ∀ i ∈ S, Paillier.newSecretKey (some (pp i)) (some (qq i)) = .ok (s0 i).sk
  big : ∀ i ∈ S, (q : ℤ) ^ 2 + (q : ℤ) ^ 5 ≤ pp i * qq i
  w : ∀ i ∈ S, 0 ≤ (s0 i).w ∧ (s0 i).w < q
  pub : ∀ i ∈ S, ∀ j ∈ S, (s0 i).pub.lookup j = some (((s0 j).w : ZMod q) • E.gen)
  cosigners : ∀ i ∈ S, ∀ j, j ∈ (s0 i).cosigners ↔ j ∈ S ∧ j ≠ i
  pks : ∀ i ∈ S, ∀ j ∈ S, j ≠ i → (s0 i).pks.lookup j = some (s0 j).sk.pk
  params : ∀ i ∈ S, ∀ j ∈ S, (s0 i).keygen.params j = some (Dl j)
  trusted : ∀ i ∈ S, (s0 i).keygen.trusted = trusted
  dealerN : ∀ i ∈ S, 0 < (Dl i).N
  dealerH1 : ∀ i ∈ S, IsCoprime (Dl i).H1 (Dl i).N
  dealerH2 : ∀ i ∈ S, IsCoprime (Dl i).H2 (Dl i).N

/-- Values in the range of the random number generator; the blinding values avoid the top of
their range (a fraction `2^-256` for a 256-bit order), Paillier nonces are units. -/
structure GoodRnd1 (q : ℕ) (N : ℤ) (rnd : Rnd1) : Prop where
  k : 0 ≤ rnd.k ∧ rnd.k < q
  gamma : 0 < rnd.gamma ∧ rnd.gamma < q
  r : 0 < rnd.r ∧ rnd.r < N
  rcop : IsCoprime rnd.r N
  alpha : ∀ j, (rnd.rp j).alpha ≤ (q : ℤ) ^ 3 - 2 ^ 256 * q

theorem GoodRnd1.gamma_ne {q : ℕ} {N : ℤ} {rnd : Rnd1} (h : GoodRnd1 q N rnd) :
    (rnd.gamma : ZMod q) ≠ 0 := by
  intro h0
  have := Int.le_of_dvd h.gamma.1 ((ZMod.intCast_zmod_eq_zero_iff_dvd _ _).1 h0)
  have := h.gamma.2
  omega

/-- The same for one MtA response. -/
structure GoodRndM (q : ℕ) (N : ℤ) (m : RndM) : Prop where
  beta : 0 ≤ m.betaTick ∧ m.betaTick < (q : ℤ) ^ 5
  r : 0 < m.rBeta ∧ m.rBeta < N
  rcop : IsCoprime m.rBeta N
  alpha : m.rp.alpha ≤ (q : ℤ) ^ 3 - 2 ^ 256 * q
  gamma : m.rp.gamma ≤ (q : ℤ) ^ 7 - 2 ^ 256 * (q : ℤ) ^ 5

/-- The proof a signer receives: from the broadcast or from the private message. -/
def received {α : Type} (trusted : Bool) (b : Option α) (p : List (ℕ × α)) (i : ℕ) : Option α :=
  if trusted then b else p.lookup i

section
variable {E : Env q G} {S : Finset ℕ} {s0 : ℕ → Signer G} {Dl : ℕ → Dealer} {pp qq : ℕ → ℕ}
  {tr : Bool} (H : Setup E S s0 Dl pp qq tr)
include H

/-- The state after round 1. -/
def after1 (E : Env q G) (s : Signer G) (rnd : Rnd1) (c : ℤ) : Signer G :=
  { s with
    round := 2
    ki := rnd.k
    gammai := rnd.gamma
    Gammai := (rnd.gamma : ZMod q) • E.gen
    Di := ⟨E.enc ((rnd.gamma : ZMod q) • E.gen), rnd.open_⟩
    ci := c
    ri := rnd.r }

theorem Setup.qpos {i : ℕ} (hi : i ∈ S) : 0 < q := by
  have := H.w i hi
  omega

theorem Setup.pk {i : ℕ} (hi : i ∈ S) :
    (s0 i).sk.pk = ⟨(pp i : ℤ) * qq i, (pp i : ℤ) * qq i * ((pp i : ℤ) * qq i)⟩ :=
  Paillier.pk_honest (H.primes i hi) (H.sk i hi)

theorem Setup.qleN {i : ℕ} (hi : i ∈ S) : (q : ℤ) ≤ pp i * qq i := by
  have h1 := H.big i hi
  have h2 : (1 : ℤ) ≤ q := by exact_mod_cast H.qpos hi
  nlinarith [pow_pos (show (0 : ℤ) < q by linarith) 5]

theorem Setup.q5leN {i : ℕ} (hi : i ∈ S) : (q : ℤ) ^ 5 ≤ pp i * qq i := by
  have h1 := H.big i hi
  have h2 : (1 : ℤ) ≤ q := by exact_mod_cast H.qpos hi
  nlinarith

/-- The ciphertext of round 1. -/
theorem enc1 {i : ℕ} (hi : i ∈ S) {rnd : Rnd1}
    (hr : GoodRnd1 q (pp i * qq i) rnd) :
    ∃ c, (s0 i).sk.pk.encrypt (some rnd.k) (some rnd.r) = .ok c ∧
      (s0 i).sk.decrypt (some c) = .ok rnd.k ∧
      (0 ≤ c ∧ c < pp i * qq i * (pp i * qq i)) ∧ IsCoprime c ((pp i : ℤ) * qq i) := by
  have hk := hr.k
  have hqN := H.qleN hi
  obtain ⟨c, h1, h2, _⟩ := Paillier.C16_round_trip (H.primes i hi) _ (H.sk i hi) rnd.k rnd.r hk.1
    (by omega) hr.r.1 hr.r.2
  have hd := h2 hr.rcop
  have hN := (H.primes i hi).N_pos
  have h1' := h1
  rw [H.pk hi, Paillier.encrypt_eq_ok hN] at h1'
  refine ⟨c, h1, hd, h1'.2.2.1, ?_⟩
  by_contra hcop
  have := (Paillier.decrypt_unit (H.primes i hi) _ (H.sk i hi) c h1'.2.2.1.1 h1'.2.2.1.2).2 hcop
  rw [hd] at this
  cases this

theorem prove1_ok {i j : ℕ} (hi : i ∈ S) (hj : j ∈ S) {rnd : Rnd1}
    (hr : GoodRnd1 q (pp i * qq i) rnd) {c : ℤ}
    (hc : (s0 i).sk.pk.encrypt (some rnd.k) (some rnd.r) = .ok c) (x : ℕ) :
    ∃ pi, prove1 E.toCurve (s0 i).sk.pk (Dl j) rnd.k c rnd.r (rnd.rp x) = .ok pi ∧
      verify1 E.toCurve (s0 i).sk.pk (Dl j) (some c) pi = .ok () := by
  rw [H.pk hi] at hc ⊢
  obtain ⟨pi, e, h1, _, _, h4⟩ := C46_range1_complete E.toCurve H.kdfLen (pp i * qq i)
    (H.primes i hi).N_pos (Dl j) (H.dealerN j hj) (H.dealerH1 j hj) (H.dealerH2 j hj) rnd.k c rnd.r
    (rnd.rp x) hr.k hc hr.rcop
  exact ⟨pi, h1, h4 (hr.alpha x)⟩

theorem round1_ok {i : ℕ} (hi : i ∈ S) {rnd : Rnd1}
    (hr : GoodRnd1 q (pp i * qq i) rnd) :
    ∃ c proof pl, round1 E (s0 i) rnd = .ok (after1 E (s0 i) rnd c,
        ⟨E.hmac rnd.open_ (E.enc ((rnd.gamma : ZMod q) • E.gen)), some c, proof⟩, pl) ∧
      (s0 i).sk.pk.encrypt (some rnd.k) (some rnd.r) = .ok c ∧
      ∀ j ∈ S, j ≠ i → ∃ pi, received tr proof pl j = some pi ∧
        verify1 E.toCurve (s0 i).sk.pk (Dl j) (some c) pi = .ok () := by
  obtain ⟨c, hc, _⟩ := enc1 H hi hr
  have hv : verifyStateMap (s0 i) 1 none = .ok () := by
    unfold verifyStateMap
    rw [Go.guard_true (H.round i hi)]
    rfl
  have htr := H.trusted i hi
  cases hk : (s0 i).keygen with
  | dealer D =>
    have hD : D = Dl i := by
      have := H.params i hi i hi
      rw [hk] at this
      exact Option.some.inj this
    obtain ⟨pi, h1, _⟩ := prove1_ok H hi hi hr hc (s0 i).id
    refine ⟨c, some pi, [], ?_, hc, ?_⟩
    · unfold round1
      rw [hv, Go.ok_bind]
      simp only [hc, Go.ok_bind, hk, hD, h1, Core.commit, after1]
    · intro j hj hne
      have htr' : tr = true := by rw [← htr, hk]; rfl
      refine ⟨pi, by simp [received, htr'], ?_⟩
      have hD' : D = Dl j := by
        have := H.params i hi j hj
        rw [hk] at this
        exact Option.some.inj this
      obtain ⟨pi', h1', h2'⟩ := prove1_ok H hi hj hr hc (s0 i).id
      rw [← hD', hD, h1] at h1'
      cases h1'
      exact h2'
  | dkg ps =>
    have htr' : tr = false := by rw [← htr, hk]; rfl
    have hch : ∀ j, ∃ pi, j ∈ S → prove1 E.toCurve (s0 i).sk.pk (Dl j) rnd.k c rnd.r (rnd.rp j)
        = .ok pi ∧ verify1 E.toCurve (s0 i).sk.pk (Dl j) (some c) pi = .ok () := by
      intro j
      by_cases hj : j ∈ S
      · obtain ⟨pi, h⟩ := prove1_ok H hi hj hr hc j
        exact ⟨pi, fun _ => h⟩
      · exact ⟨⟨none, none, none, none, none⟩, fun h => absurd h hj⟩
    choose pif hpi using hch
    have hmap : ((s0 i).cosigners.filter (· ≠ (s0 i).id)).mapM (fun id => do
        let D ← Go.ofOption ((s0 i).keygen.params id)
        let pi ← prove1 E.toCurve (s0 i).sk.pk D rnd.k c rnd.r (rnd.rp id)
        (.ok (id, pi) : Go (ℕ × Proof1))) =
        .ok (((s0 i).cosigners.filter (· ≠ (s0 i).id)).map fun j => (j, pif j)) := by
      refine CamShoup.mapM_ok _ (fun j => (j, pif j)) _ fun j hj => ?_
      have hjS : j ∈ S := ((H.cosigners i hi j).1 (List.mem_filter.1 hj).1).1
      rw [H.params i hi j hjS]
      simp only [Go.ofOption, Go.ok_bind, (hpi j hjS).1]
    refine ⟨c, none, ((s0 i).cosigners.filter (· ≠ (s0 i).id)).map fun j => (j, pif j), ?_, hc, ?_⟩
    · unfold round1
      rw [hv, Go.ok_bind]
      simp only [hc, Go.ok_bind, Core.commit]
      split
      · next D hD => rw [hk] at hD; cases hD
      · rw [hmap]
        simp only [Go.ok_bind]
        rfl
    · intro j hj hne
      refine ⟨pif j, ?_, (hpi j hj).2⟩
      simp only [received, htr']
      refine lookup_map_self pif _ ?_
      rw [List.mem_filter]
      exact ⟨(H.cosigners i hi j).2 ⟨hj, hne⟩, by simpa [H.id i hi] using hne⟩

/-- One MtA exchange between an initiator `j` with ciphertext `c` and a responder. -/
theorem mta_ok {j : ℕ} (hj : j ∈ S) {rnd : Rnd1} (hr : GoodRnd1 q (pp j * qq j) rnd) {c : ℤ}
    (hc : (s0 j).sk.pk.encrypt (some rnd.k) (some rnd.r) = .ok c) (b : ℤ) (hb : 0 ≤ b ∧ b < q)
    (B : Option G) (hB : ∀ X ∈ B, X = (b : ZMod q) • E.gen) {m : RndM}
    (hm : GoodRndM q (pp j * qq j) m) :
    ∃ resp alpha, genResponse E.toCurve (s0 j).sk.pk (Dl j) B b c m.betaTick m.rBeta m.rp =
        .ok resp ∧
      finalize E.toCurve (s0 j).sk (Dl j) B c { resp with beta := 0 } = .ok alpha ∧
      ((alpha + resp.beta : ℤ) : ZMod q) = (rnd.k : ZMod q) * b := by
  obtain ⟨c', hc', hd, hcr, hcc⟩ := enc1 H hj hr
  rw [hc] at hc'
  cases hc'
  have hq := H.qpos hj
  obtain ⟨resp, e, hg, ⟨vs, hvs⟩, hf⟩ := C44_accepts (H.primes j hj) (s0 j).sk (H.sk j hj) hq
    (H.q5leN hj) E.toCurve (Dl j) (H.dealerN j hj) (H.dealerH1 j hj) (H.dealerH2 j hj) B b c
    m.betaTick m.rBeta m.rp hB hb hm.beta hm.r hm.rcop hcr hcc
  have he : (e : ℤ) ≤ 2 ^ 256 := by
    have := fsHash_lt H.kdfLen vs
    rw [← hvs] at this
    exact_mod_cast this.le
  have hq' : (0 : ℤ) < q := by exact_mod_cast hq
  have h1 : (e : ℤ) * b + m.rp.alpha ≤ (q : ℤ) ^ 3 := by
    have := hm.alpha
    have h2 : (e : ℤ) * b ≤ 2 ^ 256 * q := mul_le_mul he hb.2.le hb.1 (by positivity)
    omega
  have h2 : (e : ℤ) * m.betaTick + m.rp.gamma ≤ (q : ℤ) ^ 7 := by
    have := hm.gamma
    have h2 : (e : ℤ) * m.betaTick ≤ 2 ^ 256 * (q : ℤ) ^ 5 :=
      mul_le_mul he hm.beta.2.le hm.beta.1 (by positivity)
    omega
  obtain ⟨alpha, ha⟩ := hf.2 ⟨h1, h2⟩
  refine ⟨resp, alpha, hg, ha, ?_⟩
  exact C44_mta (H.primes j hj) (s0 j).sk (H.sk j hj) hq (H.big j hj) E.toCurve (Dl j) (Dl j) B B
    rnd.k b c m.betaTick m.rBeta m.rp resp alpha hr.k hb hm.beta hd hcr hg hm.rcop ha

/-- The state after round 2. -/
def after2 (s : Signer G) (l : List ℕ) (c : ℕ → ℤ) (C : ℕ → List UInt8) (bg bw : ℕ → ℤ) :
    Signer G :=
  { s with
    round := 3
    cj := l.map fun j => (j, some (c j))
    Cj := l.map fun j => (j, C j)
    betaj := l.map fun j => (j, bg j)
    vuj := l.map fun j => (j, bw j) }

/-- The private message of round 2. -/
def msg2 (g w : Response) : P2P := ⟨some { g with beta := 0 }, some { w with beta := 0 }⟩

theorem round2_ok {i : ℕ} (hi : i ∈ S) {rnd : ℕ → Rnd1}
    (hr : ∀ j ∈ S, GoodRnd1 q (pp j * qq j) (rnd j)) {c : ℕ → ℤ}
    (hc : ∀ j ∈ S, (s0 j).sk.pk.encrypt (some (rnd j).k) (some (rnd j).r) = .ok (c j))
    {C : ℕ → List UInt8} {proof : ℕ → Option Proof1} {pl : ℕ → List (ℕ × Proof1)}
    (hp : ∀ j ∈ S, j ≠ i → ∃ pi, received tr (proof j) (pl j) i = some pi ∧
        verify1 E.toCurve (s0 j).sk.pk (Dl i) (some (c j)) pi = .ok ())
    {l l' : List ℕ} (hl : ∀ j, j ∈ l ↔ j ∈ S ∧ j ≠ i) (hl' : ∀ j, j ∈ l' ↔ j ∈ S ∧ j ≠ i)
    {rndM : ℕ → RndM × RndM}
    (hm : ∀ j ∈ S, GoodRndM q (pp j * qq j) (rndM j).1 ∧ GoodRndM q (pp j * qq j) (rndM j).2) :
    ∃ rg rw : ℕ → Response, round2 E (after1 E (s0 i) (rnd i) (c i))
        (l.map fun j => (j, some ⟨C j, some (c j), proof j⟩))
        (l'.map fun j => (j, (pl j).lookup i)) rndM =
        .ok (after2 (after1 E (s0 i) (rnd i) (c i)) l c C (fun j => (rg j).beta)
          (fun j => (rw j).beta), l.map fun j => (j, msg2 (rg j) (rw j))) ∧
      ∀ j ∈ S, ∃ alpha mu,
        finalize E.toCurve (s0 j).sk (Dl j) none (c j) { rg j with beta := 0 } = .ok alpha ∧
        ((alpha + (rg j).beta : ℤ) : ZMod q) = ((rnd j).k : ZMod q) * (rnd i).gamma ∧
        finalize E.toCurve (s0 j).sk (Dl j) (some (((s0 i).w : ZMod q) • E.gen)) (c j)
          { rw j with beta := 0 } = .ok mu ∧
        ((mu + (rw j).beta : ℤ) : ZMod q) = ((rnd j).k : ZMod q) * (s0 i).w := by
  have hch : ∀ j, ∃ rg rw : Response, j ∈ S →
      genResponse E.toCurve (s0 j).sk.pk (Dl j) none (rnd i).gamma (c j) (rndM j).1.betaTick
        (rndM j).1.rBeta (rndM j).1.rp = .ok rg ∧
      genResponse E.toCurve (s0 j).sk.pk (Dl j) (some (((s0 i).w : ZMod q) • E.gen)) (s0 i).w (c j)
        (rndM j).2.betaTick (rndM j).2.rBeta (rndM j).2.rp = .ok rw ∧
      ∃ alpha mu,
        finalize E.toCurve (s0 j).sk (Dl j) none (c j) { rg with beta := 0 } = .ok alpha ∧
        ((alpha + rg.beta : ℤ) : ZMod q) = ((rnd j).k : ZMod q) * (rnd i).gamma ∧
        finalize E.toCurve (s0 j).sk (Dl j) (some (((s0 i).w : ZMod q) • E.gen)) (c j)
          { rw with beta := 0 } = .ok mu ∧
        ((mu + rw.beta : ℤ) : ZMod q) = ((rnd j).k : ZMod q) * (s0 i).w := by
    intro j
    by_cases hj : j ∈ S
    · obtain ⟨rg, a, h1, h2, h3⟩ := mta_ok H hj (hr j hj) (hc j hj) (rnd i).gamma ⟨(hr i hi).gamma.1.le, (hr i hi).gamma.2⟩
        none (by simp) (hm j hj).1
      obtain ⟨rw, b, h4, h5, h6⟩ := mta_ok H hj (hr j hj) (hc j hj) (s0 i).w (H.w i hi)
        (some (((s0 i).w : ZMod q) • E.gen)) (by simp) (hm j hj).2
      exact ⟨rg, rw, fun _ => ⟨h1, h4, a, b, h2, h3, h5, h6⟩⟩
    · exact ⟨⟨⟨none, none, none, none, none, none, none, none⟩, none, 0⟩,
        ⟨⟨none, none, none, none, none, none, none, none⟩, none, 0⟩, fun h => absurd h hj⟩
  choose rg rw hgw using hch
  refine ⟨rg, rw, ?_, fun j hj => (hgw j hj).2.2⟩
  have hid := H.id i hi
  have hkeys : ∀ l : List ℕ, (∀ j, j ∈ l ↔ j ∈ S ∧ j ≠ i) →
      verifyStateMap (after1 E (s0 i) (rnd i) (c i)) 2 (some l) = .ok () := by
    intro l hl
    rw [verifyStateMap_ok]
    refine ⟨rfl, fun j _ => ?_⟩
    show j ∈ l ↔ j ∈ (s0 i).cosigners
    rw [hl, H.cosigners i hi]
  have hstep : ((l.map fun j => (j, some (⟨C j, some (c j), proof j⟩ : Bcast1))).filterMap fun jp =>
      if jp.1 = (after1 E (s0 i) (rnd i) (c i)).id then none
      else jp.2.map fun m => (jp.1, m)) = l.map fun j => (j, (⟨C j, some (c j), proof j⟩ : Bcast1)) := by
    rw [List.filterMap_map]
    rw [← List.filterMap_eq_map]
    refine List.filterMap_congr fun j hj => ?_
    have : ¬ j = (after1 E (s0 i) (rnd i) (c i)).id := by
      show ¬ j = (s0 i).id
      rw [hid]
      exact ((hl j).1 hj).2
    simp [this]
  unfold round2
  have hkeys' : verifyP2PMap (after1 E (s0 i) (rnd i) (c i)) 2 l' = .ok () := by
    unfold verifyP2PMap
    rw [hkeys l' hl']
    split <;> rfl
  rw [inbox_keys, hkeys l hl, Go.ok_bind, inbox_keys, hkeys', Go.ok_bind]
  have hB : (after1 E (s0 i) (rnd i) (c i)).pub.lookup (after1 E (s0 i) (rnd i) (c i)).id =
      some (((s0 i).w : ZMod q) • E.gen) := by
    show (s0 i).pub.lookup (s0 i).id = _
    rw [hid]
    exact H.pub i hi i hi
  rw [hB]
  simp only [deref, Go.ok_bind]
  rw [hstep]
  have hmapM : (l.map fun j => (j, (⟨C j, some (c j), proof j⟩ : Bcast1))).mapM
      (step2 E (after1 E (s0 i) (rnd i) (c i)) (((s0 i).w : ZMod q) • E.gen)
        (l'.map fun j => (j, (pl j).lookup i)) rndM) =
      .ok (l.map fun j => (⟨j, some (c j), C j, (rg j).beta, (rw j).beta, msg2 (rg j) (rw j)⟩ : Out2)) := by
    rw [List.mapM_map]
    refine CamShoup.mapM_ok _ (fun j => (⟨j, some (c j), C j, (rg j).beta, (rw j).beta,
      msg2 (rg j) (rw j)⟩ : Out2)) _ fun j hj => ?_
    obtain ⟨hjS, hji⟩ := (hl j).1 hj
    obtain ⟨pi, hpi, hv⟩ := hp j hjS hji
    have e1 : (after1 E (s0 i) (rnd i) (c i)).pks.lookup j = some (s0 j).sk.pk :=
      H.pks i hi j hjS hji
    have e2 : (after1 E (s0 i) (rnd i) (c i)).keygen.params j = some (Dl j) := H.params i hi j hjS
    have e3 : (after1 E (s0 i) (rnd i) (c i)).keygen.params (after1 E (s0 i) (rnd i) (c i)).id
        = some (Dl i) := by
      show (s0 i).keygen.params (s0 i).id = _
      rw [hid]
      exact H.params i hi i hi
    have e4 : pickProof (after1 E (s0 i) (rnd i) (c i)) (proof j)
        (l'.map fun j => (j, (pl j).lookup i)) j = .ok pi := by
      unfold pickProof
      have : (after1 E (s0 i) (rnd i) (c i)).keygen.trusted = tr := H.trusted i hi
      rw [this, lookup_map_self _ l' ((hl' j).2 ⟨hjS, hji⟩)]
      unfold received at hpi
      cases tr
      · simp only [Bool.false_eq_true, if_false] at hpi ⊢
        simp [hpi, deref]
      · simp only [if_true] at hpi ⊢
        simp [hpi, deref]
    show step2 _ _ _ _ _ _ = _
    unfold step2
    simp only [e1, e2, e3, e4, deref, Go.ok_bind]
    simp only [verify1N, hv, Go.ok_bind, Go.ofOption, genResponseN]
    rw [show (after1 E (s0 i) (rnd i) (c i)).gammai = (rnd i).gamma from rfl,
      show (after1 E (s0 i) (rnd i) (c i)).w = (s0 i).w from rfl, (hgw j hjS).1, Go.ok_bind,
      (hgw j hjS).2.1, Go.ok_bind]
    rfl
  rw [hmapM, Go.ok_bind]
  simp only [List.map_map, after2]
  rfl

/-- The state after round 3. -/
def after3 (s : Signer G) (d sg : ℤ) : Signer G :=
  { s with
    round := 4
    deltai := d
    sigmai := sg }

theorem fold3_ok {i : ℕ} (hi : i ∈ S) {s : Signer G} {c : ℤ} (hsk : s.sk = (s0 i).sk)
    (hkg : s.keygen.params s.id = some (Dl i)) (hci : s.ci = c) (hpub : s.pub = (s0 i).pub)
    {rg rw : ℕ → Response} {alpha mu bg bw : ℕ → ℤ}
    (l : List ℕ) (hl : ∀ j ∈ l, j ∈ S ∧ s.betaj.lookup j = some (bg j) ∧
      s.vuj.lookup j = some (bw j) ∧
      finalize E.toCurve (s0 i).sk (Dl i) none c { rg j with beta := 0 } = .ok (alpha j) ∧
      finalize E.toCurve (s0 i).sk (Dl i) (some (((s0 j).w : ZMod q) • E.gen)) c
          { rw j with beta := 0 } = .ok (mu j)) (d0 g0 : ℤ) (hd0 : 0 ≤ d0 ∧ d0 < q)
    (hg0 : 0 ≤ g0 ∧ g0 < q) :
    ∃ d sg, (l.map fun j => (j, some (msg2 (rg j) (rw j)))).foldlM (step3 E s) (d0, g0) =
        .ok (d, sg) ∧ (0 ≤ d ∧ d < q) ∧ (0 ≤ sg ∧ sg < q) ∧
      (d : ZMod q) = d0 + (l.map fun j => (alpha j + bg j : ZMod q)).sum ∧
      (sg : ZMod q) = g0 + (l.map fun j => (mu j + bw j : ZMod q)).sum := by
  have hq := H.qpos hi
  induction l generalizing d0 g0 with
  | nil => exact ⟨d0, g0, rfl, hd0, hg0, by simp, by simp⟩
  | cons j l ih =>
    obtain ⟨hjS, hb, hv, hf1, hf2⟩ := hl j (by simp)
    obtain ⟨d, sg, h1, h2, h3, h4, h5⟩ := ih (fun k hk => hl k (by simp [hk]))
      (((d0 + alpha j) % q + bg j) % q) (((g0 + mu j) % q + bw j) % q) (emod_range hq _)
      (emod_range hq _)
    refine ⟨d, sg, ?_, h2, h3, ?_, ?_⟩
    · rw [List.map_cons, List.foldlM_cons]
      have hW : s.pub.lookup j = some (((s0 j).w : ZMod q) • E.gen) := by
        rw [hpub]
        exact H.pub i hi j hjS
      have hstep : step3 E s (d0, g0) (j, some (msg2 (rg j) (rw j))) =
          .ok (((d0 + alpha j) % q + bg j) % q, ((g0 + mu j) % q + bw j) % q) := by
        unfold step3 msg2
        simp only [Go.ofOption, Go.ok_bind, deref, hkg, finalizeN, hsk, hci, hf1, hW, hf2, hb, hv,
          core_add_q hq]
      rw [hstep, Go.ok_bind]
      exact h1
    · rw [h4, List.map_cons, List.sum_cons]
      rw [ZMod.intCast_mod, Int.cast_add, ZMod.intCast_mod]
      push_cast
      ring
    · rw [h5, List.map_cons, List.sum_cons]
      rw [ZMod.intCast_mod, Int.cast_add, ZMod.intCast_mod]
      push_cast
      ring

theorem round3_ok {i : ℕ} (hi : i ∈ S) {rnd : Rnd1} {c : ℕ → ℤ} {C : ℕ → List UInt8} {l2 : List ℕ}
    {rg rw : ℕ → Response} {alpha mu bg bw : ℕ → ℤ}
    (hl2 : ∀ j, j ∈ l2 ↔ j ∈ S ∧ j ≠ i)
    (hf : ∀ j ∈ S, j ≠ i →
      finalize E.toCurve (s0 i).sk (Dl i) none (c i) { rg j with beta := 0 } = .ok (alpha j) ∧
      finalize E.toCurve (s0 i).sk (Dl i) (some (((s0 j).w : ZMod q) • E.gen)) (c i)
          { rw j with beta := 0 } = .ok (mu j))
    {l : List ℕ} (hl : ∀ j, j ∈ l ↔ j ∈ S ∧ j ≠ i) (hn : l.Nodup) :
    ∃ d sg, round3 E (after2 (after1 E (s0 i) rnd (c i)) l2 c C bg bw)
        (l.map fun j => (j, some (msg2 (rg j) (rw j)))) =
        .ok (after3 (after2 (after1 E (s0 i) rnd (c i)) l2 c C bg bw) d sg, d) ∧
      (0 ≤ d ∧ d < q) ∧ (0 ≤ sg ∧ sg < q) ∧
      (d : ZMod q) = (rnd.k : ZMod q) * rnd.gamma + ∑ j ∈ S.erase i, (alpha j + bg j : ZMod q) ∧
      (sg : ZMod q) = (rnd.k : ZMod q) * (s0 i).w + ∑ j ∈ S.erase i, (mu j + bw j : ZMod q) := by
  have hq := H.qpos hi
  have hid := H.id i hi
  set s := after2 (after1 E (s0 i) rnd (c i)) l2 c C bg bw with hs
  have hsid : s.id = i := hid
  have hv : verifyStateMap s 3 (some l) = .ok () := by
    rw [verifyStateMap_ok]
    refine ⟨rfl, fun j _ => ?_⟩
    show j ∈ l ↔ j ∈ (s0 i).cosigners
    rw [hl, H.cosigners i hi]
  obtain ⟨d, sg, h1, h2, h3, h4, h5⟩ := fold3_ok H hi (s := s) (c := c i) rfl
    (by rw [hsid]; exact H.params i hi i hi) rfl rfl (rg := rg) (rw := rw) (alpha := alpha)
    (mu := mu) (bg := bg) (bw := bw) l (fun j hj => by
      obtain ⟨hjS, hji⟩ := (hl j).1 hj
      exact ⟨hjS, lookup_map_self bg l2 ((hl2 j).2 ⟨hjS, hji⟩),
        lookup_map_self bw l2 ((hl2 j).2 ⟨hjS, hji⟩), hf j hjS hji⟩)
    ((rnd.k * rnd.gamma) % q) ((rnd.k * (s0 i).w) % q) (emod_range hq _) (emod_range hq _)
  refine ⟨d, sg, ?_, h2, h3, ?_, ?_⟩
  · unfold round3
    rw [inbox_keys, hv, Go.ok_bind]
    rw [show s.ki = rnd.k from rfl, show s.gammai = rnd.gamma from rfl,
      show s.w = (s0 i).w from rfl, core_mul_q hq, Go.ok_bind, core_mul_q hq, Go.ok_bind]
    rw [filter_inbox l s.id _ (fun j hj => by rw [hsid]; exact ((hl j).1 hj).2), h1, Go.ok_bind]
    rfl
  · rw [h4, sum_order hn hl, ZMod.intCast_mod]
    push_cast
    rfl
  · rw [h5, sum_order hn hl, ZMod.intCast_mod]
    push_cast
    rfl

/-- The state after round 4. -/
def after4 (s : Signer G) (d : ℤ) : Signer G :=
  { s with
    round := 5
    delta := d }

/-- A signer in a round with its identity unchanged. -/
theorem vsm_ok {i : ℕ} (hi : i ∈ S) {s : Signer G} {r : ℕ} (hr : s.round = r)
    (hcos : s.cosigners = (s0 i).cosigners) {l : List ℕ} (hl : ∀ j, j ∈ l ↔ j ∈ S ∧ j ≠ i) :
    verifyStateMap s r (some l) = .ok () := by
  rw [verifyStateMap_ok]
  refine ⟨hr, fun j _ => ?_⟩
  rw [hcos, hl, H.cosigners i hi]

theorem round4_ok {i : ℕ} (hi : i ∈ S) {s : Signer G} (hr : s.round = 4) (hid : s.id = i)
    (hcos : s.cosigners = (s0 i).cosigners) {d : ℕ → ℤ} (hdi : s.deltai = d i)
    (hd : ∀ j ∈ S, 0 ≤ d j ∧ d j < q) {l : List ℕ} (hl : ∀ j, j ∈ l ↔ j ∈ S ∧ j ≠ i)
    (hn : l.Nodup) :
    ∃ delta, round4 q s (l.map fun j => (j, some (some (d j)))) = .ok (after4 s delta, s.Di) ∧
      (0 ≤ delta ∧ delta < q) ∧ (delta : ZMod q) = ∑ j ∈ S, (d j : ZMod q) := by
  obtain ⟨x, h1, h2, h3⟩ := fold_add (H.qpos hi) d l (d i) (hd i hi)
  refine ⟨x, ?_, h2, ?_⟩
  · unfold round4
    rw [inbox_keys, vsm_ok H hi hr hcos hl, Go.ok_bind,
      filter_inbox l s.id _ (fun j hj => by rw [hid]; exact ((hl j).1 hj).2)]
    rw [← hdi] at h1
    rw [h1]
    rfl
  · rw [h3, sum_order hn hl, Finset.add_sum_erase S (fun j => (d j : ZMod q)) hi]

/-- The state after round 5. -/
def after5 (E : Env q G) (s : Signer G) (R : G) : Signer G :=
  { s with
    round := 6
    R := R
    r := (E.xy R).1
    Rbari := (s.ki : ZMod q) • R
    Rbark := (s.sigmai : ZMod q) • R }

theorem fold5_ok {s : Signer G} {rnd : ℕ → Rnd1} (l : List ℕ)
    (hl : ∀ j ∈ l, j ≠ s.id ∧ ((rnd j).gamma : ZMod q) ≠ 0 ∧ s.Cj.lookup j =
      some (E.hmac (rnd j).open_ (E.enc (((rnd j).gamma : ZMod q) • E.gen)))) (R0 : G) :
    (l.map fun j => (j, some (some (⟨E.enc (((rnd j).gamma : ZMod q) • E.gen),
      (rnd j).open_⟩ : Core.Witness)))).foldlM (step5 E s) R0 =
      .ok (R0 + (l.map fun j => ((rnd j).gamma : ZMod q) • E.gen).sum) := by
  induction l generalizing R0 with
  | nil => simp
  | cons j l ih =>
    obtain ⟨hj, hg, hC⟩ := hl j (by simp)
    rw [List.map_cons, List.foldlM_cons]
    have : step5 E s R0 (j, some (some ⟨E.enc (((rnd j).gamma : ZMod q) • E.gen),
        (rnd j).open_⟩)) = .ok (R0 + ((rnd j).gamma : ZMod q) • E.gen) := by
      unfold step5
      simp only [Go.ofOption, Go.ok_bind, if_neg hj, deref, hC, Core.openC, Option.getD_some]
      rw [Go.guard_true (H.hmacLen _ _), Go.ok_bind, Go.ok_bind, Go.guard_true (by simp), Go.ok_bind,
        H.decEnc _ hg, Go.ok_bind]
    rw [this, Go.ok_bind, ih (fun k hk => hl k (by simp [hk])), List.map_cons, List.sum_cons, add_assoc]

theorem pdl_ok {i j : ℕ} (hi : i ∈ S) (hj : j ∈ S) {rnd : Rnd1}
    (hr : GoodRnd1 q (pp i * qq i) rnd) {c : ℤ}
    (hc : (s0 i).sk.pk.encrypt (some rnd.k) (some rnd.r) = .ok c) (R : G) {rp : Rand1}
    (hal : rp.alpha ≤ (q : ℤ) ^ 3 - 2 ^ 256 * q) :
    ∃ pi, pdlProve E.toCurve (s0 i).sk.pk (Dl j) R ((rnd.k : ZMod q) • R) rnd.k rnd.r c rp =
        .ok pi ∧
      pdlVerify E.toCurve (s0 i).sk.pk (Dl j) R ((rnd.k : ZMod q) • R) (some c) pi = .ok () := by
  rw [H.pk hi] at hc ⊢
  exact C126_complete E.toCurve H.kdfLen (pp i * qq i) (H.primes i hi).N_pos (Dl j)
    (H.dealerN j hj) (H.dealerH1 j hj) (H.dealerH2 j hj) R rnd.k c rnd.r rp hr.k hc hr.rcop hal

theorem round5_ok [Fact q.Prime] {i : ℕ} (hi : i ∈ S) {rnd : ℕ → Rnd1}
    (hr : ∀ j ∈ S, GoodRnd1 q (pp j * qq j) (rnd j)) {s : Signer G} (hround : s.round = 5)
    (hid : s.id = i) (hcos : s.cosigners = (s0 i).cosigners) (hkg : s.keygen = (s0 i).keygen)
    (hsk : s.sk = (s0 i).sk) (hki : s.ki = (rnd i).k) (hri : s.ri = (rnd i).r)
    (hci : (s0 i).sk.pk.encrypt (some (rnd i).k) (some (rnd i).r) = .ok s.ci)
    (hG : s.Gammai = ((rnd i).gamma : ZMod q) • E.gen)
    (hC : ∀ j ∈ S, j ≠ i → s.Cj.lookup j =
      some (E.hmac (rnd j).open_ (E.enc (((rnd j).gamma : ZMod q) • E.gen))))
    (hdelta : (s.delta : ZMod q) ≠ 0) {rp : ℕ → Rand1}
    (hal : ∀ j, (rp j).alpha ≤ (q : ℤ) ^ 3 - 2 ^ 256 * q)
    {l : List ℕ} (hl : ∀ j, j ∈ l ↔ j ∈ S ∧ j ≠ i) (hn : l.Nodup) {R : G}
    (hR : R = ((s.delta : ZMod q)⁻¹ * ∑ j ∈ S, ((rnd j).gamma : ZMod q)) • E.gen) :
    ∃ proof pl, round5 E s (l.map fun j => (j, some (some ⟨E.enc (((rnd j).gamma : ZMod q) • E.gen),
        (rnd j).open_⟩))) rp = .ok (after5 E s R, ⟨some (((rnd i).k : ZMod q) • R), proof⟩, pl) ∧
      ∀ j ∈ S, j ≠ i → ∃ pi, received tr proof pl j = some pi ∧
        pdlVerify E.toCurve (s0 i).sk.pk (Dl j) R (((rnd i).k : ZMod q) • R) (some s.ci) pi = .ok () := by
  have hv : verifyStateMap s 5 (some l) = .ok () := vsm_ok H hi hround hcos hl
  have hq := H.qpos hi
  have hfold := fold5_ok H (s := s) (rnd := rnd) l (fun j hj => by
    obtain ⟨hjS, hji⟩ := (hl j).1 hj
    exact ⟨by rw [hid]; exact hji, (hr j hjS).gamma_ne, hC j hjS hji⟩) s.Gammai
  have hR0 : s.Gammai + (l.map fun j => ((rnd j).gamma : ZMod q) • E.gen).sum =
      (∑ j ∈ S, ((rnd j).gamma : ZMod q)) • E.gen := by
    rw [hG, sum_order hn hl, Finset.add_sum_erase S (fun j => ((rnd j).gamma : ZMod q) • E.gen) hi,
      Finset.sum_smul]
  have hcopd : IsCoprime s.delta (q : ℤ) :=
    coprime_iff_unit.2 ⟨Units.mk0 _ hdelta, rfl⟩
  obtain ⟨inv, hinv⟩ := exists_inv (n := (q : ℤ)) (by exact_mod_cast hq) hcopd
  have hinv' : Core.inv (some s.delta) (some (q : ℤ)) = .ok inv :=
    (core_inv_eq_ok (by exact_mod_cast hq)).2 hinv
  have hcast : (inv : ZMod q) = (s.delta : ZMod q)⁻¹ := by
    have h := (ZMod.intCast_eq_intCast_iff _ _ q).2 hinv.2
    push_cast at h
    exact eq_inv_of_mul_eq_one_right h
  have hRe : (inv : ZMod q) • ((∑ j ∈ S, ((rnd j).gamma : ZMod q)) • E.gen) = R := by
    rw [hR, hcast, smul_smul]
  have htr := H.trusted i hi
  cases hk : (s0 i).keygen with
  | dealer D =>
    have hDj : ∀ j ∈ S, D = Dl j := by
      intro j hj
      have := H.params i hi j hj
      rw [hk] at this
      exact Option.some.inj this
    have htr' : tr = true := by rw [← htr, hk]; rfl
    obtain ⟨pi, h1, _⟩ := pdl_ok H hi hi (hr i hi) hci R (hal s.id)
    refine ⟨some pi, [], ?_, ?_⟩
    · unfold round5
      rw [inbox_keys, hv, Go.ok_bind, hfold, Go.ok_bind, hinv', Go.ok_bind, hR0]
      simp only [hRe, hki, hri, hsk]
      rw [← hDj i hi] at h1
      split
      · next D' hD' =>
        rw [hkg, hk] at hD'
        cases hD'
        rw [h1]
        simp only [Go.ok_bind, after5, hki, hri, hsk]
      · next hD' =>
        rw [hkg, hk] at hD'
        cases hD'
    · intro j hj hne
      refine ⟨pi, by simp [received, htr'], ?_⟩
      obtain ⟨pi', h1', h2'⟩ := pdl_ok H hi hj (hr i hi) hci R (hal s.id)
      rw [← hDj j hj, hDj i hi, h1] at h1'
      cases h1'
      exact h2'
  | dkg ps =>
    have htr' : tr = false := by rw [← htr, hk]; rfl
    have hch : ∀ j, ∃ pi, j ∈ S → pdlProve E.toCurve (s0 i).sk.pk (Dl j) R (((rnd i).k : ZMod q) • R)
        (rnd i).k (rnd i).r s.ci (rp j) = .ok pi ∧
        pdlVerify E.toCurve (s0 i).sk.pk (Dl j) R (((rnd i).k : ZMod q) • R) (some s.ci) pi =
          .ok () := by
      intro j
      by_cases hj : j ∈ S
      · obtain ⟨pi, h⟩ := pdl_ok H hi hj (hr i hi) hci R (hal j)
        exact ⟨pi, fun _ => h⟩
      · exact ⟨⟨none, none, none, none, none⟩, fun h => absurd h hj⟩
    choose pif hpi using hch
    have hmap : (s.cosigners.filter (· ≠ s.id)).mapM (fun id => do
        let D ← Go.ofOption (s.keygen.params id)
        let pi ← pdlProve E.toCurve (s0 i).sk.pk D R (((rnd i).k : ZMod q) • R)
          (rnd i).k (rnd i).r s.ci (rp id)
        (.ok (id, pi) : Go (ℕ × Proof1))) =
        .ok ((s.cosigners.filter (· ≠ s.id)).map fun j => (j, pif j)) := by
      refine CamShoup.mapM_ok _ (fun j => (j, pif j)) _ fun j hj => ?_
      have hjS : j ∈ S := by
        have := (List.mem_filter.1 hj).1
        rw [hcos] at this
        exact ((H.cosigners i hi j).1 this).1
      rw [hkg, H.params i hi j hjS]
      simp only [Go.ofOption, Go.ok_bind, (hpi j hjS).1]
    refine ⟨none, (s.cosigners.filter (· ≠ s.id)).map fun j => (j, pif j), ?_, ?_⟩
    · unfold round5
      rw [inbox_keys, hv, Go.ok_bind, hfold, Go.ok_bind, hinv', Go.ok_bind, hR0]
      simp only [hRe, hki, hri, hsk]
      split
      · next D' hD' =>
        rw [hkg, hk] at hD'
        cases hD'
      · rw [hmap]
        simp only [Go.ok_bind, after5, hki, hri, hsk]
    · intro j hj hne
      refine ⟨pif j, ?_, (hpi j hj).2⟩
      simp only [received, htr']
      refine lookup_map_self pif _ ?_
      rw [List.mem_filter]
      exact ⟨by rw [hcos]; exact (H.cosigners i hi j).2 ⟨hj, hne⟩, by simpa [hid] using hne⟩

/-- The state after round 6. -/
def after6 (s : Signer G) (si : ℤ) (hash : List UInt8) : Signer G :=
  { s with
    round := 7
    si := si
    msgHash := hash }

theorem fold6_ok {i : ℕ} (hi : i ∈ S) {s : Signer G} (hkg : s.keygen = (s0 i).keygen)
    (hid : s.id = i) (hpks : s.pks = (s0 i).pks) {c : ℕ → ℤ} {X : ℕ → G}
    {proof : ℕ → Option Proof1} {pl : ℕ → List (ℕ × Proof1)} {l' : List ℕ}
    (hl' : ∀ j, j ∈ l' ↔ j ∈ S ∧ j ≠ i) (l : List ℕ)
    (hl : ∀ j ∈ l, (j ∈ S ∧ j ≠ i) ∧ s.cj.lookup j = some (some (c j)) ∧
      ∃ pi, received tr (proof j) (pl j) i = some pi ∧
        pdlVerify E.toCurve (s0 j).sk.pk (Dl i) s.R (X j) (some (c j)) pi = .ok ()) (v : G) :
    (l.map fun j => (j, some (⟨some (X j), proof j⟩ : Bcast5 G))).foldlM
        (step6 E s (l'.map fun j => (j, (pl j).lookup i))) v =
      .ok (v + (l.map X).sum) := by
  induction l generalizing v with
  | nil => simp
  | cons j l ih =>
    obtain ⟨⟨hjS, hji⟩, hcj, pi, hpi, hv⟩ := hl j (by simp)
    rw [List.map_cons, List.foldlM_cons]
    have e4 : pickProof s (proof j) (l'.map fun j => (j, (pl j).lookup i)) j = .ok pi := by
      unfold pickProof
      have : s.keygen.trusted = tr := by rw [hkg]; exact H.trusted i hi
      rw [this, lookup_map_self _ l' ((hl' j).2 ⟨hjS, hji⟩)]
      unfold received at hpi
      cases tr
      · simp only [Bool.false_eq_true, if_false] at hpi ⊢
        simp [hpi, deref]
      · simp only [if_true] at hpi ⊢
        simp [hpi, deref]
    have hpk : s.pks.lookup j = some (s0 j).sk.pk := by rw [hpks]; exact H.pks i hi j hjS hji
    have hD : s.keygen.params s.id = some (Dl i) := by rw [hkg, hid]; exact H.params i hi i hi
    have : step6 E s (l'.map fun j => (j, (pl j).lookup i)) v
        (j, some (⟨some (X j), proof j⟩ : Bcast5 G)) = .ok (v + X j) := by
      unfold step6
      simp only [deref, Go.ok_bind, e4, hpk, hD, hcj, Option.join_some, hv]
    rw [this, Go.ok_bind, ih (fun k hk => hl k (by simp [hk])), List.map_cons, List.sum_cons,
      add_assoc]

theorem round6_ok [DecidableEq G] {i : ℕ} (hi : i ∈ S) {s : Signer G} (hround : s.round = 6)
    (hcos : s.cosigners = (s0 i).cosigners) (hkg : s.keygen = (s0 i).keygen)
    (hid : s.id = i) (hpks : s.pks = (s0 i).pks) {c : ℕ → ℤ} {X : ℕ → G}
    {proof : ℕ → Option Proof1} {pl : ℕ → List (ℕ × Proof1)} {l l' : List ℕ}
    (hl : ∀ j, j ∈ l ↔ j ∈ S ∧ j ≠ i) (hn : l.Nodup)
    (hl' : ∀ j, j ∈ l' ↔ j ∈ S ∧ j ≠ i)
    (hp : ∀ j ∈ S, j ≠ i → s.cj.lookup j = some (some (c j)) ∧
      ∃ pi, received tr (proof j) (pl j) i = some pi ∧
        pdlVerify E.toCurve (s0 j).sk.pk (Dl i) s.R (X j) (some (c j)) pi = .ok ())
    (hXi : s.Rbari = X i) (hV : ∑ j ∈ S, X j = E.gen) (hash : List UInt8) (hh : beNat hash < q) :
    ∃ si, round6 E s hash (l.map fun j => (j, some ⟨some (X j), proof j⟩))
        (l'.map fun j => (j, (pl j).lookup i)) = .ok (after6 s si hash, si) ∧
      (0 ≤ si ∧ si < q) ∧
      (si : ZMod q) = (beNat hash : ZMod q) * s.ki + (s.r : ZMod q) * s.sigmai := by
  have hq := H.qpos hi
  have hkeys' : verifyP2PMap s 6 l' = .ok () := by
    unfold verifyP2PMap
    rw [vsm_ok H hi hround hcos hl']
    split <;> rfl
  have hfold := fold6_ok H hi hkg hid hpks (c := c) (X := X) (proof := proof) (pl := pl) hl' l
    (fun j hj => ⟨(hl j).1 hj, hp j ((hl j).1 hj).1 ((hl j).1 hj).2⟩) s.Rbari
  have hsum : s.Rbari + (l.map X).sum = E.gen := by
    rw [hXi, sum_order hn hl, Finset.add_sum_erase S X hi, hV]
  refine ⟨((beNat hash : ℤ) * s.ki % q + s.r * s.sigmai % q) % q, ?_, emod_range hq _, ?_⟩
  · unfold round6
    rw [inbox_keys, vsm_ok H hi hround hcos hl, Go.ok_bind, inbox_keys, hkeys', Go.ok_bind]
    unfold round6Offline
    rw [filter_inbox l s.id _ (fun j hj => by rw [hid]; exact ((hl j).1 hj).2), hfold, Go.ok_bind,
      Go.guard_true hsum, Go.ok_bind]
    unfold round6Online
    simp only [Core.inZm]
    rw [Go.guard_true (by exact ⟨by omega, by exact_mod_cast hh⟩), Go.ok_bind, core_mul_q hq,
      Go.ok_bind, core_mul_q hq, Go.ok_bind, core_add_q hq, Go.ok_bind]
    rfl
  · rw [ZMod.intCast_mod, Int.cast_add, ZMod.intCast_mod, ZMod.intCast_mod]
    push_cast
    rfl

theorem signOutput_ok {i : ℕ} (hi : i ∈ S) {s : Signer G} (hround : s.round = 7)
    (hid : s.id = i) (hcos : s.cosigners = (s0 i).cosigners) {t : ℕ → ℤ} (hti : s.si = t i)
    (ht : ∀ j ∈ S, 0 ≤ t j ∧ t j < q) (hver : ∀ σ, s.verify s.y s.msgHash σ = true)
    {l : List ℕ} (hl : ∀ j, j ∈ l ↔ j ∈ S ∧ j ≠ i) (hn : l.Nodup) {tot : ℤ}
    (htot : 0 ≤ tot ∧ tot < q) (htot' : (tot : ZMod q) = ∑ j ∈ S, (t j : ZMod q)) :
    signOutput E s (l.map fun j => (j, some (some (t j)))) =
      .ok ⟨if tot > (q : ℤ) / 2 then ((E.xy s.R).2 % 2).toNat ^^^ 1 else ((E.xy s.R).2 % 2).toNat,
        s.r, if tot > (q : ℤ) / 2 then q - tot else tot⟩ := by
  obtain ⟨x, h1, h2, h3⟩ := fold_add (H.qpos hi) t l (t i) (ht i hi)
  have hx : x = tot := by
    have : (x : ZMod q) = tot := by
      rw [h3, sum_order hn hl, Finset.add_sum_erase S (fun j => (t j : ZMod q)) hi, htot']
    have := (ZMod.intCast_eq_intCast_iff _ _ q).1 this
    unfold Int.ModEq at this
    rwa [Int.emod_eq_of_lt h2.1 h2.2, Int.emod_eq_of_lt htot.1 htot.2] at this
  subst hx
  unfold signOutput
  rw [inbox_keys, vsm_ok H hi hround hcos hl, Go.ok_bind,
    filter_inbox l s.id _ (fun j hj => by rw [hid]; exact ((hl j).1 hj).2)]
  rw [← hti] at h1
  rw [h1, Go.ok_bind]
  dsimp only
  rw [Go.guard_true (hver _), Go.ok_bind]
  congr 2
  unfold normalizeS
  by_cases hc : x > (q : ℤ) / 2
  · simp only [hc, if_true]
    have : x ≠ q - x ∨ x = q - x := (em _).symm
    by_cases he : x = q - x
    · have : (q : ℤ) / 2 = x := by omega
      omega
    · rw [if_pos he]
  · simp only [hc, if_false, ne_eq, not_true_eq_false]

end

/-- A complete run: every signer in `S` executes all rounds, receiving exactly the messages the
others sent.  `ord n i` is the order in which signer `i` iterates over the messages of inbox `n`. -/
structure Run [DecidableEq G] (E : Env q G) (S : Finset ℕ) (s0 : ℕ → Signer G) (rnd : ℕ → Rnd1)
    (rndM : ℕ → ℕ → RndM × RndM) (rp : ℕ → ℕ → Rand1) (hash : List UInt8)
    (ord : ℕ → ℕ → List ℕ) where
  s1 : ℕ → Signer G
  b1 : ℕ → Bcast1
  p1 : ℕ → List (ℕ × Proof1)
  s2 : ℕ → Signer G
  p2 : ℕ → List (ℕ × P2P)
  s3 : ℕ → Signer G
  b3 : ℕ → ℤ
  s4 : ℕ → Signer G
  b4 : ℕ → Core.Witness
  s5 : ℕ → Signer G
  b5 : ℕ → Bcast5 G
  p5 : ℕ → List (ℕ × Proof1)
  s6 : ℕ → Signer G
  b6 : ℕ → ℤ
  sig : ℕ → Sig
  round1 : ∀ i ∈ S, round1 E (s0 i) (rnd i) = .ok (s1 i, b1 i, p1 i)
  round2 : ∀ i ∈ S, round2 E (s1 i) ((ord 0 i).map fun j => (j, some (b1 j)))
    ((ord 1 i).map fun j => (j, (p1 j).lookup i)) (rndM i) = .ok (s2 i, p2 i)
  round3 : ∀ i ∈ S, round3 E (s2 i) ((ord 2 i).map fun j => (j, (p2 j).lookup i)) =
    .ok (s3 i, b3 i)
  round4 : ∀ i ∈ S, round4 q (s3 i) ((ord 3 i).map fun j => (j, some (some (b3 j)))) =
    .ok (s4 i, b4 i)
  round5 : ∀ i ∈ S, round5 E (s4 i) ((ord 4 i).map fun j => (j, some (some (b4 j)))) (rp i) =
    .ok (s5 i, b5 i, p5 i)
  round6 : ∀ i ∈ S, round6 E (s5 i) hash ((ord 5 i).map fun j => (j, some (b5 j)))
    ((ord 6 i).map fun j => (j, (p5 j).lookup i)) = .ok (s6 i, b6 i)
  output : ∀ i ∈ S, signOutput E (s6 i) ((ord 7 i).map fun j => (j, some (some (b6 j)))) =
    .ok (sig i)

set_option maxHeartbeats 2000000 in
/-- **C45.**  Honest signers with good randomness complete every round, whatever the order in which
they process their messages, and all output the same signature. -/
theorem C45_honest_run [Fact q.Prime] [DecidableEq G] {E : Env q G} {S : Finset ℕ}
    {s0 : ℕ → Signer G} {Dl : ℕ → Dealer} {pp qq : ℕ → ℕ} {tr : Bool}
    (H : Setup E S s0 Dl pp qq tr) (rnd : ℕ → Rnd1) (rndM : ℕ → ℕ → RndM × RndM)
    (rp : ℕ → ℕ → Rand1) (hash : List UInt8) (ord : ℕ → ℕ → List ℕ)
    (hr : ∀ i ∈ S, GoodRnd1 q (pp i * qq i) (rnd i))
    (hm : ∀ i ∈ S, ∀ j ∈ S,
      GoodRndM q (pp j * qq j) (rndM i j).1 ∧ GoodRndM q (pp j * qq j) (rndM i j).2)
    (hrp : ∀ i ∈ S, ∀ j, (rp i j).alpha ≤ (q : ℤ) ^ 3 - 2 ^ 256 * q)
    (hord : ∀ n, ∀ i ∈ S, (ord n i).Nodup ∧ ∀ j, j ∈ ord n i ↔ j ∈ S ∧ j ≠ i)
    (hver : ∀ i ∈ S, ∀ σ, (s0 i).verify (s0 i).y hash σ = true)
    (hhash : beNat hash < q)
    (hK : (∑ i ∈ S, ((rnd i).k : ZMod q)) ≠ 0) (hGam : (∑ i ∈ S, ((rnd i).gamma : ZMod q)) ≠ 0) :
    ∃ (t : Run E S s0 rnd rndM rp hash ord) (tot : ℤ) (R : G),
      (∑ i ∈ S, ((rnd i).k : ZMod q)) • R = E.gen ∧
      (0 ≤ tot ∧ tot < q) ∧
      (tot : ZMod q) = (∑ i ∈ S, ((rnd i).k : ZMod q)) *
        (beNat hash + ((E.xy R).1 : ZMod q) * ∑ i ∈ S, ((s0 i).w : ZMod q)) ∧
      ∀ i ∈ S, t.sig i =
        ⟨if tot > (q : ℤ) / 2 then ((E.xy R).2 % 2).toNat ^^^ 1 else ((E.xy R).2 % 2).toNat,
          (E.xy R).1, if tot > (q : ℤ) / 2 then q - tot else tot⟩ := by
  have h1 := fun i (hi : i ∈ S) => round1_ok H hi (hr i hi)
  choose! c proof pl h1 hc hp1 using h1
  have h2 := fun i (hi : i ∈ S) => round2_ok H hi hr hc
    (C := fun j => E.hmac (rnd j).open_ (E.enc (((rnd j).gamma : ZMod q) • E.gen)))
    (proof := proof) (pl := pl) (fun j hj hne => hp1 j hj i hi (Ne.symm hne))
    (hord 0 i hi).2 (hord 1 i hi).2 (hm i hi)
  have : Nonempty Response := ⟨⟨⟨none, none, none, none, none, none, none, none⟩, none, 0⟩⟩
  choose! rg rw h2 h2' using h2
  choose! alpha mu ha ha' hmu hmu' using h2'
  have h3 := fun i (hi : i ∈ S) => round3_ok H hi (rnd := rnd i) (c := c)
    (C := fun j => E.hmac (rnd j).open_ (E.enc (((rnd j).gamma : ZMod q) • E.gen)))
    (rg := fun j => rg j i) (rw := fun j => rw j i) (alpha := fun j => alpha j i)
    (mu := fun j => mu j i) (bg := fun j => (rg i j).beta) (bw := fun j => (rw i j).beta)
    (hord 0 i hi).2 (fun j hj _ => ⟨ha j hj i hi, hmu j hj i hi⟩) (hord 2 i hi).2 (hord 2 i hi).1
  choose! d sg h3 hd hsg hd' hsg' using h3
  have hdsum : ∑ i ∈ S, (d i : ZMod q) =
      (∑ i ∈ S, ((rnd i).k : ZMod q)) * ∑ i ∈ S, ((rnd i).gamma : ZMod q) := by
    rw [Finset.sum_congr rfl hd']
    exact offdiag S (fun i => ((rnd i).k : ZMod q)) (fun i => ((rnd i).gamma : ZMod q))
      (fun i j => (alpha j i : ZMod q)) (fun i j => ((rg i j).beta : ZMod q))
      (fun i hi j hj _ => by
        have := ha' j hj i hi
        push_cast at this
        exact this)
  have hssum : ∑ i ∈ S, (sg i : ZMod q) =
      (∑ i ∈ S, ((rnd i).k : ZMod q)) * ∑ i ∈ S, ((s0 i).w : ZMod q) := by
    rw [Finset.sum_congr rfl hsg']
    exact offdiag S (fun i => ((rnd i).k : ZMod q)) (fun i => ((s0 i).w : ZMod q))
      (fun i j => (mu j i : ZMod q)) (fun i j => ((rw i j).beta : ZMod q))
      (fun i hi j hj _ => by
        have := hmu' j hj i hi
        push_cast at this
        exact this)
  set st3 : ℕ → Signer G := fun i => after3 (after2 (after1 E (s0 i) (rnd i) (c i)) (ord 0 i) c
    (fun j => E.hmac (rnd j).open_ (E.enc (((rnd j).gamma : ZMod q) • E.gen)))
    (fun j => (rg i j).beta) (fun j => (rw i j).beta)) (d i) (sg i) with hst3
  have h4 := fun i (hi : i ∈ S) => round4_ok H hi (s := st3 i) rfl (H.id i hi) rfl (d := d) rfl hd
    (hord 3 i hi).2 (hord 3 i hi).1
  choose! delta h4 hdel hdel' using h4
  set st4 : ℕ → Signer G := fun i => after4 (st3 i) (delta i) with hst4
  set K := ∑ i ∈ S, ((rnd i).k : ZMod q) with hKdef
  set Gam := ∑ i ∈ S, ((rnd i).gamma : ZMod q) with hGdef
  set R : G := K⁻¹ • E.gen with hRdef
  have hKR : K • R = E.gen := by rw [hRdef, smul_smul, mul_inv_cancel₀ hK, one_smul]
  have h5 := fun i (hi : i ∈ S) => round5_ok H hi (rnd := rnd) hr (s := st4 i) rfl
    (H.id i hi) rfl rfl rfl rfl rfl (hc i hi) rfl
    (fun j hj hne => lookup_map_self _ (ord 0 i) (((hord 0 i hi).2 j).2 ⟨hj, hne⟩))
    (by
      show (delta i : ZMod q) ≠ 0
      rw [hdel' i hi, hdsum]
      exact mul_ne_zero hK hGam)
    (hrp i hi) (hord 4 i hi).2 (hord 4 i hi).1 (R := R)
    (by
      show R = ((delta i : ZMod q)⁻¹ * Gam) • E.gen
      rw [hdel' i hi, hdsum, mul_inv, mul_assoc, inv_mul_cancel₀ hGam, mul_one])
  choose! proof5 pl5 h5 hp5 using h5
  set st5 : ℕ → Signer G := fun i => after5 E (st4 i) R with hst5
  have h6 := fun i (hi : i ∈ S) => round6_ok H hi (s := st5 i) rfl rfl rfl (H.id i hi) rfl (c := c)
    (X := fun j => ((rnd j).k : ZMod q) • R) (proof := proof5) (pl := pl5)
    (hord 5 i hi).2 (hord 5 i hi).1 (hord 6 i hi).2
    (fun j hj hne => ⟨lookup_map_self _ (ord 0 i) (((hord 0 i hi).2 j).2 ⟨hj, hne⟩),
      hp5 j hj i hi (Ne.symm hne)⟩)
    rfl (by rw [← Finset.sum_smul]; exact hKR) hash hhash
  choose! si h6 hsi hsi' using h6
  have hq : 0 < q := (Fact.out : q.Prime).pos
  obtain ⟨tot, htot, htot'⟩ : ∃ tot : ℤ, (0 ≤ tot ∧ tot < q) ∧
      (tot : ZMod q) = ∑ j ∈ S, (si j : ZMod q) :=
    ⟨(∑ j ∈ S, si j) % q, emod_range hq _, by rw [ZMod.intCast_mod]; push_cast; rfl⟩
  have h7 := fun i (hi : i ∈ S) => signOutput_ok H hi (s := after6 (st5 i) (si i) hash) rfl
    (H.id i hi) rfl (t := si) rfl hsi (hver i hi) (hord 7 i hi).2 (hord 7 i hi).1 htot htot'
  refine ⟨{
    s1 := fun i => after1 E (s0 i) (rnd i) (c i)
    b1 := fun i => ⟨E.hmac (rnd i).open_ (E.enc (((rnd i).gamma : ZMod q) • E.gen)), some (c i),
      proof i⟩
    p1 := pl
    s2 := fun i => after2 (after1 E (s0 i) (rnd i) (c i)) (ord 0 i) c
      (fun j => E.hmac (rnd j).open_ (E.enc (((rnd j).gamma : ZMod q) • E.gen)))
      (fun j => (rg i j).beta) (fun j => (rw i j).beta)
    p2 := fun i => (ord 0 i).map fun j => (j, msg2 (rg i j) (rw i j))
    s3 := st3
    b3 := d
    s4 := st4
    b4 := fun i => (st3 i).Di
    s5 := st5
    b5 := fun i => ⟨some (((rnd i).k : ZMod q) • R), proof5 i⟩
    p5 := pl5
    s6 := fun i => after6 (st5 i) (si i) hash
    b6 := si
    sig := fun _ =>
      ⟨if tot > (q : ℤ) / 2 then ((E.xy R).2 % 2).toNat ^^^ 1 else ((E.xy R).2 % 2).toNat,
        (E.xy R).1, if tot > (q : ℤ) / 2 then q - tot else tot⟩
    round1 := h1
    round2 := h2
    round3 := ?_
    round4 := h4
    round5 := h5
    round6 := h6
    output := h7 }, tot, R, hKR, htot, ?_, fun i _ => rfl⟩
  · intro i hi
    rw [← h3 i hi]
    congr 1
    refine List.map_congr_left fun j hj => ?_
    obtain ⟨hjS, hne⟩ := ((hord 2 i hi).2 j).1 hj
    rw [lookup_map_self (fun x => msg2 (rg j x) (rw j x)) (ord 0 j)
      (((hord 0 j hjS).2 i).2 ⟨hi, Ne.symm hne⟩)]
  · rw [htot', Finset.sum_congr rfl hsi', mul_add, Finset.sum_add_distrib]
    have e1 : ∑ i ∈ S, (beNat hash : ZMod q) * ((st5 i).ki : ZMod q) = K * beNat hash := by
      rw [← Finset.mul_sum, mul_comm]
      rfl
    have e2 : ∑ i ∈ S, ((st5 i).r : ZMod q) * ((st5 i).sigmai : ZMod q) =
        K * (((E.xy R).1 : ZMod q) * ∑ i ∈ S, ((s0 i).w : ZMod q)) := by
      have : ∑ i ∈ S, ((st5 i).r : ZMod q) * ((st5 i).sigmai : ZMod q) =
          ((E.xy R).1 : ZMod q) * ∑ i ∈ S, (sg i : ZMod q) := by
        rw [Finset.mul_sum]
        rfl
      rw [this, hssum]
      ring
    rw [e1, e2]

end Verif.Gg20
