import Verif.Gg20.SetupProps

/-! # What the signing rounds check (C48) and what they do not check (C122, C128) -/

set_option linter.unusedSectionVars false
set_option exponentiation.threshold 600

namespace Verif.Gg20

variable {q : ℕ} {G : Type} [AddCommGroup G] [Module (ZMod q) G]

/-! ## C48 -/

/-- The senders are the expected ones: apart from the own identifier, exactly the cosigners. -/
def Senders (s : Signer G) (keys : List ℕ) : Prop :=
  ∀ j, j ≠ s.id → (j ∈ keys ↔ j ∈ s.cosigners)

/-- **C48.**  The check is exact, and a failed check is an error, never a panic. -/
theorem C48_check (s : Signer G) (round : ℕ) (keys : List ℕ) :
    (s.round = round ∧ Senders s keys → verifyStateMap s round (some keys) = .ok ()) ∧
    (¬ (s.round = round ∧ Senders s keys) → verifyStateMap s round (some keys) = Go.err) := by
  refine ⟨verifyStateMap_ok.2, fun h => ?_⟩
  have hne : verifyStateMap s round (some keys) ≠ .ok () := fun h' => h (verifyStateMap_ok.1 h')
  have hg : ∀ (l : List ℕ) (p : ℕ → Prop) [DecidablePred p],
      (l.forM fun id => Go.guard (p id)) = .ok () ∨ (l.forM fun id => Go.guard (p id)) = Go.err := by
    intro l p _
    induction l with
    | nil => exact Or.inl rfl
    | cons a l ih =>
      rw [show ((a :: l).forM fun id => Go.guard (p id)) =
        (Go.guard (p a) >>= fun _ => l.forM fun id => Go.guard (p id)) from rfl]
      by_cases ha : p a
      · rw [Go.guard_true ha, Go.ok_bind]
        exact ih
      · rw [Go.guard_false ha]
        exact Or.inr rfl
  revert hne
  unfold verifyStateMap
  by_cases hr : s.round = round
  · rw [Go.guard_true hr, Go.ok_bind]
    rcases hg keys (fun id => ¬ (id ≠ s.id ∧ id ∉ s.cosigners)) with h1 | h1
    · rcases hg s.cosigners (fun id => ¬ (id ≠ s.id ∧ id ∉ keys)) with h2 | h2
      · intro hne
        exact absurd (by simp only [h1, Go.ok_bind, h2]) hne
      · intro _
        simp only [h1, Go.ok_bind, h2]
    · intro _
      simp only [h1]
      rfl
  · rw [Go.guard_false hr]
    intro _
    rfl

/-- From round `r` to the next one with the same participants. -/
def Advances (s s' : Signer G) (r : ℕ) : Prop :=
  s.round = r ∧ s'.round = r + 1 ∧ s'.id = s.id ∧ s'.cosigners = s.cosigners

/-- **C48.**  A round that succeeds ran in its turn, got its messages from exactly the cosigners,
and advances the counter; the participants stay the same. -/
theorem C48_rounds [DecidableEq G] (E : Env q G) (s s' : Signer G) :
    (∀ rnd b p, round1 E s rnd = .ok (s', b, p) → Advances s s' 1) ∧
    (∀ inp p2p rnd p, round2 E s inp p2p rnd = .ok (s', p) → Advances s s' 2 ∧
      Senders s (inp.map (·.1)) ∧ (s.keygen.trusted = false → Senders s (p2p.map (·.1)))) ∧
    (∀ inp d, round3 E s inp = .ok (s', d) → Advances s s' 3 ∧
      Senders s (inp.map (·.1))) ∧
    (∀ inp D, round4 q s inp = .ok (s', D) → Advances s s' 4 ∧
      Senders s (inp.map (·.1))) ∧
    (∀ inp rp b p, round5 E s inp rp = .ok (s', b, p) → Advances s s' 5 ∧
      Senders s (inp.map (·.1))) ∧
    (∀ hash inp p2p si, round6 E s hash inp p2p = .ok (s', si) → Advances s s' 6 ∧
      Senders s (inp.map (·.1)) ∧ (s.keygen.trusted = false → Senders s (p2p.map (·.1)))) ∧
    (∀ inp σ, signOutput E s inp = .ok σ → s.round = 7 ∧ Senders s (inp.map (·.1))) := by
  have hp2p : ∀ r (keys : List ℕ), verifyP2PMap s r keys = .ok () → s.keygen.trusted = false →
      Senders s keys := by
    intro r keys h ht
    unfold verifyP2PMap at h
    rw [ht] at h
    exact (verifyStateMap_ok.1 h).2
  refine ⟨?_, ?_, ?_, ?_, ?_, ?_, ?_⟩
  · intro rnd b p h
    unfold round1 at h
    simp only [Go.bind_eq_ok] at h
    obtain ⟨_, h1, c, _, h⟩ := h
    unfold verifyStateMap at h1
    rw [Go.guard_bind_eq_ok] at h1
    refine ⟨h1.1, ?_⟩
    cases hk : s.keygen <;> rw [hk] at h <;> simp only [Go.bind_eq_ok] at h <;>
      obtain ⟨_, _, _, _, h4⟩ := h <;> rw [← (Prod.mk.inj (Except.ok.inj h4)).1] <;>
      exact ⟨rfl, rfl, rfl⟩
  · intro inp p2p rnd p h
    unfold round2 at h
    simp only [Go.bind_eq_ok] at h
    obtain ⟨_, h1, _, h2, B, _, outs, _, h4⟩ := h
    have h1 := verifyStateMap_ok.1 h1
    exact ⟨⟨h1.1, by rw [← (Prod.mk.inj (Except.ok.inj h4)).1]; exact ⟨rfl, rfl, rfl⟩⟩, h1.2, hp2p _ _ h2⟩
  · intro inp d h
    unfold round3 at h
    simp only [Go.bind_eq_ok] at h
    obtain ⟨_, h1, _, _, _, _, _, _, h4⟩ := h
    have h1 := verifyStateMap_ok.1 h1
    exact ⟨⟨h1.1, by rw [← (Prod.mk.inj (Except.ok.inj h4)).1]; exact ⟨rfl, rfl, rfl⟩⟩, h1.2⟩
  · intro inp d h
    unfold round4 at h
    simp only [Go.bind_eq_ok] at h
    obtain ⟨_, h1, _, _, h4⟩ := h
    have h1 := verifyStateMap_ok.1 h1
    exact ⟨⟨h1.1, by rw [← (Prod.mk.inj (Except.ok.inj h4)).1]; exact ⟨rfl, rfl, rfl⟩⟩, h1.2⟩
  · intro inp rp b p h
    unfold round5 at h
    simp only [Go.bind_eq_ok] at h
    obtain ⟨_, h1, _, _, _, _, h⟩ := h
    have h1 := verifyStateMap_ok.1 h1
    refine ⟨⟨h1.1, ?_⟩, h1.2⟩
    cases hk : s.keygen <;> rw [hk] at h <;> simp only [Go.bind_eq_ok] at h <;>
      obtain ⟨_, _, _, _, h4⟩ := h <;> rw [← (Prod.mk.inj (Except.ok.inj h4)).1] <;>
      exact ⟨rfl, rfl, rfl⟩
  · intro hash inp p2p si h
    unfold round6 at h
    simp only [Go.bind_eq_ok] at h
    obtain ⟨_, h1, _, h2, _, _, h4⟩ := h
    unfold round6Online at h4
    simp only [Go.bind_eq_ok] at h4
    obtain ⟨_, _, _, _, _, _, _, _, h4⟩ := h4
    have h1 := verifyStateMap_ok.1 h1
    exact ⟨⟨h1.1, by rw [← (Prod.mk.inj (Except.ok.inj h4)).1]; exact ⟨rfl, rfl, rfl⟩⟩, h1.2, hp2p _ _ h2⟩
  · intro inp σ h
    unfold signOutput at h
    simp only [Go.bind_eq_ok] at h
    obtain ⟨_, h1, _⟩ := h
    exact verifyStateMap_ok.1 h1

/-- **C48.**  No round can be executed twice: on the state it produced it fails, whatever the
messages. -/
theorem C48_no_replay [DecidableEq G] (E : Env q G) (s : Signer G) :
    (∀ rnd, s.round ≠ 1 → round1 E s rnd = Go.err) ∧
    (∀ inp p2p rnd, s.round ≠ 2 → round2 E s inp p2p rnd = Go.err) ∧
    (∀ inp, s.round ≠ 3 → round3 E s inp = Go.err) ∧
    (∀ inp, s.round ≠ 4 → round4 q s inp = Go.err) ∧
    (∀ inp rp, s.round ≠ 5 → round5 E s inp rp = Go.err) ∧
    (∀ hash inp p2p, s.round ≠ 6 → round6 E s hash inp p2p = Go.err) ∧
    (∀ inp, s.round ≠ 7 → signOutput E s inp = Go.err) := by
  have h0 : ∀ r k, s.round ≠ r → verifyStateMap s r k = Go.err := by
    intro r k h
    unfold verifyStateMap
    rw [Go.guard_false h]
    rfl
  refine ⟨?_, ?_, ?_, ?_, ?_, ?_, ?_⟩
  · intro rnd h; unfold round1; rw [h0 _ _ h]; rfl
  · intro inp p2p rnd h; unfold round2; rw [h0 _ _ h]; rfl
  · intro inp h; unfold round3; rw [h0 _ _ h]; rfl
  · intro inp h; unfold round4; rw [h0 _ _ h]; rfl
  · intro inp rp h; unfold round5; rw [h0 _ _ h]; rfl
  · intro hash inp p2p h; unfold round6; rw [h0 _ _ h]; rfl
  · intro inp h; unfold signOutput; rw [h0 _ _ h]; rfl

/-! ## C122: the signature is not verified -/

/-- **C122.**  A signer made by `NewSigner` outputs a signature for arbitrary partial signatures of
its cosigners; the last one to answer decides on the value of `s`: every `s` up to `q/2` can be
forced, for every message hash and whatever happened before. -/
theorem C122_output_unchecked [Fact q.Prime] (E : Env q G) (s : Signer G) (hround : s.round = 7)
    (hver : ∀ Y m σ, s.verify Y m σ = true) (l : List ℕ) (hl : Senders s l) (hn : l.Nodup)
    (hid : s.id ∉ l) (t : ℕ → ℤ) (j : ℕ) (hj : j ∈ l) (target : ℤ)
    (ht : 0 ≤ target ∧ target ≤ (q : ℤ) / 2) (hsi : 0 ≤ s.si ∧ s.si < q) :
    ∃ tj v, signOutput E s (l.map fun k => (k, some (some (if k = j then tj else t k)))) =
      .ok ⟨v, s.r, target⟩ := by
  have hq : 0 < q := (Fact.out : q.Prime).pos
  refine ⟨target - s.si - ((l.erase j).map t).sum, ((E.xy s.R).2 % 2).toNat, ?_⟩
  set f : ℕ → ℤ := fun k => if k = j then target - s.si - ((l.erase j).map t).sum else t k with hf
  obtain ⟨x, h1, h2, h3⟩ := fold_add hq f l s.si hsi
  have hsum : (l.map fun k => (f k : ZMod q)).sum = ((target - s.si : ℤ) : ZMod q) := by
    have e1 : (l.map fun k => (f k : ZMod q)).sum = (f j : ZMod q) +
        ((l.erase j).map fun k => (f k : ZMod q)).sum := by
      rw [((List.perm_cons_erase hj).map _).sum_eq, List.map_cons, List.sum_cons]
    have e2 : ((l.erase j).map fun k => (f k : ZMod q)) =
        (l.erase j).map fun k => ((t k : ℤ) : ZMod q) := by
      refine List.map_congr_left fun k hk => ?_
      have : k ≠ j := fun h => by
        rw [h] at hk
        exact (hn.not_mem_erase) hk
      simp [hf, this]
    have e3 : ((l.erase j).map fun k => ((t k : ℤ) : ZMod q)).sum =
        ((((l.erase j).map t).sum : ℤ) : ZMod q) := by
      generalize l.erase j = m
      induction m with
      | nil => simp
      | cons a m ih => simp [ih]
    rw [e1, e2, e3]
    simp [hf]
  have hx : x = target := by
    have hc : (x : ZMod q) = target := by
      rw [h3, hsum]
      push_cast
      ring
    have := (ZMod.intCast_eq_intCast_iff _ _ q).1 hc
    unfold Int.ModEq at this
    have hq2 : (q : ℤ) / 2 < q := by omega
    rwa [Int.emod_eq_of_lt h2.1 h2.2, Int.emod_eq_of_lt ht.1 (by omega)] at this
  unfold signOutput
  rw [inbox_keys, verifyStateMap_ok.2 ⟨hround, hl⟩, Go.ok_bind,
    filter_inbox l s.id _ (fun k hk h => hid (h ▸ hk)), h1, Go.ok_bind]
  dsimp only
  rw [Go.guard_true (hver _ _ _), Go.ok_bind, hx]
  have : normalizeS q target = target := by
    unfold normalizeS
    rw [if_neg (by omega)]
  rw [this]
  simp

/-- **C122.**  `SignOutput` can be called again with other messages, it does not advance. -/
theorem C122_output_again (E : Env q G) (s : Signer G) (inp inp' : List (ℕ × Option (Option ℤ)))
    (σ σ' : Sig) (h : signOutput E s inp = .ok σ) (h' : signOutput E s inp' = .ok σ') :
    σ.r = σ'.r := by
  unfold signOutput at h h'
  simp only [Go.bind_eq_ok] at h h'
  obtain ⟨_, _, _, _, _, _, h⟩ := h
  obtain ⟨_, _, _, _, _, _, h'⟩ := h'
  rw [← Except.ok.inj h, ← Except.ok.inj h']

/-- **C122.**  Before a signer releases its partial signature nothing is checked about the share
`σ_i` of `k·x`: the consistency proof of the protocol (phase 5 of the paper, `σ_i • R`) is not
exchanged, acceptance of round 6 does not depend on `σ_i`. -/
theorem C122_sigma_unchecked [DecidableEq G] [Fact q.Prime] (E : Env q G) (s : Signer G)
    (x : ℤ) (P : G) (hash : List UInt8) (inp : List (ℕ × Option (Bcast5 G)))
    (p2p : List (ℕ × Option Proof1)) :
    (∃ r, round6 E s hash inp p2p = .ok r) ↔
      ∃ r, round6 E { s with
        sigmai := x
        Rbark := P } hash inp p2p = .ok r := by
  have hq : 0 < q := (Fact.out : q.Prime).pos
  have hon : ∀ s : Signer G, (∃ r, round6Online q s hash = .ok r) ↔ beNat hash < q := by
    intro s
    unfold round6Online
    dsimp only
    simp only [core_mul_q hq, core_add_q hq, Go.ok_bind]
    constructor
    · rintro ⟨r, h⟩
      rw [Go.bind_eq_ok] at h
      obtain ⟨_, h, _⟩ := h
      unfold Core.inZm at h
      have := Go.guard_eq_ok.1 h
      exact_mod_cast this.2
    · intro h
      rw [show Core.inZm (some (beNat hash : ℤ)) (some (q : ℤ)) = .ok () from
        Go.guard_eq_ok.2 (by exact ⟨by omega, by exact_mod_cast h⟩), Go.ok_bind]
      exact ⟨_, rfl⟩
  have hoff : ∀ s' : Signer G, (s' = { s with
        sigmai := x
        Rbark := P }) → round6Offline E s' inp p2p = round6Offline E s inp p2p := by
    rintro _ rfl
    rfl
  unfold round6
  simp only [Go.bind_eq_ok]
  constructor
  · rintro ⟨r, u1, h1, u2, h2, u3, h3, h4⟩
    obtain ⟨r', h4'⟩ := (hon { s with
        sigmai := x
        Rbark := P }).2 ((hon s).1 ⟨r, h4⟩)
    exact ⟨r', u1, h1, u2, h2, u3, by rw [hoff _ rfl]; exact h3, h4'⟩
  · rintro ⟨r, u1, h1, u2, h2, u3, h3, h4⟩
    obtain ⟨r', h4'⟩ := (hon s).2 ((hon _).1 ⟨r, h4⟩)
    exact ⟨r', u1, h1, u2, h2, u3, by rw [← hoff _ rfl]; exact h3, h4'⟩

/-! ## C128: parity of the other party's secret -/

/-- **C128.**  An initiator whose ciphertext contains `(N+1)/2` (accepted by `C46_no_range`) gets
shares of `b/2` if the responder's secret `b` is even and of `(b+N)/2` if it is odd. -/
theorem C128_parity {pp qq : ℕ} (h : Paillier.HonestPrimes pp qq) (sk : Paillier.SecretKey)
    (hsk : Paillier.newSecretKey (some pp) (some qq) = .ok sk) (hq : 0 < q)
    (hbig : (q : ℤ) + 1 + 2 * (q : ℤ) ^ 5 ≤ pp * qq) (hodd : ((pp : ℤ) * qq) % 2 = 1)
    (E : Curve q G) (D D' : Dealer) (B B' : Option G)
    (b c1 betaTick rBeta : ℤ) (rp : Rand2) (resp : Response) (alpha : ℤ)
    (hb : 0 ≤ b ∧ b < q) (hbeta : 0 ≤ betaTick ∧ betaTick < (q : ℤ) ^ 5)
    (hc1 : sk.decrypt (some c1) = .ok ((pp * qq + 1) / 2))
    (hc1r : 0 ≤ c1 ∧ c1 < pp * qq * (pp * qq))
    (hresp : genResponse E sk.pk D B b c1 betaTick rBeta rp = .ok resp)
    (hr : IsCoprime rBeta ((pp : ℤ) * qq))
    (hfin : finalize E sk D' B' c1 resp = .ok alpha) :
    2 * ((alpha : ZMod q) + resp.beta) = b + ((pp : ZMod q) * qq) * ((b % 2 : ℤ) : ZMod q) := by
  obtain ⟨h1, _⟩ := C44_wrap h sk hsk hq E D D' B B' _ b c1 betaTick rBeta rp resp alpha hc1 hc1r
    hresp hr hfin
  set N : ℤ := (pp : ℤ) * qq with hN
  have hNpos : 0 < N := by have := h.N_pos; omega
  obtain ⟨a, ha⟩ : ∃ a, N = 2 * a + 1 := ⟨N / 2, by omega⟩
  have ha' : (N + 1) / 2 = a + 1 := by omega
  rw [ha'] at h1
  have hdiv : ((a + 1) * b + betaTick) / N = b / 2 := by
    have hb2 : b = 2 * (b / 2) + b % 2 := by omega
    set m := b / 2 with hm
    set e := b % 2 with he
    have he01 : e = 0 ∨ e = 1 := by omega
    have : (a + 1) * b + betaTick = (m + e * (a + 1) + betaTick) + N * m := by
      rw [hb2, ha]
      ring
    rw [this, Int.add_mul_ediv_left _ _ hNpos.ne', Int.ediv_eq_zero_of_lt, zero_add]
    · rcases he01 with h | h <;> rw [h] <;> omega
    · rcases he01 with h | h <;> rw [h] <;> omega
  rw [hdiv] at h1
  have h2 := (ZMod.intCast_eq_intCast_iff _ _ q).2 h1
  have h3 : 2 * ((a + 1) * b - b / 2 * N) = b + N * (b % 2) := by
    have hb2 : b = 2 * (b / 2) + b % 2 := by omega
    rw [ha]
    linear_combination (2 * a + 1) * hb2
  have h4 : ((2 * ((a + 1) * b - b / 2 * N) : ℤ) : ZMod q) = ((b + N * (b % 2) : ℤ) : ZMod q) := by
    rw [h3]
  rw [Int.cast_mul, ← h2, hN] at h4
  push_cast at h4
  rw [h4]

/-- **C128.**  So an initiator that continues with `k = 1/2` has correct shares of the product,
hence a run without abort and a valid signature, iff the secret of the responder is even. -/
theorem C128_parity_iff [Fact q.Prime] (h2 : q ≠ 2) {pp qq : ℕ} (hN : ¬ (q : ℤ) ∣ (pp : ℤ) * qq)
    {alpha beta b : ℤ} (h : 2 * ((alpha : ZMod q) + beta) =
      b + ((pp : ZMod q) * qq) * ((b % 2 : ℤ) : ZMod q)) :
    (alpha : ZMod q) + beta = 2⁻¹ * b ↔ b % 2 = 0 := by
  have h2' : (2 : ZMod q) ≠ 0 := by
    intro h0
    have : (q : ℕ) ∣ 2 := (ZMod.natCast_eq_zero_iff 2 q).1 (by exact_mod_cast h0)
    exact h2 ((Nat.prime_dvd_prime_iff_eq Fact.out Nat.prime_two).1 this)
  have hN' : ((pp : ZMod q) * qq) ≠ 0 := by
    intro h0
    exact hN ((ZMod.intCast_zmod_eq_zero_iff_dvd _ q).1 (by push_cast; exact h0))
  constructor
  · intro h3
    rw [h3, mul_inv_cancel_left₀ h2'] at h
    rcases Int.emod_two_eq b with h4 | h4
    · exact h4
    · rw [h4] at h
      exact absurd (by simpa using h) hN'
  · intro h3
    rw [h3] at h
    rw [eq_inv_mul_iff_mul_eq₀ h2', h]
    simp

/-! ## Nil messages -/

/-- A nil message among otherwise complete ones is a panic in round 4 and in the output, not an
error. -/
theorem C48_nil_panics (hq : 0 < q) (E : Env q G) (s : Signer G) (pre post : List ℕ) (j : ℕ)
    (t : ℕ → ℤ) (hl : Senders s (pre ++ j :: post)) (hid : s.id ∉ pre ++ j :: post) :
    (s.round = 4 → (0 ≤ s.deltai ∧ s.deltai < q) →
      round4 q s ((pre ++ j :: post).map fun k => (k, if k = j then none else some (some (t k)))) =
        Go.crash) ∧
    (s.round = 7 → (0 ≤ s.si ∧ s.si < q) →
      signOutput E s ((pre ++ j :: post).map fun k =>
        (k, if k = j then none else some (some (t k)))) = Go.crash) := by
  have key : ∀ (l : List ℕ) (a : ℤ), j ∈ l → 
      (l.map fun k => (k, if k = j then none else some (some (t k)))).foldlM (fun acc jd => do
        let m ← deref jd.2
        Core.add (some acc) m (some (q : ℤ))) a = (Go.crash : Go ℤ) := by
    intro l
    induction l with
    | nil => intro a h; simp at h
    | cons b l ih =>
      intro a h
      rw [List.map_cons, List.foldlM_cons]
      by_cases hb : b = j
      · subst hb
        rw [if_pos rfl]
        rfl
      · rw [if_neg hb]
        simp only [deref, Go.ok_bind]
        rw [core_add_q hq, Go.ok_bind]
        exact ih _ (by simpa [Ne.symm hb] using h)
  have hf : ∀ k ∈ pre ++ j :: post, k ≠ s.id := fun k hk h => hid (h ▸ hk)
  refine ⟨fun hr _ => ?_, fun hr _ => ?_⟩
  · unfold round4
    rw [inbox_keys, verifyStateMap_ok.2 ⟨hr, hl⟩, Go.ok_bind, filter_inbox _ _ _ hf,
      key _ _ (by simp)]
    rfl
  · unfold signOutput
    rw [inbox_keys, verifyStateMap_ok.2 ⟨hr, hl⟩, Go.ok_bind, filter_inbox _ _ _ hf,
      key _ _ (by simp)]
    rfl

/-! ## Concrete instances -/

/-- Signer 1 with cosigners 2 and 3 in a given round. -/
def toySigner (round : ℕ) : Signer (ZMod 257) where
  id := 1
  sk := toySk
  w := 5
  pub := []
  threshold := 3
  y := 15
  round := round
  keygen := .dealer toyD
  verify _ _ _ := true
  cosigners := [2, 3]
  pks := []
  ki := 11
  gammai := 12
  Gammai := 36
  Di := ⟨[], []⟩
  ci := 0
  ri := 0
  cj := []
  Cj := []
  betaj := []
  vuj := []
  deltai := 7
  sigmai := 8
  delta := 9
  r := 100
  Rbari := 3
  Rbark := 4
  R := 100
  si := 20
  msgHash := [1]

theorem toySigner_senders (r : ℕ) : Senders (toySigner r) [3, 2] := by
  intro j _
  simp [toySigner, or_comm]

example : verifyStateMap (toySigner 4) 4 (some [3, 2]) = .ok () ∧
    verifyStateMap (toySigner 4) 4 (some [3, 2, 4]) = Go.err ∧
    verifyStateMap (toySigner 4) 4 (some [3]) = Go.err :=
  ⟨(C48_check _ _ _).1 ⟨rfl, toySigner_senders 4⟩,
    (C48_check _ _ _).2 fun h => by simpa [toySigner] using h.2 4 (by simp [toySigner]),
    (C48_check _ _ _).2 fun h => by simpa [toySigner] using h.2 2 (by simp [toySigner])⟩

example : ∃ s' D, round4 257 (toySigner 4) [(3, some (some 4)), (2, some (some 5))] = .ok (s', D) ∧
    Advances (toySigner 4) s' 4 := by
  have h : round4 257 (toySigner 4) [(3, some (some 4)), (2, some (some 5))] =
      .ok (after4 (toySigner 4) 16, ⟨[], []⟩) := rfl
  exact ⟨_, _, h, ((C48_rounds toyEnv _ _).2.2.2.1 _ _ h).1⟩

example : round4 257 (toySigner 5) [] = Go.err := (C48_no_replay toyEnv _).2.2.2.1 [] (by decide)

/-- The last signer forces `s = 99`. -/
example : ∃ t v, signOutput toyEnv (toySigner 7)
    ([3, 2].map fun k => (k, some (some (if k = 2 then t else 50)))) = .ok ⟨v, 100, 99⟩ :=
  C122_output_unchecked toyEnv (toySigner 7) rfl (fun _ _ _ => rfl) [3, 2] (toySigner_senders 7)
    (by decide) (by decide) (fun _ => 50) 2 (by simp) 99 (by norm_num) (by norm_num [toySigner])

example : ∃ σ σ', signOutput toyEnv (toySigner 7) [(2, some (some 1)), (3, some (some 2))] = .ok σ ∧
    signOutput toyEnv (toySigner 7) [(2, some (some 1)), (3, some (some 3))] = .ok σ' ∧
    σ.r = σ'.r ∧ σ.s ≠ σ'.s :=
  ⟨_, _, rfl, rfl, C122_output_again toyEnv (toySigner 7) [(2, some (some 1)), (3, some (some 2))]
    [(2, some (some 1)), (3, some (some 3))] _ _ rfl rfl, by decide +kernel⟩

example : signOutput toyEnv (toySigner 7) [(3, some (some 1)), (2, none)] = Go.crash :=
  (C48_nil_panics (by norm_num) toyEnv (toySigner 7) [3] [] 2 (fun _ => 1) (toySigner_senders 7)
    (by decide)).2 rfl (by norm_num [toySigner])

/-- Round 6 with the only cosigner absent from the inbox of a two-party signer: the check on `V` is
reached and decides, independently of `σ_i`. -/
example : (∃ r, round6 toyEnv { toySigner 6 with cosigners := [] } [1] [] [] = .ok r) ∧
    ∃ r, round6 toyEnv { toySigner 6 with
      cosigners := []
      sigmai := 77
      Rbark := 5 } [1] [] [] = .ok r := by
  have h : ∃ r, round6 toyEnv { toySigner 6 with cosigners := [] } [1] [] [] = .ok r := by
    have h' : (round6 toyEnv { toySigner 6 with cosigners := [] } [1] [] []).isOk = true := by
      decide +kernel
    cases h : round6 toyEnv { toySigner 6 with cosigners := [] } [1] [] [] with
    | ok r => exact ⟨r, rfl⟩
    | error e => rw [h] at h'; cases h'
  exact ⟨h, (C122_sigma_unchecked toyEnv { toySigner 6 with cosigners := [] } 77 5 [1] [] []).1 h⟩

/-- A Paillier key with modulus `23 · 29`. -/
def toySk667 : Paillier.SecretKey := ⟨⟨667, 444889⟩, 308, 616, 340⟩

/-- The response with `b = 1` to the encryption of `334 = (667+1)/2`. -/
def toyResp667 : Response :=
  ⟨⟨some 1, some 5, some 257, some 16, some 19, some 34, some 1012, some 31⟩, some 442881, 1⟩

theorem toy_parity : 2 * (((0 : ℤ) : ZMod 3) + (toyResp667.beta : ℤ)) =
    ((1 : ℤ) : ZMod 3) + (((23 : ℕ) : ZMod 3) * (29 : ℕ)) * (((1 : ℤ) % 2 : ℤ) : ZMod 3) :=
  C128_parity (q := 3) (pp := 23) (qq := 29)
    ⟨by norm_num, by norm_num, by norm_num, by decide⟩ toySk667 (by decide +kernel) (by norm_num)
    (by norm_num) (by norm_num) toyE toyD toyD none none 1 168929 200 7 ⟨11, 7, 12, 3, 4, 5, 6⟩
    toyResp667 0 (by norm_num) (by norm_num) (by decide +kernel) (by norm_num) (by decide +kernel)
    (by rw [Int.isCoprime_iff_gcd_eq_one]; decide +kernel) (by decide +kernel)

/-- The secret 1 is odd, so the shares are not shares of `1/2`. -/
example : ((0 : ℤ) : ZMod 3) + (toyResp667.beta : ℤ) ≠ 2⁻¹ * ((1 : ℤ) : ZMod 3) := by
  have : Fact (Nat.Prime 3) := ⟨by norm_num⟩
  rw [Ne, C128_parity_iff (q := 3) (by norm_num) (pp := 23) (qq := 29) (by norm_num) toy_parity]
  norm_num

end Verif.Gg20
