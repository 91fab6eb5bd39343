import Verif.Gg20.ProofLemmas

/-!
# Properties of the GG20 zero-knowledge proofs (C44, C46)
-/

set_option linter.unusedSectionVars false

namespace Verif.Gg20

variable {q : ℕ} {G : Type*} [AddCommGroup G] [Module (ZMod q) G]

/-! ## Shared arithmetic -/

theorem div_step {n a e w : ℤ} {z : Option ℤ} (hn : 0 < n) (he : 0 ≤ e) :
    (do let zInv ← Core.inv z (some n)
        let b ← Core.exp (some zInv) (some e) (some n)
        Core.mul (some a) b (some n)) = (.ok w : Go ℤ) ↔
      ∃ z', z = some z' ∧ IsCoprime z' n ∧ (0 ≤ w ∧ w < n) ∧ w * z' ^ e.toNat ≡ a [ZMOD n] := by
  simp only [Go.bind_eq_ok, core_exp_eq_ok]
  constructor
  · rintro ⟨i, h1, o, h2, h3⟩
    match z, h1 with
    | some z, h1 =>
      rw [core_inv_eq_ok hn] at h1
      obtain ⟨a', b, ha, rfl, hw, hm⟩ := (mul_opt_eq_ok hn).1 h3
      obtain rfl := Option.some.inj ha
      have h2' := (isPow_nonneg he).1 ((exp_eq_some hn).1 h2).2
      exact ⟨z, rfl, coprime_of_inv h1.2, hw,
        (div_pow_iff _ h1.2).1 (hm.trans (h2'.mul_left _))⟩
  · rintro ⟨z', rfl, hz, hw, hm⟩
    obtain ⟨i, hi, hi'⟩ := exists_inv hn hz
    refine ⟨i, (core_inv_eq_ok hn).2 ⟨hi, hi'⟩, _, (exp_eq_some hn).2
      ⟨⟨Int.emod_nonneg _ hn.ne', Int.emod_lt_of_pos _ hn⟩,
        (isPow_nonneg he).2 (Int.mod_modEq _ _)⟩, (mul_some_eq_ok hn).2 ⟨hw, ?_⟩⟩
    exact ((div_pow_iff _ hi').2 hm).trans ((Int.mod_modEq _ _).symm.mul_left _)

theorem div_step_raw {n a e w : ℤ} {z : Option ℤ} (hn : 0 < n) (he : 0 ≤ e) :
    (do let zInv ← Core.inv z (some n)
        let b ← rawExp zInv (some e) n
        Core.mul (some a) b (some n)) = (.ok w : Go ℤ) ↔
      ∃ z', z = some z' ∧ IsCoprime z' n ∧ (0 ≤ w ∧ w < n) ∧ w * z' ^ e.toNat ≡ a [ZMOD n] :=
  div_step hn he

/-- The relation checked on the ring-Pedersen side of every proof. -/
def HRel (D : Dealer) (e s1 s2 z w : ℤ) : Prop :=
  IsCoprime z D.N ∧ (0 ≤ w ∧ w < D.N) ∧
    ∃ a b, IsPow D.N D.H1 s1 a ∧ IsPow D.N D.H2 s2 b ∧ w * z ^ e.toNat ≡ a * b [ZMOD D.N]

/-- The relation checked on the Paillier side: `u · c^e ≡ (N+1)^s1 · s^N` modulo `N²`. -/
def PRel (N e s1 s c u : ℤ) : Prop :=
  IsCoprime c N ∧ (0 ≤ u ∧ u < N * N) ∧
    ∃ x, IsPow (N * N) (N + 1) s1 x ∧ u * c ^ e.toNat ≡ x * s ^ N.toNat [ZMOD N * N]

theorem wHat1_eq_ok {D : Dealer} {pi : Proof1} {e w : ℤ} (hD : 0 < D.N) (hpe : pi.e = some e)
    (he : 0 ≤ e) :
    wHat1 D pi = .ok w ↔ ∃ s1 s2 z, pi.s1 = some s1 ∧ pi.s2 = some s2 ∧ pi.z = some z ∧
      HRel D e s1 s2 z w := by
  unfold wHat1 HRel
  rw [hpe, Go.bind_eq_ok]
  simp only [div_step hD he, pedersen_opt_eq_ok hD]
  constructor
  · rintro ⟨v, ⟨s1, s2, h1, h2, hv, a, b, ha, hb, hm⟩, z, hz, hc, hw, hm'⟩
    exact ⟨s1, s2, z, h1, h2, hz, hc, hw, a, b, ha, hb, hm'.trans hm⟩
  · rintro ⟨s1, s2, z, h1, h2, hz, hc, hw, a, b, ha, hb, hm⟩
    exact ⟨a * b % D.N, ⟨s1, s2, h1, h2,
      ⟨Int.emod_nonneg _ hD.ne', Int.emod_lt_of_pos _ hD⟩, a, b, ha, hb, Int.mod_modEq _ _⟩,
      z, hz, hc, hw, hm.trans (Int.mod_modEq _ _).symm⟩

theorem hHat_eq_ok {D : Dealer} {s1 s2 z : Option ℤ} {e w : ℤ} (hD : 0 < D.N) (he : 0 ≤ e) :
    hHat D s1 s2 z (some e) = .ok w ↔ ∃ s1' s2' z', s1 = some s1' ∧ s2 = some s2' ∧ z = some z' ∧
      HRel D e s1' s2' z' w :=
  wHat1_eq_ok (pi := ⟨z, some e, none, s1, s2⟩) hD rfl he

theorem uHat1_eq_ok {N : ℤ} {pi : Proof1} {c : Option ℤ} {e u : ℤ} (hN : 0 < N)
    (hpe : pi.e = some e) (he : 0 ≤ e) :
    uHat1 ⟨N, N * N⟩ c pi = .ok u ↔ ∃ s1 s c', pi.s1 = some s1 ∧ pi.s = some s ∧ c = some c' ∧
      PRel N e s1 s c' u := by
  have hNN : 0 < N * N := by positivity
  unfold uHat1 PRel
  rw [hpe, Go.bind_eq_ok]
  simp only [div_step hNN he, inc_opt_eq_ok hN, coprime_sq]
  constructor
  · rintro ⟨v, ⟨s1, s, h1, h2, hv, x, hx, hm⟩, c', hc, hcc, hu, hm'⟩
    exact ⟨s1, s, c', h1, h2, hc, hcc, hu, x, hx, hm'.trans hm⟩
  · rintro ⟨s1, s, c', h1, h2, hc, hcc, hu, x, hx, hm⟩
    exact ⟨x * s ^ N.toNat % (N * N), ⟨s1, s, h1, h2,
      ⟨Int.emod_nonneg _ hNN.ne', Int.emod_lt_of_pos _ hNN⟩, x, hx, Int.mod_modEq _ _⟩,
      c', hc, hcc, hu, hm.trans (Int.mod_modEq _ _).symm⟩

theorem pdlVHat_eq_ok {N c s1 s e u : ℤ} (hN : 0 < N) (he : 0 ≤ e) :
    pdlVHat ⟨N, N * N⟩ c s1 s e = .ok u ↔ PRel N e s1 s c u := by
  have h := uHat1_eq_ok (pi := ⟨none, some e, some s, some s1, none⟩) (c := some c) (u := u) hN rfl he
  simp only [Option.some.injEq, existsAndEq, true_and] at h
  exact h

/-! ## Honest values satisfy the relations -/

theorem hrel_honest {D : Dealer} (hD : 0 < D.N) (h1 : IsCoprime D.H1 D.N)
    (h2 : IsCoprime D.H2 D.N) {a rho alpha gamma z w : ℤ} (e : ℕ)
    (hz : pedersen (some D.H1) (some D.H2) (some a) (some rho) (some D.N) = .ok z)
    (hw : pedersen (some D.H1) (some D.H2) (some alpha) (some gamma) (some D.N) = .ok w) :
    HRel D e (e * a + alpha) (e * rho + gamma) z w := by
  obtain ⟨_, x, y, hx, hy, hz⟩ := (pedersen_eq_ok hD).1 hz
  obtain ⟨hw0, x', y', hx', hy', hw⟩ := (pedersen_eq_ok hD).1 hw
  obtain ⟨N, H1, H2⟩ := D
  simp only at *
  lift N to ℕ using hD.le
  obtain ⟨u1, hu1⟩ := coprime_iff_unit.1 h1
  obtain ⟨u2, hu2⟩ := coprime_iff_unit.1 h2
  have hN : (0 : ℤ) < N := hD
  obtain ⟨p, _, hp⟩ := exists_isPow (k := e * a + alpha) hN h1
  obtain ⟨r, _, hr⟩ := exists_isPow (k := e * rho + gamma) hN h2
  have hp' := (isPow_unit hu1).1 hp
  have hr' := (isPow_unit hu2).1 hr
  rw [isPow_unit hu1] at hx hx'
  rw [isPow_unit hu2] at hy hy'
  rw [← ZMod.intCast_eq_intCast_iff] at hz hw
  refine ⟨coprime_iff_unit.2 ⟨u1 ^ a * u2 ^ rho, ?_⟩, hw0, p, r, hp, hr, ?_⟩
  · rw [hz]; push_cast; rw [hx, hy]
  · rw [← ZMod.intCast_eq_intCast_iff]
    push_cast
    rw [hw, hz]
    push_cast
    rw [hx, hy, hx', hy', hp', hr']
    simp only [Int.toNat_natCast]
    norm_cast
    rw [zpow_add, zpow_add, mul_comm (e : ℤ) a, mul_comm (e : ℤ) rho, zpow_mul, zpow_mul, mul_pow,
      zpow_natCast, zpow_natCast]
    ac_rfl

theorem prel_honest {N : ℤ} (hN : 0 < N) {a m r c alpha beta u s : ℤ} (e : ℕ)
    (hm : IsPow (N * N) (N + 1) a m) (hc : c ≡ m * r ^ N.toNat [ZMOD N * N])
    (hr : IsCoprime r N)
    (hu : inc (some alpha) (some beta) (some N) = .ok u)
    (hs : s ≡ r ^ e * beta [ZMOD N]) :
    PRel N e (e * a + alpha) s c u := by
  obtain ⟨hu0, x, hx, hu⟩ := (inc_eq_ok hN).1 hu
  have hs' := pow_N_congr hN hs
  have hNN : 0 < N * N := by positivity
  lift N to ℕ using hN.le
  obtain ⟨p, _, hp⟩ := exists_isPow (k := e * a + alpha) hNN (coprime_np1 N)
  have hcop := coprime_np1 (N : ℤ)
  have hcopr : IsCoprime r ((N : ℤ) * N) := coprime_sq.2 hr
  have hcast : ((N : ℤ) * N) = ((N * N : ℕ) : ℤ) := by push_cast; rfl
  simp only [Int.toNat_natCast] at *
  refine ⟨coprime_sq.1 ?_, hu0, p, hp, ?_⟩
  · rw [hcast] at hcop hcopr hm hc ⊢
    obtain ⟨v, hv⟩ := coprime_iff_unit.1 hcop
    obtain ⟨ur, hur⟩ := coprime_iff_unit.1 hcopr
    rw [isPow_unit hv] at hm
    rw [← ZMod.intCast_eq_intCast_iff] at hc
    refine coprime_iff_unit.2 ⟨v ^ a * ur ^ N, ?_⟩
    rw [hc]; push_cast; rw [hm, hur]
  · simp only [Int.toNat_natCast]
    rw [hcast] at hcop hm hc hu hx hp hs' ⊢
    obtain ⟨v, hv⟩ := coprime_iff_unit.1 hcop
    rw [isPow_unit hv] at hm hx hp
    rw [← ZMod.intCast_eq_intCast_iff] at hc hu hs' ⊢
    push_cast at hc hu hs' ⊢
    rw [hu, hc, hs', hm, hx, hp, zpow_add, mul_comm (e : ℤ) a, zpow_mul, zpow_natCast]
    push_cast
    ring

theorem pedersen_total {g h a b n : ℤ} (hn : 0 < n) (hg : IsCoprime g n) (hh : IsCoprime h n) :
    ∃ v, pedersen (some g) (some h) (some a) (some b) (some n) = .ok v := by
  obtain ⟨x, _, hx⟩ := exists_isPow (k := a) hn hg
  obtain ⟨y, _, hy⟩ := exists_isPow (k := b) hn hh
  exact ⟨x * y % n, (pedersen_eq_ok hn).2 ⟨⟨Int.emod_nonneg _ hn.ne', Int.emod_lt_of_pos _ hn⟩,
    x, y, hx, hy, Int.mod_modEq _ _⟩⟩

theorem inc_total {a b N : ℤ} (hN : 0 < N) :
    ∃ v, inc (some a) (some b) (some N) = .ok v := by
  have hNN : 0 < N * N := by positivity
  obtain ⟨x, _, hx⟩ := exists_isPow (k := a) hNN (coprime_np1 N)
  exact ⟨x * b ^ N.toNat % (N * N), (inc_eq_ok hN).2 ⟨⟨Int.emod_nonneg _ hNN.ne',
    Int.emod_lt_of_pos _ hNN⟩, x, hx, Int.mod_modEq _ _⟩⟩

theorem pedersen_resp {r b N : ℤ} (hN : 0 < N) (e : ℕ) :
    ∃ s, pedersen (some r) (some b) (some (e : ℤ)) (some 1) (some N) = .ok s ∧
      s ≡ r ^ e * b [ZMOD N] := by
  refine ⟨r ^ e * b % N, (pedersen_eq_ok hN).2 ⟨⟨Int.emod_nonneg _ hN.ne', Int.emod_lt_of_pos _ hN⟩,
    r ^ e, b, (isPow_nonneg (by positivity)).2 (by simp),
    (isPow_nonneg (by norm_num)).2 (by simp), Int.mod_modEq _ _⟩, Int.mod_modEq _ _⟩

/-! ## C46: the first range proof -/

/-- What `Range1Proof.Verify` decides: the bound on `s1` (one-sided) and a challenge that is the
hash of commitments satisfying the two verification equations. -/
def Accept1 (E : Curve q G) (N : ℤ) (D : Dealer) (c z e s s1 s2 : ℤ) : Prop :=
  s1 ≤ (q : ℤ) ^ 3 ∧ ∃ u w, PRel N e s1 s c u ∧ HRel D e s1 s2 z w ∧
    e = fsHash E.kdf [(E.xy E.gen).1, (E.xy E.gen).2, q, N, D.N, D.H1, D.H2, c, z, u, w]

theorem range1Input_some (E : Curve q G) (N : ℤ) (D : Dealer) (c z u w : ℤ) :
    challenge E.kdf (range1Input E N D (some c) (some z) u w) = .ok (fsHash E.kdf
      [(E.xy E.gen).1, (E.xy E.gen).2, q, N, D.N, D.H1, D.H2, c, z, u, w] : ℤ) :=
  challenge_some E.kdf [(E.xy E.gen).1, (E.xy E.gen).2, q, N, D.N, D.H1, D.H2, c, z, u, w]

/-- Exact decision of the verifier of the first range proof, for arbitrary (also nil) proof
fields. -/
theorem C46_verify_iff (E : Curve q G) (N : ℤ) (hN : 0 < N) (D : Dealer) (hD : 0 < D.N)
    (c : Option ℤ) (pi : Proof1) :
    verify1 E ⟨N, N * N⟩ D c pi = .ok () ↔ ∃ c' z e s s1 s2, c = some c' ∧
      pi = ⟨some z, some e, some s, some s1, some s2⟩ ∧ Accept1 E N D c' z e s s1 s2 := by
  unfold verify1
  simp only [Go.bind_eq_ok, Go.guard_eq_ok, Core.C14_constantTimeEq]
  constructor
  · rintro ⟨_, h1, u, hu, w, hw, e, hch, hpe⟩
    have he := challenge_nonneg hch
    obtain ⟨s1, s, c', hs1, hs, hc, hP⟩ := (uHat1_eq_ok hN hpe he).1 hu
    obtain ⟨s1', s2, z, hs1', hs2, hz, hH⟩ := (wHat1_eq_ok hD hpe he).1 hw
    obtain rfl := Option.some.inj (hs1.symm.trans hs1')
    subst hc
    rw [hz, range1Input_some] at hch
    rw [hs1] at h1
    simp only [cmpLe, Go.guard_eq_ok, not_lt, gt_iff_lt] at h1
    obtain ⟨pz, pe, ps, ps1, ps2⟩ := pi
    simp only at hpe hs1 hs hs2 hz
    subst hpe hs1 hs hs2 hz
    exact ⟨c', z, e, s, s1, s2, rfl, rfl, h1, u, w, hP, hH, (Except.ok.inj hch).symm⟩
  · rintro ⟨c', z, e, s, s1, s2, rfl, rfl, h1, u, w, hP, hH, he⟩
    have he0 : 0 ≤ e := by rw [he]; positivity
    refine ⟨(), ?_, u, (uHat1_eq_ok hN rfl he0).2 ⟨s1, s, c', rfl, rfl, rfl, hP⟩, w,
      (wHat1_eq_ok hD rfl he0).2 ⟨s1, s2, z, rfl, rfl, rfl, hH⟩, e, ?_, rfl⟩
    · simpa [cmpLe, Go.guard_eq_ok] using h1
    · rw [range1Input_some, ← he]

/-- `genProof1` on any integer `a` with `c` an encryption of `a` produces a proof that is accepted
exactly when its `s1 = e·a + α` is at most `q³`. -/
theorem range1_honest (E : Curve q G) (N : ℤ) (hN : 0 < N) (D : Dealer) (hD : 0 < D.N)
    (h1 : IsCoprime D.H1 D.N) (h2 : IsCoprime D.H2 D.N) (a c r m : ℤ) (rp : Rand1)
    (hm : IsPow (N * N) (N + 1) a m) (hc : c ≡ m * r ^ N.toNat [ZMOD N * N])
    (hr : IsCoprime r N) :
    ∃ pi, ∃ e : ℕ, genProof1 E ⟨N, N * N⟩ D a c r rp = .ok pi ∧ pi.e = some (e : ℤ) ∧
      (∃ vs, e = fsHash E.kdf vs) ∧
      (verify1 E ⟨N, N * N⟩ D (some c) pi = .ok () ↔ e * a + rp.alpha ≤ (q : ℤ) ^ 3) := by
  obtain ⟨z, hz⟩ := pedersen_total (a := a) (b := rp.rho) hD h1 h2
  obtain ⟨u, hu⟩ := inc_total (a := rp.alpha) (b := rp.beta) hN
  obtain ⟨w, hw⟩ := pedersen_total (a := rp.alpha) (b := rp.gamma) hD h1 h2
  set e : ℕ := fsHash E.kdf [(E.xy E.gen).1, (E.xy E.gen).2, q, N, D.N, D.H1, D.H2, c, z, u, w]
    with he
  obtain ⟨s, hs, hs'⟩ := pedersen_resp (r := r) (b := rp.beta) hN e
  refine ⟨⟨some z, some (e : ℤ), some s, some (e * a + rp.alpha), some (e * rp.rho + rp.gamma)⟩, e,
    ?_, rfl, ⟨_, rfl⟩, ?_⟩
  · unfold genProof1
    simp only [hz, hu, hw, range1Input_some, Go.ok_bind, ← he, hs, schnorr_eq]
  · rw [C46_verify_iff E N hN D hD]
    constructor
    · rintro ⟨c', z', e', s', s1, s2, _, hpi, hacc⟩
      injection hpi with _ _ _ h4 _
      rw [Option.some.inj h4]
      exact hacc.1
    · intro hle
      exact ⟨c, z, e, s, _, _, rfl, rfl, hle, u, w, prel_honest hN e hm hc hr hu hs',
        hrel_honest hD h1 h2 e hz hw, by rw [he]⟩

theorem fsHash_lt {kdf : List UInt8 → List UInt8} (hk : ∀ x, (kdf x).length = 32) (vs : List ℤ) :
    fsHash kdf vs < 2 ^ 256 := by
  have hlen : ∀ (l : List (List UInt8)) f okm, okm.length = 32 →
      (Core.chain kdf f okm l).length = 32 := by
    intro l
    induction l with
    | nil => intro f okm h; exact h
    | cons a l ih => intro f okm _; exact ih _ _ (hk _)
  have h := beNat_lt (Core.chain kdf Core.f0 Core.okm0 (vs.map intBytes))
  rw [hlen _ _ _ (by simp [Core.okm0])] at h
  calc fsHash kdf vs < 256 ^ 32 := h
    _ = 2 ^ 256 := by norm_num

/-- Completeness: a plaintext in `[0, q)`, honestly encrypted, and any randomness for the proof
with `α ≤ q³ - 2²⁵⁶·q` gives a proof that verifies; for larger `α` the decision is exactly
`e·a + α ≤ q³`. -/
theorem C46_range1_complete (E : Curve q G) (hk : ∀ x, (E.kdf x).length = 32) (N : ℤ) (hN : 1 < N)
    (D : Dealer) (hD : 0 < D.N) (h1 : IsCoprime D.H1 D.N) (h2 : IsCoprime D.H2 D.N)
    (a c r : ℤ) (rp : Rand1) (ha : 0 ≤ a ∧ a < q)
    (henc : Paillier.PublicKey.encrypt ⟨N, N * N⟩ (some a) (some r) = .ok c)
    (hr : IsCoprime r N) :
    ∃ pi, ∃ e : ℕ, prove1 E ⟨N, N * N⟩ D a c r rp = .ok pi ∧ pi.e = some (e : ℤ) ∧
      (verify1 E ⟨N, N * N⟩ D (some c) pi = .ok () ↔ e * a + rp.alpha ≤ (q : ℤ) ^ 3) ∧
      (rp.alpha ≤ (q : ℤ) ^ 3 - 2 ^ 256 * q → verify1 E ⟨N, N * N⟩ D (some c) pi = .ok ()) := by
  obtain ⟨⟨m0, m1⟩, ⟨r0, r1⟩, _, hE⟩ := (Paillier.encrypt_eq_ok hN).1 henc
  have hm : IsPow (N * N) (N + 1) a ((1 + N) ^ a.toNat) := by
    rw [isPow_nonneg m0, add_comm]
  obtain ⟨pi, e, hg, he, ⟨vs, hvs⟩, hv⟩ :=
    range1_honest E N (by omega) D hD h1 h2 a c r _ rp hm hE hr
  refine ⟨pi, e, ?_, he, hv, fun hal => hv.2 ?_⟩
  · unfold prove1 Core.inZm
    simp only
    rw [Go.guard_true (by omega), Go.ok_bind, Go.guard_true (by omega), Go.ok_bind]
    exact hg
  · have hlt : (e : ℤ) < 2 ^ 256 := by
      have := fsHash_lt hk vs
      rw [← hvs] at this
      exact_mod_cast this
    have : (e : ℤ) * a ≤ 2 ^ 256 * q := mul_le_mul hlt.le ha.2.le ha.1 (by positivity)
    linarith

/-- The bound is checked on one side only: for **every** plaintext `m` in `[0, N)` there is an
accepted range proof for its honest encryption, whatever the curve order `q`.  The prover runs the
proof algorithm on the representative `m - N ≤ 0`. -/
theorem C46_no_range (E : Curve q G) (N : ℤ) (hN : 1 < N) (D : Dealer) (hD : 0 < D.N)
    (h1 : IsCoprime D.H1 D.N) (h2 : IsCoprime D.H2 D.N) (m c r : ℤ) (rp : Rand1)
    (hal : rp.alpha ≤ (q : ℤ) ^ 3)
    (henc : Paillier.PublicKey.encrypt ⟨N, N * N⟩ (some m) (some r) = .ok c)
    (hr : IsCoprime r N) :
    ∃ pi, genProof1 E ⟨N, N * N⟩ D (m - N) c r rp = .ok pi ∧
      verify1 E ⟨N, N * N⟩ D (some c) pi = .ok () := by
  obtain ⟨⟨m0, m1⟩, _, _, hE⟩ := (Paillier.encrypt_eq_ok hN).1 henc
  have hm : IsPow (N * N) (N + 1) (m - N) ((1 + N) ^ m.toNat) := by
    refine Or.inr ⟨by omega, ?_⟩
    rw [add_comm N 1, ← pow_add]
    have := Paillier.one_add_mul_pow N 1 (m.toNat + (-(m - N)).toNat)
    rw [one_mul] at this
    refine this.trans ?_
    rw [Int.modEq_iff_dvd]
    refine ⟨-1, ?_⟩
    have e : ((m.toNat + (-(m - N)).toNat : ℕ) : ℤ) = N := by push_cast; omega
    rw [e]; ring
  obtain ⟨pi, e, hg, _, _, hv⟩ :=
    range1_honest E N (by omega) D hD h1 h2 (m - N) c r _ rp hm hE hr
  refine ⟨pi, hg, hv.2 ?_⟩
  have : (e : ℤ) * (m - N) ≤ 0 := mul_nonpos_of_nonneg_of_nonpos (by positivity) (by omega)
  linarith

/-- The bound itself is enforced from above: `s1 > q³` is refused. -/
theorem C46_upper (E : Curve q G) (pk : Paillier.PublicKey) (D : Dealer) (c : Option ℤ)
    (pi : Proof1) (s1 : ℤ) (hs : pi.s1 = some s1) (h : (q : ℤ) ^ 3 < s1) :
    verify1 E pk D c pi = Go.err := by
  unfold verify1
  rw [hs]
  simp only [cmpLe]
  rw [Go.guard_false (by omega)]
  rfl

/-! ## Concrete instances -/

/-- A toy curve group of order 3 with a one-byte hash. -/
def toyE : Curve 3 (ZMod 3) where
  gen := 1
  xy := fun x => (x.val, 0)
  kdf := fun l => [l.foldl (· + ·) 0 % 7]

/-- The toy curve with a 32-byte hash. -/
def toyE32 : Curve 3 (ZMod 3) where
  gen := 1
  xy := fun x => (x.val, 0)
  kdf := fun l => List.replicate 31 0 ++ [l.foldl (· + ·) 0]

/-- Toy proof parameters. -/
def toyD : Dealer := ⟨55, 4, 9⟩

/-- Toy Paillier key `17 · 19`. -/
def toyPk : Paillier.PublicKey := ⟨323, 323 * 323⟩

theorem toyD_h1 : IsCoprime toyD.H1 toyD.N := by
  rw [Int.isCoprime_iff_gcd_eq_one]; decide +kernel

theorem toyD_h2 : IsCoprime toyD.H2 toyD.N := by
  rw [Int.isCoprime_iff_gcd_eq_one]; decide +kernel

theorem toy_enc : Paillier.PublicKey.encrypt ⟨323, 323 * 323⟩ (some 2) (some 5) = .ok 100153 := by
  decide +kernel

theorem toy_enc_big : Paillier.PublicKey.encrypt ⟨323, 323 * 323⟩ (some 300) (some 5) =
    .ok 18757 := by
  decide +kernel

theorem toy_r : IsCoprime (5 : ℤ) 323 := by
  rw [Int.isCoprime_iff_gcd_eq_one]; decide +kernel

/-- A concrete proof for the plaintext 2 is accepted; with a changed response it is not. -/
example : verify1 toyE toyPk toyD (some 100153)
      ⟨some 4, some 2, some 175, some 15, some 18⟩ = .ok () ∧
    verify1 toyE toyPk toyD (some 100153)
      ⟨some 4, some 2, some 175, some 16, some 18⟩ = Go.err := by
  constructor <;> decide +kernel

/-- `C46_verify_iff` with both sides true. -/
example : ∃ c' z e s s1 s2, some (100153 : ℤ) = some c' ∧
    (⟨some 4, some 2, some 175, some 15, some 18⟩ : Proof1) =
      ⟨some z, some e, some s, some s1, some s2⟩ ∧ Accept1 toyE 323 toyD c' z e s s1 s2 :=
  (C46_verify_iff toyE 323 (by norm_num) toyD (by decide) (some 100153)
    ⟨some 4, some 2, some 175, some 15, some 18⟩).1 (by decide +kernel)

example : ∃ pi, ∃ e : ℕ, prove1 toyE32 ⟨323, 323 * 323⟩ toyD 2 100153 5 ⟨-(2 ^ 256 * 3), 7, 12, 3⟩
    = .ok pi ∧ pi.e = some (e : ℤ) ∧ verify1 toyE32 ⟨323, 323 * 323⟩ toyD (some 100153) pi = .ok () := by
  obtain ⟨pi, e, h1, h2, _, h4⟩ := C46_range1_complete toyE32 (by intro x; simp [toyE32]) 323
    (by norm_num) toyD (by decide) toyD_h1 toyD_h2 2 100153 5 ⟨-(2 ^ 256 * 3), 7, 12, 3⟩
    (by norm_num) toy_enc toy_r
  exact ⟨pi, e, h1, h2, h4 (by norm_num)⟩

/-- The plaintext 300 is far outside the range `[0, 27]` of the toy parameters. -/
example : ∃ pi, genProof1 toyE ⟨323, 323 * 323⟩ toyD (300 - 323) 18757 5 ⟨11, 7, 12, 3⟩ = .ok pi ∧
    verify1 toyE ⟨323, 323 * 323⟩ toyD (some 18757) pi = .ok () :=
  C46_no_range toyE 323 (by norm_num) toyD (by decide) toyD_h1 toyD_h2 300 18757 5
    ⟨11, 7, 12, 3⟩ (by norm_num) toy_enc_big toy_r

example : verify1 toyE toyPk toyD (some 100153)
    ⟨some 4, some 2, some 175, some 28, some 18⟩ = Go.err :=
  C46_upper toyE toyPk toyD _ _ 28 rfl (by norm_num)

end Verif.Gg20
