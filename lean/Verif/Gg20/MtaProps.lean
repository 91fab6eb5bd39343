import Verif.Gg20.PdlProps

/-!
# Properties of the multiplicative-to-additive conversion (C44) and its range proof
-/

set_option linter.unusedSectionVars false

namespace Verif.Gg20

variable {q : ℕ} {G : Type*} [AddCommGroup G] [Module (ZMod q) G]

/-- The Paillier equation of the second range proof:
`v · c2^e ≡ c1^s1 · (N+1)^t1 · s^N` modulo `N²`. -/
def VRel (N e s1 t1 s c1 c2 v : ℤ) : Prop :=
  IsCoprime c2 N ∧ (0 ≤ v ∧ v < N * N) ∧
    ∃ p x, IsPow (N * N) c1 s1 p ∧ IsPow (N * N) (N + 1) t1 x ∧
      v * c2 ^ e.toNat ≡ p * x * s ^ N.toNat [ZMOD N * N]

/-- What `verify2Proof` decides. -/
def Accept2 (E : Curve q G) (N : ℤ) (D : Dealer) (X : Option G) (c1 c2 z e s s1 s2 t t1 t2 : ℤ) :
    Prop :=
  s1 ≤ (q : ℤ) ^ 3 ∧ t1 ≤ (q : ℤ) ^ 7 ∧ ∃ z' v w, HRel D e s1 s2 z z' ∧
    VRel N e s1 t1 s c1 c2 v ∧ HRel D e t1 t2 t w ∧
    match X with
    | none => e = fsHash E.kdf [(E.xy E.gen).1, (E.xy E.gen).2, q, N, D.N, D.H1, D.H2, c1, c2, z,
        z', t, v, w]
    | some X => ∃ u, u + (e : ZMod q) • X = (s1 : ZMod q) • E.gen ∧
        e = fsHash E.kdf [(E.xy E.gen).1, (E.xy E.gen).2, q, N, D.N, D.H1, D.H2, (E.xy X).1,
          (E.xy X).2, c1, c2, (E.xy u).1, (E.xy u).2, z, z', t, v, w]

theorem range2Input_none (E : Curve q G) (N : ℤ) (D : Dealer) (c1 c2 z z' t v w : ℤ) :
    challenge E.kdf (range2Input E N D none (some c1) (some c2) (some z) z' (some t) v w) =
      .ok (fsHash E.kdf [(E.xy E.gen).1, (E.xy E.gen).2, q, N, D.N, D.H1, D.H2, c1, c2, z,
        z', t, v, w] : ℤ) :=
  challenge_some E.kdf [(E.xy E.gen).1, (E.xy E.gen).2, q, N, D.N, D.H1, D.H2, c1, c2, z,
        z', t, v, w]

theorem range2Input_wc (E : Curve q G) (N : ℤ) (D : Dealer) (X u : G) (c1 c2 z z' t v w : ℤ) :
    challenge E.kdf (range2Input E N D (some (X, u)) (some c1) (some c2) (some z) z' (some t) v w) =
      .ok (fsHash E.kdf [(E.xy E.gen).1, (E.xy E.gen).2, q, N, D.N, D.H1, D.H2, (E.xy X).1,
          (E.xy X).2, c1, c2, (E.xy u).1, (E.xy u).2, z, z', t, v, w] : ℤ) :=
  challenge_some E.kdf [(E.xy E.gen).1, (E.xy E.gen).2, q, N, D.N, D.H1, D.H2, (E.xy X).1,
          (E.xy X).2, c1, c2, (E.xy u).1, (E.xy u).2, z, z', t, v, w]

theorem vHat2_eq_ok {N : ℤ} {pi : Proof2} {c1 c2 : Option ℤ} {e v : ℤ} (hN : 0 < N)
    (hpe : pi.e = some e) (he : 0 ≤ e) :
    vHat2 ⟨N, N * N⟩ c1 c2 pi = .ok v ↔ ∃ s1 t1 s c1' c2', pi.s1 = some s1 ∧ pi.t1 = some t1 ∧
      pi.s = some s ∧ c1 = some c1' ∧ c2 = some c2' ∧ VRel N e s1 t1 s c1' c2' v := by
  have hNN : 0 < N * N := by positivity
  unfold vHat2 VRel
  rw [hpe]
  simp only [Go.bind_eq_ok]
  constructor
  · rintro ⟨a, ha, i, hi, b, hb, hv⟩
    obtain ⟨t1, s, ht1, hs, _, x, hx, hax⟩ := (inc_opt_eq_ok hN).1 ha
    match c2, hi with
    | some c2, hi =>
      rw [core_inv_eq_ok hNN] at hi
      match c1, hs1 : pi.s1, hb with
      | some c1, some s1, hb =>
        obtain ⟨_, p, y, hp, hy, hbm⟩ := (pedersen_eq_ok hNN).1 hb
        obtain ⟨hv0, hvm⟩ := (mul_some_eq_ok hNN).1 hv
        rw [isPow_nonneg he] at hy
        refine ⟨s1, t1, s, c1, c2, rfl, ht1, hs, rfl, rfl, coprime_sq.1 (coprime_of_inv hi.2), hv0,
          p, x, hp, hx, (div_pow_iff _ hi.2).1 ?_⟩
        refine hvm.trans ((hax.mul (hbm.trans (hy.mul_left _))).trans ?_)
        rw [show x * s ^ N.toNat * (p * i ^ e.toNat) = p * x * s ^ N.toNat * i ^ e.toNat by ring]
  · rintro ⟨s1, t1, s, c1', c2', hs1, ht1, hs, rfl, rfl, hc2, hv0, p, x, hp, hx, hm⟩
    obtain ⟨i, hi, hi'⟩ := exists_inv hNN (coprime_sq.2 hc2)
    rw [hs1, ht1, hs]
    refine ⟨x * s ^ N.toNat % (N * N), (inc_eq_ok hN).2 ⟨⟨Int.emod_nonneg _ hNN.ne',
      Int.emod_lt_of_pos _ hNN⟩, x, hx, Int.mod_modEq _ _⟩, i, (core_inv_eq_ok hNN).2 ⟨hi, hi'⟩,
      p * i ^ e.toNat % (N * N), (pedersen_eq_ok hNN).2 ⟨⟨Int.emod_nonneg _ hNN.ne',
      Int.emod_lt_of_pos _ hNN⟩, p, _, hp, (isPow_nonneg he).2 (Int.ModEq.refl _),
      Int.mod_modEq _ _⟩, (mul_some_eq_ok hNN).2 ⟨hv0, ?_⟩⟩
    refine ((div_pow_iff _ hi').2 hm).trans ?_
    refine Int.ModEq.trans ?_ ((Int.mod_modEq _ _).symm.mul (Int.mod_modEq _ _).symm)
    rw [show x * s ^ N.toNat * (p * i ^ e.toNat) = p * x * s ^ N.toNat * i ^ e.toNat by ring]

theorem uHat2_eq (E : Curve q G) (X u : G) (s1 e : ℤ) :
    uHat2 E X s1 e = u ↔ u + (e : ZMod q) • X = (s1 : ZMod q) • E.gen :=
  pdlUHat_eq (q := q) E.gen X u s1 e

/-- Exact decision of the verifier of the second range proof (both variants), for arbitrary (also
nil) proof fields and ciphertexts. -/
theorem C127_verify_iff (E : Curve q G) (N : ℤ) (hN : 0 < N) (D : Dealer) (hD : 0 < D.N)
    (X : Option G) (c1 c2 : Option ℤ) (pi : Proof2) :
    verify2 E ⟨N, N * N⟩ D X c1 c2 pi = .ok () ↔ ∃ c1' c2' z e s s1 s2 t t1 t2,
      c1 = some c1' ∧ c2 = some c2' ∧
      pi = ⟨some z, some e, some s, some s1, some s2, some t, some t1, some t2⟩ ∧
      Accept2 E N D X c1' c2' z e s s1 s2 t t1 t2 := by
  unfold verify2
  simp only [Go.bind_eq_ok, Go.guard_eq_ok, Core.C14_constantTimeEq]
  constructor
  · rintro ⟨_, h1, _, h2, z', hz', v, hv, w, hw, e, hch, hpe⟩
    have he := challenge_nonneg hch
    rw [hpe] at hz' hw hch
    obtain ⟨s1, t1, s, c1', c2', hs1, ht1, hs, hc1, hc2, hV⟩ := (vHat2_eq_ok hN hpe he).1 hv
    obtain ⟨s1', s2, z, hs1', hs2, hz, hH⟩ := (hHat_eq_ok hD he).1 hz'
    obtain ⟨t1', t2, t, ht1', ht2, ht, hT⟩ := (hHat_eq_ok hD he).1 hw
    obtain rfl := Option.some.inj (hs1.symm.trans hs1')
    obtain rfl := Option.some.inj (ht1.symm.trans ht1')
    subst hc1 hc2
    rw [hs1] at h1
    rw [ht1] at h2
    simp only [cmpLe, Go.guard_eq_ok, not_lt, gt_iff_lt] at h1 h2
    rw [hz, ht, hs1] at hch
    obtain ⟨pz, pe, ps, ps1, ps2, pt, pt1, pt2⟩ := pi
    simp only at hpe hs1 hs hs2 hz ht ht1 ht2
    subst hpe hs1 hs hs2 hz ht ht1 ht2
    refine ⟨c1', c2', z, e, s, s1, s2, t, t1, t2, rfl, rfl, rfl, h1, h2, z', v, w, hH, hV, hT, ?_⟩
    match X, hch with
    | none, hch =>
      rw [Option.map_none, range2Input_none] at hch
      exact (Except.ok.inj hch).symm
    | some X, hch =>
      rw [Option.map_some, range2Input_wc] at hch
      exact ⟨_, (uHat2_eq E X _ s1 e).1 rfl, (Except.ok.inj hch).symm⟩
  · rintro ⟨c1', c2', z, e, s, s1, s2, t, t1, t2, rfl, rfl, rfl, h1, h2, z', v, w, hH, hV, hT, hX⟩
    have he0 : 0 ≤ e := by
      cases X with
      | none => rw [hX]; positivity
      | some X => obtain ⟨u, _, hX⟩ := hX; rw [hX]; positivity
    refine ⟨(), ?_, (), ?_, z', (hHat_eq_ok hD he0).2 ⟨s1, s2, z, rfl, rfl, rfl, hH⟩, v,
      (vHat2_eq_ok hN rfl he0).2 ⟨s1, t1, s, c1', c2', rfl, rfl, rfl, rfl, rfl, hV⟩, w,
      (hHat_eq_ok hD he0).2 ⟨t1, t2, t, rfl, rfl, rfl, hT⟩, e, ?_, rfl⟩
    · simpa [cmpLe, Go.guard_eq_ok] using h1
    · simpa [cmpLe, Go.guard_eq_ok] using h2
    · match X, hX with
      | none, hX => rw [Option.map_none, range2Input_none, ← hX]
      | some X, hX =>
        obtain ⟨u, hu, hX⟩ := hX
        have := (uHat2_eq E X u s1 e).2 hu
        simp only [Option.map_some, Option.getD_some]
        rw [this, range2Input_wc, ← hX]

theorem vrel_honest {N : ℤ} (hN : 0 < N) {x y m p r c1 c2 alpha beta gamma v s P V : ℤ} (e : ℕ)
    (hc1 : IsCoprime c1 N)
    (hp : IsPow (N * N) c1 x p) (hm : IsPow (N * N) (N + 1) y m)
    (hc : c2 ≡ p * m * r ^ N.toNat [ZMOD N * N]) (hr : IsCoprime r N)
    (hP : IsPow (N * N) c1 alpha P)
    (hV : inc (some gamma) (some beta) (some N) = .ok V)
    (hv0 : 0 ≤ v ∧ v < N * N) (hv : v ≡ P * V [ZMOD N * N])
    (hs : s ≡ r ^ e * beta [ZMOD N]) :
    VRel N e (e * x + alpha) (e * y + gamma) s c1 c2 v := by
  obtain ⟨_, X, hX, hV⟩ := (inc_eq_ok hN).1 hV
  have hs' := pow_N_congr hN hs
  have hNN : 0 < N * N := by positivity
  lift N to ℕ using hN.le
  have hcop := coprime_np1 (N : ℤ)
  have hcop1 : IsCoprime c1 ((N : ℤ) * N) := coprime_sq.2 hc1
  have hcopr : IsCoprime r ((N : ℤ) * N) := coprime_sq.2 hr
  obtain ⟨a, _, ha⟩ := exists_isPow (k := e * x + alpha) hNN hcop1
  obtain ⟨b, _, hb⟩ := exists_isPow (k := e * y + gamma) hNN hcop
  have hcast : ((N : ℤ) * N) = ((N * N : ℕ) : ℤ) := by push_cast; rfl
  simp only [Int.toNat_natCast] at *
  refine ⟨coprime_sq.1 ?_, hv0, a, b, ha, hb, ?_⟩
  · rw [hcast] at hcop hcop1 hcopr hp hm hc ⊢
    obtain ⟨g, hg⟩ := coprime_iff_unit.1 hcop
    obtain ⟨u, hu⟩ := coprime_iff_unit.1 hcop1
    obtain ⟨ur, hur⟩ := coprime_iff_unit.1 hcopr
    rw [isPow_unit hg] at hm
    rw [isPow_unit hu] at hp
    rw [← ZMod.intCast_eq_intCast_iff] at hc
    refine coprime_iff_unit.2 ⟨u ^ x * g ^ y * ur ^ N, ?_⟩
    rw [hc]; push_cast; rw [hp, hm, hur]
  · simp only [Int.toNat_natCast]
    rw [hcast] at hcop hcop1 hp hm hc hP hX hV hv hs' ha hb ⊢
    obtain ⟨g, hg⟩ := coprime_iff_unit.1 hcop
    obtain ⟨u, hu⟩ := coprime_iff_unit.1 hcop1
    rw [isPow_unit hg] at hm hX hb
    rw [isPow_unit hu] at hp hP ha
    rw [← ZMod.intCast_eq_intCast_iff] at hc hV hv hs' ⊢
    push_cast at hc hV hv hs' ⊢
    rw [hv, hV, hc, hs', hp, hm, hP, hX, ha, hb, zpow_add, zpow_add, mul_comm (e : ℤ) x,
      mul_comm (e : ℤ) y, zpow_mul, zpow_mul, zpow_natCast, zpow_natCast]
    push_cast
    ring

/-- The core of `genProof2` on any integers `x, y` with `c2 ≡ c1^x·(N+1)^y·r^N` (and `X = x·g` in
the variant with check) gives a proof that is accepted exactly when `e·x + α ≤ q³` and
`e·y + γ ≤ q⁷`. -/
theorem C127_honest (E : Curve q G) (N : ℤ) (hN : 0 < N) (D : Dealer) (hD : 0 < D.N)
    (h1 : IsCoprime D.H1 D.N) (h2 : IsCoprime D.H2 D.N) (X : Option G) (x y r c1 c2 p m : ℤ)
    (rp : Rand2) (hX : ∀ X' ∈ X, X' = (x : ZMod q) • E.gen) (hc1 : IsCoprime c1 N)
    (hp : IsPow (N * N) c1 x p) (hm : IsPow (N * N) (N + 1) y m)
    (hc : c2 ≡ p * m * r ^ N.toNat [ZMOD N * N]) (hr : IsCoprime r N) :
    ∃ pi, ∃ e : ℕ, genProof2Core E ⟨N, N * N⟩ D X x y r c1 c2 rp = .ok pi ∧
      pi.e = some (e : ℤ) ∧ (∃ vs, e = fsHash E.kdf vs) ∧
      (verify2 E ⟨N, N * N⟩ D X (some c1) (some c2) pi = .ok () ↔
        e * x + rp.alpha ≤ (q : ℤ) ^ 3 ∧ e * y + rp.gamma ≤ (q : ℤ) ^ 7) := by
  have hNN : 0 < N * N := by positivity
  obtain ⟨z, hz⟩ := pedersen_total (a := x) (b := rp.rho) hD h1 h2
  obtain ⟨z', hz'⟩ := pedersen_total (a := rp.alpha) (b := rp.rhoTick) hD h1 h2
  obtain ⟨t, ht⟩ := pedersen_total (a := y) (b := rp.sigma) hD h1 h2
  obtain ⟨P, hP0, hP⟩ := exists_isPow (k := rp.alpha) hNN (coprime_sq.2 hc1)
  obtain ⟨V, hV⟩ := inc_total (a := rp.gamma) (b := rp.beta) hN
  obtain ⟨w, hw⟩ := pedersen_total (a := rp.gamma) (b := rp.tau) hD h1 h2
  set v := P * V % (N * N) with hvd
  have hv0 : 0 ≤ v ∧ v < N * N := ⟨Int.emod_nonneg _ hNN.ne', Int.emod_lt_of_pos _ hNN⟩
  have hv : v ≡ P * V [ZMOD N * N] := Int.mod_modEq _ _
  have hPe : Core.exp (some c1) (some rp.alpha) (some (N * N)) = .ok (some P) :=
    core_exp_eq_ok.2 ((exp_eq_some hNN).2 ⟨hP0, hP⟩)
  have hvm : Core.mul (some P) (some V) (some (N * N)) = .ok v := (mul_some_eq_ok hNN).2 ⟨hv0, hv⟩
  obtain ⟨e, vs, he, hch⟩ : ∃ (e : ℕ) (vs : List ℤ), e = fsHash E.kdf vs ∧
      challenge E.kdf (range2Input E N D
        (X.map fun X => (X, (rp.alpha : ZMod q) • E.gen)) (some c1) (some c2) (some z) z' (some t)
        v w) = .ok (e : ℤ) := by
    cases X with
    | none => exact ⟨_, _, rfl, range2Input_none E N D c1 c2 z z' t v w⟩
    | some X => exact ⟨_, _, rfl, range2Input_wc E N D X _ c1 c2 z z' t v w⟩
  obtain ⟨s, hs, hs'⟩ := pedersen_resp (r := r) (b := rp.beta) hN e
  refine ⟨⟨some z, some (e : ℤ), some s, some (e * x + rp.alpha),
    some (e * rp.rho + rp.rhoTick), some t, some (e * y + rp.gamma),
    some (e * rp.sigma + rp.tau)⟩, e, ?_, rfl, ⟨vs, he⟩, ?_⟩
  · unfold genProof2Core
    simp only [hz, hz', ht, hPe, hV, hvm, hw, Go.ok_bind, hch, hs, schnorr_eq]
  · rw [C127_verify_iff E N hN D hD]
    constructor
    · rintro ⟨c1', c2', a1, a2, a3, s1, a4, a5, t1, a6, _, _, hpi, hacc⟩
      injection hpi with _ _ _ h4 _ _ h7 _
      rw [Option.some.inj h4, Option.some.inj h7]
      exact ⟨hacc.1, hacc.2.1⟩
    · rintro ⟨hle, hle'⟩
      refine ⟨c1, c2, z, e, s, _, _, t, _, _, rfl, rfl, rfl, hle, hle', z', v, w,
        hrel_honest hD h1 h2 e hz hz', vrel_honest hN e hc1 hp hm hc hr hP hV hv0 hv hs',
        hrel_honest hD h1 h2 e ht hw, ?_⟩
      cases X with
      | none =>
        rw [Option.map_none, range2Input_none] at hch
        exact (Except.ok.inj hch).symm
      | some X =>
        rw [Option.map_some, range2Input_wc] at hch
        refine ⟨_, ?_, (Except.ok.inj hch).symm⟩
        rw [hX X rfl, smul_smul, ← add_smul]
        congr 1
        push_cast
        ring

/-- The consistency of the two factors is not enforced: a responder that multiplies by an
arbitrary `b` in `[0, N)` can prove, with check, that its factor is the discrete logarithm of
`x·g` for any unrelated `x`.  It runs the proof algorithm on a non-positive `b' = b - kN`
congruent to `x` modulo `q` with the nonce `r·c1^k`, and needs no secret for it. -/
theorem C127_no_relation (E : Curve q G) (hq : 0 < q) (N : ℤ) (hN : 1 < N)
    (hNq : IsCoprime N (q : ℤ)) (D : Dealer) (hD : 0 < D.N) (h1 : IsCoprime D.H1 D.N)
    (h2 : IsCoprime D.H2 D.N) (b x betaTick rBeta c1 cb cBeta c2 : ℤ) (rp : Rand2)
    (hal : rp.alpha ≤ (q : ℤ) ^ 3) (hc1 : IsCoprime c1 N) (hr : IsCoprime rBeta N)
    (hcb : Paillier.PublicKey.mul ⟨N, N * N⟩ (some b) (some c1) = .ok cb)
    (hcBeta : Paillier.PublicKey.encrypt ⟨N, N * N⟩ (some betaTick) (some rBeta) = .ok cBeta)
    (hc2 : Paillier.PublicKey.add ⟨N, N * N⟩ (some cb) (some cBeta) = .ok c2) :
    ∃ b' r' pi, ∃ e : ℕ, genProof2Core E ⟨N, N * N⟩ D (some ((x : ZMod q) • E.gen)) b' betaTick
        r' c1 c2 rp = .ok pi ∧ pi.e = some (e : ℤ) ∧
      (verify2 E ⟨N, N * N⟩ D (some ((x : ZMod q) • E.gen)) (some c1) (some c2) pi = .ok () ↔
        e * betaTick + rp.gamma ≤ (q : ℤ) ^ 7) := by
  have hN0 : 0 < N := by omega
  have hNN : 0 < N * N := by positivity
  obtain ⟨⟨b0, b1⟩, hc1r, hcb⟩ := (Paillier.mul_eq_ok hNN).1 hcb
  obtain ⟨⟨m0, m1⟩, hr0, hcBr, hE⟩ := (Paillier.encrypt_eq_ok hN).1 hcBeta
  obtain ⟨_, _, hc2⟩ := (Paillier.add_eq_ok hNN).1 hc2
  obtain ⟨b', hb0, ⟨k, k0, hk⟩, hbx⟩ := exists_neg_rep hN0 (by exact_mod_cast hq) hNq b x
  have hm : IsPow (N * N) (N + 1) betaTick ((1 + N) ^ betaTick.toNat) := by
    rw [isPow_nonneg m0, add_comm]
  obtain ⟨p, _, hp⟩ := exists_isPow (k := b') hNN (coprime_sq.2 hc1)
  have hr' : IsCoprime (rBeta * c1 ^ k.toNat) N := hr.mul_left (hc1.pow_left)
  -- c1^b = c1^b' · (c1^k)^N
  have hpow : c1 ^ b.toNat ≡ p * (c1 ^ k.toNat) ^ N.toNat [ZMOD N * N] := by
    have hc1' := coprime_sq.2 hc1
    clear hcb hE hm hr' hc2 hcBr hc1r
    lift N to ℕ using hN0.le
    have hcast : ((N : ℤ) * N) = ((N * N : ℕ) : ℤ) := by push_cast; rfl
    rw [hcast] at hc1' hp ⊢
    obtain ⟨u, hu⟩ := coprime_iff_unit.1 hc1'
    rw [isPow_unit hu] at hp
    rw [← ZMod.intCast_eq_intCast_iff]
    push_cast
    rw [hp, hu]
    lift b to ℕ using b0
    lift k to ℕ using k0
    simp only [Int.toNat_natCast]
    rw [hk, zpow_sub]
    have : ((u ^ ((k : ℤ) * N)) : (ZMod (N * N))ˣ) = (u ^ k) ^ N := by
      rw [zpow_mul, zpow_natCast, zpow_natCast]
    rw [this]
    norm_cast
    simp
  have hc : c2 ≡ p * (1 + N) ^ betaTick.toNat * (rBeta * c1 ^ k.toNat) ^ N.toNat [ZMOD N * N] := by
    rw [hc2]
    refine (Int.mod_modEq _ _).trans ?_
    rw [hcb]
    refine (((Int.mod_modEq _ _).trans hpow).mul hE).trans ?_
    rw [mul_pow]
    exact congrArg (· % _) (by ring)
  obtain ⟨pi, e, hg, hpe, _, hv⟩ := C127_honest E N hN0 D hD h1 h2 (some ((x : ZMod q) • E.gen)) b'
    betaTick _ c1 c2 p _ rp (by
      intro X' hX'
      rw [Option.mem_some_iff] at hX'
      rw [← hX', (ZMod.intCast_eq_intCast_iff b' x q).2 hbx]) hc1 hp hm hc hr'
  refine ⟨b', _, pi, e, hg, hpe, hv.trans ⟨fun h => h.2, fun h => ⟨?_, h⟩⟩⟩
  have : (e : ℤ) * b' ≤ 0 := mul_nonpos_of_nonneg_of_nonpos (by positivity) hb0
  linarith

/-! ## C44: the conversion -/

/-- A response that was produced by `genResponse` and accepted by `finalize` converts products to
sums: with `a` the plaintext of `c1`, the two results add up to `a·b` minus the multiple of `N` by
which `a·b + β'` wraps around. -/
theorem C44_wrap {pp qq : ℕ} (h : Paillier.HonestPrimes pp qq) (sk : Paillier.SecretKey)
    (hsk : Paillier.newSecretKey (some pp) (some qq) = .ok sk) (hq : 0 < q)
    (E : Curve q G) (D D' : Dealer) (B B' : Option G)
    (a b c1 betaTick rBeta : ℤ) (rp : Rand2) (resp : Response) (alpha : ℤ)
    (hc1 : sk.decrypt (some c1) = .ok a)
    (hc1r : 0 ≤ c1 ∧ c1 < pp * qq * (pp * qq))
    (hresp : genResponse E sk.pk D B b c1 betaTick rBeta rp = .ok resp)
    (hr : IsCoprime rBeta ((pp : ℤ) * qq))
    (hfin : finalize E sk D' B' c1 resp = .ok alpha) :
    alpha + resp.beta ≡ a * b - (a * b + betaTick) / (pp * qq) * (pp * qq) [ZMOD q] ∧
      (0 ≤ alpha ∧ alpha < q) ∧ 0 ≤ resp.beta ∧ resp.beta < q := by
  have hN := h.N_pos
  have hNN : (0 : ℤ) < pp * qq * (pp * qq) := by positivity
  have hq' : (0 : ℤ) < q := by exact_mod_cast hq
  have hpk := Paillier.pk_honest h hsk
  unfold genResponse at hresp
  simp only [Go.bind_eq_ok] at hresp
  obtain ⟨cb, hcb, cBeta, hcBeta, c2, hc2, beta, hbeta, proof, _, hre⟩ := hresp
  obtain rfl := Except.ok.inj hre
  unfold finalize at hfin
  simp only [Go.bind_eq_ok] at hfin
  obtain ⟨_, _, al, hal, hmod⟩ := hfin
  have hb : 0 ≤ b ∧ b < pp * qq := by
    rw [hpk] at hcb
    exact ((Paillier.mul_eq_ok hNN).1 hcb).1
  obtain ⟨cb', hcb', hdec⟩ := Paillier.C17_mul h sk hsk c1 a b hc1 hc1r hb
  obtain rfl := Except.ok.inj (hcb.symm.trans hcb')
  have henc := hcBeta
  rw [hpk] at henc
  obtain ⟨hbt, hrb, hcBr, _⟩ := (Paillier.encrypt_eq_ok hN).1 henc
  obtain ⟨cc, hcc, hdec', _⟩ := Paillier.C16_round_trip h sk hsk betaTick rBeta hbt.1 hbt.2 hrb.1
    hrb.2
  obtain rfl := Except.ok.inj (hcBeta.symm.trans hcc)
  have hcbr : 0 ≤ cb ∧ cb < pp * qq * (pp * qq) := by
    have := hcb
    rw [hpk] at this
    obtain ⟨_, _, rfl⟩ := (Paillier.mul_eq_ok hNN).1 this
    exact ⟨Int.emod_nonneg _ hNN.ne', Int.emod_lt_of_pos _ hNN⟩
  obtain ⟨c2', hc2', hdec2⟩ := Paillier.C17_add h sk hsk cb cBeta _ _ hdec (hdec' hr) hcbr hcBr
  obtain rfl := Except.ok.inj (hc2.symm.trans hc2')
  have hal2 : al = (b * a % (pp * qq) + betaTick) % (pp * qq) :=
    Except.ok.inj (hal.symm.trans hdec2)
  have hal3 : al = a * b + betaTick - (a * b + betaTick) / (pp * qq) * (pp * qq) := by
    rw [hal2, Int.emod_add_emod, mul_comm b a, Int.emod_def]
    ring
  unfold Big.mod at hmod
  rw [if_neg hq'.ne'] at hmod
  unfold Core.neg Big.mod at hbeta
  simp only [if_neg hq'.ne', Except.ok.injEq] at hbeta hmod
  refine ⟨?_, ?_, ?_⟩
  · rw [← hmod, ← hbeta]
    refine ((Int.mod_modEq _ _).add (Int.mod_modEq _ _)).trans ?_
    rw [hal3]
    exact congrArg (· % _) (by ring)
  · rw [← hmod]; exact ⟨Int.emod_nonneg _ hq'.ne', Int.emod_lt_of_pos _ hq'⟩
  · rw [← hbeta]; exact ⟨Int.emod_nonneg _ hq'.ne', Int.emod_lt_of_pos _ hq'⟩

/-- MtA correctness: for `a, b` in `[0, q)`, `β'` below `q⁵` and a modulus of more than
`q² + q⁵` there is no wrap-around and the results add up to `a·b` modulo `q`. -/
theorem C44_mta {pp qq : ℕ} (h : Paillier.HonestPrimes pp qq) (sk : Paillier.SecretKey)
    (hsk : Paillier.newSecretKey (some pp) (some qq) = .ok sk) (hq : 0 < q)
    (hbig : (q : ℤ) ^ 2 + (q : ℤ) ^ 5 ≤ pp * qq)
    (E : Curve q G) (D D' : Dealer) (B B' : Option G)
    (a b c1 betaTick rBeta : ℤ) (rp : Rand2) (resp : Response) (alpha : ℤ)
    (ha : 0 ≤ a ∧ a < q) (hb : 0 ≤ b ∧ b < q) (hbt : 0 ≤ betaTick ∧ betaTick < (q : ℤ) ^ 5)
    (hc1 : sk.decrypt (some c1) = .ok a)
    (hc1r : 0 ≤ c1 ∧ c1 < pp * qq * (pp * qq))
    (hresp : genResponse E sk.pk D B b c1 betaTick rBeta rp = .ok resp)
    (hr : IsCoprime rBeta ((pp : ℤ) * qq))
    (hfin : finalize E sk D' B' c1 resp = .ok alpha) :
    ((alpha + resp.beta : ℤ) : ZMod q) = (a : ZMod q) * b := by
  obtain ⟨hw, _⟩ := C44_wrap h sk hsk hq E D D' B B' a b c1 betaTick rBeta rp resp alpha hc1 hc1r
    hresp hr hfin
  have hab : a * b < (q : ℤ) ^ 2 := by
    rw [pow_two]
    nlinarith [ha.1, ha.2, hb.1, hb.2]
  have hab0 : 0 ≤ a * b := mul_nonneg ha.1 hb.1
  have hz : (a * b + betaTick) / ((pp : ℤ) * qq) = 0 :=
    Int.ediv_eq_zero_of_lt (by linarith [hbt.1]) (by linarith [hbt.2])
  rw [hz, zero_mul, sub_zero] at hw
  rw [← Int.cast_mul, ZMod.intCast_eq_intCast_iff]
  exact hw

/-- Honest responses are accepted: with the peer's ring-Pedersen parameters valid, the responder's
factor in `[0, q)` (and `B` its public counterpart in the variant with check), `genResponse`
succeeds and the initiator's `finalize` accepts it exactly when the two bounds hold. -/
theorem C44_accepts {pp qq : ℕ} (h : Paillier.HonestPrimes pp qq) (sk : Paillier.SecretKey)
    (hsk : Paillier.newSecretKey (some pp) (some qq) = .ok sk) (hq : 0 < q)
    (hqN : (q : ℤ) ^ 5 ≤ pp * qq)
    (E : Curve q G) (D : Dealer) (hD : 0 < D.N)
    (h1 : IsCoprime D.H1 D.N) (h2 : IsCoprime D.H2 D.N) (B : Option G)
    (b c1 betaTick rBeta : ℤ) (rp : Rand2) (hB : ∀ X ∈ B, X = (b : ZMod q) • E.gen)
    (hb : 0 ≤ b ∧ b < q) (hbt : 0 ≤ betaTick ∧ betaTick < (q : ℤ) ^ 5)
    (hr0 : 0 < rBeta ∧ rBeta < pp * qq) (hr : IsCoprime rBeta ((pp : ℤ) * qq))
    (hc1r : 0 ≤ c1 ∧ c1 < pp * qq * (pp * qq)) (hc1 : IsCoprime c1 ((pp : ℤ) * qq)) :
    ∃ resp, ∃ e : ℕ, genResponse E sk.pk D B b c1 betaTick rBeta rp = .ok resp ∧
      (∃ vs, e = fsHash E.kdf vs) ∧
      ((∃ alpha, finalize E sk D B c1 resp = .ok alpha) ↔
        e * b + rp.alpha ≤ (q : ℤ) ^ 3 ∧ e * betaTick + rp.gamma ≤ (q : ℤ) ^ 7) := by
  have hN := h.N_pos
  have hNN : (0 : ℤ) < pp * qq * (pp * qq) := by positivity
  have hq' : (0 : ℤ) < q := by exact_mod_cast hq
  have hpk := Paillier.pk_honest h hsk
  set N : ℤ := (pp : ℤ) * qq with hNd
  have hq5 : (q : ℤ) ≤ (q : ℤ) ^ 5 := by
    have : (1 : ℤ) ≤ q := by omega
    exact le_self_pow₀ this (by norm_num)
  obtain ⟨cBeta, hcBeta, hdb, _⟩ := Paillier.C16_round_trip h sk hsk betaTick rBeta hbt.1
    (by omega) hr0.1 hr0.2
  have henc := hcBeta
  rw [hpk] at henc
  obtain ⟨_, _, hcBr, hE⟩ := (Paillier.encrypt_eq_ok hN).1 henc
  obtain ⟨a, hda⟩ := (Paillier.C16_decrypt_total h sk hsk c1 hc1r.1 hc1r.2).1.2 hc1
  obtain ⟨cb, hcb, hdcb⟩ := Paillier.C17_mul h sk hsk c1 a b hda hc1r ⟨hb.1, by omega⟩
  have hcb' := hcb
  rw [hpk] at hcb'
  obtain ⟨_, _, hcbv⟩ := (Paillier.mul_eq_ok hNN).1 hcb'
  have hcbr : 0 ≤ cb ∧ cb < N * N := by
    rw [hcbv]; exact ⟨Int.emod_nonneg _ hNN.ne', Int.emod_lt_of_pos _ hNN⟩
  obtain ⟨c2, hc2, hdc2⟩ := Paillier.C17_add h sk hsk cb cBeta _ _ hdcb (hdb hr) hcbr hcBr
  have hc2' := hc2
  rw [hpk] at hc2'
  obtain ⟨_, _, hc2v⟩ := (Paillier.add_eq_ok hNN).1 hc2'
  have hm : IsPow (N * N) (N + 1) betaTick ((1 + N) ^ betaTick.toNat) := by
    rw [isPow_nonneg hbt.1, add_comm]
  have hp : IsPow (N * N) c1 b (c1 ^ b.toNat) := (isPow_nonneg hb.1).2 (Int.ModEq.refl _)
  have hc : c2 ≡ c1 ^ b.toNat * (1 + N) ^ betaTick.toNat * rBeta ^ N.toNat [ZMOD N * N] := by
    rw [hc2v]
    refine (Int.mod_modEq _ _).trans ?_
    rw [hcbv]
    refine ((Int.mod_modEq _ _).mul hE).trans (congrArg (· % _) (by ring))
  obtain ⟨pi, e, hg, hpe, hvs, hv⟩ := C127_honest E N (by omega) D hD h1 h2 B b betaTick rBeta c1
    c2 _ _ rp hB hc1 hp hm hc hr
  refine ⟨⟨pi, some c2, -betaTick % q⟩, e, ?_, hvs, ?_⟩
  · unfold genResponse genProof2 Core.neg Big.mod Core.inZm
    simp only [hcb, hcBeta, hc2, Go.ok_bind, if_neg hq'.ne']
    rw [Go.guard_true (by omega), Go.ok_bind, hpk, hg]
    rfl
  · rw [← hv]
    unfold finalize
    simp only [hpk, hdc2]
    constructor
    · rintro ⟨al, hal⟩
      obtain ⟨_, h', _⟩ := Go.bind_eq_ok.1 hal
      exact h'
    · intro hok
      rw [hok]
      unfold Big.mod
      simp only [Go.ok_bind, if_neg hq'.ne']
      exact ⟨_, rfl⟩

/-! ## Concrete instances -/

theorem honest_17_19 : Paillier.HonestPrimes 17 19 :=
  ⟨by norm_num, by norm_num, by norm_num, by decide⟩

/-- The toy key `17 · 19`. -/
def toySk : Paillier.SecretKey := ⟨⟨323, 104329⟩, 144, 288, 83⟩

theorem toySk_new : Paillier.newSecretKey (some (17 : ℕ)) (some (19 : ℕ)) = .ok toySk := by
  decide +kernel

/-- The response of the toy run with `a = b = 2`, `β' = 200`. -/
def toyResp : Response :=
  ⟨⟨some 4, some 5, some 77, some 21, some 19, some 34, some 1012, some 31⟩, some 48303, 1⟩

theorem toyResp_gen : genResponse toyE toySk.pk toyD (some 2) 2 100153 200 7
    ⟨11, 7, 12, 3, 4, 5, 6⟩ = .ok toyResp := by
  decide +kernel

example : ((0 + toyResp.beta : ℤ) : ZMod 3) = ((2 : ℤ) : ZMod 3) * (2 : ℤ) :=
  C44_mta honest_17_19 toySk toySk_new (by norm_num) (by norm_num) toyE toyD toyD (some 2) (some 2)
    2 2 100153 200 7 _ toyResp 0 (by norm_num) (by norm_num) (by norm_num) (by decide +kernel)
    (by norm_num) toyResp_gen (by rw [Int.isCoprime_iff_gcd_eq_one]; decide +kernel)
    (by decide +kernel)

/-- Outside the honest range the shares miss the product by a multiple of `N`: `a = 162`. -/
def toyRespBig : Response :=
  ⟨⟨some 4, some 0, some 7, some 11, some 4, some 34, some 12, some 6⟩, some 86417, 1⟩

example : (0 : ℤ) + toyRespBig.beta ≡ 162 * 2 - (162 * 2 + 200) / (((17 : ℕ) : ℤ) * (19 : ℕ)) *
    (((17 : ℕ) : ℤ) * (19 : ℕ)) [ZMOD (3 : ℕ)] :=
  (C44_wrap honest_17_19 toySk toySk_new (by norm_num) toyE toyD toyD none none
    162 2 36845 200 7 ⟨11, 7, 12, 3, 4, 5, 6⟩ toyRespBig 0 (by decide +kernel)
    (by norm_num) (by decide +kernel) (by rw [Int.isCoprime_iff_gcd_eq_one]; decide +kernel)
    (by decide +kernel)).1

example : ∃ resp, ∃ e : ℕ, genResponse toyE toySk.pk toyD (some 2) 2 100153 200 7
      ⟨11, 7, 12, 3, 4, 5, 6⟩ = .ok resp ∧ (∃ vs, e = fsHash toyE.kdf vs) ∧
    ((∃ alpha, finalize toyE toySk toyD (some 2) 100153 resp = .ok alpha) ↔
      e * 2 + 11 ≤ ((3 : ℕ) : ℤ) ^ 3 ∧ e * 200 + 12 ≤ ((3 : ℕ) : ℤ) ^ 7) :=
  C44_accepts honest_17_19 toySk toySk_new (by norm_num) (by norm_num) toyE toyD (by decide)
    toyD_h1 toyD_h2 (some 2) 2 100153 200 7 ⟨11, 7, 12, 3, 4, 5, 6⟩
    (by intro X hX; cases hX; decide) (by norm_num) (by norm_num) (by norm_num)
    (by rw [Int.isCoprime_iff_gcd_eq_one]; decide +kernel) (by norm_num)
    (by rw [Int.isCoprime_iff_gcd_eq_one]; decide +kernel)

example : ∃ c1' c2' z e s s1 s2 t t1 t2, some (100153 : ℤ) = some c1' ∧ some (48303 : ℤ) = some c2' ∧
    toyResp.proof = ⟨some z, some e, some s, some s1, some s2, some t, some t1, some t2⟩ ∧
    Accept2 toyE 323 toyD (some 2) c1' c2' z e s s1 s2 t t1 t2 :=
  (C127_verify_iff toyE 323 (by norm_num) toyD (by decide) (some 2) (some 100153) (some 48303)
    toyResp.proof).1 (by decide +kernel)

/-- A response computed with `b = 2` passes the check against the unrelated point `1 • g`. -/
example : ∃ b' r' pi, ∃ e : ℕ, genProof2Core toyE ⟨323, 323 * 323⟩ toyD
      (some (((1 : ℤ) : ZMod 3) • toyE.gen)) b' 200 r' 100153 48303 ⟨11, 7, 12, 3, 4, 5, 6⟩ = .ok pi ∧
    pi.e = some (e : ℤ) ∧
    (verify2 toyE ⟨323, 323 * 323⟩ toyD (some (((1 : ℤ) : ZMod 3) • toyE.gen)) (some 100153)
      (some 48303) pi = .ok () ↔ e * 200 + 12 ≤ ((3 : ℕ) : ℤ) ^ 7) :=
  C127_no_relation toyE (by norm_num) 323 (by norm_num)
    (by rw [Int.isCoprime_iff_gcd_eq_one]; decide +kernel) toyD (by decide) toyD_h1 toyD_h2
    2 1 200 7 100153 16033 61951 48303 ⟨11, 7, 12, 3, 4, 5, 6⟩ (by norm_num)
    (by rw [Int.isCoprime_iff_gcd_eq_one]; decide +kernel)
    (by rw [Int.isCoprime_iff_gcd_eq_one]; decide +kernel)
    (by decide +kernel) (by decide +kernel) (by decide +kernel)

end Verif.Gg20
