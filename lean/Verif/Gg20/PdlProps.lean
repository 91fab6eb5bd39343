import Verif.Gg20.ProofProps

/-!
# Properties of the GG20 proof of discrete logarithm (pdl.go)
-/

set_option linter.unusedSectionVars false

namespace Verif.Gg20

variable {q : ℕ} {G : Type*} [AddCommGroup G] [Module (ZMod q) G]

/-- What `PdlProof.Verify` decides. -/
def AcceptPdl (E : Curve q G) (N : ℤ) (D : Dealer) (R X : G) (c z e s s1 s2 : ℤ) : Prop :=
  s1 ≤ (q : ℤ) ^ 3 ∧ ∃ u v w, u + (e : ZMod q) • X = (s1 : ZMod q) • R ∧
    PRel N e s1 s c v ∧ HRel D e s1 s2 z w ∧
    e = fsHash E.kdf [N, D.N, D.H1, D.H2, (E.xy E.gen).1, (E.xy E.gen).2, q, (E.xy R).1,
      (E.xy R).2, (E.xy X).1, (E.xy X).2, c, (E.xy u).1, (E.xy u).2, z, v, w]

theorem pdlInput_some (E : Curve q G) (N : ℤ) (D : Dealer) (R X u : G) (c z v w : ℤ) :
    challenge E.kdf (pdlInput E N D R X c u z v w) = .ok (fsHash E.kdf
      [N, D.N, D.H1, D.H2, (E.xy E.gen).1, (E.xy E.gen).2, q, (E.xy R).1,
      (E.xy R).2, (E.xy X).1, (E.xy X).2, c, (E.xy u).1, (E.xy u).2, z, v, w] : ℤ) :=
  challenge_some E.kdf [N, D.N, D.H1, D.H2, (E.xy E.gen).1, (E.xy E.gen).2, q, (E.xy R).1,
      (E.xy R).2, (E.xy X).1, (E.xy X).2, c, (E.xy u).1, (E.xy u).2, z, v, w]

theorem intCast_emod_zmod (s : ℤ) : ((s % (q : ℤ) : ℤ) : ZMod q) = (s : ZMod q) :=
  ZMod.intCast_mod s q

theorem pdlUHat_eq (R X u : G) (s1 e : ℤ) :
    pdlUHat (q := q) R X s1 e = u ↔ u + (e : ZMod q) • X = (s1 : ZMod q) • R := by
  unfold pdlUHat
  rw [intCast_emod_zmod]
  push_cast
  rw [neg_smul, ← sub_eq_add_neg, sub_eq_iff_eq_add, eq_comm]

/-- Exact decision of the PDL verifier, for arbitrary (also nil) proof fields. -/
theorem C126_verify_iff (E : Curve q G) (N : ℤ) (hN : 0 < N) (D : Dealer) (hD : 0 < D.N)
    (R X : G) (c : Option ℤ) (pi : Proof1) :
    pdlVerify E ⟨N, N * N⟩ D R X c pi = .ok () ↔ ∃ c' z e s s1 s2, c = some c' ∧
      pi = ⟨some z, some e, some s, some s1, some s2⟩ ∧ AcceptPdl E N D R X c' z e s s1 s2 := by
  constructor
  · intro h
    obtain ⟨pz, pe, ps, ps1, ps2⟩ := pi
    match pz, pe, ps, ps1, ps2, c, h with
    | some z, some e, some s, some s1, some s2, some c, h =>
      simp only [pdlVerify, Go.bind_eq_ok, Go.guard_eq_ok, Core.C14_constantTimeEq,
        Option.some.injEq] at h
      obtain ⟨_, h1, v, hv, w, hw, e', hch, rfl⟩ := h
      have he := challenge_nonneg hch
      rw [pdlVHat_eq_ok hN he] at hv
      obtain ⟨_, _, _, a1, a2, a3, hH⟩ := (hHat_eq_ok hD he).1 hw
      obtain rfl := Option.some.inj a1
      obtain rfl := Option.some.inj a2
      obtain rfl := Option.some.inj a3
      rw [pdlInput_some] at hch
      simp only [cmpLe, Go.guard_eq_ok, not_lt, gt_iff_lt] at h1
      exact ⟨c, z, e, s, s1, s2, rfl, rfl, h1, pdlUHat (q := q) R X s1 e, v, w,
        (pdlUHat_eq R X _ s1 e).1 rfl, hv, hH, (Except.ok.inj hch).symm⟩
  · rintro ⟨c', z, e, s, s1, s2, rfl, rfl, h1, u, v, w, hu, hP, hH, he⟩
    have he0 : 0 ≤ e := by rw [he]; positivity
    simp only [pdlVerify, Go.bind_eq_ok, Go.guard_eq_ok, Core.C14_constantTimeEq,
        Option.some.injEq]
    refine ⟨(), ?_, v, (pdlVHat_eq_ok hN he0).2 hP, w,
      (hHat_eq_ok hD he0).2 ⟨s1, s2, z, rfl, rfl, rfl, hH⟩, e, ?_, rfl⟩
    · simpa [cmpLe, Go.guard_eq_ok] using h1
    · rw [(pdlUHat_eq R X u s1 e).2 hu, pdlInput_some, ← he]

/-- The PDL prover run on an integer `x` with `c` an encryption of `x` and `X = x·R`: the proof
verifies exactly when `e·x + α ≤ q³`. -/
theorem C126_honest (E : Curve q G) (N : ℤ) (hN : 0 < N) (D : Dealer) (hD : 0 < D.N)
    (h1 : IsCoprime D.H1 D.N) (h2 : IsCoprime D.H2 D.N) (R X : G) (x c r m : ℤ) (rp : Rand1)
    (hX : X = (x : ZMod q) • R)
    (hm : IsPow (N * N) (N + 1) x m) (hc : c ≡ m * r ^ N.toNat [ZMOD N * N])
    (hr : IsCoprime r N) :
    ∃ pi, ∃ e : ℕ, pdlProve E ⟨N, N * N⟩ D R X x r c rp = .ok pi ∧ pi.e = some (e : ℤ) ∧
      (∃ vs, e = fsHash E.kdf vs) ∧
      (pdlVerify E ⟨N, N * N⟩ D R X (some c) pi = .ok () ↔ e * x + rp.alpha ≤ (q : ℤ) ^ 3) := by
  obtain ⟨z, hz⟩ := pedersen_total (a := x) (b := rp.rho) hD h1 h2
  obtain ⟨v, hv⟩ := inc_total (a := rp.alpha) (b := rp.beta) hN
  obtain ⟨w, hw⟩ := pedersen_total (a := rp.alpha) (b := rp.gamma) hD h1 h2
  set u : G := (rp.alpha : ZMod q) • R with hu
  set e : ℕ := fsHash E.kdf [N, D.N, D.H1, D.H2, (E.xy E.gen).1, (E.xy E.gen).2, q, (E.xy R).1,
      (E.xy R).2, (E.xy X).1, (E.xy X).2, c, (E.xy u).1, (E.xy u).2, z, v, w]
    with he
  obtain ⟨s, hs, hs'⟩ := pedersen_resp (r := r) (b := rp.beta) hN e
  refine ⟨⟨some z, some (e : ℤ), some s, some (e * x + rp.alpha), some (e * rp.rho + rp.gamma)⟩, e,
    ?_, rfl, ⟨_, rfl⟩, ?_⟩
  · unfold pdlProve
    simp only [hz, hv, hw, ← hu, pdlInput_some, Go.ok_bind, ← he, hs, schnorr_eq]
  · rw [C126_verify_iff E N hN D hD]
    constructor
    · rintro ⟨c', z', e', s', s1, s2, _, hpi, hacc⟩
      injection hpi with _ _ _ h4 _
      rw [Option.some.inj h4]
      exact hacc.1
    · intro hle
      refine ⟨c, z, e, s, _, _, rfl, rfl, hle, u, v, w, ?_, prel_honest hN e hm hc hr hv hs',
        hrel_honest hD h1 h2 e hz hw, by rw [he]⟩
      rw [hu, hX, smul_smul, ← add_smul]
      congr 1
      push_cast
      ring

/-- An integer in two given residue classes (of coprime moduli) and as negative as wanted. -/
theorem exists_neg_rep {N q' : ℤ} (hN : 0 < N) (hq : 0 < q') (hc : IsCoprime N q') (m x : ℤ) :
    ∃ y, y ≤ 0 ∧ (∃ k, 0 ≤ k ∧ y = m - k * N) ∧ y ≡ x [ZMOD q'] := by
  obtain ⟨a, b, hab⟩ := hc
  -- y = m - kN with k ≡ (m - x)·a (mod q')
  set k0 := (m - x) * a with hk0
  obtain ⟨t, ht⟩ : ∃ t : ℤ, t = |k0| + |m| := ⟨_, rfl⟩
  have t0 : 0 ≤ t := by rw [ht]; positivity
  have hk : 0 ≤ k0 + t * q' ∧ m ≤ k0 + t * q' := by
    have h1 : t ≤ t * q' := by nlinarith
    have h2 := neg_abs_le k0
    have h3 := le_abs_self m
    have h4 := abs_nonneg m
    constructor <;> linarith
  refine ⟨m - (k0 + t * q') * N, ?_, ⟨_, hk.1, rfl⟩, ?_⟩
  · have : k0 + t * q' ≤ (k0 + t * q') * N := by nlinarith [hk.1]
    linarith [hk.2]
  · rw [Int.modEq_iff_dvd]
    refine ⟨t * N - (m - x) * b, ?_⟩
    have : (m - x) * (a * N + b * q') = m - x := by rw [hab, mul_one]
    rw [hk0]
    linarith

/-- `(1+N)^(m - kN) ≡ (1+N)^m` modulo `N²`, also for negative exponents. -/
theorem isPow_shift {N : ℤ} (hN : 0 < N) {m y x k : ℤ} (hy : y = m - k * N)
    (hx : IsPow (N * N) (N + 1) m x) : IsPow (N * N) (N + 1) y x := by
  have hcop := coprime_np1 N
  lift N to ℕ using hN.le
  have hcast : ((N : ℤ) * N) = ((N * N : ℕ) : ℤ) := by push_cast; rfl
  rw [hcast] at hcop hx ⊢
  obtain ⟨v, hv⟩ := coprime_iff_unit.1 hcop
  rw [isPow_unit hv] at hx ⊢
  have hvN : v ^ N = 1 := by
    ext
    push_cast
    rw [← hv]
    have := Paillier.one_add_mul_pow (N : ℤ) 1 N
    rw [hcast, ← ZMod.intCast_eq_intCast_iff] at this
    push_cast at this
    rw [one_mul] at this
    push_cast
    rw [add_comm, this]
    have h0 : ((N : ZMod (N * N)) * N) = 0 := by
      rw [← Nat.cast_mul, ZMod.natCast_self]
    rw [mul_one, h0, add_zero]
  rw [hx, hy, zpow_sub, mul_comm k, zpow_mul, zpow_natCast, hvN, one_zpow, inv_one, mul_one]

/-- The statement of the proof is not enforced: for **every** plaintext `m` in `[0, N)` and
**every**, unrelated, exponent `x` there is an accepted PDL proof that the encryption of `m` holds
the discrete logarithm of `x·R`.  The prover runs the proof algorithm on a non-positive integer
congruent to `m` modulo `N` and to `x` modulo `q`. -/
theorem C126_no_relation (E : Curve q G) (hq : 0 < q) (N : ℤ) (hN : 1 < N)
    (hNq : IsCoprime N (q : ℤ)) (D : Dealer) (hD : 0 < D.N) (h1 : IsCoprime D.H1 D.N)
    (h2 : IsCoprime D.H2 D.N) (R : G) (m x c r : ℤ) (rp : Rand1) (hal : rp.alpha ≤ (q : ℤ) ^ 3)
    (henc : Paillier.PublicKey.encrypt ⟨N, N * N⟩ (some m) (some r) = .ok c)
    (hr : IsCoprime r N) :
    ∃ y pi, pdlProve E ⟨N, N * N⟩ D R ((x : ZMod q) • R) y r c rp = .ok pi ∧
      pdlVerify E ⟨N, N * N⟩ D R ((x : ZMod q) • R) (some c) pi = .ok () := by
  have hN0 : 0 < N := by omega
  obtain ⟨⟨m0, m1⟩, _, _, hE⟩ := (Paillier.encrypt_eq_ok hN).1 henc
  obtain ⟨y, hy0, ⟨k, _, hk⟩, hyx⟩ := exists_neg_rep hN0 (by exact_mod_cast hq) hNq m x
  have hm : IsPow (N * N) (N + 1) m ((1 + N) ^ m.toNat) := by
    rw [isPow_nonneg m0, add_comm]
  obtain ⟨pi, e, hp, _, _, hv⟩ := C126_honest E N hN0 D hD h1 h2 R ((x : ZMod q) • R) y c r _ rp
    (by rw [(ZMod.intCast_eq_intCast_iff y x q).2 hyx]) (isPow_shift hN0 hk hm) hE hr
  refine ⟨y, pi, hp, hv.2 ?_⟩
  have : (e : ℤ) * y ≤ 0 := mul_nonpos_of_nonneg_of_nonpos (by positivity) hy0
  linarith

/-- Completeness of the PDL proof for an honestly encrypted `x` in `[0, q)`. -/
theorem C126_complete (E : Curve q G) (hk : ∀ x, (E.kdf x).length = 32) (N : ℤ) (hN : 1 < N)
    (D : Dealer) (hD : 0 < D.N) (h1 : IsCoprime D.H1 D.N) (h2 : IsCoprime D.H2 D.N) (R : G)
    (x c r : ℤ) (rp : Rand1) (ha : 0 ≤ x ∧ x < q)
    (henc : Paillier.PublicKey.encrypt ⟨N, N * N⟩ (some x) (some r) = .ok c)
    (hr : IsCoprime r N) (hal : rp.alpha ≤ (q : ℤ) ^ 3 - 2 ^ 256 * q) :
    ∃ pi, pdlProve E ⟨N, N * N⟩ D R ((x : ZMod q) • R) x r c rp = .ok pi ∧
      pdlVerify E ⟨N, N * N⟩ D R ((x : ZMod q) • R) (some c) pi = .ok () := by
  obtain ⟨⟨m0, m1⟩, _, _, hE⟩ := (Paillier.encrypt_eq_ok hN).1 henc
  have hm : IsPow (N * N) (N + 1) x ((1 + N) ^ x.toNat) := by
    rw [isPow_nonneg m0, add_comm]
  obtain ⟨pi, e, hp, _, ⟨vs, hvs⟩, hv⟩ :=
    C126_honest E N (by omega) D hD h1 h2 R _ x c r _ rp rfl hm hE hr
  refine ⟨pi, hp, hv.2 ?_⟩
  have hlt : (e : ℤ) < 2 ^ 256 := by
    have := fsHash_lt hk vs
    rw [← hvs] at this
    exact_mod_cast this
  have : (e : ℤ) * x ≤ 2 ^ 256 * q := mul_le_mul hlt.le ha.2.le ha.1 (by positivity)
  linarith

/-! ## Concrete instances -/

example : ∃ pi, pdlProve toyE32 ⟨323, 323 * 323⟩ toyD (2 : ZMod 3) (((2 : ℤ) : ZMod 3) • (2 : ZMod 3))
      2 5 100153 ⟨-(2 ^ 256 * 3), 7, 12, 3⟩ = .ok pi ∧
    pdlVerify toyE32 ⟨323, 323 * 323⟩ toyD (2 : ZMod 3) (((2 : ℤ) : ZMod 3) • (2 : ZMod 3))
      (some 100153) pi = .ok () :=
  C126_complete toyE32 (by intro x; simp [toyE32]) 323 (by norm_num) toyD (by decide) toyD_h1
    toyD_h2 (2 : ZMod 3) 2 100153 5 _ (by norm_num) toy_enc toy_r (by norm_num)

/-- The ciphertext holds 300, the point is `1 • R`. -/
example : ∃ y pi, pdlProve toyE ⟨323, 323 * 323⟩ toyD (2 : ZMod 3) (((1 : ℤ) : ZMod 3) • (2 : ZMod 3))
      y 5 18757 ⟨11, 7, 12, 3⟩ = .ok pi ∧
    pdlVerify toyE ⟨323, 323 * 323⟩ toyD (2 : ZMod 3) (((1 : ℤ) : ZMod 3) • (2 : ZMod 3))
      (some 18757) pi = .ok () :=
  C126_no_relation toyE (by norm_num) 323 (by norm_num)
    (by rw [Int.isCoprime_iff_gcd_eq_one]; decide +kernel) toyD (by decide) toyD_h1 toyD_h2
    (2 : ZMod 3) 300 1 18757 5 ⟨11, 7, 12, 3⟩ (by norm_num) toy_enc_big toy_r

example : ∃ c' z e s s1 s2, some (100153 : ℤ) = some c' ∧
    (⟨some 4, some 2, some 175, some 15, some 18⟩ : Proof1) =
      ⟨some z, some e, some s, some s1, some s2⟩ ∧
    AcceptPdl toyE 323 toyD (2 : ZMod 3) (1 : ZMod 3) c' z e s s1 s2 :=
  (C126_verify_iff toyE 323 (by norm_num) toyD (by decide) (2 : ZMod 3) (1 : ZMod 3) (some 100153)
    ⟨some 4, some 2, some 175, some 15, some 18⟩).1 (by decide +kernel)

end Verif.Gg20
