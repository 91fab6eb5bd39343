import Verif.Dkls.SignModel
import Verif.Dkls.MulProps
import Verif.Schnorr.Props

/-!
# C37, C38, C119: two-party signing
-/

set_option linter.unusedSectionVars false

namespace Verif.Dkls

open Verif.Ot

variable {F G : Type} [Field F] [DecidableEq F] [AddCommGroup G] [Module F G] [DecidableEq G]

/-- The scalars are the integers modulo `q` and `Scalar.Bytes` is the 32-byte form of the least
representative. -/
structure OrderCodec (cd : ScalarCodec F) (q : ℕ) : Prop extends BeCodec cd where
  lt : ∀ x, beNat (cd.enc x) < q
  char : CharP F q

section Values

variable {cd : ScalarCodec F} {q : ℕ} (hc : OrderCodec cd q)

include hc

theorem sval_cast (x : F) : ((sval cd x : ℕ) : F) = x := hc.val x

theorem sval_lt (x : F) : sval cd x < q := hc.lt x

theorem sval_unique (n : ℕ) (hn : n < q) (x : F) (h : (n : F) = x) : sval cd x = n := by
  have := hc.char
  have h' : ((sval cd x : ℕ) : F) = (n : F) := (sval_cast hc x).trans h.symm
  have := (CharP.natCast_eq_natCast F q).1 h'
  exact Nat.ModEq.eq_of_lt_of_lt this (sval_lt hc x) hn

theorem sval_zero_iff (x : F) : sval cd x = 0 ↔ x = 0 := by
  constructor
  · intro h
    rw [← sval_cast hc x, h, Nat.cast_zero]
  · rintro rfl
    exact sval_unique hc 0 (lt_of_le_of_lt (Nat.zero_le _) (sval_lt hc 0)) 0 Nat.cast_zero

theorem sval_neg (x : F) (hx : x ≠ 0) : sval cd (-x) = q - sval cd x := by
  have := hc.char
  have h0 : sval cd x ≠ 0 := fun h => hx ((sval_zero_iff hc x).1 h)
  have hlt := sval_lt hc x
  refine sval_unique hc _ (by omega) _ ?_
  rw [Nat.cast_sub hlt.le, CharP.cast_eq_zero, sval_cast hc, zero_sub]

end Values

/-- The affine coordinates: the compressed form of a point other than the identity is the parity byte of
y and the 32-byte x coordinate; the negative has the same x and the other parity. -/
structure AffineOk (env : SEnv F G) : Prop where
  gen : env.gen ≠ 0
  len : ∀ P : G, P ≠ 0 → (env.penc P).length = 33
  x : ∀ P : G, P ≠ 0 → beNat ((env.penc P).drop 1) = env.xcoord P
  xneg : ∀ P : G, env.xcoord (-P) = env.xcoord P
  parity : ∀ P : G, P ≠ 0 → ((env.penc (-P)).headD 0).toNat % 2 = 1 - ((env.penc P).headD 0).toNat % 2

/-! ## Normalisation -/

/-- `normalize` negates the scalar and flips the parity, or leaves both. -/
theorem normalize_cases (cd : ScalarCodec F) (s : F) (v : ℕ) :
    normalize cd s v = (sval cd s, v) ∨ normalize cd s v = (sval cd (-s), v ^^^ 1) := by
  unfold normalize
  split
  · exact .inr rfl
  · exact .inl rfl

theorem testBit_255 (n : ℕ) (h : n < 2 ^ 256) : n.testBit 255 = decide (2 ^ 255 ≤ n) := by
  have h2 : (2 : ℕ) ^ 256 = 2 * 2 ^ 255 := by rw [← pow_succ']
  rw [Nat.testBit_eq_decide_div_mod_eq]
  refine decide_eq_decide.2 ?_
  rw [h2] at h
  constructor
  · intro h1
    by_contra hlt
    rw [Nat.div_eq_of_lt (by omega)] at h1
    simp at h1
  · intro h1
    have : n / 2 ^ 255 = 1 := Nat.div_eq_of_lt_le (by omega) (by omega)
    rw [this]

/-- The normalised value is always below `2^255`.  It is in the lower half of the scalars except
when the original value is above the half and below `2^255`; then it is left in the upper half. -/
theorem C38_normalize (cd : ScalarCodec F) (q : ℕ) (hc : OrderCodec cd q) (hq : 2 ^ 255 < q) (hq' : q < 2 ^ 256)
    (s : F) (hs : s ≠ 0) (v : ℕ) :
    (normalize cd s v).1 < 2 ^ 255 ∧
      ((normalize cd s v).1 ≤ q / 2 ↔ ¬ (q / 2 < sval cd s ∧ sval cd s < 2 ^ 255)) := by
  have h2 : (2 : ℕ) ^ 256 = 2 * 2 ^ 255 := by rw [← pow_succ']
  have hlt := sval_lt hc s
  unfold normalize
  rw [testBit_255 _ (lt_trans hlt hq'), sval_neg hc s hs]
  generalize (2 : ℕ) ^ 255 = B at *
  by_cases h : B ≤ sval cd s
  · rw [if_pos (by simpa using h)]
    simp only
    omega
  · rw [if_neg (by simpa using h)]
    simp only
    omega

/-- the orders of secp256k1 and P-256 -/
def secp256k1Order : ℕ := 0xfffffffffffffffffffffffffffffffebaaedce6af48a03bbfd25e8cd0364141

@[inherit_doc secp256k1Order]
def p256Order : ℕ := 0xffffffff00000000ffffffffffffffffbce6faada7179e84f3b9cac2fc632551

/-- Both curves have scalars whose signatures stay in the upper half: for every scalar strictly between
half the order and `2^255` Bob's output is not a low-S signature; there are more than `2^126` of them for
secp256k1 and more than `2^222` for P-256. -/
theorem C38_gap :
    (2 ^ 255 < secp256k1Order ∧ secp256k1Order < 2 ^ 256 ∧ 2 ^ 126 < 2 ^ 255 - 1 - secp256k1Order / 2) ∧
      (2 ^ 255 < p256Order ∧ p256Order < 2 ^ 256 ∧ 2 ^ 222 < 2 ^ 255 - 1 - p256Order / 2) := by
  decide +kernel

theorem C38_not_low (cd : ScalarCodec F) (q : ℕ) (hc : OrderCodec cd q) (hq : 2 ^ 255 < q) (hq' : q < 2 ^ 256)
    (n : ℕ) (h1 : q / 2 < n) (h2 : n < 2 ^ 255) (v : ℕ) :
    normalize cd ((n : ℕ) : F) v = (n, v) ∧ ¬ (normalize cd ((n : ℕ) : F) v).1 ≤ q / 2 := by
  have hn : sval cd ((n : ℕ) : F) = n := sval_unique hc n (lt_trans h2 hq) _ rfl
  unfold normalize
  rw [hn, testBit_255 _ (lt_trans (lt_trans h2 hq) hq'), if_neg (by simpa using h2)]
  exact ⟨rfl, not_le.2 h1⟩

/-! ## Verification -/

/-- ECDSA verification of `s` and of `−s` uses opposite points. -/
theorem verify_point (g pk : G) (e r sk k s : F) (hk : k ≠ 0) (hs : s ≠ 0) (hpk : pk = sk • g)
    (h : s = (e + r * sk) / k) : (e * s⁻¹) • g + (r * s⁻¹) • pk = k • g := by
  rw [hpk, smul_smul, ← add_smul]
  congr 1
  have : k * s = e + r * sk := by rw [h]; field_simp
  field_simp
  linear_combination -this

/-- a signature with the right equation is valid, negated or not -/
theorem valid_of_eq (env : SEnv F G) (hc : OrderCodec env.cd env.q) (ha : AffineOk env) (pk : G) (e r sk k s : F)
    (eN : ℕ) (he : (eN : F) = e) (hk : k ≠ 0) (hpk : pk = sk • env.gen) (h : s = (e + r * sk) / k)
    (hr0 : r ≠ 0) (hs0 : s ≠ 0) (hx : sval env.cd r = env.xcoord (k • env.gen)) (s' : F) (hs' : s' = s ∨ s' = -s) :
    EcdsaValid F env.q env.gen pk env.xcoord eN (sval env.cd r) (sval env.cd s') ∧
      ((e * s'⁻¹) • env.gen + (r * s'⁻¹) • pk = if s' = s then k • env.gen else -(k • env.gen)) := by
  have hkg : k • env.gen ≠ 0 := fun h => by
    rcases smul_eq_zero.1 h with h | h
    · exact hk h
    · exact ha.gen h
  have hP := verify_point env.gen pk e r sk k s hk hs0 hpk h
  have hQ : (e * s'⁻¹) • env.gen + (r * s'⁻¹) • pk = k • env.gen ∨
      (e * s'⁻¹) • env.gen + (r * s'⁻¹) • pk = -(k • env.gen) := by
    rcases hs' with rfl | rfl
    · exact .inl hP
    · right
      rw [← hP, inv_neg]
      simp only [mul_neg, neg_smul]
      abel
  have hs'0 : s' ≠ 0 := by
    rcases hs' with rfl | rfl
    · exact hs0
    · exact neg_ne_zero.2 hs0
  constructor
  · unfold EcdsaValid
    rw [he, sval_cast hc, sval_cast hc]
    refine ⟨Nat.pos_of_ne_zero fun h => hr0 ((sval_zero_iff hc r).1 h), sval_lt hc r,
      Nat.pos_of_ne_zero fun h => hs'0 ((sval_zero_iff hc s').1 h), sval_lt hc s', ?_, ?_⟩
    · rcases hQ with h | h <;> rw [h]
      · exact hkg
      · exact neg_ne_zero.2 hkg
    · rcases hQ with h | h <;> rw [h]
      · rw [← hx, Nat.mod_eq_of_lt (sval_lt hc r)]
      · rw [ha.xneg, ← hx, Nat.mod_eq_of_lt (sval_lt hc r)]
  · split
    · rename_i h
      rw [h]
      exact hP
    · rename_i h
      obtain rfl := hs'.resolve_left h
      rw [← hP, inv_neg]
      simp only [mul_neg, neg_smul]
      abel

/-! ## The protocol -/

/-- the decision of the last round: the signature left in `bob.Signature` by the computation is returned
iff it verifies -/
theorem C37_round4_iff (env : SEnv F G) (b : Bob2 F G) (message : List UInt8) (m : SignRound3 F G) (sig : Sig) :
    b.round4 env message m = .ok sig ↔ b.compute env message m = .ok sig ∧
      EcdsaValid F env.q env.gen b.bob.publicKey env.xcoord (beNat (env.hash (b.bob.written ++ message)))
        sig.R sig.S := by
  unfold Bob2.round4
  rw [Go.bind_eq_ok]
  constructor
  · rintro ⟨sig', h1, h⟩
    obtain ⟨u, hu, h⟩ := Go.bind_eq_ok.1 h
    obtain rfl := Except.ok.inj h
    exact ⟨h1, Go.guard_eq_ok.1 hu⟩
  · rintro ⟨h1, h2⟩
    exact ⟨sig, h1, by rw [Go.guard_true h2]; rfl⟩

/-- Signing by honest parties with key shares `skA`, `skB`.  Both have written the same bytes `pre` to
their hash objects.  If Bob's and Alice's rounds succeed, then with `k = k_A·k_B`, `R = k·G`, `r` its
x coordinate and `h` the digest of `pre ++ message`, Bob's computation succeeds and
`s = (h + r·skA·skB)/k`.  The signature verifies and `V` is the parity of `y` of the point recovered from it,
unless `r` or `s` is zero, when Bob returns an error. -/
theorem C37_honest (env : SEnv F G) (hc : OrderCodec env.cd env.q) (ha : AffineOk env)
    (keys : List (Digest × Digest)) (seed : SeedReceiver) (nabla : Digest) (hseed : SeedOk keys seed nabla)
    (skA skB : F) (pre message : List UInt8) (aliceSeed bobSeed : Digest) (kB : F) (rndB : MulRnd)
    (rnd : AliceRnd F) (m2 : SignRound2 G) (b : Bob2 F G) (m3 : SignRound3 F G)
    (hB : (newBob keys skB ((skA * skB) • env.gen) pre).round2 env aliceSeed bobSeed kB rndB = .ok (m2, b))
    (hA : ((newAlice seed skA ((skA * skB) • env.gen) pre).round1 aliceSeed).round3 env message m2 rnd = .ok m3) :
    ∃ kA r h : F, kA ≠ 0 ∧ kB ≠ 0 ∧
      env.cd.dec ((env.penc ((kA * kB) • env.gen)).drop 1) = some r ∧
      env.cd.dec (env.hash (pre ++ message)) = some h ∧
      sval env.cd r = env.xcoord ((kA * kB) • env.gen) ∧
      let s := (h + r * (skA * skB)) / (kA * kB)
      ∃ sig, b.compute env message m3 = .ok sig ∧ sig.R = sval env.cd r ∧
        (sig.S, sig.V) = normalize env.cd s (((env.penc ((kA * kB) • env.gen)).headD 0).toNat % 2) ∧
        (r = 0 ∨ s = 0 → b.round4 env message m3 = Go.err) ∧
        (r ≠ 0 → s ≠ 0 → b.round4 env message m3 = .ok sig ∧
          EcdsaValid F env.q env.gen ((skA * skB) • env.gen) env.xcoord (beNat (env.hash (pre ++ message))) sig.R sig.S ∧
          sig.V = ((env.penc ((h * (sig.S : F)⁻¹) • env.gen +
            (r * (sig.S : F)⁻¹) • ((skA * skB) • env.gen))).headD 0).toNat % 2) := by
  -- Bob's second round
  unfold Bob.round2 newBob at hB
  obtain ⟨⟨g0, t0⟩, hn0, hB⟩ := Go.bind_eq_ok.1 hB
  obtain ⟨⟨g1, t1⟩, hn1, hB⟩ := Go.bind_eq_ok.1 hB
  obtain ⟨kBInv, hkB, hB⟩ := Go.bind_eq_ok.1 hB
  obtain ⟨⟨ko0, mr0⟩, hm0, hB⟩ := Go.bind_eq_ok.1 hB
  obtain ⟨⟨ko1, mr1⟩, hm1, hB⟩ := Go.bind_eq_ok.1 hB
  obtain ⟨rfl, rfl⟩ := Prod.mk.inj (Except.ok.inj hB)
  have hkB0 : kB ≠ 0 := by
    rintro rfl
    unfold invert at hkB
    rw [if_pos rfl] at hkB
    cases hkB
  obtain rfl : kBInv = kB⁻¹ := by
    unfold invert at hkB
    rw [if_neg hkB0] at hkB
    exact (Except.ok.inj hkB).symm
  -- Alice's third round
  unfold Alice.round3 Alice.round1 newAlice at hA
  obtain ⟨⟨g0', t0'⟩, hn0', hA⟩ := Go.bind_eq_ok.1 hA
  obtain ⟨⟨g1', t1'⟩, hn1', hA⟩ := Go.bind_eq_ok.1 hA
  simp only at hn0 hn1 hm0 hm1 hn0' hn1' hA
  rw [hn0] at hn0'
  rw [hn1] at hn1'
  obtain ⟨rfl, rfl⟩ := Prod.mk.inj (Except.ok.inj hn0')
  obtain ⟨rfl, rfl⟩ := Prod.mk.inj (Except.ok.inj hn1')
  obtain ⟨hR, hhR, hA⟩ := Go.bind_eq_ok.1 hA
  obtain ⟨pf, hpf, hA⟩ := Go.bind_eq_ok.1 hA
  obtain ⟨kAInv, hkA, hA⟩ := Go.bind_eq_ok.1 hA
  obtain ⟨⟨o0, sA0⟩, ho0, hA⟩ := Go.bind_eq_ok.1 hA
  obtain ⟨⟨o1, sA1⟩, ho1, hA⟩ := Go.bind_eq_ok.1 hA
  obtain ⟨hg1, hhg1, hA⟩ := Go.bind_eq_ok.1 hA
  obtain ⟨h, hh, hA⟩ := Go.bind_eq_ok.1 hA
  obtain ⟨rX, hrX, hA⟩ := Go.bind_eq_ok.1 hA
  obtain ⟨hg2, hhg2, hA⟩ := Go.bind_eq_ok.1 hA
  obtain rfl := Except.ok.inj hA
  simp only at hhg1 hrX hhg2
  generalize hkAdef : hR + rnd.kPrime = kA at *
  have hkA0 : kA ≠ 0 := by
    rintro rfl
    unfold invert at hkA
    rw [if_pos rfl] at hkA
    cases hkA
  obtain rfl : kAInv = kA⁻¹ := by
    unfold invert at hkA
    rw [if_neg hkA0] at hkA
    exact (Except.ok.inj hkA).symm
  obtain ⟨hver, hst⟩ := Schnorr.C19_complete _ _ _ _ _ _ _ _ _ hpf
  rw [Option.getD_some, smul_smul] at hst
  rw [hst] at hhg1 hrX
  -- the multiplications
  obtain ⟨_, _, hm0', hmul0⟩ := C36_honest env.toMEnv hc.toBeCodec keys seed nabla hseed _ g0 t0 hn0
    (rnd.phi + kA⁻¹) rnd.hat0 kB⁻¹ rndB.enc0 rndB.ext0
  rw [hm0] at hm0'
  obtain ⟨rfl, rfl⟩ := Prod.mk.inj (Except.ok.inj hm0')
  obtain ⟨_, _, hm1', hmul1⟩ := C36_honest env.toMEnv hc.toBeCodec keys seed nabla hseed _ g1 t1 hn1
    (skA * kA⁻¹) rnd.hat1 (skB * kB⁻¹) rndB.enc1 rndB.ext1
  rw [hm1] at hm1'
  obtain ⟨rfl, rfl⟩ := Prod.mk.inj (Except.ok.inj hm1')
  obtain ⟨sB0, hb0, hsum0⟩ : ∃ sB0, mulRound3 env.toMEnv mr0 o0 = .ok sB0 ∧ sA0 + sB0 = (rnd.phi + kA⁻¹) * kB⁻¹ := by
    rcases hmul0 with ⟨m', sA', sB, e1, e2, e3⟩ | ⟨e1, -⟩
    · rw [ho0] at e1
      obtain ⟨rfl, rfl⟩ := Prod.mk.inj (Except.ok.inj e1)
      exact ⟨sB, e2, e3⟩
    · rw [ho0] at e1
      cases e1
  obtain ⟨sB1, hb1, hsum1⟩ : ∃ sB1, mulRound3 env.toMEnv mr1 o1 = .ok sB1 ∧ sA1 + sB1 = (skA * kA⁻¹) * (skB * kB⁻¹) := by
    rcases hmul1 with ⟨m', sA', sB, e1, e2, e3⟩ | ⟨e1, -⟩
    · rw [ho1] at e1
      obtain ⟨rfl, rfl⟩ := Prod.mk.inj (Except.ok.inj e1)
      exact ⟨sB, e2, e3⟩
    · rw [ho1] at e1
      cases e1
  have hk0 : kA * kB ≠ 0 := mul_ne_zero hkA0 hkB0
  have hRne : (kA * kB) • env.gen ≠ 0 := fun h => by
    rcases smul_eq_zero.1 h with h | h
    · exact hk0 h
    · exact ha.gen h
  have hxs := hrX
  unfold xScalar at hxs
  rw [Go.guard_bind_eq_ok, Go.ofOption_eq_ok] at hxs
  rw [Go.ofOption_eq_ok] at hh
  have hxv : sval env.cd rX = env.xcoord ((kA * kB) • env.gen) := by
    unfold sval
    rw [env.cd.enc_dec _ _ hxs.2, ha.x _ hRne]
  have hgam1 : sB0 • (kA * kB) • env.gen = (kA * rnd.phi + 1) • env.gen + (-sA0) • (kA * kB) • env.gen := by
    rw [smul_smul, smul_smul, ← add_smul]
    congr 1
    have : sB0 = (rnd.phi + kA⁻¹) * kB⁻¹ - sA0 := by rw [← hsum0]; ring
    rw [this]
    field_simp
    ring
  have htheta : sB0 - (hg1 + rnd.phi - hg1) * kB⁻¹ = (kA * kB)⁻¹ - sA0 := by
    have : sB0 = (rnd.phi + kA⁻¹) * kB⁻¹ - sA0 := by rw [← hsum0]; ring
    rw [this]
    field_simp
    ring
  have hgam2 : sB1 • env.gen + (-((kA * kB)⁻¹ - sA0)) • ((skA * skB) • env.gen) =
      sA0 • ((skA * skB) • env.gen) + (-sA1) • env.gen := by
    have : sB1 = (skA * kA⁻¹) * (skB * kB⁻¹) - sA1 := by rw [← hsum1]; ring
    rw [smul_smul, smul_smul, ← add_smul, ← add_smul, this]
    congr 1
    field_simp
    ring
  have hstat : hR • kB • env.gen + rnd.kPrime • kB • env.gen = (kA * kB) • env.gen := by
    rw [← add_smul, hkAdef, smul_smul]
  have hpfst : ({ pf with statement := (kA * kB) • env.gen } : Schnorr.Proof F G) = pf := by
    rw [← hst]
  refine ⟨kA, rX, h, hkA0, hkB0, hxs.2, hh, hxv, ?_⟩
  intro s
  have hcomp : (Bob2.mk (Bob.mk keys skB ((skA * skB) • env.gen)
      (((((Merlin.new "Coinbase_DKLs_Sign").append "session_id_alice" aliceSeed.toList).append
        "session_id_bob" bobSeed.toList).extract "multiply receiver id 0").extract "multiply receiver id 1") pre) mr0 mr1 kB (kB • env.gen)).compute env message
      ⟨o0, o1, pf, rnd.kPrime • kB • env.gen, hg1 + rnd.phi, hg2 + (h * sA0 + rX * sA1)⟩ =
      .ok ⟨sval env.cd rX, (normalize env.cd s (((env.penc ((kA * kB) • env.gen)).headD 0).toNat % 2)).1,
        (normalize env.cd s (((env.penc ((kA * kB) • env.gen)).headD 0).toNat % 2)).2⟩ := by
    unfold Bob2.compute
    simp only
    rw [hb0, Go.ok_bind, hb1, Go.ok_bind, hhR, Go.ok_bind, hstat, hpfst, hver, Go.ok_bind, hrX, Go.ok_bind, hgam1,
      hhg1, Go.ok_bind, hkB, Go.ok_bind, htheta, hh]
    show (hashPoint env _ >>= fun _ => _) = _
    rw [hgam2, hhg2, Go.ok_bind, add_zero, sval_cast hc]
    have hs : h * ((kA * kB)⁻¹ - sA0) + rX * sB1 + (hg2 + (h * sA0 + rX * sA1) - hg2) = s := by
      have : sB1 = (skA * kA⁻¹) * (skB * kB⁻¹) - sA1 := by rw [← hsum1]; ring
      show _ = (h + rX * (skA * skB)) / (kA * kB)
      rw [this]
      field_simp
      ring
    rw [hs]
  have hsdef : s = (h + rX * (skA * skB)) / (kA * kB) := rfl
  clear_value s
  generalize hv : ((env.penc ((kA * kB) • env.gen)).headD 0).toNat % 2 = v at hcomp ⊢
  have hn := normalize_cases env.cd s v
  refine ⟨_, hcomp, rfl, rfl, ?_, ?_⟩
  · intro h0
    unfold Bob2.round4
    rw [hcomp, Go.ok_bind]
    have hnot : ¬ EcdsaValid F env.q env.gen ((skA * skB) • env.gen) env.xcoord
        (beNat (env.hash (pre ++ message))) (sval env.cd rX) (normalize env.cd s v).1 := by
      rintro ⟨h1, -, h3, -⟩
      rcases h0 with h0 | h0
      · rw [(sval_zero_iff hc rX).2 h0] at h1
        exact absurd h1 (lt_irrefl 0)
      · rw [h0] at h3 hn
        rw [neg_zero] at hn
        rcases hn with hn | hn <;> rw [hn] at h3 <;> simp only at h3 <;>
          rw [(sval_zero_iff hc 0).2 rfl] at h3 <;> exact absurd h3 (lt_irrefl 0)
    rw [Go.guard_false (by exact hnot)]
    rfl
  · intro hr0 hs0
    obtain ⟨s', hs', hS, hV⟩ : ∃ s', (s' = s ∨ s' = -s) ∧ (normalize env.cd s v).1 = sval env.cd s' ∧
        (normalize env.cd s v).2 = if s' = s then v else v ^^^ 1 := by
      rcases hn with hn | hn
      · exact ⟨s, .inl rfl, by rw [hn], by rw [hn, if_pos rfl]⟩
      · by_cases hss : -s = s
        · exfalso
          have h2 : (2 : F) = 0 := by
            have : (2 : F) * s = 0 := by linear_combination -hss
            exact (mul_eq_zero.1 this).resolve_right hs0
          have hneg : -((kA * kB) • env.gen) = (kA * kB) • env.gen := by
            rw [neg_eq_iff_add_eq_zero, ← two_smul F, h2, zero_smul]
          have hp := ha.parity _ hRne
          rw [hneg] at hp
          omega
        · exact ⟨-s, .inr rfl, by rw [hn], by rw [hn, if_neg hss]⟩
    have heN : ((beNat (env.hash (pre ++ message)) : ℕ) : F) = h := by
      rw [← env.cd.enc_dec _ _ hh]
      exact hc.val h
    obtain ⟨hval, hpt⟩ := valid_of_eq env hc ha ((skA * skB) • env.gen) h rX (skA * skB) (kA * kB) s _ heN hk0 rfl
      hsdef hr0 hs0 hxv s' hs'
    rw [C37_round4_iff]
    refine ⟨⟨hcomp, ?_⟩, ?_, ?_⟩
    · simp only
      rw [hS]
      exact hval
    · simp only
      rw [hS]
      exact hval
    · simp only
      rw [hS, hV, sval_cast hc, hpt, ← hv]
      split
      · rfl
      · rw [ha.parity _ hRne]
        rcases Nat.mod_two_eq_zero_or_one ((env.penc ((kA * kB) • env.gen)).headD 0).toNat with h | h <;> rw [h] <;> rfl

/-- every digest encodes a scalar (for the curves in use this fails with negligible probability) -/
structure Total (env : SEnv F G) : Prop where
  sha : ∀ l, ∃ x, env.cd.dec (env.shaL l) = some x
  hash : ∀ l, ∃ x, env.cd.dec (env.hash l) = some x
  ext : ∀ t, ∃ x, env.cd.dec (env.ext t).toList = some x
  slots : ∀ sid psi nabla, Decodable env.toKEnv sid psi nabla
  new : ∀ sid, ∃ g t, newMultiply env.toMEnv sid = .ok (g, t)

/-- Alice's nonce `k_A = H(R') + k'_A` is defined and not zero, and the x coordinate of `R = k_A R'` is below the group order -/
def AliceNonceOk (env : SEnv F G) (rnd : AliceRnd F) (kB : F) : Prop :=
  ∃ x, env.cd.dec (env.shaL (env.penc (rnd.kPrime • kB • env.gen))) = some x ∧ x + rnd.kPrime ≠ 0 ∧
    ∃ y, env.cd.dec ((env.penc ((x + rnd.kPrime) • kB • env.gen)).drop 1) = some y

/-- If every digest encodes a scalar, the rounds of honest parties succeed unless `k_A` or `k_B` is zero. -/
theorem C37_rounds_succeed (env : SEnv F G) (hc : OrderCodec env.cd env.q) (ha : AffineOk env) (ht : Total env)
    (keys : List (Digest × Digest)) (seed : SeedReceiver) (nabla : Digest) (hseed : SeedOk keys seed nabla)
    (skA skB : F) (pre message : List UInt8) (aliceSeed bobSeed : Digest) (kB : F) (hkB : kB ≠ 0) (rndB : MulRnd) :
    ∃ m2 b, (newBob keys skB ((skA * skB) • env.gen) pre).round2 env aliceSeed bobSeed kB rndB = .ok (m2, b) ∧
      ∀ rnd : AliceRnd F, AliceNonceOk env rnd kB →
        ∃ m3, ((newAlice seed skA ((skA * skB) • env.gen) pre).round1 aliceSeed).round3 env message m2 rnd = .ok m3 := by
  generalize ht' : ((Merlin.new "Coinbase_DKLs_Sign").append "session_id_alice" aliceSeed.toList).append
    "session_id_bob" bobSeed.toList = t
  have hinv : ∀ k : F, k ≠ 0 → invert k = .ok k⁻¹ := fun k hk => if_neg hk
  have hhash : ∀ P, ∃ x, hashPoint env P = .ok x := fun P => by
    obtain ⟨x, hx⟩ := ht.sha (env.penc P)
    exact ⟨x, Go.ofOption_eq_ok.2 hx⟩
  obtain ⟨g0, t0, hn0⟩ := ht.new (env.ext (t.extract "multiply receiver id 0"))
  obtain ⟨g1, t1, hn1⟩ := ht.new (env.ext ((t.extract "multiply receiver id 0").extract "multiply receiver id 1"))
  have hm0 := fun alpha hat => C36_honest env.toMEnv hc.toBeCodec keys seed nabla hseed _ g0 t0 hn0 alpha hat kB⁻¹
    rndB.enc0 rndB.ext0
  have hm1 := fun alpha hat => C36_honest env.toMEnv hc.toBeCodec keys seed nabla hseed _ g1 t1 hn1 alpha hat
    (skB * kB⁻¹) rndB.enc1 rndB.ext1
  obtain ⟨k0, r0, e0, -⟩ := hm0 0 0
  obtain ⟨k1, r1, e1, -⟩ := hm1 0 0
  refine ⟨⟨k0, k1, kB • env.gen, bobSeed⟩,
    ⟨⟨keys, skB, (skA * skB) • env.gen, (t.extract "multiply receiver id 0").extract "multiply receiver id 1",
      pre⟩, r0, r1, kB, kB • env.gen⟩, ?_, ?_⟩
  · unfold Bob.round2 newBob
    simp only
    rw [ht']
    refine Go.bind_eq_ok.2 ⟨_, hn0, Go.bind_eq_ok.2 ⟨_, hn1, Go.bind_eq_ok.2 ⟨_, hinv kB hkB, ?_⟩⟩⟩
    exact Go.bind_eq_ok.2 ⟨_, e0, Go.bind_eq_ok.2 ⟨_, e1, rfl⟩⟩
  rintro rnd ⟨x, hx, hx1, y4, hy4⟩
  replace hx : hashPoint env (rnd.kPrime • kB • env.gen) = .ok x := Go.ofOption_eq_ok.2 hx
  obtain ⟨k0', r0', e0', h0⟩ := hm0 (rnd.phi + (x + rnd.kPrime)⁻¹) rnd.hat0
  obtain ⟨k1', r1', e1', h1⟩ := hm1 (skA * (x + rnd.kPrime)⁻¹) rnd.hat1
  rw [e0] at e0'
  rw [e1] at e1'
  obtain ⟨rfl, rfl⟩ := Prod.mk.inj (Except.ok.inj e0')
  obtain ⟨rfl, rfl⟩ := Prod.mk.inj (Except.ok.inj e1')
  obtain ⟨m0, sA0, sB0, f0, -⟩ := h0.resolve_right fun h => h.2 ⟨ht.slots _ _ _, ht.ext⟩
  obtain ⟨m1, sA1, sB1, f1, -⟩ := h1.resolve_right fun h => h.2 ⟨ht.slots _ _ _, ht.ext⟩
  have hprove : ∃ pf, (Schnorr.newProver env.gen (some (kB • env.gen)) (env.ext (((t.extract "multiply receiver id 0").extract
      "multiply receiver id 1").extract "schnorr proof for R")).toList).prove env.shaL env.penc env.cd (x + rnd.kPrime)
        rnd.nonce = .ok pf := by
    rw [(Schnorr.C19_prove_decision _ _ _ _ _ _ _ _).1]
    obtain ⟨c, hc⟩ := ht.sha ((env.ext (((t.extract "multiply receiver id 0").extract
      "multiply receiver id 1").extract "schnorr proof for R")).toList ++ env.penc (kB • env.gen) ++
      env.penc ((x + rnd.kPrime) • kB • env.gen) ++ env.penc (rnd.nonce • kB • env.gen))
    exact ⟨c, env.cd.enc_dec _ _ hc⟩
  obtain ⟨pf, hpf⟩ := hprove
  obtain ⟨-, hst⟩ := Schnorr.C19_complete _ _ _ _ _ _ _ _ _ hpf
  rw [Option.getD_some] at hst
  have hne : pf.statement ≠ 0 := by
    rw [hst]
    intro h
    rcases smul_eq_zero.1 h with h | h
    · exact hx1 h
    · rcases smul_eq_zero.1 h with h | h
      · exact hkB h
      · exact ha.gen h
  obtain ⟨y1, hy1⟩ := hhash (((x + rnd.kPrime) * rnd.phi + 1) • env.gen + (-sA0) • pf.statement)
  obtain ⟨y2, hy2⟩ := hhash (sA0 • ((skA * skB) • env.gen) + (-sA1) • env.gen)
  obtain ⟨y3, hy3⟩ := ht.hash (pre ++ message)
  rw [← hst] at hy4
  have hxs : xScalar env pf.statement = .ok y4 := by
    unfold xScalar
    rw [Go.guard_bind_eq_ok, Go.ofOption_eq_ok]
    exact ⟨ha.len _ hne, hy4⟩
  refine ⟨⟨m0, m1, pf, rnd.kPrime • kB • env.gen, y1 + rnd.phi, y2 + (y3 * sA0 + y4 * sA1)⟩, ?_⟩
  unfold Alice.round3 Alice.round1 newAlice
  simp only
  rw [ht']
  refine Go.bind_eq_ok.2 ⟨_, hn0, Go.bind_eq_ok.2 ⟨_, hn1, Go.bind_eq_ok.2 ⟨_, hx, Go.bind_eq_ok.2 ⟨_, hpf, ?_⟩⟩⟩⟩
  refine Go.bind_eq_ok.2 ⟨_, hinv _ hx1, Go.bind_eq_ok.2 ⟨_, f0, Go.bind_eq_ok.2 ⟨_, f1, ?_⟩⟩⟩
  refine Go.bind_eq_ok.2 ⟨_, hy1, Go.bind_eq_ok.2 ⟨_, Go.ofOption_eq_ok.2 hy3, ?_⟩⟩
  exact Go.bind_eq_ok.2 ⟨_, hxs, Go.bind_eq_ok.2 ⟨_, hy2, rfl⟩⟩

/-! ## The hypotheses can be met -/

/-- toy curve: the group of order 257 with the smaller of `±P` as x coordinate -/
def toySEnv : SEnv Toy.K Toy.K where
  toMEnv := toyMEnv
  gen := 1
  penc P := (if P.val ≤ 128 then 2 else 3) :: (Accum.padCodec 30).enc ((min P.val (-P).val : ℕ) : Toy.K)
  pdec l := ((Accum.padCodec 30).dec (l.drop 1)).map fun x => if l.headD 0 = 2 then x else -x
  hash l := (toyEnv.sha l).toList
  xcoord P := min P.val (-P).val
  q := 257

theorem toyOrder : OrderCodec toySEnv.cd toySEnv.q where
  toBeCodec := toyBe
  lt x := by
    show beNat ((Accum.padCodec 30).enc x) < 257
    revert x
    decide +kernel
  char := ZMod.charP 257

theorem toyAffine : AffineOk toySEnv where
  gen := by unfold toySEnv; decide
  len P _ := by
    show ((Accum.padCodec 30).enc _).length + 1 = 33
    rw [show ((Accum.padCodec 30).enc _).length = 32 from toyK_len _]
  x P _ := by
    show beNat ((Accum.padCodec 30).enc ((min P.val (-P).val : ℕ) : Toy.K)) = min P.val (-P).val
    revert P
    decide +kernel
  xneg P := by
    show min (-P).val (-(-P)).val = min P.val (-P).val
    rw [neg_neg, min_comm]
  parity P h := by
    show ((if (-P).val ≤ 128 then 2 else 3 : UInt8)).toNat % 2 = 1 - ((if P.val ≤ 128 then 2 else 3 : UInt8)).toNat % 2
    revert P
    decide +kernel

theorem toy_sha (l : List UInt8) : ∃ x, toySEnv.cd.dec (toyEnv.sha l).toList = some x := by
  have key : ∀ b : UInt8, (Accum.padCodec 30).enc ((b.toNat : ℕ) : Toy.K) = List.replicate 31 0 ++ [b] := by
    have : ∀ n < 256, (Accum.padCodec 30).enc ((n : ℕ) : Toy.K) = List.replicate 31 0 ++ [UInt8.ofNat n] := by
      decide +kernel
    intro b
    rw [this _ b.toNat_lt, UInt8.ofNat_toNat]
  have : (toyEnv.sha l).toList = (Accum.padCodec 30).enc
      (((l.foldl (fun a b => 3 * a + b) (1 : UInt8)).toNat : ℕ) : Toy.K) := by
    rw [key]
    refine List.ext_getElem (by simp) fun i h1 h2 => ?_
    rw [Vector.getElem_toList]
    unfold toyEnv
    rw [Vector.getElem_ofFn]
    have hi : i < 32 := by simpa using h1
    by_cases h31 : i = 31
    · subst h31
      rw [List.getElem_append_right (by simp)]
      simp
    · rw [List.getElem_append_left (by simp; omega), List.getElem_replicate, if_neg]
      intro h
      exact h31 (congrArg Fin.val h)
  rw [this]
  exact ⟨_, (Accum.padCodec 30).dec_enc _⟩

theorem toy_shaL (l : List UInt8) : toySEnv.shaL l = (toyEnv.sha l).toList := rfl

theorem toy_hashL (l : List UInt8) : toySEnv.hash l = (toyEnv.sha l).toList := by unfold toySEnv; with_reducible rfl

theorem toy_penc (P : Toy.K) : (toySEnv.penc P).drop 1 =
    toySEnv.cd.enc ((min P.val (-P).val : ℕ) : Toy.K) := rfl

theorem toy_x (P : Toy.K) : ∃ x, toySEnv.cd.dec ((toySEnv.penc P).drop 1) = some x := by
  rw [toy_penc]
  generalize ((min P.val (-P).val : ℕ) : Toy.K) = y
  exact ⟨y, toySEnv.cd.dec_enc y⟩

theorem toyS_env : toySEnv.toMEnv = toyMEnv := by
  unfold toySEnv
  with_reducible rfl

theorem toyS_ext (t : Merlin) : ∃ x, toySEnv.cd.dec (toySEnv.ext t).toList = some x := by
  rw [show toySEnv.toMEnv = toyMEnv from toyS_env]
  exact toyM_ext t

theorem toyS_new (sid : Digest) : ∃ g t, newMultiply toySEnv.toMEnv sid = .ok (g, t) := by
  rw [toyS_env]
  exact toyM_new sid

theorem toy_slots (sid : Digest) (psi) (nabla : Digest) : Decodable toySEnv.toKEnv sid psi nabla :=
  fun _ _ hk => ⟨toyK_slot _ _ _ _ hk, toyK_slot _ _ _ _ hk⟩

theorem toyTotal : Total toySEnv where
  sha l := by rw [toy_shaL]; exact toy_sha l
  hash l := by rw [toy_hashL]; exact toy_sha l
  ext := toyS_ext
  slots := toy_slots
  new := toyS_new

theorem toy_R : AliceNonceOk toySEnv ⟨1, 10, 11, 12, 13⟩ 3 := by
  unfold AliceNonceOk
  decide +kernel

/-- `C37_honest`: Bob's second and Alice's third round succeed -/
example (aliceSeed bobSeed : Digest) (rndB : MulRnd) (pre message : List UInt8) : ∃ keys seed,
    SeedOk keys seed toyNabla ∧ ∃ m2 b m3,
    (newBob keys 7 (((6 : Toy.K) * 7) • toySEnv.gen) pre).round2 toySEnv aliceSeed bobSeed 3 rndB = .ok (m2, b) ∧
    ((newAlice seed 6 (((6 : Toy.K) * 7) • toySEnv.gen) pre).round1 aliceSeed).round3 toySEnv message m2
      ⟨1, 10, 11, 12, 13⟩ = .ok m3 := by
  obtain ⟨keys, seed, hseed⟩ : ∃ keys seed, SeedOk keys seed toyNabla := ⟨_, _, toySeed 256 (Nat.le_refl 256)⟩
  refine ⟨keys, seed, hseed, ?_⟩
  have h3 : (3 : Toy.K) ≠ 0 := by decide
  obtain ⟨m2, b, hB, hA⟩ := C37_rounds_succeed toySEnv toyOrder toyAffine toyTotal keys seed _ hseed 6 7 pre message
    aliceSeed bobSeed 3 h3 rndB
  obtain ⟨m3, h⟩ := hA _ toy_R
  exact ⟨m2, b, m3, hB, h⟩

/-- `C38_normalize`, `C38_not_low`: the conditions on the order -/
example : secp256k1Order / 2 < 2 ^ 255 - 1 ∧ 2 ^ 255 < secp256k1Order ∧ secp256k1Order < 2 ^ 256 := by
  decide +kernel

end Verif.Dkls
