import Verif.DklsV0.SignModel
import Verif.DklsV0.MulProps
import Verif.Dkls.SignProps

/-!
# C203: signing with the older DKLs
-/

set_option exponentiation.threshold 1000

namespace Verif.DklsV0
open Verif.Legacy Verif.Ot

/-- what the code leaves in `Sig` for the equation's solution `s`: it is negated when bit 255 is set -/
def normSig (q : ℕ) (rx ry : ℤ) (s : ZMod q) : Sig :=
  if 2 ^ 255 ≤ s.val then ⟨rx, ((-s).val : ℕ), bigBit ry 0 ^^^ 1⟩ else ⟨rx, (s.val : ℕ), bigBit ry 0⟩

section
variable {env : Env} {A : Type} [AddCommGroup A] (L : Sound env A) [hp : Fact env.q.Prime] [Module (ZMod env.q) A]

theorem zc (_ : Sound env A) (k : ℤ) (P : A) : k • P = (k : ZMod env.q) • P := (Int.cast_smul_eq_zsmul (ZMod env.q) k P).symm

/-- the hash of a point, as a scalar -/
def hashPt (P : A) : ℤ := intOf (env.sha (enc L P))

omit hp [Module (ZMod env.q) A] in
theorem gen_pt : env.generator = L.pt L.g := by
  rw [Env.generator, Computes.pt, L.base]

omit [Module (ZMod env.q) A] in
theorem val_of {z : ℤ} {s : ZMod env.q} (h0 : 0 ≤ z) (h1 : z < env.q) (h : (z : ZMod env.q) = s) : z = (s.val : ℕ) := by
  have : NeZero env.q := ⟨hp.out.ne_zero⟩
  rw [← h, ZMod.val_intCast, Int.emod_eq_of_lt h0 h1]

/-- C203: Alice's answer to any message whose point is in the group: the inputs of the multiplication, and the two masked values -/
theorem C203_alice (D P : A) (packed : Digest) (rho : Fin 256 → Digest) (skA kPrimeA phi : ℤ) (digest : List UInt8) (seed : Digest) (c0 : CotInit)
    (kA : ZMod env.q) (hk : kA = hashPt L (kPrimeA • D) + kPrimeA) (hkA : kA ≠ 0) :
    ∃ a0 a1 : ℤ, (a0 : ZMod env.q) = phi + kA⁻¹ ∧ (a1 : ZMod env.q) = skA * kA⁻¹ ∧
      ∀ cot ta, multiply env (env.sha seed.toList) packed rho ![a0, a1] c0 = .ok (cot, ta) →
        ∃ ep es : ℤ, aliceSign env packed rho skA (some (L.pt P)) digest kPrimeA phi ⟨seed, some (L.pt D), c0⟩ =
            .ok ⟨cot, some (L.pt (kPrimeA • D)), some ep, some es⟩ ∧
          (ep : ZMod env.q) = hashPt L ((phi * kA) • L.g + (-(ta 0 : ZMod env.q) * kA) • D + L.g) + phi ∧
          (es : ZMod env.q) = hashPt L ((ta 0 : ZMod env.q) • P + (-(ta 1 : ZMod env.q)) • L.g) +
            ((beNat digest : ℕ) * ta 0 + (L.xy (kA • D)).1 * ta 1) := by
  obtain ⟨hr, -, -⟩ := C190_mod env.q
  obtain ⟨k, hk1, -, -, hk2⟩ := hr.add (hashPt L (kPrimeA • D)) kPrimeA
  rw [← hk] at hk2
  obtain ⟨i, hi1, -, -, hi2⟩ := hr.div 1 k (by rw [hk2]; exact hkA)
  rw [hk2, Int.cast_one, one_mul] at hi2
  obtain ⟨a0, ha1, -, -, ha2⟩ := hr.add phi i
  obtain ⟨a1, hb1, -, -, hb2⟩ := hr.mul skA i
  rw [hi2] at ha2 hb2
  refine ⟨a0, a1, ha2, hb2, fun cot ta hm => ?_⟩
  obtain ⟨n0, hn1, -, -, hn2⟩ := hr.neg (ta 0)
  obtain ⟨n1, hm1, -, -, hm2⟩ := hr.neg (ta 1)
  obtain ⟨ep, hep1, -, -, hep2⟩ := hr.add (hashPt L (phi • k • L.g + n0 • k • D + L.g)) phi
  obtain ⟨s0, hs1, -, -, hs2⟩ := hr.mul (beNat digest) (ta 0)
  obtain ⟨s1, ht1, -, -, ht2⟩ := hr.mul (L.xy (k • D)).1 (ta 1)
  obtain ⟨sA, hu1, -, -, hu2⟩ := hr.add s0 s1
  obtain ⟨es, he1, -, -, he2⟩ := hr.add (hashPt L (ta 0 • P + n1 • L.g)) sA
  refine ⟨ep, es, ?_, ?_, ?_⟩
  · unfold aliceSign
    simp only
    rw [mult L, Go.ok_bind, pt_bytes, Go.ok_bind]
    rw [show env.sc.add (intOf (env.sha (enc L (kPrimeA • D)))) kPrimeA = .ok k from hk1, Go.ok_bind, mult L, Go.ok_bind,
      show env.sc.div 1 k = .ok i from hi1, Go.ok_bind, show env.sc.add phi i = .ok a0 from ha1, Go.ok_bind,
      show env.sc.mul skA i = .ok a1 from hb1, Go.ok_bind, hm, Go.ok_bind]
    simp only
    rw [base L, Go.ok_bind, mult L, Go.ok_bind, show env.sc.neg (ta 0) = .ok n0 from hn1, Go.ok_bind, mult L, Go.ok_bind, padd L, Go.ok_bind,
      gen_pt L, padd L, Go.ok_bind, pt_bytes, Go.ok_bind,
      show env.sc.add (intOf (env.sha (enc L (phi • k • L.g + n0 • k • D + L.g)))) phi = .ok ep from hep1, Go.ok_bind,
      show env.sc.mul (beNat digest : ℕ) (ta 0) = .ok s0 from hs1, Go.ok_bind,
      show deref (L.pt (k • D)).X = .ok (L.xy (k • D)).1 from rfl, Go.ok_bind, show env.sc.mul (L.xy (k • D)).1 (ta 1) = .ok s1 from ht1, Go.ok_bind,
      show env.sc.add s0 s1 = .ok sA from hu1, Go.ok_bind, mult L, Go.ok_bind, show env.sc.neg (ta 1) = .ok n1 from hm1, Go.ok_bind, base L, Go.ok_bind,
      padd L, Go.ok_bind, pt_bytes, Go.ok_bind, show env.sc.add (intOf (env.sha (enc L (ta 0 • P + n1 • L.g)))) sA = .ok es from he1]
    rfl
  · rw [hep2, zc L phi, zc L k, zc L n0, zc L k, hk2, hn2, smul_smul, smul_smul]
  · rw [he2, hu2, hs2, ht2, zc L (ta 0), zc L n1, zc L k, hk2, hm2]
    push_cast; rfl

/-- C203: what Bob computes from any message whose point is in the group, once the multiplication is finished -/
theorem C203_bob (hq : env.q ≤ 2 ^ 256) (D Q P : A) (kB : ℤ) (hkB : (kB : ZMod env.q) ≠ 0) (tB : CotReceiver 2) (digest : List UInt8) (cot : CotMsg) (tb : Fin 2 → ℤ)
    (ht : multiplyTransfer env tB cot = .ok tb) (ep es : ℤ) (R : A) (hR : R = hashPt L Q • D + Q) (theta : ZMod env.q)
    (hth : theta = tb 0 - (ep - hashPt L ((tb 0 : ZMod env.q) • R)) * (kB : ZMod env.q)⁻¹) :
    signCompute env (some (L.pt P)) ⟨kB, L.pt D, tB⟩ digest ⟨cot, some (L.pt Q), some ep, some es⟩ =
      .ok (normSig env.q (L.xy R).1 (L.xy R).2 ((beNat digest : ℕ) * theta + (L.xy R).1 * tb 1 +
        (es - hashPt L ((tb 1 : ZMod env.q) • L.g + (-theta) • P)))) := by
  obtain ⟨hr, -, -⟩ := C190_mod env.q
  obtain ⟨ph, h1, -, -, e1⟩ := hr.sub ep (hashPt L (tb 0 • R))
  obtain ⟨d, h2, -, -, e2⟩ := hr.div ph kB hkB
  obtain ⟨th, h3, -, -, e3⟩ := hr.sub (tb 0) d
  rw [e2, e1, zc L (tb 0), ← hth] at e3
  obtain ⟨s0, h4, -, -, e4⟩ := hr.mul (beNat digest) th
  obtain ⟨s1, h5, -, -, e5⟩ := hr.mul (L.xy R).1 (tb 1)
  obtain ⟨sB, h6, -, -, e6⟩ := hr.add s0 s1
  obtain ⟨nt, h7, -, -, e7⟩ := hr.neg th
  obtain ⟨t, h8, -, -, e8⟩ := hr.sub es (hashPt L (tb 1 • L.g + nt • P))
  obtain ⟨s, h9, l9, u9, e9⟩ := hr.add sB t
  obtain ⟨ns, h10, l10, u10, e10⟩ := hr.neg s
  rw [e8, e6, e4, e5, e3, zc L (tb 1), zc L nt, e7, e3] at e9
  rw [Int.cast_natCast] at e9
  unfold signCompute
  rw [ht, Go.ok_bind]
  simp only
  rw [show deref (some (L.pt Q)) = .ok (L.pt Q) from rfl, Go.ok_bind, pt_bytes, Go.ok_bind, mult L, Go.ok_bind, padd L, Go.ok_bind]
  rw [show intOf (env.sha (enc L Q)) • D + Q = R from hR.symm]
  rw [show deref (L.pt R).X = .ok (L.xy R).1 from rfl, Go.ok_bind, show deref (L.pt R).Y = .ok (L.xy R).2 from rfl, Go.ok_bind, mult L, Go.ok_bind,
    pt_bytes, Go.ok_bind, show deref (some ep) = .ok ep from rfl, Go.ok_bind,
    show env.sc.sub ep (intOf (env.sha (enc L (tb 0 • R)))) = .ok ph from h1, Go.ok_bind, show env.sc.div ph kB = .ok d from h2, Go.ok_bind,
    show env.sc.sub (tb 0) d = .ok th from h3, Go.ok_bind, show env.sc.mul (beNat digest : ℕ) th = .ok s0 from h4, Go.ok_bind,
    show env.sc.mul (L.xy R).1 (tb 1) = .ok s1 from h5, Go.ok_bind, show env.sc.add s0 s1 = .ok sB from h6, Go.ok_bind, base L, Go.ok_bind,
    show env.sc.neg th = .ok nt from h7, Go.ok_bind, mult L, Go.ok_bind, padd L, Go.ok_bind, pt_bytes, Go.ok_bind,
    show deref (some es) = .ok es from rfl, Go.ok_bind,
    show env.sc.sub es (intOf (env.sha (enc L (tb 1 • L.g + nt • P)))) = .ok t from h8, Go.ok_bind,
    show env.sc.add sB t = .ok s from h9, Go.ok_bind]
  have hs := val_of l9 u9 e9
  have hns := val_of l10 u10 (e10.trans (congrArg Neg.neg e9))
  generalize (beNat digest : ZMod env.q) * theta + (L.xy R).1 * tb 1 + (es - hashPt L ((tb 1 : ZMod env.q) • L.g + (-theta) • P)) = v at *
  have hb : bigBit s 255 = 1 ↔ 2 ^ 255 ≤ v.val := by
    have : NeZero env.q := ⟨hp.out.ne_zero⟩
    rw [hs, bigBit, Int.toNat_natCast, Dkls.testBit_255 _ (lt_of_lt_of_le (ZMod.val_lt v) hq)]
    by_cases h : 2 ^ 255 ≤ v.val <;> simp
  by_cases h : 2 ^ 255 ≤ v.val
  · rw [if_pos (hb.2 h), show env.sc.neg s = .ok ns from h10, Go.ok_bind, normSig, if_pos h, hns]
  · rw [if_neg (fun h' => h (hb.1 h')), normSig, if_neg h, hs]

omit hp [Module (ZMod env.q) A] in
/-- C203: Bob returns exactly the signatures that he computed and that verify under the joint key, whatever Alice sent -/
theorem C203_checked (pk : EcPoint) (bob : BobSign) (digest : List UInt8) (input : SignMsg) (sig : Sig) :
    signFinal env (some pk) bob digest input = .ok sig ↔
      signCompute env (some pk) bob digest input = .ok sig ∧ env.ecdsaVerify { pk with curve := env.curve } digest sig.R sig.S = true := by
  unfold signFinal
  rw [Go.bind_eq_ok]
  constructor
  · rintro ⟨s, h1, h⟩
    rw [show deref (some pk) = .ok pk from rfl, Go.ok_bind] at h
    obtain ⟨h2, h3⟩ := Go.guard_bind_eq_ok.1 h
    obtain rfl := Except.ok.inj h3
    exact ⟨h1, h2⟩
  · rintro ⟨h1, h2⟩
    refine ⟨sig, h1, ?_⟩
    rw [show deref (some pk) = .ok pk from rfl, Go.ok_bind]
    exact Go.guard_bind_eq_ok.2 ⟨h2, rfl⟩

/-- C203: honest parties after an honest key generation and seed OT: all rounds succeed and Bob computes the ECDSA signature of the integer
of the digest for the nonce `kA·kB`, where `kA` is Alice's scalar plus the hash of her point -/
theorem C203_honest (hq : env.q ≤ 2 ^ 256) (rho : Fin 256 → Digest × Digest) (packed : Digest) (skA skB kPrimeA phi : ℤ) (rd : BobRandom)
    (digest : List UInt8) (kA : ZMod env.q) (hk : kA = hashPt L (kPrimeA • rd.kB • L.g) + kPrimeA) (hkA : kA ≠ 0) (hkB : (rd.kB : ZMod env.q) ≠ 0)
    (R : A) (hR : R = (kA * rd.kB) • L.g) : ∃ m1 bob m2,
      bobSignInit env rho skB rd = .ok (m1, bob) ∧
      aliceSign env packed (fun i => pick (bit packed i) (rho i)) skA (some (L.pt ((skA * skB) • L.g))) digest kPrimeA phi m1 = .ok m2 ∧
      signCompute env (some (L.pt ((skA * skB) • L.g))) bob digest m2 =
        .ok (normSig env.q (L.xy R).1 (L.xy R).2 (((beNat digest : ℕ) + (L.xy R).1 * (skA * skB)) / (kA * rd.kB))) := by
  have hq' : env.q ≤ 256 ^ 32 := le_trans hq (by norm_num)
  have h0 : 0 < env.q := hp.out.pos
  obtain ⟨hr, -, -⟩ := C190_mod env.q
  obtain ⟨i, hi1, li, ui, hi2⟩ := hr.div 1 rd.kB hkB
  rw [Int.cast_one, one_mul] at hi2
  obtain ⟨b, hb1, lb, ub, hb2⟩ := hr.mul skB i
  rw [hi2] at hb2
  have hlt : ∀ z : ℤ, z < env.q → z < 256 ^ 32 := fun z h => lt_of_lt_of_le h (by exact_mod_cast hq')
  have range : ∀ j : Fin 2, 0 ≤ (![i, b] : Fin 2 → ℤ) j ∧ (![i, b] : Fin 2 → ℤ) j < 256 ^ 32 := by
    intro j
    fin_cases j
    · exact ⟨li, hlt _ ui⟩
    · exact ⟨lb, hlt _ ub⟩
  have dummy := C202_multiply (m := 2) (by omega) (by omega) h0 hq' rho (env.sha rd.seed.toList) packed ![0, 0] ![i, b] range rd.r rd.rnd rd.gamma
  obtain ⟨c0, tB, -, -, -, hinit, -⟩ := dummy
  obtain ⟨a0, a1, ea0, ea1, halice⟩ := C203_alice L (rd.kB • L.g) ((skA * skB) • L.g) packed (fun i => pick (bit packed i) (rho i)) skA kPrimeA phi digest rd.seed
    c0 kA hk hkA
  obtain ⟨c0', tB', cot, ta, tb, hinit', hmul, hfin, hsum⟩ :=
    C202_multiply (m := 2) (by omega) (by omega) h0 hq' rho (env.sha rd.seed.toList) packed ![a0, a1] ![i, b] range rd.r rd.rnd rd.gamma
  rw [hinit] at hinit'
  obtain ⟨rfl, rfl⟩ := Prod.mk.inj (Except.ok.inj hinit')
  obtain ⟨ep, es, hA, eep, ees⟩ := halice cot ta hmul
  have t0 : (ta 0 : ZMod env.q) + tb 0 = (phi + kA⁻¹) * (rd.kB : ZMod env.q)⁻¹ := by
    have := (ZMod.intCast_eq_intCast_iff' _ _ env.q).2 (hsum 0)
    push_cast at this
    rw [this]
    show (a0 : ZMod env.q) * i = _
    rw [ea0, hi2]
  have t1 : (ta 1 : ZMod env.q) + tb 1 = (skA * kA⁻¹) * (skB * (rd.kB : ZMod env.q)⁻¹) := by
    have := (ZMod.intCast_eq_intCast_iff' _ _ env.q).2 (hsum 1)
    push_cast at this
    rw [this]
    show (a1 : ZMod env.q) * b = _
    rw [ea1, hb2]
  have hR' : R = hashPt L (kPrimeA • rd.kB • L.g) • (rd.kB • L.g) + kPrimeA • rd.kB • L.g := by
    rw [hR, ← add_smul, zc L (hashPt L _ + kPrimeA), zc L rd.kB L.g, smul_smul, Int.cast_add, ← zc L rd.kB, ← hk]
  have tb0 : (tb 0 : ZMod env.q) = (phi + kA⁻¹) * (rd.kB : ZMod env.q)⁻¹ - ta 0 := by rw [← t0]; ring
  have tb1 : (tb 1 : ZMod env.q) = (skA * kA⁻¹) * (skB * (rd.kB : ZMod env.q)⁻¹) - ta 1 := by rw [← t1]; ring
  have hg1 : (tb 0 : ZMod env.q) • R = (phi * kA) • L.g + (-(ta 0 : ZMod env.q) * kA) • (rd.kB • L.g) + L.g := by
    rw [hR, zc L rd.kB, smul_smul, smul_smul]
    conv_rhs => rw [← one_smul (ZMod env.q) L.g, smul_smul, smul_smul, ← add_smul, ← add_smul]
    congr 1
    rw [tb0]
    field_simp
    ring
  have hB := C203_bob L hq (rd.kB • L.g) (kPrimeA • rd.kB • L.g) ((skA * skB) • L.g) rd.kB hkB tB digest cot tb hfin ep es R hR' _ rfl
  refine ⟨⟨rd.seed, some (L.pt (rd.kB • L.g)), c0⟩, ⟨rd.kB, L.pt (rd.kB • L.g), tB⟩, _, ?_, hA, ?_⟩
  · unfold bobSignInit
    simp only
    rw [base L, Go.ok_bind, show env.sc.div 1 rd.kB = .ok i from hi1, Go.ok_bind, show env.sc.mul skB i = .ok b from hb1, Go.ok_bind, hinit]; rfl
  · rw [hB]
    congr 2
    rw [hg1, eep, ees, add_sub_cancel_left]
    have hth : (tb 0 : ZMod env.q) - phi * (rd.kB : ZMod env.q)⁻¹ = kA⁻¹ * (rd.kB : ZMod env.q)⁻¹ - ta 0 := by rw [tb0]; ring
    rw [hth]
    have hg2 : (tb 1 : ZMod env.q) • L.g + (-(kA⁻¹ * (rd.kB : ZMod env.q)⁻¹ - ta 0)) • ((skA * skB) • L.g) =
        (ta 0 : ZMod env.q) • ((skA * skB) • L.g) + (-(ta 1 : ZMod env.q)) • L.g := by
      rw [zc L (skA * skB), smul_smul, smul_smul, ← add_smul, ← add_smul]
      congr 1
      rw [tb1]
      push_cast
      ring
    have hRk : kA • (rd.kB • L.g) = R := by rw [hR, zc L rd.kB, smul_smul]
    rw [hg2, hRk, tb1]
    field_simp
    ring

/-- `crypto/ecdsa.Verify` (Go standard library, part of the trusted base): the digest is cut to the length of the order -/
def VerifySpec : Prop := ∀ (P : A) (d : List UInt8) (r s : ℤ), env.ecdsaVerify (L.pt P) d r s = true ↔
  Dkls.EcdsaValid (ZMod env.q) env.q L.g P (fun Q => (L.xy Q).1.toNat) (beNat (d.take 32)) r.toNat s.toNat

/-- C203: whatever Alice sends, a signature that Bob returns is a valid ECDSA signature under the joint key on the first 32 bytes of the digest -/
theorem C203_sound (hv : VerifySpec L) (P : A) (bob : BobSign) (digest : List UInt8) (input : SignMsg) (sig : Sig)
    (h : signFinal env (some (L.pt P)) bob digest input = .ok sig) :
    Dkls.EcdsaValid (ZMod env.q) env.q L.g P (fun Q => (L.xy Q).1.toNat) (beNat (digest.take 32)) sig.R.toNat sig.S.toNat :=
  (hv P digest sig.R sig.S).1 ((C203_checked _ _ _ _ _).1 h).2

/-- the equation gives a valid signature, and `V` is the parity of the ordinate of the point that the verifier computes -/
theorem normSig_valid (hodd : env.curve.params.P % 2 = 1) (P R : A) (e : ℕ) (sk k s : ZMod env.q) (hP : P = sk • L.g) (hR : R = k • L.g) (hk : k ≠ 0)
    (hs : s = (e + (L.xy R).1 * sk) / k) (hr0 : (L.xy R).1 ≠ 0) (hrq : (L.xy R).1 < env.q) (hs0 : s ≠ 0) :
    let sig := normSig env.q (L.xy R).1 (L.xy R).2 s
    Dkls.EcdsaValid (ZMod env.q) env.q L.g P (fun Q => (L.xy Q).1.toNat) e sig.R.toNat sig.S.toNat ∧
      (sig.V : ℤ) = (L.xy (((e : ZMod env.q) * (sig.S : ZMod env.q)⁻¹) • L.g + ((sig.R : ZMod env.q) * (sig.S : ZMod env.q)⁻¹) • P)).2 % 2 := by
  have hq0 : NeZero env.q := ⟨hp.out.ne_zero⟩
  have hRne : R ≠ 0 := by
    rintro rfl
    exact hr0 (by rw [L.zero])
  have rg := L.range R
  have hrn : (0 : ℤ) ≤ (L.xy R).1 := rg.1
  have hpos : 0 < (L.xy R).1 := lt_of_le_of_ne hrn (Ne.symm hr0)
  classical
  have hpt := Dkls.verify_point L.g P (e : ZMod env.q) ((L.xy R).1 : ZMod env.q) sk k s hk hs0 hP hs
  rw [← hR] at hpt
  have hrc : (((L.xy R).1.toNat : ℕ) : ZMod env.q) = (L.xy R).1 := by
    rw [← Int.cast_natCast, Int.toNat_of_nonneg hrn]
  have xneg : (L.xy (-R)).1 = (L.xy R).1 := (neg_pt L R).1
  have hmod : (L.xy R).1.toNat % env.q = (L.xy R).1.toNat := Nat.mod_eq_of_lt (by omega)
  have par : ∀ y : ℤ, 0 ≤ y → ((bigBit y 0 : ℕ) : ℤ) = y % 2 := by
    intro y hy
    rw [bigBit, Nat.testBit_zero]
    by_cases h : y.toNat % 2 = 1
    · rw [decide_eq_true h]; simp; omega
    · rw [decide_eq_false h]; simp; omega
  intro sig
  by_cases h : 2 ^ 255 ≤ s.val
  · have es : sig = ⟨(L.xy R).1, ((-s).val : ℕ), bigBit (L.xy R).2 0 ^^^ 1⟩ := if_pos h
    rw [es]
    simp only
    rw [Int.toNat_natCast]
    have hneg : ((e : ZMod env.q) * (-s)⁻¹) • L.g + (((L.xy R).1 : ZMod env.q) * (-s)⁻¹) • P = -R := by
      rw [inv_neg]
      simp only [mul_neg, neg_smul]
      rw [← neg_add, hpt]
    constructor
    · unfold Dkls.EcdsaValid
      rw [ZMod.natCast_zmod_val, hrc, hneg]
      refine ⟨by omega, by omega, ?_, ZMod.val_lt _, neg_ne_zero.2 hRne, ?_⟩
      · exact Nat.pos_of_ne_zero fun h => hs0 (neg_eq_zero.1 ((ZMod.val_eq_zero _).1 h))
      · simp only
        rw [xneg, hmod]
    · rw [Int.cast_natCast, ZMod.natCast_zmod_val, hneg, L.neg R hRne]
      have hy := par _ rg.2.2.1
      have h01 : bigBit (L.xy R).2 0 = 0 ∨ bigBit (L.xy R).2 0 = 1 := by
        rw [bigBit]; cases ((L.xy R).2.toNat.testBit 0) <;> simp
      simp only
      rcases h01 with h' | h' <;> rw [h'] at hy ⊢
      · show (1 : ℤ) = _
        push_cast at hy
        omega
      · show (0 : ℤ) = _
        push_cast at hy
        omega
  · have es : sig = ⟨(L.xy R).1, (s.val : ℕ), bigBit (L.xy R).2 0⟩ := if_neg h
    rw [es]
    simp only
    rw [Int.toNat_natCast]
    constructor
    · unfold Dkls.EcdsaValid
      rw [ZMod.natCast_zmod_val, hrc, hpt]
      refine ⟨by omega, by omega, ?_, ZMod.val_lt _, hRne, ?_⟩
      · exact Nat.pos_of_ne_zero fun h => hs0 ((ZMod.val_eq_zero _).1 h)
      · simp only
        rw [hmod]
    · rw [Int.cast_natCast, ZMod.natCast_zmod_val, hpt]
      exact par _ rg.2.2.1

/-- C203: an honest run on a digest of at most 32 bytes returns a valid signature, with the parity bit of the point that the verifier
computes; the exceptions are a nonce or a component that is zero, and an abscissa of at least the order (it is not reduced) -/
theorem C203_valid (hv : VerifySpec L) (hodd : env.curve.params.P % 2 = 1) (hq : env.q ≤ 2 ^ 256) (rho : Fin 256 → Digest × Digest) (packed : Digest)
    (skA skB kPrimeA phi : ℤ) (rd : BobRandom) (digest : List UInt8) (hd : digest.length ≤ 32) (kA : ZMod env.q)
    (hk : kA = hashPt L (kPrimeA • rd.kB • L.g) + kPrimeA) (hkA : kA ≠ 0) (hkB : (rd.kB : ZMod env.q) ≠ 0) (R : A) (hR : R = (kA * rd.kB) • L.g)
    (hr0 : (L.xy R).1 ≠ 0) (hrq : (L.xy R).1 < env.q)
    (hs0 : ((beNat digest : ℕ) : ZMod env.q) + (L.xy R).1 * (skA * skB) ≠ 0) : ∃ m1 bob m2 sig,
      bobSignInit env rho skB rd = .ok (m1, bob) ∧
      aliceSign env packed (fun i => pick (bit packed i) (rho i)) skA (some (L.pt ((skA * skB) • L.g))) digest kPrimeA phi m1 = .ok m2 ∧
      signFinal env (some (L.pt ((skA * skB) • L.g))) bob digest m2 = .ok sig ∧
      Dkls.EcdsaValid (ZMod env.q) env.q L.g ((skA * skB) • L.g) (fun Q => (L.xy Q).1.toNat) (beNat digest) sig.R.toNat sig.S.toNat ∧
      (sig.V : ℤ) = (L.xy (((beNat digest : ZMod env.q) * (sig.S : ZMod env.q)⁻¹) • L.g +
        ((sig.R : ZMod env.q) * (sig.S : ZMod env.q)⁻¹) • ((skA * skB) • L.g))).2 % 2 := by
  obtain ⟨m1, bob, m2, h1, h2, h3⟩ := C203_honest L hq rho packed skA skB kPrimeA phi rd digest kA hk hkA hkB R hR
  obtain ⟨v1, v2⟩ := normSig_valid L hodd ((skA * skB) • L.g) R (beNat digest) (skA * skB) (kA * rd.kB) _
    (by rw [zc L (skA * skB), Int.cast_mul]) hR (mul_ne_zero hkA hkB) rfl hr0 hrq (div_ne_zero hs0 (mul_ne_zero hkA hkB))
  refine ⟨m1, bob, m2, _, h1, h2, (C203_checked _ _ _ _ _).2 ⟨h3, (hv _ _ _ _).2 ?_⟩, v1, v2⟩
  rw [List.take_of_length_le hd]
  exact v1

omit hp [Module (ZMod env.q) A] in
/-- C203: an incomplete message of Alice makes Bob panic, once the multiplication is finished -/
theorem C203_incomplete (pk : EcPoint) (bob : BobSign) (digest : List UInt8) (cot : CotMsg) (tb : Fin 2 → ℤ)
    (ht : multiplyTransfer env bob.tB cot = .ok tb) (ep es : Option ℤ) : signFinal env (some pk) bob digest ⟨cot, none, ep, es⟩ = Go.crash := by
  unfold signFinal signCompute
  rw [ht]; rfl

omit hp [Module (ZMod env.q) A] in
/-- C203: a message of Bob without a point gives an error -/
theorem C203_no_point (packed : Digest) (rho : Fin 256 → Digest) (skA : ℤ) (pk : Option EcPoint) (digest : List UInt8) (kPrimeA phi : ℤ) (seed : Digest) (c : CotInit) :
    aliceSign env packed rho skA pk digest kPrimeA phi ⟨seed, none, c⟩ = Go.err := rfl

end

/-! ## secp256k1 -/

/-- ECDSA verification on secp256k1, as specified -/
noncomputable def k256Verify (p : EcPoint) (d : List UInt8) (r s : ℤ) : Bool := by
  classical
  exact decide (∃ P : Native.K256.Group, p = (k256Lawful []).pt P ∧
    Dkls.EcdsaValid (ZMod Primes.k256q) Primes.k256q (k256Lawful []).g P (fun Q => ((k256Lawful []).xy Q).1.toNat) (beNat (d.take 32)) r.toNat s.toNat)

instance (sha : List UInt8 → Digest) (shake : ℕ → UInt8) (ev : EcPoint → List UInt8 → ℤ → ℤ → Bool) : Fact (k256Env [] sha shake ev).q.Prime :=
  inferInstanceAs (Fact Primes.k256q.Prime)

noncomputable instance (sha : List UInt8 → Digest) (shake : ℕ → UInt8) (ev : EcPoint → List UInt8 → ℤ → ℤ → Bool) :
    Module (ZMod (k256Env [] sha shake ev).q) Native.K256.Group := inferInstanceAs (Module (ZMod Primes.k256q) Native.K256.Group)

/-- the specification of the verification is met by it -/
theorem k256_verifySpec (sha : List UInt8 → Digest) (shake : ℕ → UInt8) : VerifySpec (k256Sound [] sha shake k256Verify) := by
  intro P d r s
  show k256Verify ((k256Lawful []).pt P) d r s = true ↔ _
  unfold k256Verify
  classical
  rw [decide_eq_true_iff]
  constructor
  · rintro ⟨P', h, hv⟩
    obtain rfl := pt_inj (k256Sound [] sha shake k256Verify) h
    exact hv
  · intro h
    exact ⟨P, rfl, h⟩

/-- C203 on secp256k1: whatever Alice sends, what Bob returns is a valid signature under the joint key -/
theorem C203_k256 (sha : List UInt8 → Digest) (shake : ℕ → UInt8) (P : Native.K256.Group) (bob : BobSign) (digest : List UInt8) (input : SignMsg) (sig : Sig)
    (h : signFinal (k256Env [] sha shake k256Verify) (some ((k256Lawful []).pt P)) bob digest input = .ok sig) :
    Dkls.EcdsaValid (ZMod Primes.k256q) Primes.k256q (k256Lawful []).g P (fun Q => ((k256Lawful []).xy Q).1.toNat) (beNat (digest.take 32))
      sig.R.toNat sig.S.toNat :=
  C203_sound (k256Sound [] sha shake k256Verify) (k256_verifySpec sha shake) P bob digest input sig h

/-- the abscissa of `2·G` -/
theorem k256_two : ((k256Lawful []).xy ((2 : ℤ) • (k256Lawful []).g)).1 = 0xc6047f9441ed7d6d3045406e95c07cd85c778e4b8cef3ca7abac09b95c709ee5 := by
  have h := (C189_mul (k256Lawful []).toComputes 0 2).2.1
  have h2 : (match newScalarBaseMult (some (k256Curve [])) (some 2) with | .ok p => p.X | .error _ => none) =
      some 0xc6047f9441ed7d6d3045406e95c07cd85c778e4b8cef3ca7abac09b95c709ee5 := by decide +kernel
  rw [h] at h2
  exact Option.some.inj h2

/-- an honest run on secp256k1 that meets the hypotheses of `C203_valid`: a hash that is constantly zero, the secrets 3 and 5, the nonces 2
and 1 and the digest of one zero byte -/
example (rho : Fin 256 → Digest × Digest) (packed : Digest) (phi : ℤ) : ∃ m1 bob m2 sig,
    bobSignInit (k256Env [] (fun _ => Vector.replicate 32 0) (fun _ => 0) k256Verify) rho 5
      ⟨Vector.replicate 32 7, 1, fun _ => Vector.replicate 32 1, Vector.replicate 10 2, Vector.replicate 42 3⟩ = .ok (m1, bob) ∧
    aliceSign (k256Env [] (fun _ => Vector.replicate 32 0) (fun _ => 0) k256Verify) packed (fun i => pick (bit packed i) (rho i)) 3
      (some ((k256Lawful []).pt (((3 : ℤ) * 5) • (k256Lawful []).g))) [0] 2 phi m1 = .ok m2 ∧
    signFinal (k256Env [] (fun _ => Vector.replicate 32 0) (fun _ => 0) k256Verify) (some ((k256Lawful []).pt (((3 : ℤ) * 5) • (k256Lawful []).g))) bob [0] m2 = .ok sig := by
  have nz : ∀ z : ℤ, z % (Primes.k256q : ℤ) ≠ 0 → (z : ZMod Primes.k256q) ≠ 0 := fun z h h' =>
    h (Int.emod_eq_zero_of_dvd ((ZMod.intCast_zmod_eq_zero_iff_dvd _ _).1 h'))
  have hR : ((2 : ℤ) • (k256Lawful []).g) = (((2 : ℤ) : ZMod Primes.k256q) * ((1 : ℤ) : ZMod Primes.k256q)) • (k256Lawful []).g := by
    rw [Int.cast_one, mul_one, Int.cast_smul_eq_zsmul]
  obtain ⟨m1, bob, m2, sig, h1, h2, h3, -⟩ := C203_valid (k256Sound [] (fun _ => Vector.replicate 32 0) (fun _ => 0) k256Verify)
    (k256_verifySpec (fun _ => Vector.replicate 32 0) (fun _ => 0)) (by show (Primes.k256p : ℤ) % 2 = 1; decide +kernel)
    (by show Primes.k256q ≤ 2 ^ 256; decide +kernel) rho packed 3 5 2 phi
    ⟨Vector.replicate 32 7, 1, fun _ => Vector.replicate 32 1, Vector.replicate 10 2, Vector.replicate 42 3⟩ [0] (by decide)
    (((2 : ℤ) : ZMod Primes.k256q)) (by
      show (((2 : ℤ) : ZMod Primes.k256q)) = ((intOf (Vector.replicate 32 0) : ℤ) : ZMod Primes.k256q) + ((2 : ℤ) : ZMod Primes.k256q)
      rw [show intOf (Vector.replicate 32 0) = 0 by decide +kernel, Int.cast_zero, zero_add])
    (nz 2 (by decide +kernel)) (nz 1 (by decide +kernel)) ((2 : ℤ) • (k256Lawful []).g) hR
    (by show ((k256Lawful []).xy ((2 : ℤ) • (k256Lawful []).g)).1 ≠ 0; rw [k256_two]; decide)
    (by show ((k256Lawful []).xy ((2 : ℤ) • (k256Lawful []).g)).1 < (Primes.k256q : ℤ); rw [k256_two]; decide +kernel)
    (by
      show ((beNat [0] : ℕ) : ZMod Primes.k256q) + (((k256Lawful []).xy ((2 : ℤ) • (k256Lawful []).g)).1 : ZMod Primes.k256q) *
        (((3 : ℤ) : ZMod Primes.k256q) * ((5 : ℤ) : ZMod Primes.k256q)) ≠ 0
      rw [k256_two, show beNat [0] = 0 from rfl, Nat.cast_zero, zero_add, ← Int.cast_mul, ← Int.cast_mul]
      exact nz _ (by decide +kernel))
  exact ⟨m1, bob, m2, sig, h1, h2, h3⟩

end Verif.DklsV0
