import Verif.Bulletproof.RangeLemmas
import Verif.Bulletproof.IppProps
import Mathlib.Tactic.IntervalCases

/-!
# C60, C61: range proofs
-/

set_option linter.unusedSectionVars false

open Finset

namespace Verif.Bulletproof

section
variable {F : Type} [Field F] [DecidableEq F]
variable {G : Type} [AddCommGroup G] [Module F G] [DecidableEq G]

/-! ### The challenges of a proof, spelled out -/

/-- what has been absorbed when `y` is drawn -/
def trY (env : Env F G) (t : Transcript) (Vs : List G) (π : RangeProof F G) : Transcript :=
  t ++ Vs.map (fun V => ("addV", some (env.encU V))) ++
    [("addcapA", some (env.encU π.capA)), ("addcapS", some (env.encU π.capS)), ("gety", none)]

/-- what has been absorbed when `z` is drawn -/
def trZ (env : Env F G) (t : Transcript) (Vs : List G) (π : RangeProof F G) : Transcript :=
  trY env t Vs π ++ [("getz", none)]

/-- what has been absorbed when `x` is drawn -/
def trX (env : Env F G) (t : Transcript) (Vs : List G) (π : RangeProof F G) : Transcript :=
  trZ env t Vs π ++ [("addcapT1", some (env.encU π.capT1)), ("addcapT2", some (env.encU π.capT2)), ("getx", none)]

/-- what has been absorbed when `w` is drawn -/
def trW (env : Env F G) (t : Transcript) (Vs : List G) (π : RangeProof F G) : Transcript :=
  trX env t Vs π ++ [("getw", none)]

theorem calcyz_eq (env : Env F G) (t : Transcript) (Vs : List G) (π : RangeProof F G) :
    calcyz env Vs π.capA π.capS t =
      (env.chal (trY env t Vs π), env.chal (trZ env t Vs π), trZ env t Vs π) := by
  have e : ∀ (Vs : List G) (t : Transcript), Vs.foldl (fun t v => append t "addV" (env.encU v)) t =
      t ++ Vs.map (fun V => ("addV", some (env.encU V))) := by
    intro Vs
    induction Vs with
    | nil => simp
    | cons V Vs ih => intro t; rw [List.foldl_cons, ih]; simp [append]
  simp only [calcyz, extract, e, trZ, trY]
  simp [append]

theorem calcx_eq (env : Env F G) (t : Transcript) (Vs : List G) (π : RangeProof F G) :
    calcx env π.capT1 π.capT2 (trZ env t Vs π) = (env.chal (trX env t Vs π), trX env t Vs π) := by
  simp [calcx, extract, append, trX]

theorem extractw_eq (env : Env F G) (t : Transcript) (Vs : List G) (π : RangeProof F G) :
    extract env (trX env t Vs π) "getw" = (env.chal (trW env t Vs π), trW env t Vs π) := by
  simp [extract, trW]

/-- the encodings of `0` and `1` have the same length (all encodings of a curve do) -/
def SameLen (env : Env F G) : Prop := (env.cd.enc 0).length = (env.cd.enc 1).length

/-- What a proof returned by the prover is worth: the verifier accepts it iff the number read from the first `n`
bits of the little-endian reading of the scalar's bytes is the committed value (up to the factor
`z²w•u`). -/
theorem range_main (env : Env F G) (hlen : SameLen env) (gens : Gens G) (hg : gens.gs.length = gens.hs.length)
    (v gamma : F) (n : ℕ) (pg : PGens G) (rand : Rand F) (t t' : Transcript) (π : RangeProof F G)
    (h : rangeProve env gens v gamma n pg rand t = .ok (π, t')) :
    rangeVerify env gens π (gamma • pg.h + v • pg.g) pg n t =
      .ok (decide ((env.chal (trZ env t [gamma • pg.h + v • pg.g] π) ^ 2 *
        (v - ((leNat (env.cd.enc v) % 2 ^ n : ℕ) : F)) *
        env.chal (trW env t [gamma • pg.h + v • pg.g] π)) • pg.u = 0)) := by
  simp only [rangeProve, Go.guard_bind_eq_ok] at h
  obtain ⟨hn, -, -, h⟩ := h
  obtain ⟨aL, haL, h⟩ := Go.bind_eq_ok.1 h
  have hn8 := getaL_short _ _ _ _ haL
  rw [getaL_eq env hlen v n hn8] at haL
  obtain rfl := Except.ok.inj haL
  simp only [rangeVerify]
  rw [Go.guard_true hn, Go.ok_bind]
  rw [take_eq_vec 0 gens.gs n (by omega), take_eq_vec 0 gens.hs n (by omega)] at h ⊢
  generalize (fun i => gens.gs.getD i 0) = g at h ⊢
  generalize (fun i => gens.hs.getD i 0) = k at h ⊢
  have hv : ∀ (n : ℕ) (f : ℕ → F), (List.range n).map f = vec n f := fun _ _ => rfl
  simp only [get1nVector_eq, subVec_vec, Go.ok_bind, sumOfProducts_vec, hv] at h
  generalize hcA : rand.alpha • pg.h + ∑ i ∈ range n, aBits env v i • g i +
    ∑ i ∈ range n, (aBits env v i - 1) • k i = capA at h
  generalize hcS : rand.rho • pg.h + ∑ i ∈ range n, rand.sL i • g i +
    ∑ i ∈ range n, rand.sR i • k i = capS at h
  generalize hyz : calcyz env [getcapV v gamma pg.g pg.h] capA capS t = yzt at h
  obtain ⟨y, z, t1⟩ := yzt
  simp only [mulVec_vec, addVec_vec, subVec_vec, Go.ok_bind] at h
  have hn2 : 2 ≤ n := by
    by_contra hlt
    have : n = 0 ∨ n = 1 := by omega
    rcases this with rfl | rfl
    · simp [get2nVector] at h
    · simp [get2nVector_eq, getknVector] at h
  have hn0 : n ≠ 0 := by omega
  simp only [get2nVector_eq hn0, mulVec_vec, Go.ok_bind,
    addVec_vec, getknVector_eq hn2, hadamard_vec, innerProduct_vec hn0, deltayz_eq hn2] at h
  generalize hxt : calcx env _ _ t1 = xt at h
  obtain ⟨x, t2⟩ := xt
  generalize hwt : extract env t2 "getw" = wt at h
  obtain ⟨w, t3⟩ := wt
  simp only at h
  have hy : y ≠ 0 := by
    rintro rfl
    simp only [gethPrime, if_true] at h
    split at h <;> simp at h
  simp only [gethPrime_eq hn2 hy, getPhmu_eq hn2, Go.ok_bind] at h
  obtain ⟨⟨ipp, t4⟩, hipp, h⟩ := Go.bind_eq_ok.1 h
  have hπ := (Prod.mk.inj (Except.ok.inj h)).1.symm
  clear h
  have hV : getcapV v gamma pg.g pg.h = gamma • pg.h + v • pg.g := rfl
  have pA : capA = π.capA := by rw [hπ]
  have pS : capS = π.capS := by rw [hπ]
  have pT1 := congrArg RangeProof.capT1 hπ
  have pT2 := congrArg RangeProof.capT2 hπ
  have pt := congrArg RangeProof.taux hπ
  have pm := congrArg RangeProof.mu hπ
  have pth := congrArg RangeProof.tHat hπ
  have pi := congrArg RangeProof.ipp hπ
  simp only at pT1 pT2 pt pm pth pi
  rw [pA, pS, hV, calcyz_eq] at hyz
  obtain ⟨ey, ez, e1⟩ : _ ∧ _ ∧ _ := by simpa only [Prod.mk.injEq] using hyz
  rw [← pT1, ← pT2, ← e1, calcx_eq] at hxt
  obtain ⟨ex, e2⟩ := Prod.mk.inj hxt
  rw [← e2, extractw_eq] at hwt
  obtain ⟨ew, e3⟩ := Prod.mk.inj hwt
  simp only [calcyz_eq, calcx_eq, extractw_eq, deltayz_eq hn2, Go.ok_bind]
  rw [ey, ez, ex, ew, e3]
  rw [Go.guard_true, Go.ok_bind, gethPrime_eq hn2 hy, Go.ok_bind, getPhmu_eq hn2, Go.ok_bind, pi,
    rangeIPP hipp]
  · congr 1
    rw [decide_eq_decide, dot_vec, range_dot _ _ _ _ _ _ _ _ fun i _ => aBits_bit env v i, smul_smul, pth]
    have e4 : ∑ i ∈ range n, aBits env v i * (2 ^ i * (z * z)) =
        ((leNat (env.cd.enc v) % 2 ^ n : ℕ) : F) * (z * z) := by
      rw [← sum_aBits, Finset.sum_mul]
      apply Finset.sum_congr rfl
      intro i _
      ring
    have e5 : ∑ i ∈ range n, (2 : F) ^ i * (z * z) = (∑ i ∈ range n, (2 : F) ^ i) * (z * z) := by
      rw [Finset.sum_mul]
    rw [e4, e5]
    have : ∀ a b : F, a = b → (a • pg.u = 0 ↔ b • pg.u = 0) := by rintro _ _ rfl; rfl
    apply this
    ring
  · rw [msm_vec, msm_vec, ← pA, ← pS, pm, ← hcA, ← hcS]
    exact range_points n g k (aBits env v) (fun i => 2 ^ i * (z * z)) rand.sL rand.sR x y z rand.alpha rand.rho
      pg.h hy
  · simp only [checktHat, decide_eq_true_eq]
    rw [pth, pt, pT1, pT2]
    module

/-- the scalar encoding is little-endian (Ed25519, Pallas) -/
def LittleEndian (env : Env F G) : Prop :=
  SameLen env ∧ ∀ v, env.bigInt v = (leNat (env.cd.enc v) : ℤ) ∧ ((leNat (env.cd.enc v) : ℕ) : F) = v

/-- the scalar encoding is big-endian on `W` bytes (K256, P256, BLS12-381, BLS12-377: `W = 32`) -/
def BigEndian (env : Env F G) (W : ℕ) : Prop :=
  ∀ v, (env.cd.enc v).length = W ∧ env.bigInt v = (beNat (env.cd.enc v) : ℤ) ∧
    ((beNat (env.cd.enc v) : ℕ) : F) = v

theorem BigEndian.sameLen {env : Env F G} {W : ℕ} (h : BigEndian env W) : SameLen env := by
  rw [SameLen, (h 0).1, (h 1).1]

/-- The prover returns a proof for every bit length that is a power of two from 2 on, every value from `0` to
`2^n` **inclusive**, and non-zero challenges. -/
theorem rangeProve_ok (env : Env F G) (hlen : SameLen env) (hc : ∀ t, env.chal t ≠ 0) (gens : Gens G)
    (hg : gens.gs.length = gens.hs.length) (v gamma : F) (k : ℕ) (hk : 1 ≤ k) (hk2 : 2 ^ k ≤ gens.gs.length)
    (hn8 : 2 ^ k ≤ 8 * (env.cd.enc v).length) (h0 : 0 ≤ env.bigInt v) (h1 : env.bigInt v ≤ 2 ^ 2 ^ k)
    (pg : PGens G) (rand : Rand F) (t : Transcript) :
    ∃ π t', rangeProve env gens v gamma (2 ^ k) pg rand t = .ok (π, t') := by
  have hn2 : 2 ≤ 2 ^ k := by
    calc 2 = 2 ^ 1 := rfl
      _ ≤ 2 ^ k := Nat.pow_le_pow_right (by norm_num) hk
  simp only [rangeProve]
  rw [Go.guard_true (by omega), Go.ok_bind, Go.guard_true (by omega), Go.ok_bind, Go.guard_true (by omega),
    Go.ok_bind, getaL_eq env hlen v _ hn8, Go.ok_bind,
    take_eq_vec 0 gens.gs (2 ^ k) (by omega), take_eq_vec 0 gens.hs (2 ^ k) (by omega)]
  generalize hn : 2 ^ k = n at *
  have hn0 : n ≠ 0 := by omega
  generalize (fun i => gens.gs.getD i 0) = g
  generalize (fun i => gens.hs.getD i 0) = h
  have hv : ∀ (n : ℕ) (f : ℕ → F), (List.range n).map f = vec n f := fun _ _ => rfl
  simp only [get1nVector_eq, subVec_vec, Go.ok_bind, sumOfProducts_vec, hv]
  generalize hyz : calcyz env _ _ _ t = yzt
  have hy : yzt.1 ≠ 0 := by rw [← hyz]; exact hc _
  simp only [mulVec_vec, addVec_vec, subVec_vec, Go.ok_bind, get2nVector_eq hn0,
    getknVector_eq hn2, hadamard_vec, innerProduct_vec hn0, deltayz_eq hn2,
    gethPrime_eq hn2 hy, getPhmu_eq hn2]
  generalize hw : extract env _ "getw" = wt
  generalize hip : rangeToIPP env _ _ _ _ _ wt.2 = ip
  have : ∃ π t', ip = .ok (π, t') := by
    rw [← hip]
    exact proveRecursive_ok env hc k _ _ (by rw [vec_length, ← hn]; have := k.lt_two_pow_self; omega)
      (by simp [hn]) (by simp [hn]) (by simp [hn]) (by simp [hn])
  obtain ⟨π, t', rfl⟩ := this
  exact ⟨_, _, rfl⟩

/-- **C60**: with a little-endian scalar encoding, every proof returned for a value below `2^n` is accepted; any
generators, blinding, randomness and challenges. -/
theorem C60_complete (env : Env F G) (hle : LittleEndian env) (gens : Gens G)
    (hg : gens.gs.length = gens.hs.length) (v gamma : F) (n : ℕ) (pg : PGens G) (rand : Rand F)
    (t t' : Transcript) (π : RangeProof F G) (hv : env.bigInt v < 2 ^ n)
    (h : rangeProve env gens v gamma n pg rand t = .ok (π, t')) :
    rangeVerify env gens π (gamma • pg.h + v • pg.g) pg n t = .ok true := by
  rw [range_main env hle.1 gens hg v gamma n pg rand t t' π h]
  congr 1
  obtain ⟨e1, e2⟩ := hle.2 v
  have e3 : leNat (env.cd.enc v) < 2 ^ n := by
    rw [e1] at hv
    exact_mod_cast hv
  rw [Nat.mod_eq_of_lt e3, e2, sub_self, mul_zero, zero_mul, zero_smul]
  simp

/-- **C60** (the prover does return proofs): with non-zero challenges, for every `n` a power of two from 2 on
that fits the generators and the scalar's bytes, and every value below `2^n`, proving succeeds and verifying the
result succeeds. -/
theorem C60_prove_verify (env : Env F G) (hle : LittleEndian env) (hc : ∀ t, env.chal t ≠ 0) (gens : Gens G)
    (hg : gens.gs.length = gens.hs.length) (v gamma : F) (k : ℕ) (hk : 1 ≤ k) (hk2 : 2 ^ k ≤ gens.gs.length)
    (hn8 : 2 ^ k ≤ 8 * (env.cd.enc v).length) (hv : env.bigInt v < 2 ^ 2 ^ k) (pg : PGens G) (rand : Rand F)
    (t : Transcript) :
    ∃ π t', rangeProve env gens v gamma (2 ^ k) pg rand t = .ok (π, t') ∧
      rangeVerify env gens π (gamma • pg.h + v • pg.g) pg (2 ^ k) t = .ok true := by
  obtain ⟨π, t', h⟩ := rangeProve_ok env hle.1 hc gens hg v gamma k hk hk2 hn8
    (by rw [(hle.2 v).1]; exact Int.natCast_nonneg _) hv.le pg rand t
  exact ⟨π, t', h, C60_complete env hle gens hg v gamma (2 ^ k) pg rand t t' π hv h⟩

/-- **C61** (boundary): the value `2^n` is out of range, yet the prover returns a proof for it instead of an
error; the verifier then refuses that proof. -/
theorem C61_boundary (env : Env F G) (hle : LittleEndian env) (h2 : (2 : F) ≠ 0) (hc : ∀ t, env.chal t ≠ 0)
    (gens : Gens G) (hg : gens.gs.length = gens.hs.length) (v gamma : F) (k : ℕ) (hk : 1 ≤ k)
    (hk2 : 2 ^ k ≤ gens.gs.length) (hn8 : 2 ^ k ≤ 8 * (env.cd.enc v).length) (hv : env.bigInt v = 2 ^ 2 ^ k)
    (pg : PGens G) (hu : pg.u ≠ 0) (rand : Rand F) (t : Transcript) :
    ∃ π t', rangeProve env gens v gamma (2 ^ k) pg rand t = .ok (π, t') ∧
      rangeVerify env gens π (gamma • pg.h + v • pg.g) pg (2 ^ k) t = .ok false := by
  obtain ⟨π, t', h⟩ := rangeProve_ok env hle.1 hc gens hg v gamma k hk hk2 hn8
    (by rw [(hle.2 v).1]; exact Int.natCast_nonneg _) hv.le pg rand t
  refine ⟨π, t', h, ?_⟩
  rw [range_main env hle.1 gens hg v gamma _ pg rand t t' π h]
  congr 1
  obtain ⟨e1, e2⟩ := hle.2 v
  have e3 : leNat (env.cd.enc v) = 2 ^ 2 ^ k := by
    rw [e1] at hv
    exact_mod_cast hv
  have e4 : v ≠ 0 := by
    rw [← e2, e3, Nat.cast_pow]
    exact pow_ne_zero _ (by exact_mod_cast h2)
  rw [e3, Nat.mod_self, Nat.cast_zero, sub_zero, decide_eq_false_iff_not, smul_eq_zero]
  rintro (h | h)
  · exact mul_ne_zero (mul_ne_zero (pow_ne_zero _ (hc _)) e4) (hc _) h
  · exact hu h

/-- **C61** (above the boundary): only values beyond `2^n` are refused. -/
theorem C61_refused (env : Env F G) (gens : Gens G) (v gamma : F) (n : ℕ) (pg : PGens G) (rand : Rand F)
    (t : Transcript) (hv : env.bigInt v > 2 ^ n) : rangeProve env gens v gamma n pg rand t = Go.err := by
  simp only [rangeProve]
  by_cases h1 : ¬ n > gens.gs.length
  · by_cases h2 : ¬ env.bigInt v < 0
    · rw [Go.guard_true h1, Go.ok_bind, Go.guard_true h2, Go.ok_bind, Go.guard_false (by simpa using hv)]
      rfl
    · rw [Go.guard_true h1, Go.ok_bind, Go.guard_false h2]
      rfl
  · rw [Go.guard_false h1]
    rfl

/-- **C61** (what the verifier decides about a prover's proof): the committed value must equal the number made of
the first `n` bits of the bytes read from the first one on — whatever the byte order of the encoding. -/
theorem C61_bits (env : Env F G) (hlen : SameLen env) (hc : ∀ t, env.chal t ≠ 0) (gens : Gens G)
    (hg : gens.gs.length = gens.hs.length) (v gamma : F) (n : ℕ) (pg : PGens G) (hu : pg.u ≠ 0) (rand : Rand F)
    (t t' : Transcript) (π : RangeProof F G) (h : rangeProve env gens v gamma n pg rand t = .ok (π, t')) :
    rangeVerify env gens π (gamma • pg.h + v • pg.g) pg n t =
      .ok (decide (v = ((leNat (env.cd.enc v) % 2 ^ n : ℕ) : F))) := by
  rw [range_main env hlen gens hg v gamma n pg rand t t' π h]
  congr 1
  rw [decide_eq_decide, smul_eq_zero, mul_eq_zero, mul_eq_zero, sub_eq_zero]
  simp [hc, hu]

theorem leBytes_append_zero (a k m : ℕ) (h : m < 256 ^ a) :
    leBytes (a + k) m = leBytes a m ++ List.replicate k 0 := by
  induction a generalizing m with
  | zero =>
    have : m = 0 := by simpa using h
    subst this
    rw [Nat.zero_add]
    induction k with
    | zero => rfl
    | succ k ih => simp only [leBytes, List.nil_append, List.replicate_succ] at ih ⊢; rw [Nat.zero_div, ih]; rfl
  | succ a ih =>
    rw [Nat.succ_add]
    simp only [leBytes, List.cons_append]
    rw [ih (m / 256) (by rw [pow_succ] at h; omega)]

theorem leNat_replicate_append (k : ℕ) (l : List UInt8) :
    leNat (List.replicate k 0 ++ l) = 256 ^ k * leNat l := by
  induction k with
  | zero => simp
  | succ k ih => rw [List.replicate_succ, List.cons_append, leNat_cons, ih, pow_succ]; simp; ring

/-- **C61** (byte order): with a big-endian scalar encoding on `W` bytes, and `n` bits that lie, in whole bytes,
in the unused upper part (for `W = 32`, every `n ≤ 128`), the prover commits to the bits of zero: the verifier
accepts a proof for a value below `2^n` only if the value is zero. -/
theorem C61_big_endian (env : Env F G) (W : ℕ) (hbe : BigEndian env W) (hc : ∀ t, env.chal t ≠ 0) (gens : Gens G)
    (hg : gens.gs.length = gens.hs.length) (v gamma : F) (n : ℕ) (hn : (n + 7) / 8 * 8 + n ≤ 8 * W)
    (hv : env.bigInt v < 2 ^ n) (pg : PGens G) (hu : pg.u ≠ 0) (rand : Rand F) (t t' : Transcript)
    (π : RangeProof F G) (h : rangeProve env gens v gamma n pg rand t = .ok (π, t')) :
    rangeVerify env gens π (gamma • pg.h + v • pg.g) pg n t = .ok (decide (v = 0)) := by
  rw [C61_bits env hbe.sameLen hc gens hg v gamma n pg hu rand t t' π h]
  obtain ⟨e1, e2, -⟩ := hbe v
  have e3 : beNat (env.cd.enc v) < 2 ^ n := by
    rw [e2] at hv
    exact_mod_cast hv
  generalize hk : (n + 7) / 8 = k at hn
  have hkn : n ≤ 8 * k := by omega
  have hW : W = (W - k) + k := by omega
  have hlt : beNat (env.cd.enc v) < 256 ^ (W - k) := by
    refine lt_of_lt_of_le e3 ?_
    rw [show (256 : ℕ) = 2 ^ 8 from rfl, ← pow_mul]
    exact Nat.pow_le_pow_right (by norm_num) (by omega)
  have e4 := beBytes_beNat (env.cd.enc v)
  rw [e1, hW, beBytes, leBytes_append_zero _ _ _ hlt, List.reverse_append, List.reverse_replicate] at e4
  have e5 : leNat (env.cd.enc v) % 2 ^ n = 0 := by
    rw [← e4, leNat_replicate_append]
    apply Nat.mod_eq_zero_of_dvd
    apply Dvd.dvd.mul_right
    rw [show (256 : ℕ) = 2 ^ 8 from rfl, ← pow_mul]
    exact Nat.pow_dvd_pow 2 hkn
  rw [e5, Nat.cast_zero]

end
end Verif.Bulletproof
