import Verif.Bulletproof.RangeProps

/-!
# C62: batched range proofs
-/

set_option linter.unusedSectionVars false

open Finset

namespace Verif.Bulletproof

theorem vec_add {α : Type} (a b : ℕ) (f : ℕ → α) : vec (a + b) f = vec a f ++ vec b fun i => f (a + i) := by
  simp [vec, List.range_add, Function.comp_def]

theorem vec_drop_take {α : Type} (n m j : ℕ) (hj : j < m) (f : ℕ → α) :
    ((vec (n * m) f).take ((j + 1) * n)).drop (j * n) = vec n fun i => f (n * j + i) := by
  have e : n * m = (n * j + n) + n * (m - j - 1) := by
    obtain ⟨d, rfl⟩ : ∃ d, m = j + 1 + d := ⟨m - (j + 1), by omega⟩
    have : j + 1 + d - j - 1 = d := by omega
    rw [this]
    ring
  have e1 : (j + 1) * n = n * j + n := by ring
  have e2 : j * n = n * j := by ring
  rw [e, vec_add, e1, e2, List.take_left' (by simp), vec_add, List.drop_left' (by simp)]

section
variable {F : Type} [Field F] [DecidableEq F]
variable {G : Type} [AddCommGroup G] [Module F G] [DecidableEq G]

/-- `z^(j+2)·2^i` at position `n·j + i` -/
def zeta (z : F) (n : ℕ) (i : ℕ) : F := 2 ^ (i % n) * z ^ (i / n + 2)

theorem zeta_add (z : F) {n : ℕ} (m i : ℕ) (hi : i < n) : zeta z n (n * m + i) = 2 ^ i * z ^ (m + 2) := by
  unfold zeta
  rw [Nat.mul_add_mod, Nat.mod_eq_of_lt hi, Nat.mul_add_div (by omega), Nat.div_eq_of_lt hi, Nat.add_zero]

theorem getSumTermrX_eq {n : ℕ} (hn : n ≠ 0) (z : F) (m : ℕ) :
    getSumTermrX z n m = .ok (vec (n * m) (zeta z n)) := by
  simp only [getSumTermrX, get2nVector_eq hn, Go.ok_bind, mulVec_vec]
  have key : (List.range m).foldl (fun (st : List F × F) _ =>
      (st.1 ++ vec n (fun i => 2 ^ i * (st.2 * z)), st.2 * z)) ([], z) =
      (vec (n * m) (zeta z n), z ^ (m + 1)) := by
    induction m with
    | zero => simp [vec]
    | succ m ih =>
      rw [List.range_succ, List.foldl_append, ih]
      simp only [List.foldl_cons, List.foldl_nil]
      rw [Nat.mul_succ, vec_add, pow_succ z (m + 1)]
      congr 2
      apply vec_congr
      intro i hi
      rw [zeta_add z m i hi, pow_succ z (m + 1)]
  rw [key]

theorem sum_range_mul {M : Type} [AddCommMonoid M] (n m : ℕ) (f : ℕ → M) :
    ∑ i ∈ range (n * m), f i = ∑ j ∈ range m, ∑ i ∈ range n, f (n * j + i) := by
  induction m with
  | zero => simp
  | succ m ih => rw [Nat.mul_succ, Finset.sum_range_add, ih, Finset.sum_range_succ]

theorem sum_zeta (z : F) (n m : ℕ) :
    ∑ i ∈ range (n * m), zeta z n i = ∑ j ∈ range m, z ^ (j + 2) * ∑ i ∈ range n, (2 : F) ^ i := by
  rw [sum_range_mul]
  apply Finset.sum_congr rfl
  intro j _
  rw [Finset.mul_sum]
  apply Finset.sum_congr rfl
  intro i hi
  rw [zeta_add z j i (Finset.mem_range.1 hi), mul_comm]

/-- bits of all values -/
def batchBits (env : Env F G) (v : List F) (n : ℕ) (i : ℕ) : F := aBits env (v.getD (i / n) 0) (i % n)

theorem batchBits_add (env : Env F G) (v : List F) {n : ℕ} (j i : ℕ) (hi : i < n) :
    batchBits env v n (n * j + i) = aBits env (v.getD j 0) i := by
  unfold batchBits
  rw [Nat.mul_add_mod, Nat.mod_eq_of_lt hi, Nat.mul_add_div (by omega), Nat.div_eq_of_lt hi, Nat.add_zero]

theorem flatten_bits (env : Env F G) (n : ℕ) : ∀ v : List F,
    (v.map fun vi => vec n (aBits env vi)).flatten = vec (n * v.length) (batchBits env v n) := by
  intro v
  induction v using List.reverseRecOn with
  | nil => simp [vec]
  | append_singleton v a ih =>
    rw [List.map_append, List.flatten_append, ih, List.length_append, List.length_singleton, Nat.mul_succ, vec_add]
    congr 1
    · apply vec_congr
      intro i hi
      unfold batchBits
      rw [List.getD_append _ _ _ _ (Nat.div_lt_of_lt_mul hi)]
    · rw [List.map_singleton, List.flatten_singleton]
      apply vec_congr
      intro i hi
      rw [batchBits_add env _ _ i hi, List.getD_append_right _ _ _ _ le_rfl]
      simp

theorem getaLBatched_eq (env : Env F G) (hlen : SameLen env) (v : List F) (n : ℕ)
    (hn : ∀ vi ∈ v, n ≤ 8 * (env.cd.enc vi).length) :
    getaLBatched env v n = .ok (vec (n * v.length) (batchBits env v n)) := by
  have e : (v.mapM fun vi => getaL env vi n) = .ok (v.map fun vi => vec n (aBits env vi)) := by
    rw [Go.mapM_eq_ok, List.forall₂_map_right_iff]
    exact List.forall₂_same.2 fun vi hvi => getaL_eq env hlen vi n (hn vi hvi)
  rw [getaLBatched, e, Go.ok_bind, flatten_bits]

theorem getaLBatched_short (env : Env F G) (v : List F) (n : ℕ) (a : List F)
    (h : getaLBatched env v n = .ok a) : ∀ vi ∈ v, n ≤ 8 * (env.cd.enc vi).length := by
  obtain ⟨ls, h1, -⟩ := Go.bind_eq_ok.1 h
  rw [Go.mapM_eq_ok] at h1
  intro vi hvi
  obtain ⟨hl, hf⟩ := List.forall₂_iff_get.1 h1
  obtain ⟨i, hi, rfl⟩ := List.mem_iff_getElem.1 hvi
  exact getaL_short _ _ _ _ (hf i hi (by omega))

theorem batch_bits_dot (env : Env F G) (v : List F) (z : F) (n : ℕ) :
    ∑ i ∈ range (n * v.length), batchBits env v n i * zeta z n i =
      ∑ j ∈ range v.length, z ^ (j + 2) * ((leNat (env.cd.enc (v.getD j 0)) % 2 ^ n : ℕ) : F) := by
  rw [sum_range_mul]
  apply Finset.sum_congr rfl
  intro j _
  rw [← sum_aBits, Finset.mul_sum]
  apply Finset.sum_congr rfl
  intro i hi
  rw [zeta_add z j i (Finset.mem_range.1 hi), batchBits_add env v j i (Finset.mem_range.1 hi)]
  ring

theorem deltayzBatched_eq {n m : ℕ} (hn : n ≠ 0) (hnm : 2 ≤ n * m) (y z : F) :
    deltayzBatched y z n m = .ok ((z - z * z) * ∑ i ∈ range (n * m), y ^ i -
      ∑ j ∈ range m, z ^ (j + 3) * ∑ i ∈ range n, (2 : F) ^ i) := by
  have h0 : n * m ≠ 0 := by omega
  simp only [deltayzBatched, get1nVector_eq, getknVector_eq hnm, Go.ok_bind, innerProduct_vec h0,
    innerProduct_vec hn, get2nVector_eq hn, one_mul]
  have key : ∀ c : F, (List.range m).foldl (fun (st : F × F) _ => (st.1 + st.2 * z * c, st.2 * z)) (0, z * z) =
      (∑ j ∈ range m, z ^ (j + 3) * c, z ^ (m + 2)) := by
    intro c
    clear h0 hnm
    induction m with
    | zero => simp [pow_two]
    | succ m ih =>
      rw [List.range_succ, List.foldl_append, ih]
      simp only [List.foldl_cons, List.foldl_nil]
      rw [Finset.sum_range_succ, ← pow_succ]
  rw [key]

theorem lastElemLoop_eq {n m : ℕ} (h' : ℕ → G) (z : F) :
    lastElemLoop (vec (n * m) h') (vec n fun i => (2 : F) ^ i) z n m =
      .ok (∑ i ∈ range (n * m), zeta z n i • h' i, z ^ (m + 1)) := by
  have key : ∀ k ≤ m, (List.range k).foldlM (fun (st : G × F) j => do
      let hSub := ((vec (n * m) h').take ((j + 1) * n)).drop (j * n)
      let zExp := st.2 * z
      let elem ← sumOfProducts hSub (mulVec zExp (vec n fun i => (2 : F) ^ i))
      (.ok (st.1 + elem, zExp) : Go (G × F))) (0, z) =
      .ok (∑ i ∈ range (n * k), zeta z n i • h' i, z ^ (k + 1)) := by
    intro k
    induction k with
    | zero => intro _; simp
    | succ k ih =>
      intro hk
      rw [List.range_succ, List.foldlM_append, ih (by omega), Go.ok_bind, List.foldlM_cons]
      simp only [mulVec_vec, vec_drop_take n m k (by omega), sumOfProducts_vec, Go.ok_bind, List.foldlM_nil,
        Go.pure_eq_ok]
      rw [Nat.mul_succ, Finset.sum_range_add, pow_succ z (k + 1)]
      congr 3
      apply Finset.sum_congr rfl
      intro i hi
      rw [zeta_add z k i (Finset.mem_range.1 hi), pow_succ z (k + 1)]
  exact key m le_rfl

theorem getPhmuBatched_eq {n m : ℕ} (hn : n ≠ 0) (hnm : 2 ≤ n * m) (g h' : ℕ → G) (h capA capS : G)
    (x y z mu : F) :
    getPhmuBatched (vec (n * m) g) (vec (n * m) h') h capA capS x y z mu n m =
      .ok (capA + x • capS + ∑ i ∈ range (n * m), (-z) • g i +
        ∑ i ∈ range (n * m), (y ^ i * z + zeta z n i) • h' i - mu • h) := by
  simp only [getPhmuBatched, get1nVector_eq, getknVector_eq hnm, Go.ok_bind, get2nVector_eq hn, mulVec_vec,
    sumOfProducts_vec, one_mul, lastElemLoop_eq]
  congr 4
  rw [← Finset.sum_add_distrib]
  apply Finset.sum_congr rfl
  intro i _
  rw [← add_smul, add_comm]

theorem getcapVBatched_ok (g h : G) : ∀ (v gamma : List F) (Vs : List G),
    getcapVBatched g h v gamma = .ok Vs ↔ v.length ≤ gamma.length ∧
      Vs = List.zipWith (fun vi gi => gi • h + vi • g) v gamma
  | [], gamma, Vs => by simp [getcapVBatched, eq_comm]
  | a :: v, [], Vs => by simp [getcapVBatched]
  | a :: v, b :: gamma, Vs => by
    simp only [getcapVBatched]
    rw [Go.bind_eq_ok]
    constructor
    · rintro ⟨rest, h1, h2⟩
      obtain ⟨h3, rfl⟩ := (getcapVBatched_ok g h v gamma rest).1 h1
      exact ⟨by simpa using h3, (Except.ok.inj h2).symm⟩
    · rintro ⟨h3, rfl⟩
      exact ⟨_, (getcapVBatched_ok g h v gamma _).2 ⟨by simpa using h3, rfl⟩, rfl⟩

theorem zsumLoop_eq (z : F) (gamma : List F) (m : ℕ) (hm : m ≤ gamma.length) :
    zsumLoop z gamma m = .ok (∑ j ∈ range m, z ^ (j + 2) * gamma.getD j 0, z ^ (m + 1)) := by
  unfold zsumLoop
  induction m with
  | zero => simp
  | succ m ih =>
    rw [List.range_succ, List.foldlM_append, ih (by omega), Go.ok_bind, List.foldlM_cons]
    have hg : gamma[m]? = some (gamma.getD m 0) := by
      rw [List.getD_eq_getElem?_getD, List.getElem?_eq_getElem (by omega)]
      rfl
    simp only [hg, Go.ok_bind, List.foldlM_nil, Go.pure_eq_ok]
    rw [Finset.sum_range_succ, ← pow_succ]

theorem sumv_eq (v : List F) (k : ℕ → F) :
    (List.zipWith (fun a b => a * b) (vec v.length k) v).foldl (fun acc e => acc + e) 0 =
      ∑ j ∈ range v.length, k j * v.getD j 0 := by
  have e : v = vec v.length fun i => v.getD i 0 := by
    conv_lhs => rw [← List.take_length (l := v)]
    exact take_eq_vec 0 v v.length le_rfl
  have : List.zipWith (fun a b => a * b) (vec v.length k) v = vec v.length fun j => k j * v.getD j 0 := by
    conv_lhs => rw [e]
    rw [vec_length, zipWith_vec]
  have f : ∀ (l : List F) (a : F), l.foldl (fun acc e => acc + e) a = a + l.sum := by
    intro l
    induction l with
    | nil => simp
    | cons b l ih => intro a; rw [List.foldl_cons, ih, List.sum_cons, add_assoc]
  rw [this, f, zero_add, sum_vec]

theorem eq_vec {α : Type} (d : α) (l : List α) : l = vec l.length fun i => l.getD i d := by
  conv_lhs => rw [← List.take_length (l := l)]
  exact take_eq_vec d l l.length le_rfl

/-- the commitments of a batch -/
def commits (pg : PGens G) (v gamma : List F) : List G :=
  List.zipWith (fun vi gi => gi • pg.h + vi • pg.g) v gamma

theorem commits_eq_vec (pg : PGens G) (v gamma : List F) (h : v.length ≤ gamma.length) :
    commits pg v gamma = vec v.length fun j => gamma.getD j 0 • pg.h + v.getD j 0 • pg.g := by
  have e1 : gamma.take v.length = vec v.length fun i => gamma.getD i 0 := take_eq_vec 0 gamma _ h
  have e2 : commits pg v gamma = commits pg v (gamma.take v.length) := by
    unfold commits
    rw [List.zipWith_eq_zipWith_take_min, List.zipWith_eq_zipWith_take_min (l₂ := gamma.take v.length)]
    simp only [Nat.min_eq_left h, List.length_take, Nat.min_self, List.take_take]
  rw [e2, e1]
  conv_lhs => rw [eq_vec 0 v]
  rw [commits, vec_length, zipWith_vec]

/-- What a batched proof returned by the prover is worth. -/
theorem batch_main (env : Env F G) (hlen : SameLen env) (gens : Gens G) (hg : gens.gs.length = gens.hs.length)
    (v gamma : List F) (n : ℕ) (pg : PGens G) (rand : Rand F) (t t' : Transcript) (π : RangeProof F G)
    (h : batchProve env gens v gamma n pg rand t = .ok (π, t')) :
    verifyBatched env gens π (commits pg v gamma) pg n t =
      .ok (decide (((∑ j ∈ range v.length, env.chal (trZ env t (commits pg v gamma) π) ^ (j + 2) *
        (v.getD j 0 - ((leNat (env.cd.enc (v.getD j 0)) % 2 ^ n : ℕ) : F))) *
        env.chal (trW env t (commits pg v gamma) π)) • pg.u = 0)) := by
  simp only [batchProve, Go.guard_bind_eq_ok] at h
  obtain ⟨hn, h⟩ := h
  obtain ⟨-, -, h⟩ := Go.bind_eq_ok.1 h
  obtain ⟨aL, haL, h⟩ := Go.bind_eq_ok.1 h
  have hn8 := getaLBatched_short _ _ _ _ haL
  rw [getaLBatched_eq env hlen v n hn8] at haL
  obtain rfl := Except.ok.inj haL
  have hcl : n * (commits pg v gamma).length ≤ n * v.length := by
    apply Nat.mul_le_mul_left
    simp [commits]
  simp only [verifyBatched]
  rw [take_eq_vec 0 gens.gs _ (by omega), take_eq_vec 0 gens.hs _ (by omega)] at h
  rw [Go.guard_true (by omega), Go.ok_bind, take_eq_vec 0 gens.gs _ (by omega), take_eq_vec 0 gens.hs _ (by omega)]
  generalize (fun i => gens.gs.getD i 0) = g at h ⊢
  generalize (fun i => gens.hs.getD i 0) = k at h ⊢
  have hv : ∀ (n : ℕ) (f : ℕ → F), (List.range n).map f = vec n f := fun _ _ => rfl
  simp only [get1nVector_eq, subVec_vec, Go.ok_bind, sumOfProducts_vec, hv] at h
  obtain ⟨Vs, hVs, h⟩ := Go.bind_eq_ok.1 h
  obtain ⟨hgl, rfl⟩ := (getcapVBatched_ok _ _ _ _ _).1 hVs
  change _ = _ at h
  have hVd : List.zipWith (fun vi gi => gi • pg.h + vi • pg.g) v gamma = commits pg v gamma := rfl
  rw [hVd] at h
  have hcl' : (commits pg v gamma).length = v.length := by simp [commits, hgl]
  rw [hcl']
  generalize hcA : rand.alpha • pg.h + ∑ i ∈ range (n * v.length), batchBits env v n i • g i +
    ∑ i ∈ range (n * v.length), (batchBits env v n i - 1) • k i = capA at h
  generalize hcS : rand.rho • pg.h + ∑ i ∈ range (n * v.length), rand.sL i • g i +
    ∑ i ∈ range (n * v.length), rand.sR i • k i = capS at h
  generalize hyz : calcyz env (commits pg v gamma) capA capS t = yzt at h
  obtain ⟨y, z, t1⟩ := yzt
  simp only [mulVec_vec, addVec_vec, subVec_vec, Go.ok_bind] at h
  have hn0 : n ≠ 0 := by
    rintro rfl
    simp [getSumTermrX, get2nVector] at h
  simp only [getSumTermrX_eq hn0, Go.ok_bind] at h
  have hnm : 2 ≤ n * v.length := by
    by_contra hlt
    simp only [getknVector, if_pos (show n * v.length < 2 by omega)] at h
    simp at h
  have hnm0 : n * v.length ≠ 0 := by omega
  simp only [getknVector_eq hnm, Go.ok_bind, hadamard_vec, addVec_vec, innerProduct_vec hnm0] at h
  generalize hxt : calcx env _ _ t1 = xt at h
  obtain ⟨x, t2⟩ := xt
  generalize hwt : extract env t2 "getw" = wt at h
  obtain ⟨w, t3⟩ := wt
  simp only [mulVec_vec, addVec_vec, Go.ok_bind] at h
  have hm2 : 2 ≤ v.length := by
    by_contra hlt
    simp only [getknVector, if_pos (show v.length < 2 by omega)] at h
    simp at h
  have hy : y ≠ 0 := by
    rintro rfl
    simp only [getknVector_eq hm2, deltayzBatched_eq hn0 hnm, Go.ok_bind, zsumLoop_eq z gamma _ hgl, gethPrime,
      if_true] at h
    split at h <;> simp at h
  simp only [getknVector_eq hm2, deltayzBatched_eq hn0 hnm, Go.ok_bind, zsumLoop_eq z gamma _ hgl,
    gethPrime_eq hnm hy, getPhmuBatched_eq hn0 hnm, mulVec_vec, sumv_eq] at h
  obtain ⟨⟨ipp, t4⟩, hipp, h⟩ := Go.bind_eq_ok.1 h
  have hπ := (Prod.mk.inj (Except.ok.inj h)).1.symm
  clear h
  have pA : capA = π.capA := by rw [hπ]
  have pS : capS = π.capS := by rw [hπ]
  have pT1 := congrArg RangeProof.capT1 hπ
  have pT2 := congrArg RangeProof.capT2 hπ
  have pt := congrArg RangeProof.taux hπ
  have pm := congrArg RangeProof.mu hπ
  have pth := congrArg RangeProof.tHat hπ
  have pi := congrArg RangeProof.ipp hπ
  simp only at pT1 pT2 pt pm pth pi
  rw [pA, pS, calcyz_eq] at hyz
  obtain ⟨ey, ez, e1⟩ : _ ∧ _ ∧ _ := by simpa only [Prod.mk.injEq] using hyz
  rw [← pT1, ← pT2, ← e1, calcx_eq] at hxt
  obtain ⟨ex, e2⟩ := Prod.mk.inj hxt
  rw [← e2, extractw_eq] at hwt
  obtain ⟨ew, e3⟩ := Prod.mk.inj hwt
  have e6 : ∑ j ∈ range v.length, z ^ (j + 3) * ∑ i ∈ range n, (2 : F) ^ i =
      z * ∑ j ∈ range v.length, z ^ (j + 2) * ∑ i ∈ range n, (2 : F) ^ i := by
    rw [Finset.mul_sum]
    apply Finset.sum_congr rfl
    intro j _
    ring
  simp only [calcyz_eq, calcx_eq, extractw_eq, deltayzBatched_eq hn0 hnm, checktHatBatched, getknVector_eq hm2,
    mulVec_vec, Go.ok_bind]
  rw [ey, ez, ex, ew, e3]
  conv_lhs => rw [commits_eq_vec pg v gamma hgl]
  simp only [sumOfProducts_vec, Go.ok_bind]
  rw [Go.guard_true, Go.ok_bind, gethPrime_eq hnm hy, Go.ok_bind, getPhmuBatched_eq hn0 hnm, Go.ok_bind, pi,
    rangeIPP hipp]
  · congr 1
    rw [decide_eq_decide, dot_vec, range_dot _ _ _ _ _ _ _ _ ?_, smul_smul, pth]
    · rw [batch_bits_dot, sum_zeta, e6]
      have : ∀ a b : F, a = b → (a • pg.u = 0 ↔ b • pg.u = 0) := by rintro _ _ rfl; rfl
      apply this
      have e7 : ∑ j ∈ range v.length, z ^ (j + 2) *
          (v.getD j 0 - ((leNat (env.cd.enc (v.getD j 0)) % 2 ^ n : ℕ) : F)) =
          ∑ j ∈ range v.length, z ^ j * (z * z) * v.getD j 0 -
          ∑ j ∈ range v.length, z ^ (j + 2) * ((leNat (env.cd.enc (v.getD j 0)) % 2 ^ n : ℕ) : F) := by
        rw [← Finset.sum_sub_distrib]
        apply Finset.sum_congr rfl
        intro j _
        ring
      rw [e7]
      ring
    · intro i _
      exact aBits_bit _ _ _
  · rw [msm_vec, msm_vec, ← pA, ← pS, pm, ← hcA, ← hcS]
    exact range_points _ g k (batchBits env v n) (zeta z n) rand.sL rand.sR x y z rand.alpha rand.rho
      pg.h hy
  · rw [decide_eq_true_eq, pth, pt, pT1, pT2]
    have e8 : ∑ j ∈ range v.length, (z ^ j * (z * z)) • (gamma.getD j 0 • pg.h + v.getD j 0 • pg.g) =
        (∑ j ∈ range v.length, z ^ (j + 2) * gamma.getD j 0) • pg.h +
        (∑ j ∈ range v.length, z ^ j * (z * z) * v.getD j 0) • pg.g := by
      rw [Finset.sum_smul, Finset.sum_smul, ← Finset.sum_add_distrib]
      apply Finset.sum_congr rfl
      intro j _
      rw [smul_add, smul_smul, smul_smul, pow_add, pow_two]
    rw [e8]
    module

/-- **C62**: with a little-endian encoding every batched proof returned for values below `2^n` is accepted for the
commitments of the values; any generators, blindings, randomness and challenges. -/
theorem C62_complete (env : Env F G) (hle : LittleEndian env) (gens : Gens G)
    (hg : gens.gs.length = gens.hs.length) (v gamma : List F) (n : ℕ) (pg : PGens G) (rand : Rand F)
    (t t' : Transcript) (π : RangeProof F G) (hv : ∀ vi ∈ v, env.bigInt vi < 2 ^ n)
    (h : batchProve env gens v gamma n pg rand t = .ok (π, t')) :
    verifyBatched env gens π (commits pg v gamma) pg n t = .ok true := by
  rw [batch_main env hle.1 gens hg v gamma n pg rand t t' π h]
  congr 1
  rw [decide_eq_true_iff, Finset.sum_eq_zero, zero_mul, zero_smul]
  intro j hj
  have hj := Finset.mem_range.1 hj
  obtain ⟨e1, e2⟩ := hle.2 (v.getD j 0)
  have e3 : leNat (env.cd.enc (v.getD j 0)) < 2 ^ n := by
    have := hv (v.getD j 0) (by
      rw [List.getD_eq_getElem?_getD, List.getElem?_eq_getElem hj]
      exact List.getElem_mem hj)
    rw [e1] at this
    exact_mod_cast this
  rw [Nat.mod_eq_of_lt e3, e2, sub_self, mul_zero]

theorem forM_checkRange (env : Env F G) (v : List F) (n : ℕ) (h : ∀ vi ∈ v, env.bigInt vi ≤ 2 ^ n) :
    (v.forM fun vi => checkRange env vi n) = .ok () :=
  Go.forM_eq_ok.2 fun vi hvi => Go.guard_true (by have := h vi hvi; omega)

/-- **C62** (the prover does return proofs): with non-zero challenges, for every number `m ≥ 2` of values and bit
length `n` with `n·m` a power of two that fits the generators, proving and verifying succeed. -/
theorem C62_prove_verify (env : Env F G) (hle : LittleEndian env) (hc : ∀ t, env.chal t ≠ 0) (gens : Gens G)
    (hg : gens.gs.length = gens.hs.length) (v gamma : List F) (hgam : v.length ≤ gamma.length)
    (hm : 2 ≤ v.length) (n k : ℕ) (hnk : n * v.length = 2 ^ k) (hk2 : 2 ^ k ≤ gens.gs.length)
    (hn8 : ∀ vi ∈ v, n ≤ 8 * (env.cd.enc vi).length) (hv : ∀ vi ∈ v, env.bigInt vi < 2 ^ n) (pg : PGens G)
    (rand : Rand F) (t : Transcript) :
    ∃ π t', batchProve env gens v gamma n pg rand t = .ok (π, t') ∧
      verifyBatched env gens π (commits pg v gamma) pg n t = .ok true := by
  suffices h : ∃ π t', batchProve env gens v gamma n pg rand t = .ok (π, t') by
    obtain ⟨π, t', h⟩ := h
    exact ⟨π, t', h, C62_complete env hle gens hg v gamma n pg rand t t' π hv h⟩
  have hn0 : n ≠ 0 := by
    rintro rfl
    have := Nat.two_pow_pos k
    omega
  have hnm : 2 ≤ n * v.length := by
    calc 2 ≤ v.length := hm
      _ = 1 * v.length := (one_mul _).symm
      _ ≤ n * v.length := Nat.mul_le_mul_right _ (by omega)
  have hnm0 : n * v.length ≠ 0 := by omega
  simp only [batchProve]
  rw [Go.guard_true (by omega), Go.ok_bind, forM_checkRange env v n fun vi h => (hv vi h).le, Go.ok_bind,
    getaLBatched_eq env hle.1 v n hn8, Go.ok_bind,
    take_eq_vec 0 gens.gs _ (by omega), take_eq_vec 0 gens.hs _ (by omega)]
  generalize (fun i => gens.gs.getD i 0) = g
  generalize (fun i => gens.hs.getD i 0) = h
  have hvv : ∀ (n : ℕ) (f : ℕ → F), (List.range n).map f = vec n f := fun _ _ => rfl
  simp only [get1nVector_eq, subVec_vec, Go.ok_bind, sumOfProducts_vec, hvv]
  rw [(getcapVBatched_ok pg.g pg.h v gamma _).2 ⟨hgam, rfl⟩, Go.ok_bind]
  generalize hyz : calcyz env _ _ _ t = yzt
  have hy : yzt.1 ≠ 0 := by rw [← hyz]; exact hc _
  simp only [mulVec_vec, addVec_vec, subVec_vec, Go.ok_bind, getSumTermrX_eq hn0,
    getknVector_eq hnm, getknVector_eq hm, hadamard_vec, innerProduct_vec hnm0, deltayzBatched_eq hn0 hnm,
    gethPrime_eq hnm hy, getPhmuBatched_eq hn0 hnm, zsumLoop_eq _ gamma _ hgam]
  generalize hw : extract env _ "getw" = wt
  generalize hip : rangeToIPP env _ _ _ _ _ wt.2 = ip
  have : ∃ π t', ip = .ok (π, t') := by
    rw [← hip]
    exact proveRecursive_ok env hc k _ _ (by rw [vec_length, hnk]; have := k.lt_two_pow_self; omega)
      (by simp [hnk]) (by simp [hnk]) (by simp [hnk]) (by simp [hnk])
  obtain ⟨π, t', rfl⟩ := this
  exact ⟨_, _, rfl⟩

/-- **C62** (a batch of one): the batched verifier panics on every proof for a single commitment. -/
theorem C62_single_verify_panics (env : Env F G) (gens : Gens G) (π : RangeProof F G) (V : G) (pg : PGens G)
    (n : ℕ) (hn : n ≤ gens.gs.length) (t : Transcript) :
    verifyBatched env gens π [V] pg n t = Go.crash := by
  simp only [verifyBatched, List.length_singleton, Nat.mul_one]
  rw [Go.guard_true (by omega), Go.ok_bind]
  by_cases h : 2 ≤ n
  · rw [deltayzBatched_eq (by omega) (by omega), Go.ok_bind]
    simp [checktHatBatched, getknVector]
  · simp only [deltayzBatched, getknVector, Nat.mul_one]
    rw [if_pos (by omega)]
    rfl

/-- **C62** (a batch of one): the batched prover panics on every admissible single value. -/
theorem C62_single_prove_panics (env : Env F G) (hlen : SameLen env) (gens : Gens G)
    (hg : gens.gs.length = gens.hs.length) (v gamma : F) (n : ℕ) (hn : n ≤ gens.gs.length)
    (hv : env.bigInt v ≤ 2 ^ n) (pg : PGens G) (rand : Rand F) (t : Transcript) :
    batchProve env gens [v] [gamma] n pg rand t = Go.crash := by
  simp only [batchProve, List.length_singleton, Nat.mul_one]
  rw [Go.guard_true (by omega), Go.ok_bind, forM_checkRange env [v] n (by simpa using hv), Go.ok_bind]
  by_cases hn8 : n ≤ 8 * (env.cd.enc v).length
  swap
  · have : getaLBatched env [v] n = Go.crash := by
      simp [getaLBatched, getaL_long env hlen v n (by omega)]
    rw [this]
    rfl
  rw [getaLBatched_eq env hlen [v] n (by simpa using hn8), Go.ok_bind]
  simp only [List.length_singleton, Nat.mul_one]
  rw [take_eq_vec 0 gens.gs _ (by omega), take_eq_vec 0 gens.hs _ (by omega)]
  have hvv : ∀ (n : ℕ) (f : ℕ → F), (List.range n).map f = vec n f := fun _ _ => rfl
  simp only [get1nVector_eq, subVec_vec, Go.ok_bind, sumOfProducts_vec, hvv, getcapVBatched, mulVec_vec]
  by_cases h0 : n = 0
  · subst h0
    simp [getSumTermrX, get2nVector]
  have e := fun z : F => getSumTermrX_eq h0 z 1
  simp only [Nat.mul_one] at e
  simp only [e, addVec_vec, Go.ok_bind]
  by_cases h2 : 2 ≤ n
  · simp only [getknVector_eq h2, Go.ok_bind, hadamard_vec, addVec_vec, innerProduct_vec h0, mulVec_vec]
    simp [getknVector]
  · simp [getknVector, show n < 2 by omega]

theorem getcapVBatched_short (g h : G) : ∀ (v gamma : List F), gamma.length < v.length →
    getcapVBatched g h v gamma = Go.crash
  | [], _, hl => by simp at hl
  | _ :: _, [], _ => rfl
  | v :: vs, c :: cs, hl => by
    simp only [getcapVBatched]
    rw [getcapVBatched_short g h vs cs (by simpa using hl)]
    rfl

/-- **C62** (too few blindings): the prover panics instead of returning an error. -/
theorem C62_short_gamma_panics (env : Env F G) (hlen : SameLen env) (gens : Gens G)
    (hg : gens.gs.length = gens.hs.length) (v gamma : List F) (n : ℕ) (hn : n * v.length ≤ gens.gs.length)
    (hv : ∀ vi ∈ v, env.bigInt vi ≤ 2 ^ n) (hn8 : ∀ vi ∈ v, n ≤ 8 * (env.cd.enc vi).length)
    (hgam : gamma.length < v.length) (pg : PGens G) (rand : Rand F) (t : Transcript) :
    batchProve env gens v gamma n pg rand t = Go.crash := by
  simp only [batchProve]
  rw [Go.guard_true (by omega), Go.ok_bind, forM_checkRange env v n hv, Go.ok_bind,
    getaLBatched_eq env hlen v n hn8, Go.ok_bind, take_eq_vec 0 gens.gs _ (by omega),
    take_eq_vec 0 gens.hs _ (by omega)]
  have hvv : ∀ (n : ℕ) (f : ℕ → F), (List.range n).map f = vec n f := fun _ _ => rfl
  simp only [get1nVector_eq, subVec_vec, Go.ok_bind, sumOfProducts_vec, hvv]
  rw [getcapVBatched_short _ _ _ _ hgam]
  rfl

end
end Verif.Bulletproof
