import Verif.Bulletproof.GenModel
import Verif.Bulletproof.Examples

/-!
# C221: the generators of bulletproofs, and provers and verifiers made with different maximal lengths
-/

set_option linter.unusedSectionVars false

namespace Verif.Bulletproof

/-- the `k`-th point of a domain: the hash of bytes `64k, …, 64k+63` of its stream -/
def genPoint {G : Type} (ge : GenEnv G) (domain : Bytes) (k : ℕ) : G :=
  ge.hash ((List.range 64).map fun j => ge.shake domain (64 * k + j))

/-- the generators for maximal length `n` -/
def genSpec {G : Type} (ge : GenEnv G) (domain : Bytes) (n : ℕ) : Gens G :=
  ⟨(List.range n).map (genPoint ge domain), (List.range n).map fun i => genPoint ge domain (n + i)⟩

theorem genLoop_eq {G : Type} (ge : GenEnv G) (d : Bytes) : ∀ k m, genLoop ge.hash (ge.shake d) k (64 * m) =
    (List.range k).map fun i => genPoint ge d (m + i)
  | 0, m => rfl
  | k + 1, m => by
    rw [genLoop, show 64 * m + 64 = 64 * (m + 1) by ring, genLoop_eq ge d k (m + 1), List.range_succ_eq_map,
      List.map_cons, List.map_map]
    refine congrArg₂ _ rfl (List.map_congr_left fun i _ => ?_)
    simp only [Function.comp, Nat.succ_eq_add_one]
    congr 1
    omega

/-- **C221** (the generators): a negative length panics, zero is refused, and for `n ≥ 1` the vector `G` is made of
the points `0, …, n-1` of the domain and `H` of the points `n, …, 2n-1`. -/
theorem C221_generators {G : Type} (ge : GenEnv G) (len : ℤ) (d : Bytes) :
    (len < 0 → getGeneratorPoints ge len d = Go.crash) ∧
    (len = 0 → getGeneratorPoints ge len d = Go.err) ∧
    (∀ n : ℕ, 1 ≤ n → len = n → getGeneratorPoints ge len d = .ok (genSpec ge d n)) := by
  refine ⟨fun h => ?_, ?_, ?_⟩
  · simp only [getGeneratorPoints]
    rw [if_pos (by omega)]
  · rintro rfl
    rfl
  · rintro n hn rfl
    simp only [getGeneratorPoints]
    rw [if_neg (by omega), show ((n : ℤ) * 2).toNat = n * 2 by omega]
    have e := genLoop_eq ge d (n * 2) 0
    rw [mul_zero] at e
    simp only [zero_add] at e
    rw [e]
    simp only [splitVector, List.length_map, List.length_range]
    rw [Go.guard_true (by omega), Go.ok_bind, Go.guard_true (by omega), Go.ok_bind, Go.ok_bind,
      Nat.mul_div_cancel _ (by norm_num : 0 < 2), ← List.map_take, ← List.map_drop]
    congr 1
    unfold genSpec
    congr 1
    · rw [List.take_range, Nat.min_eq_left (by omega)]
    · rw [mul_two, List.range_add, List.drop_left' (by simp), List.map_map]
      rfl

theorem newRange_eq {G : Type} (ge : GenEnv G) (n : ℕ) (hn : 1 ≤ n) (rd id : Bytes) :
    newRange ge n rd id = .ok ⟨genSpec ge rd n, genSpec ge id n⟩ := by
  simp only [newRange, newInnerProduct]
  rw [(C221_generators ge n rd).2.2 n hn rfl, Go.ok_bind, (C221_generators ge n id).2.2 n hn rfl, Go.ok_bind]

theorem genSpec_length {G : Type} (ge : GenEnv G) (d : Bytes) (n : ℕ) :
    (genSpec ge d n).gs.length = n ∧ (genSpec ge d n).hs.length = n := by
  simp [genSpec]

/-- **C221** (no generator twice): if the 64-byte blocks of the stream are distinct and hash to distinct points,
all `2n` generators are distinct. -/
theorem C221_distinct {G : Type} (ge : GenEnv G) (d : Bytes) (n : ℕ)
    (h : ∀ i < 2 * n, ∀ j < 2 * n, genPoint ge d i = genPoint ge d j → i = j) :
    ((genSpec ge d n).gs ++ (genSpec ge d n).hs).Nodup := by
  have e : (genSpec ge d n).gs ++ (genSpec ge d n).hs = (List.range (2 * n)).map (genPoint ge d) := by
    rw [two_mul, List.range_add, List.map_append, List.map_map]
    rfl
  rw [e, List.nodup_map_iff_inj_on List.nodup_range]
  intro i hi j hj
  exact h i (List.mem_range.1 hi) j (List.mem_range.1 hj)

/-- **C221** (two maximal lengths): the vector `G` of the smaller length begins that of the larger one, but the
`i`-th entry of `H` for the smaller length `n` is the entry `n + i` of the larger `G` as long as there is one. -/
theorem C221_lengths {G : Type} (ge : GenEnv G) (d : Bytes) (n m : ℕ) (h : n ≤ m) :
    (genSpec ge d m).gs.take n = (genSpec ge d n).gs ∧
    ∀ i, i < n → n + i < m → (genSpec ge d n).hs[i]? = (genSpec ge d m).gs[n + i]? := by
  refine ⟨?_, fun i hi hm => ?_⟩
  · simp only [genSpec]
    rw [← List.map_take, List.take_range, Nat.min_eq_left h]
  · simp [genSpec, hi, hm]

section
variable {F : Type} [Field F] [DecidableEq F]
variable {G : Type} [AddCommGroup G] [Module F G] [DecidableEq G]

/-- **C221** (prover and verifier agree): both made with the same maximal length and the same range domain, every
value below `2^n` gets a proof and the verifier accepts it. The inner product domains need not be the same: range
proofs never use the generators made from them. -/
theorem C221_range (ge : GenEnv G) (env : Env F G) (hle : LittleEndian env) (hc : ∀ t, env.chal t ≠ 0)
    (N : ℕ) (rd idP idV : Bytes) (v gamma : F) (k : ℕ) (hk : 1 ≤ k) (hk2 : 2 ^ k ≤ N)
    (hn8 : 2 ^ k ≤ 8 * (env.cd.enc v).length) (hv : env.bigInt v < 2 ^ 2 ^ k) (pg : PGens G) (rand : Rand F)
    (t : Transcript) :
    ∃ P V π t', newRange ge N rd idP = .ok P ∧ newRange ge N rd idV = .ok V ∧
      rangeProve env P.generators v gamma (2 ^ k) pg rand t = .ok (π, t') ∧
      rangeVerify env V.generators π (gamma • pg.h + v • pg.g) pg (2 ^ k) t = .ok true := by
  have hN : 1 ≤ N := le_trans Nat.one_le_two_pow hk2
  obtain ⟨l1, l2⟩ := genSpec_length ge rd N
  obtain ⟨π, t', h1, h2⟩ := C60_prove_verify env hle hc (genSpec ge rd N) (l1.trans l2.symm) v gamma k hk
    (by rw [l1]; exact hk2) hn8 hv pg rand t
  exact ⟨_, _, π, t', newRange_eq ge N hN rd idP, newRange_eq ge N hN rd idV, h1, h2⟩

/-- **C221** (the same for several values in one proof) -/
theorem C221_batch (ge : GenEnv G) (env : Env F G) (hle : LittleEndian env) (hc : ∀ t, env.chal t ≠ 0)
    (N : ℕ) (rd idP idV : Bytes) (v gamma : List F) (hgam : v.length ≤ gamma.length) (hm : 2 ≤ v.length)
    (n k : ℕ) (hnk : n * v.length = 2 ^ k) (hk2 : 2 ^ k ≤ N) (hn8 : ∀ vi ∈ v, n ≤ 8 * (env.cd.enc vi).length)
    (hv : ∀ vi ∈ v, env.bigInt vi < 2 ^ n) (pg : PGens G) (rand : Rand F) (t : Transcript) :
    ∃ P V π t', newRange ge N rd idP = .ok P ∧ newRange ge N rd idV = .ok V ∧
      batchProve env P.generators v gamma n pg rand t = .ok (π, t') ∧
      verifyBatched env V.generators π (commits pg v gamma) pg n t = .ok true := by
  have hN : 1 ≤ N := le_trans Nat.one_le_two_pow hk2
  obtain ⟨l1, l2⟩ := genSpec_length ge rd N
  obtain ⟨π, t', h1, h2⟩ := C62_prove_verify env hle hc (genSpec ge rd N) (l1.trans l2.symm) v gamma hgam hm n k
    hnk (by rw [l1]; exact hk2) hn8 hv pg rand t
  exact ⟨_, _, π, t', newRange_eq ge N hN rd idP, newRange_eq ge N hN rd idV, h1, h2⟩

/-- **C221** (different maximal lengths, inner products): both sides allow vectors of length one, yet the proof for
`[a]` and `[b]` made with maximal length `N` is accepted by a verifier made with `M` exactly if `b` is zero or the
points `N` and `M` of the domain are the same. -/
theorem C221_ipp_lengths (ge : GenEnv G) (env : Env F G) (d : Bytes) (N M : ℕ)
    (hN : 1 ≤ N) (hM : 1 ≤ M) (a b : F) (u : G) (t : Transcript) :
    ∃ P V, newInnerProduct ge N d = .ok P ∧ newInnerProduct ge M d = .ok V ∧
      ∃ π t', ippProve env P [a] [b] u t = .ok (π, t') ∧
        ippVerify env V (ippCommit (P.gs.take 1) (P.hs.take 1) [a] [b] u) u π t =
          .ok (decide (b = 0 ∨ genPoint ge d N = genPoint ge d M)) := by
  refine ⟨_, _, (C221_generators ge N d).2.2 N hN rfl, (C221_generators ge M d).2.2 M hM rfl, ⟨a, b, [], []⟩, t, ?_, ?_⟩
  · obtain ⟨n, rfl⟩ : ∃ n, N = n + 1 := ⟨N - 1, by omega⟩
    simp [ippProve, isPowerOfTwo, genSpec_length, innerProduct, proveRecursive, Go.guard, Go.ok_bind]
    try rfl
  · obtain ⟨l1, l2⟩ := genSpec_length ge d M
    rw [C59_verify env _ (l1.trans l2.symm), if_pos ⟨rfl, by rw [l1]; simpa using hM, by simp [ippChals]⟩]
    congr 1
    obtain ⟨n, rfl⟩ : ∃ n, N = n + 1 := ⟨N - 1, by omega⟩
    obtain ⟨m, rfl⟩ : ∃ m, M = m + 1 := ⟨M - 1, by omega⟩
    rw [decide_eq_decide]
    have e : ∀ n, (genSpec ge d (n + 1)).gs.take 1 = [genPoint ge d 0] ∧
        (genSpec ge d (n + 1)).hs.take 1 = [genPoint ge d (n + 1)] := fun n => by
      simp [genSpec, List.range_succ_eq_map]
    simp only [IppAccepts, ippCommit, ippChals, List.length_nil, pow_zero, (e n).1, (e n).2, (e m).1, (e m).2]
    simp [sVec, msm, dot, foldLR]
    rw [← sub_eq_zero, ← smul_sub, smul_eq_zero, sub_eq_zero, eq_comm (a := genPoint ge d (m + 1))]
end

/-! ### Concrete cases -/

/-- toy generators: the stream counts, the hash takes the first byte -/
def toyGenEnv : GenEnv Toy.K := ⟨fun d i => UInt8.ofNat (i / 64 + d.length), fun b => (b.headD 0).toNat⟩

/-- **C221** (different maximal lengths, range proofs): there are generators, challenges, randomness and a value in
range for which the proof of a prover made with maximal length 2 is refused by a verifier made with maximal length 4
for the same domains, although 2 bits are within both. -/
theorem C221_range_lengths : ∃ (ge : GenEnv Toy.K) (P V : RangeKit Toy.K) (π : RangeProof Toy.K Toy.K) (t' : Transcript),
    newRange ge 2 [1] [2] = .ok P ∧ newRange ge 4 [1] [2] = .ok V ∧ leEnv.bigInt (3 : Toy.K) < 2 ^ 2 ∧
      rangeProve leEnv P.generators 3 5 2 toyPGens toyRand [] = .ok (π, t') ∧
      rangeVerify leEnv P.generators π ((5 : Toy.K) • toyPGens.h + (3 : Toy.K) • toyPGens.g) toyPGens 2 [] = .ok true ∧
      rangeVerify leEnv V.generators π ((5 : Toy.K) • toyPGens.h + (3 : Toy.K) • toyPGens.g) toyPGens 2 [] = .ok false := by
  refine ⟨toyGenEnv, ⟨genSpec toyGenEnv [1] 2, genSpec toyGenEnv [2] 2⟩,
    ⟨genSpec toyGenEnv [1] 4, genSpec toyGenEnv [2] 4⟩, ?_⟩
  have h : ∃ p, rangeProve leEnv (genSpec toyGenEnv [1] 2) 3 5 2 toyPGens toyRand [] = .ok p := by
    obtain ⟨π, t', h, -⟩ := C60_prove_verify leEnv leEnv_le leEnv_chal (genSpec toyGenEnv [1] 2) rfl 3 5 1 (by decide)
      (by decide) (by decide +kernel) (by decide +kernel) toyPGens toyRand []
    exact ⟨_, h⟩
  have hv : ∀ p, rangeProve leEnv (genSpec toyGenEnv [1] 2) 3 5 2 toyPGens toyRand [] = .ok p →
      rangeVerify leEnv (genSpec toyGenEnv [1] 4) p.1 ((5 : Toy.K) • toyPGens.h + (3 : Toy.K) • toyPGens.g) toyPGens 2 []
        = .ok false := by
    have : (rangeProve leEnv (genSpec toyGenEnv [1] 2) 3 5 2 toyPGens toyRand [] >>= fun p =>
      rangeVerify leEnv (genSpec toyGenEnv [1] 4) p.1 ((5 : Toy.K) • toyPGens.h + (3 : Toy.K) • toyPGens.g) toyPGens 2 [])
        = .ok false := by decide +kernel
    intro p hp
    rw [hp, Go.ok_bind] at this
    exact this
  obtain ⟨p, hp⟩ := h
  refine ⟨p.1, p.2, newRange_eq _ 2 (by decide) _ _, newRange_eq _ 4 (by decide) _ _, by decide +kernel, hp, ?_, hv p hp⟩
  exact C60_complete leEnv leEnv_le _ rfl 3 5 2 toyPGens toyRand [] p.2 p.1 (by decide +kernel) hp

example : (getGeneratorPoints toyGenEnv 2 [1]).map (fun g => (g.gs, g.hs)) = .ok ([1, 2], [3, 4]) ∧
    (getGeneratorPoints toyGenEnv 4 [1]).map (fun g => (g.gs, g.hs)) = .ok ([1, 2, 3, 4], [5, 6, 7, 8]) := by
  decide +kernel

example : getGeneratorPoints toyGenEnv (-1) [1] = Go.crash := (C221_generators _ _ _).1 (by decide)

example : ((genSpec toyGenEnv [1] 4).gs ++ (genSpec toyGenEnv [1] 4).hs).Nodup :=
  C221_distinct _ _ _ (by decide +kernel)

example : (genSpec toyGenEnv [1] 2).hs[1]? = (genSpec toyGenEnv [1] 4).gs[3]? :=
  (C221_lengths toyGenEnv [1] 2 4 (by decide)).2 1 (by decide) (by decide)

example : ∃ P V π t', newRange toyGenEnv 8 [1] [2] = .ok P ∧ newRange toyGenEnv 8 [1] [7, 7] = .ok V ∧
    rangeProve leEnv P.generators 11 5 4 toyPGens toyRand [] = .ok (π, t') ∧
    rangeVerify leEnv V.generators π ((5 : Toy.K) • toyPGens.h + (11 : Toy.K) • toyPGens.g) toyPGens 4 [] = .ok true :=
  C221_range toyGenEnv leEnv leEnv_le leEnv_chal 8 [1] [2] [7, 7] 11 5 2 (by decide) (by decide) (by decide +kernel)
    (by decide +kernel) toyPGens toyRand []

example : ∃ P V π t', newRange toyGenEnv 8 [1] [2] = .ok P ∧ newRange toyGenEnv 8 [1] [7, 7] = .ok V ∧
    batchProve leEnv P.generators [11, 6] [5, 7] 4 toyPGens toyRand [] = .ok (π, t') ∧
    verifyBatched leEnv V.generators π (commits toyPGens [(11 : Toy.K), 6] [5, 7]) toyPGens 4 [] = .ok true :=
  C221_batch toyGenEnv leEnv leEnv_le leEnv_chal 8 [1] [2] [7, 7] [11, 6] [5, 7] (by decide) (by decide) 4 3 (by decide)
    (by decide) (by decide +kernel) (by decide +kernel) toyPGens toyRand []

/-- a verifier with another maximal length refuses a true statement -/
example : ∃ P V, newInnerProduct toyGenEnv 2 [1] = .ok P ∧ newInnerProduct toyGenEnv 4 [1] = .ok V ∧
    ∃ π t', ippProve leEnv P [5] [7] 9 [] = .ok (π, t') ∧
      ippVerify leEnv V (ippCommit (P.gs.take 1) (P.hs.take 1) [(5 : Toy.K)] [7] 9) 9 π [] = .ok false := by
  obtain ⟨P, V, h1, h2, π, t', h3, h4⟩ := C221_ipp_lengths toyGenEnv leEnv [1] 2 4 (by decide) (by decide) 5 7 9 []
  refine ⟨P, V, h1, h2, π, t', h3, h4.trans ?_⟩
  decide +kernel

end Verif.Bulletproof
