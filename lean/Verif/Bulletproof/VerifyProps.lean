import Verif.Bulletproof.BatchProps

/-!
# C114: what the range verifiers accept, on arbitrary proofs
-/

set_option linter.unusedSectionVars false

open Finset

namespace Verif.Bulletproof

section
variable {F : Type} [Field F] [DecidableEq F]
variable {G : Type} [AddCommGroup G] [Module F G] [DecidableEq G]

theorem getxs_ok_length {env : Env F G} : ∀ {ls rs : List G} {t : Transcript} {p},
    getxs env t ls rs = .ok p → ls.length ≤ rs.length
  | [], _, _, _, _ => by simp
  | _ :: _, [], _, _, h => by simp [getxs] at h
  | l :: ls, r :: rs, t, p, h => by
    simp only [getxs] at h
    obtain ⟨q, hq, -⟩ := Go.bind_eq_ok.1 h
    have := getxs_ok_length hq
    simpa using this

theorem getsEntry_zero {xs : List F} {i : ℕ} {s : F} (h : getsEntry xs i = .ok s) (hi : ∀ k, i.testBit k = false) :
    ∀ x ∈ xs, x ≠ 0 := by
  have key : ∀ (ys : List (F × ℕ)) (a : F), ys.foldlM (fun si xj =>
      if i.testBit (xs.length - xj.2 - 1) then (.ok (si * xj.1) : Go F)
      else do
        let inv ← invert xj.1
        .ok (si * inv)) a = .ok s → ∀ y ∈ ys, y.1 ≠ 0 := by
    intro ys
    induction ys with
    | nil => simp
    | cons y ys ih =>
      intro a h
      rw [List.foldlM_cons] at h
      obtain ⟨b, hb, h⟩ := Go.bind_eq_ok.1 h
      rw [hi] at hb
      obtain ⟨c, hc, -⟩ := Go.bind_eq_ok.1 hb
      intro y' hy'
      rcases List.mem_cons.1 hy' with rfl | hy'
      · exact (invert_eq_ok.1 hc).1
      · exact ih _ h _ hy'
  intro x hx
  obtain ⟨j, hj, rfl⟩ := List.mem_iff_getElem.1 hx
  refine key _ _ h (xs[j], j) ?_
  rw [List.mem_zipIdx_iff_getElem?]
  simp [hj]

theorem gets_ok_ne_zero {xs s : List F} {n : ℕ} (hn : n ≠ 0) (h : gets xs n = .ok s) : ∀ x ∈ xs, x ≠ 0 := by
  unfold gets at h
  rw [Go.mapM_eq_ok] at h
  obtain ⟨m, rfl⟩ := Nat.exists_eq_succ_of_ne_zero hn
  rw [List.range_succ_eq_map] at h
  cases h with
  | cons h0 _ => exact getsEntry_zero h0 (by simp)

theorem getRHS_take : ∀ (ls rs : List G) (xs : List F) (P : G), ls.length ≤ rs.length →
    getRHS P ls rs xs = getRHS P ls (rs.take ls.length) xs
  | [], _, _, _, _ => by simp [getRHS]
  | _ :: _, [], _, _, h => by simp at h
  | l :: ls, r :: rs, [], P, _ => by simp [getRHS]
  | l :: ls, r :: rs, x :: xs, P, h => by
    simp only [getRHS, List.length_cons, List.take_succ_cons]
    refine bind_congr fun i => ?_
    exact getRHS_take ls rs xs _ (by simpa using h)

/-- the inner-product part of the range verifiers accepts exactly the proofs that satisfy the equation of the
paper and speak about all generators -/
theorem verifyFromRangeProof_true (env : Env F G) (g h : List G) (Q u : G) (tHat : F) (π : IPP F G)
    (t : Transcript) :
    verifyFromRangeProof env g h Q u tHat π t = .ok true ↔
      π.capLs.length ≤ π.capRs.length ∧ g.length = 2 ^ π.capLs.length ∧ h.length = 2 ^ π.capLs.length ∧
      (∀ x ∈ ippChals env t π.capLs π.capRs, x ≠ 0) ∧
      IppAccepts g h (Q + tHat • u) u ⟨π.a, π.b, π.capLs, π.capRs.take π.capLs.length⟩
        (ippChals env t π.capLs π.capRs) := by
  constructor
  · intro hv
    simp only [verifyFromRangeProof] at hv
    obtain ⟨⟨xs, t'⟩, h1, hv⟩ := Go.bind_eq_ok.1 hv
    have hl := getxs_ok_length h1
    have hx := getxs_eq_chals h1 hl
    subst hx
    have hcl := ippChals_length env π.capLs π.capRs t hl
    obtain ⟨s, h2, hv⟩ := Go.bind_eq_ok.1 hv
    have h3 := gets_ok_ne_zero (Nat.two_pow_pos _).ne' h2
    have hs := sVec_length (ippChals env t π.capLs π.capRs)
    have e := gets_eq h3
    rw [hcl] at e hs
    simp only at h2 h3
    rw [e] at h2
    obtain rfl := Except.ok.inj h2
    obtain ⟨lhs, h4, hv⟩ := Go.bind_eq_ok.1 hv
    have h4' := h4
    simp only [getLHS] at h4
    obtain ⟨si, h5, h4⟩ := Go.bind_eq_ok.1 h4
    obtain ⟨ga, h6, h4⟩ := Go.bind_eq_ok.1 h4
    obtain ⟨hb, h7, h4⟩ := Go.bind_eq_ok.1 h4
    have l6 := (sumOfProducts_ok.1 h6).1
    have l7 := (sumOfProducts_ok.1 h7).1
    have l5 : si.length = 2 ^ π.capLs.length := by
      rw [invertScalars, Go.mapM_eq_ok] at h5
      rw [← h5.length_eq, hs]
    have l6 : g.length = 2 ^ π.capLs.length := by rw [l6]; simp [mulVec, hs]
    have l7 : h.length = 2 ^ π.capLs.length := by rw [l7]; simp [mulVec, l5]
    refine ⟨hl, l6, l7, h3, ?_⟩
    rw [getLHS_eq (by omega) (by omega) (sVec_ne_zero h3)] at h4'
    obtain rfl := Except.ok.inj h4'
    obtain ⟨rhs, h8, hv⟩ := Go.bind_eq_ok.1 hv
    rw [getRHS_take _ _ _ _ hl, getRHS_eq _ _ _ _ hcl.symm (by rw [List.length_take]; omega) h3] at h8
    obtain rfl := Except.ok.inj h8
    exact of_decide_eq_true (Except.ok.inj hv)
  · rintro ⟨hl, h1, h2, h3, h4⟩
    obtain ⟨t', ht⟩ := getxs_chals env π.capLs π.capRs t hl
    have hcl := ippChals_length env π.capLs π.capRs t hl
    have hs := sVec_length (ippChals env t π.capLs π.capRs)
    have e := gets_eq h3
    rw [hcl] at e hs
    simp only [verifyFromRangeProof, ht, Go.ok_bind]
    rw [e, Go.ok_bind, getLHS_eq (by omega) (by omega) (sVec_ne_zero h3), Go.ok_bind, getRHS_take _ _ _ _ hl,
      getRHS_eq _ _ _ _ hcl.symm (by rw [List.length_take]; omega) h3, Go.ok_bind]
    congr 1
    exact decide_eq_true h4

/-- the point the inner-product part of a range proof is about: `A + xS − z Σ gᵢ + Σ (z yⁱ + ζᵢ) h'ᵢ − μh` with
`h'ᵢ = y⁻ⁱ hᵢ`, `ζᵢ` the weight of bit `i` -/
def rangePoint (N : ℕ) (g h : ℕ → G) (ζ : ℕ → F) (π : RangeProof F G) (H : G) (x y z : F) : G :=
  π.capA + x • π.capS - z • ∑ i ∈ range N, g i + ∑ i ∈ range N, (z * y ^ i + ζ i) • (y⁻¹) ^ i • h i - π.mu • H

/-- the verification of the paper for `N` bits with weights `ζ` and a commitment equation
`tHat•g + taux•h = V + δ•g + x•T1 + x²•T2` -/
def RangeAccepts (env : Env F G) (gens : Gens G) (pg : PGens G) (N : ℕ) (ζ : ℕ → F) (V : G) (π : RangeProof F G)
    (x y z w : F) (t : Transcript) : Prop :=
  y ≠ 0 ∧
  π.tHat • pg.g + π.taux • pg.h = V + ((z - z ^ 2) * ∑ i ∈ range N, y ^ i - z * ∑ i ∈ range N, ζ i) • pg.g +
    x • π.capT1 + x ^ 2 • π.capT2 ∧
  N = 2 ^ π.ipp.capLs.length ∧ π.ipp.capLs.length ≤ π.ipp.capRs.length ∧
  (∀ c ∈ ippChals env t π.ipp.capLs π.ipp.capRs, c ≠ 0) ∧
  IppAccepts (gens.gs.take N) (vec N fun i => (y⁻¹) ^ i • gens.hs.getD i 0)
    (rangePoint N (fun i => gens.gs.getD i 0) (fun i => gens.hs.getD i 0) ζ π pg.h x y z + π.tHat • w • pg.u)
    (w • pg.u) ⟨π.ipp.a, π.ipp.b, π.ipp.capLs, π.ipp.capRs.take π.ipp.capLs.length⟩
    (ippChals env t π.ipp.capLs π.ipp.capRs)

theorem rangePoint_eq (N : ℕ) (g h : ℕ → G) (ζ : ℕ → F) (π : RangeProof F G) (H : G) (x y z : F) :
    rangePoint N g h ζ π H x y z = π.capA + x • π.capS + ∑ i ∈ range N, (-z) • g i +
        ∑ i ∈ range N, (y ^ i * z + ζ i) • (y⁻¹) ^ i • h i - π.mu • H := by
  simp only [rangePoint, neg_smul, Finset.sum_neg_distrib, ← Finset.smul_sum, mul_comm z, sub_eq_add_neg]

/-- **C114** (one value): on every proof, commitment, bit length and transcript, also adversarial ones, the
verifier answers yes exactly if `2 ≤ n`, there are `n` generators and the equations of the paper hold for the
challenges derived from the transcript; surplus `R` points are ignored. -/
theorem C114_range (env : Env F G) (gens : Gens G) (hg : gens.gs.length = gens.hs.length) (π : RangeProof F G)
    (V : G) (pg : PGens G) (n : ℕ) (t : Transcript) :
    rangeVerify env gens π V pg n t = .ok true ↔
      2 ≤ n ∧ n ≤ gens.gs.length ∧
      RangeAccepts env gens pg n (fun i => 2 ^ i * env.chal (trZ env t [V] π) ^ 2)
        (env.chal (trZ env t [V] π) ^ 2 • V) π (env.chal (trX env t [V] π)) (env.chal (trY env t [V] π))
        (env.chal (trZ env t [V] π)) (env.chal (trW env t [V] π)) (trW env t [V] π) := by
  simp only [rangeVerify, calcyz_eq, calcx_eq, extractw_eq]
  by_cases hn : n ≤ gens.gs.length
  swap
  · rw [Go.guard_false (by omega)]
    simp [hn]
  rw [Go.guard_true (by omega), Go.ok_bind]
  by_cases h2 : 2 ≤ n
  swap
  · simp [deltayz, getknVector, show n < 2 by omega]
  generalize env.chal (trX env t [V] π) = x
  generalize env.chal (trY env t [V] π) = y
  generalize env.chal (trZ env t [V] π) = z
  generalize env.chal (trW env t [V] π) = w
  rw [deltayz_eq h2, Go.ok_bind, Go.guard_bind_eq_ok, checktHat, decide_eq_true_eq]
  have eζ : z * ∑ i ∈ range n, 2 ^ i * z ^ 2 = z * z * z * ∑ i ∈ range n, (2 : F) ^ i := by
    rw [← Finset.sum_mul]
    ring
  unfold RangeAccepts
  rw [eζ, pow_two z, pow_two x]
  rw [take_eq_vec 0 gens.hs _ (by omega)]
  by_cases hy : y = 0
  · subst hy
    simp only [gethPrime, if_true, vec_length, ne_eq, not_true, false_and, and_false, iff_false, not_and]
    intro _
    split <;> simp
  rw [gethPrime_eq h2 hy, Go.ok_bind]
  have egs := take_eq_vec 0 gens.gs n hn
  conv_lhs => rw [egs]
  rw [getPhmu_eq h2, Go.ok_bind, verifyFromRangeProof_true, rangePoint_eq, egs]
  simp only [vec_length]
  tauto

/-- **C114** (several values): the same for the batched verifier; it accepts nothing for fewer than two
commitments. -/
theorem C114_batched (env : Env F G) (gens : Gens G) (hg : gens.gs.length = gens.hs.length) (π : RangeProof F G)
    (Vs : List G) (pg : PGens G) (n : ℕ) (t : Transcript) :
    verifyBatched env gens π Vs pg n t = .ok true ↔
      2 ≤ Vs.length ∧ 1 ≤ n ∧ n * Vs.length ≤ gens.gs.length ∧
      RangeAccepts env gens pg (n * Vs.length)
        (fun i => 2 ^ (i % n) * env.chal (trZ env t Vs π) ^ (i / n + 2))
        (∑ j ∈ range Vs.length, env.chal (trZ env t Vs π) ^ (j + 2) • Vs.getD j 0) π (env.chal (trX env t Vs π))
        (env.chal (trY env t Vs π)) (env.chal (trZ env t Vs π)) (env.chal (trW env t Vs π)) (trW env t Vs π) := by
  simp only [verifyBatched, calcyz_eq, calcx_eq, extractw_eq]
  by_cases hn : n * Vs.length ≤ gens.gs.length
  swap
  · rw [Go.guard_false (by omega)]
    simp [hn]
  rw [Go.guard_true (by omega), Go.ok_bind]
  by_cases h1 : 2 ≤ n * Vs.length
  swap
  · simp only [deltayzBatched, getknVector, if_pos (show n * Vs.length < 2 by omega)]
    simp only [Go.crash, Go.error_bind, reduceCtorEq, false_iff]
    rintro ⟨h2, h3, -⟩
    exact h1 (h2.trans (Nat.le_mul_of_pos_left _ h3))
  have h0 : n ≠ 0 := by rintro rfl; simp at h1
  rw [deltayzBatched_eq h0 h1, Go.ok_bind]
  by_cases h2 : 2 ≤ Vs.length
  swap
  · simp only [checktHatBatched, getknVector, if_pos (show Vs.length < 2 by omega)]
    simp [h2]
  generalize env.chal (trX env t Vs π) = x
  generalize env.chal (trY env t Vs π) = y
  generalize env.chal (trZ env t Vs π) = z
  generalize env.chal (trW env t Vs π) = w
  have eV : sumOfProducts Vs (vec Vs.length fun i => z ^ i * (z * z)) =
      .ok (∑ j ∈ range Vs.length, z ^ (j + 2) • Vs.getD j 0) := by
    have e := sumOfProducts_vec Vs.length (fun i => z ^ i * (z * z)) fun j => Vs.getD j 0
    rw [← eq_vec] at e
    rw [e]
    congr 1
    apply Finset.sum_congr rfl
    intro j _
    rw [pow_add, pow_two]
  simp only [checktHatBatched, getknVector_eq h2, Go.ok_bind, mulVec_vec, eV]
  rw [Go.guard_bind_eq_ok, decide_eq_true_eq]
  have eζ : z * ∑ i ∈ range (n * Vs.length), 2 ^ (i % n) * z ^ (i / n + 2) =
      ∑ j ∈ range Vs.length, z ^ (j + 3) * ∑ i ∈ range n, (2 : F) ^ i := by
    have e := sum_zeta z n Vs.length
    simp only [zeta] at e
    rw [e, Finset.mul_sum]
    apply Finset.sum_congr rfl
    intro j _
    ring
  unfold RangeAccepts
  rw [eζ, pow_two z, pow_two x]
  rw [take_eq_vec 0 gens.hs _ (by omega)]
  by_cases hy : y = 0
  · subst hy
    simp only [gethPrime, if_true, vec_length, ne_eq, not_true, false_and, and_false, iff_false, not_and]
    intro _
    split <;> simp
  rw [gethPrime_eq h1 hy, Go.ok_bind]
  have egs := take_eq_vec 0 gens.gs _ hn
  conv_lhs => rw [egs]
  rw [getPhmuBatched_eq h0 h1, Go.ok_bind, verifyFromRangeProof_true, rangePoint_eq, egs]
  simp only [vec_length]
  have h3 : 1 ≤ n := by omega
  simp only [zeta]
  tauto

/-- **C114** (the bit length is part of the proof): no proof is accepted for two bit lengths. -/
theorem C114_one_length (env : Env F G) (gens : Gens G) (hg : gens.gs.length = gens.hs.length)
    (π : RangeProof F G) (V V' : G) (pg pg' : PGens G) (n n' : ℕ) (t t' : Transcript)
    (h : rangeVerify env gens π V pg n t = .ok true) (h' : rangeVerify env gens π V' pg' n' t' = .ok true) :
    n = n' := by
  obtain ⟨-, -, -, -, e, -⟩ := (C114_range env gens hg π V pg n t).1 h
  obtain ⟨-, -, -, -, e', -⟩ := (C114_range env gens hg π V' pg' n' t').1 h'
  rw [e, e']

/-- **C114** (a proof of the wrong size): if the commitment equation holds and no challenge is zero, a proof whose
number of rounds does not fit the bit length is not refused with an error: the verifier panics. -/
theorem C114_wrong_size_panics (env : Env F G) (gens : Gens G) (hg : gens.gs.length = gens.hs.length)
    (π : RangeProof F G) (V : G) (pg : PGens G) (n : ℕ) (t : Transcript) (hc : ∀ t, env.chal t ≠ 0)
    (h2 : 2 ≤ n) (hn : n ≤ gens.gs.length)
    (x y z : F) (hx : env.chal (trX env t [V] π) = x) (hy : env.chal (trY env t [V] π) = y)
    (hz : env.chal (trZ env t [V] π) = z)
    (ht : π.tHat • pg.g + π.taux • pg.h =
      z ^ 2 • V + ((z - z ^ 2) * ∑ i ∈ range n, y ^ i - z ^ 3 * ∑ i ∈ range n, 2 ^ i) • pg.g +
        x • π.capT1 + x ^ 2 • π.capT2)
    (hsize : n ≠ 2 ^ π.ipp.capLs.length ∨ π.ipp.capRs.length < π.ipp.capLs.length) :
    rangeVerify env gens π V pg n t = Go.crash := by
  simp only [rangeVerify, calcyz_eq, calcx_eq, extractw_eq]
  rw [pow_two z, pow_two x, show z ^ 3 = z * z * z by ring] at ht
  have hy0 : y ≠ 0 := by rw [← hy]; exact hc _
  rw [hx, hy, hz, Go.guard_true (by omega), Go.ok_bind, deltayz_eq h2, Go.ok_bind,
    Go.guard_true (by simpa only [checktHat, decide_eq_true_eq] using ht), Go.ok_bind, take_eq_vec 0 gens.hs _ (by omega), gethPrime_eq h2 hy0, Go.ok_bind,
    take_eq_vec 0 gens.gs _ (by omega), getPhmu_eq h2, Go.ok_bind]
  generalize trW env t [V] π = T
  simp only [verifyFromRangeProof]
  by_cases hl : π.ipp.capLs.length ≤ π.ipp.capRs.length
  swap
  · have : ∀ (ls rs : List G) (t : Transcript), rs.length < ls.length → getxs env t ls rs = Go.crash := by
      intro ls
      induction ls with
      | nil => simp
      | cons l ls ih =>
        intro rs t hr
        cases rs with
        | nil => rfl
        | cons r rs => simp only [getxs]; rw [ih rs _ (by simpa using hr)]; rfl
    rw [this _ _ _ (by omega)]
    rfl
  have hsize : n ≠ 2 ^ π.ipp.capLs.length := by omega
  obtain ⟨t', ht⟩ := getxs_chals env π.ipp.capLs π.ipp.capRs T hl
  have hcl := ippChals_length env π.ipp.capLs π.ipp.capRs T hl
  have h3 : ∀ x ∈ ippChals env T π.ipp.capLs π.ipp.capRs, x ≠ 0 := by
    have : ∀ (ls rs : List G) (t : Transcript), ∀ x ∈ ippChals env t ls rs, x ≠ 0 := by
      intro ls
      induction ls with
      | nil => simp [ippChals]
      | cons l ls ih =>
        intro rs t
        cases rs with
        | nil => simp [ippChals]
        | cons r rs =>
          intro x hx
          simp only [ippChals] at hx
          rcases List.mem_cons.1 hx with rfl | hx
          · exact hc _
          · exact ih _ _ _ hx
    exact this _ _ _
  have hs := sVec_length (ippChals env T π.ipp.capLs π.ipp.capRs)
  have e := gets_eq h3
  rw [hcl] at e hs
  rw [ht, Go.ok_bind, e, Go.ok_bind]
  have e2 : invertScalars (sVec (ippChals env T π.ipp.capLs π.ipp.capRs)) =
      .ok ((sVec (ippChals env T π.ipp.capLs π.ipp.capRs)).map (·⁻¹)) := by
    rw [invertScalars, Go.mapM_eq_ok, List.forall₂_map_right_iff]
    exact List.forall₂_same.2 fun s hs => invert_ok (sVec_ne_zero h3 s hs)
  simp only [getLHS, e2, Go.ok_bind, sumOfProducts, vec_length, mulVec, List.length_map, hs, if_neg hsize]
  rfl

end
end Verif.Bulletproof
