import Verif.Paillier.Props

/-!
# Square-free proofs, `pkg/paillier/psf.go` (C18)
-/

set_option linter.unusedSectionVars false

namespace Verif.Paillier

theorem psfLoop_ok {kdf : List UInt8 → List UInt8} {P : PsfParams} {N : ℤ} :
    ∀ fuel j m xs, psfLoop kdf P N fuel j m = some (.ok xs) →
      xs.length = 13 - j ∧ ∀ x ∈ xs, 0 < x ∧ x < N := by
  intro fuel
  induction fuel with
  | zero => intro j m xs h; simp [psfLoop] at h
  | succ fuel ih =>
    intro j m xs h
    unfold psfLoop at h
    split at h
    · rename_i hj
      obtain rfl := Except.ok.inj (Option.some.inj h)
      exact ⟨by simp; omega, by simp⟩
    · rename_i hj
      split at h
      · simp at h
      · rename_i x _
        split at h
        · rename_i hx
          split at h
          · simp at h
          · simp at h
          · rename_i ys hys
            obtain rfl := Except.ok.inj (Option.some.inj h)
            obtain ⟨a, b⟩ := ih _ _ _ hys
            refine ⟨by simp [a]; omega, fun z hz => ?_⟩
            rcases List.mem_cons.1 hz with rfl | hz
            · exact hx
            · exact b z hz
        · exact ih _ _ _ h

theorem generateChallenges_ok {kdf : List UInt8 → List UInt8} {P : PsfParams} {N : ℤ} {fuel : ℕ}
    {xs : List ℤ} (h : generateChallenges kdf P N fuel = some (.ok xs)) :
    P.pi ≠ 0 ∧ xs.length = 13 ∧ ∀ x ∈ xs, 0 < x ∧ x < N := by
  unfold generateChallenges at h
  split at h
  · simp at h
  · split at h
    · simp at h
    · exact ⟨by assumption, psfLoop_ok _ _ _ _ h⟩

/-- `psfVerifyLoop` accepts exactly when there is an entry for every challenge and its `N`-th power
is the challenge. -/
theorem psfVerifyLoop_ok {N : ℤ} (hN : 0 < N) : ∀ (xs : List ℤ) (ys : List (Option ℤ)),
    psfVerifyLoop N xs ys = .ok () ↔
      ∃ zs : List ℤ, zs.length = xs.length ∧ ys.take xs.length = zs.map some ∧
        List.Forall₂ (fun x z => z ^ N.toNat % N = x) xs zs := by
  intro xs
  induction xs with
  | nil => intro ys; simp [psfVerifyLoop]
  | cons x xs ih =>
    intro ys
    match ys with
    | [] =>
      simp only [psfVerifyLoop, reduceCtorEq, false_iff]
      rintro ⟨zs, h1, h2, _⟩
      cases zs <;> simp at h1 h2
    | none :: ys =>
      simp only [psfVerifyLoop, reduceCtorEq, false_iff]
      rintro ⟨zs, h1, h2, _⟩
      cases zs <;> simp at h1 h2
    | some y :: ys =>
      unfold psfVerifyLoop
      simp only [Big.exp, if_neg hN.ne', if_pos hN.le]
      split
      · rename_i he
        rw [ih ys]
        constructor
        · rintro ⟨zs, h1, h2, h3⟩
          exact ⟨y :: zs, by simp [h1], by simp [h2], List.Forall₂.cons he h3⟩
        · rintro ⟨zs, h1, h2, h3⟩
          cases h3 with
          | cons h4 h5 =>
            rename_i z zs
            exact ⟨zs, by simpa using h1, by simp at h2; exact h2.2, h5⟩
      · rename_i he
        simp only [reduceCtorEq, false_iff]
        rintro ⟨zs, h1, h2, h3⟩
        cases h3 with
        | cons h4 h5 =>
          simp at h2
          exact he (by rw [h2.1]; exact h4)

/-- Exact decision of the verifier in terms of the challenges. -/
theorem C18_verify_iff (kdf : List UInt8 → List UInt8) (P : PsfParams) (N : ℤ) (hN : 0 < N)
    (proof : List (Option ℤ)) (fuel : ℕ) (xs : List ℤ)
    (hx : generateChallenges kdf P N fuel = some (.ok xs)) (hq : P.q ≠ 0) :
    psfVerify kdf P ⟨N, N * N⟩ proof fuel = some (.ok ()) ↔
      ¬ P.q ∣ N ∧ ∃ zs : List ℤ, proof.take 13 = zs.map some ∧
        List.Forall₂ (fun x z => z ^ N.toNat % N = x) xs zs := by
  obtain ⟨hpi, hlen, _⟩ := generateChallenges_ok hx
  unfold psfVerify
  simp only [if_neg hpi, if_neg hq, hx, if_pos hlen]
  split
  · rename_i h0
    have : P.q ∣ N := Int.dvd_of_emod_eq_zero h0
    simp [this]
  · rename_i h0
    have : ¬ P.q ∣ N := fun h => h0 (Int.emod_eq_zero_of_dvd h)
    rw [Option.some.injEq, psfVerifyLoop_ok hN, hlen]
    simp only [this, not_false_eq_true, true_and]
    constructor
    · rintro ⟨zs, a, b, c⟩; exact ⟨zs, b, c⟩
    · rintro ⟨zs, b, c⟩; exact ⟨zs, by rw [← c.length_eq, hlen], b, c⟩

theorem pow_mul_self {p : ℕ} (hp : p.Prime) (x : ℤ) {e : ℕ} (he : e ≠ 0)
    (hmod : (p - 1) ∣ (e - 1)) : x ^ e ≡ x [ZMOD p] := by
  by_cases hd : (p : ℤ) ∣ x
  · have h1 : x ≡ 0 [ZMOD p] := (Int.modEq_zero_iff_dvd.2 hd)
    refine (Int.modEq_zero_iff_dvd.2 (dvd_pow hd he)).trans h1.symm
  · have h1 := (fermat_pow hp hd hmod).mul_right x
    rw [← pow_succ, Nat.sub_add_cancel (Nat.one_le_iff_ne_zero.2 he), one_mul] at h1
    exact h1

/-- Completeness: the proof made with an honest secret key verifies with the same public inputs
whenever the curve order does not divide `N`; no condition on the challenges is needed. -/
theorem C18_complete (kdf : List UInt8 → List UInt8) (P : PsfParams) {p q : ℕ}
    (h : HonestPrimes p q) (sk : SecretKey) (hsk : newSecretKey (some p) (some q) = .ok sk)
    (fuel : ℕ) (proof : List (Option ℤ)) (hp : psfProve kdf P sk fuel = some (.ok proof))
    (hq0 : P.q ≠ 0) (hq : ¬ P.q ∣ (p : ℤ) * q) :
    psfVerify kdf P sk.pk proof fuel = some (.ok ()) := by
  have hN := h.N_pos
  obtain ⟨U, hU, _⟩ := newSecretKey_honest h
  obtain rfl := Except.ok.inj (hU.symm.trans hsk)
  have hp1 := h.pp.one_lt
  have hq1 := h.qp.one_lt
  unfold psfProve at hp
  split at hp
  · simp at hp
  rename_i hpi
  split at hp
  · simp at hp
  rename_i M hM
  split at hp
  · simp at hp
  · simp at hp
  rename_i xs hxs
  split at hp
  swap
  · simp at hp
  rename_i hlen
  obtain rfl := Except.ok.inj (Option.some.inj hp)
  simp only at hM hxs ⊢
  obtain ⟨_, _, hrange⟩ := generateChallenges_ok hxs
  have htot : ((p : ℤ) - 1) * (q - 1) = (((p - 1) * (q - 1) : ℕ) : ℤ) := by
    push_cast [Nat.cast_sub hp1.le, Nat.cast_sub hq1.le]; ring
  have htot0 : (0 : ℤ) < ((p : ℤ) - 1) * (q - 1) := by
    have : (0 : ℤ) < (p : ℤ) - 1 := by omega
    have : (0 : ℤ) < (q : ℤ) - 1 := by omega
    positivity
  unfold Core.inv at hM
  simp only [if_neg htot0.ne'] at hM
  rw [Go.ofOption_eq_ok, Big.modInverse_eq_some htot0] at hM
  obtain ⟨M0, _, hMM⟩ := hM
  rw [C18_verify_iff kdf P _ (by omega) _ fuel xs hxs hq0]
  refine ⟨hq, xs.map fun x => x ^ M.toNat % (p * q), ?_, ?_⟩
  · rw [List.take_of_length_le (by simp [psfProveLoop, hlen])]
    unfold psfProveLoop
    rw [List.map_map]
    refine List.map_congr_left fun x _ => ?_
    simp only [Function.comp, Big.exp]
    rw [if_neg (by omega), if_pos M0]
  · rw [List.forall₂_map_right_iff, List.forall₂_same]
    intro x hx
    obtain ⟨x0, x1⟩ := hrange x hx
    -- exponent arithmetic
    set n := p * q with hn
    have hNn : (p : ℤ) * q = (n : ℤ) := by push_cast [hn]; rfl
    rw [hNn] at x1 hMM hN ⊢
    obtain ⟨k, hk⟩ := Int.modEq_iff_dvd.1 hMM
    rw [Int.toNat_natCast]
    have hMn : M.toNat * n ≠ 0 ∧ ((p - 1) * (q - 1) : ℕ) ∣ (M.toNat * n - 1) := by
      have hMpos : 0 < M := by
        rcases M0.lt_or_eq with h' | h'
        · exact h'
        · exfalso
          rw [← h', mul_zero, sub_zero] at hk
          have hd : ((p - 1) * (q - 1) : ℕ) ∣ 1 := by
            have : (((p - 1) * (q - 1) : ℕ) : ℤ) ∣ 1 := ⟨k, by rw [← htot]; exact hk⟩
            exact_mod_cast this
          have h1 := Nat.dvd_one.1 hd
          have a := Nat.eq_one_of_mul_eq_one_right h1
          have b := Nat.eq_one_of_mul_eq_one_left h1
          exact h.ne (by omega)
      have hn0 : 0 < n := by positivity
      have hpos : 0 < M.toNat * n := by
        have : 0 < M.toNat := by omega
        positivity
      refine ⟨hpos.ne', ?_⟩
      have : (((p - 1) * (q - 1) : ℕ) : ℤ) ∣ ((M.toNat * n - 1 : ℕ) : ℤ) := by
        rw [Nat.cast_sub (by omega)]
        push_cast [Int.toNat_of_nonneg M0]
        refine ⟨-k, ?_⟩
        rw [htot] at hk
        push_cast at hk
        linarith
      exact_mod_cast this
    have e1 : (x ^ M.toNat % (n : ℤ)) ^ n ≡ x ^ (M.toNat * n) [ZMOD n] := by
      rw [pow_mul x]
      exact (Int.mod_modEq _ _).pow n
    have e2 : x ^ (M.toNat * n) ≡ x [ZMOD n] := by
      have a := pow_mul_self h.pp x hMn.1 ((Nat.dvd_mul_right _ _).trans hMn.2)
      have b := pow_mul_self h.qp x hMn.1 ((Nat.dvd_mul_left _ _).trans hMn.2)
      rw [Int.modEq_iff_dvd] at a b ⊢
      rw [← hNn]
      exact (coprime_pq h).mul_dvd a b
    have e3 := e1.trans e2
    unfold Int.ModEq at e3
    rw [e3, Int.emod_eq_of_lt x0.le x1]

/-- Soundness against square factors: if a proof is accepted although `ℓ²` divides the modulus, then
every one of the 13 challenges satisfies `x^ℓ ≡ x (mod ℓ²)`, i.e. lies in one of only `ℓ` of the
`ℓ²` residue classes. -/
theorem C18_sound_square (kdf : List UInt8 → List UInt8) (P : PsfParams) (N : ℤ) (hN : 0 < N)
    (ℓ : ℕ) (hl : ℓ.Prime) (hd : (ℓ : ℤ) * ℓ ∣ N) (proof : List (Option ℤ)) (fuel : ℕ)
    (hq : P.q ≠ 0) (hv : psfVerify kdf P ⟨N, N * N⟩ proof fuel = some (.ok ())) :
    ∃ xs, generateChallenges kdf P N fuel = some (.ok xs) ∧ xs.length = 13 ∧
      ∀ x ∈ xs, x ^ ℓ ≡ x [ZMOD ℓ * ℓ] := by
  obtain ⟨xs, hxs⟩ : ∃ xs, generateChallenges kdf P N fuel = some (.ok xs) := by
    unfold psfVerify at hv
    split at hv
    · simp at hv
    split at hv
    · simp at hv
    split at hv
    · simp at hv
    · simp at hv
    · rename_i xs h; exact ⟨xs, h⟩
  refine ⟨xs, hxs, (generateChallenges_ok hxs).2.1, fun x hx => ?_⟩
  obtain ⟨_, zs, hzs, hf⟩ := (C18_verify_iff kdf P N hN proof fuel xs hxs hq).1 hv
  obtain ⟨z, hz⟩ : ∃ z, z ^ N.toNat % N = x := by
    clear hxs hv hzs
    induction hf with
    | nil => simp at hx
    | cons h1 _ ih =>
      rcases List.mem_cons.1 hx with rfl | hx
      · exact ⟨_, h1⟩
      · exact ih hx
  have hxz : x ≡ z ^ N.toNat [ZMOD ℓ * ℓ] := by
    rw [← hz]
    exact (Int.mod_modEq _ _).of_dvd hd
  have hl0 := hl.pos
  have hl1 := hl.two_le
  obtain ⟨k, hk⟩ := hd
  have hk0 : 0 < k := by
    have : (0 : ℤ) < (ℓ : ℤ) * ℓ := by positivity
    rw [hk] at hN
    exact pos_of_mul_pos_right hN this.le
  have hNt : N.toNat = ℓ * (ℓ * k.toNat) := by
    rw [hk]
    zify
    rw [Int.toNat_of_nonneg (by positivity), Int.toNat_of_nonneg hk0.le]; ring
  have hkt : 0 < k.toNat := by omega
  refine (hxz.pow ℓ).trans (Int.ModEq.trans ?_ hxz.symm)
  by_cases hz0 : (ℓ : ℤ) ∣ z
  · have h2 : ∀ e, 2 ≤ e → z ^ e ≡ 0 [ZMOD ℓ * ℓ] := by
      intro e he
      rw [Int.modEq_zero_iff_dvd, ← sq]
      exact (pow_dvd_pow_of_dvd hz0 2).trans (pow_dvd_pow z he)
    have hN2 : 2 ≤ N.toNat := by
      rw [hNt]
      calc 2 ≤ ℓ * 1 := by omega
        _ ≤ ℓ * (ℓ * k.toNat) := Nat.mul_le_mul_left _ (Nat.mul_pos hl0 hkt)
    rw [← pow_mul]
    refine (h2 _ ?_).trans (h2 _ hN2).symm
    exact hN2.trans (Nat.le_mul_of_pos_right _ hl0)
  · -- `z^(ℓ(ℓ-1)) ≡ 1 (mod ℓ²)`
    have h1 := fermat_pow hl hz0 (dvd_refl (ℓ - 1))
    have h2 : (z ^ (ℓ - 1)) ^ ℓ ≡ 1 [ZMOD ℓ * ℓ] := by
      have := pow_N_of_one (N := (ℓ : ℤ)) (by exact_mod_cast hl0) h1
      rwa [Int.toNat_natCast] at this
    have e : (z ^ N.toNat) ^ ℓ = z ^ N.toNat * ((z ^ (ℓ - 1)) ^ ℓ) ^ (ℓ * k.toNat) := by
      rw [← pow_mul, ← pow_mul, ← pow_mul, ← pow_add]
      congr 1
      rw [hNt]
      obtain ⟨a, rfl⟩ : ∃ a, ℓ = a + 1 := ⟨ℓ - 1, by omega⟩
      simp only [Nat.add_sub_cancel]
      ring
    rw [e]
    simpa using (h2.pow (ℓ * k.toNat)).mul_left (z ^ N.toNat)

/-- A modulus divisible by the curve order is refused; a proof with fewer than 13 entries makes the
verifier panic or reject, never accept. -/
theorem C18_rejects (kdf : List UInt8 → List UInt8) (P : PsfParams) (N : ℤ) (hN : 0 < N)
    (proof : List (Option ℤ)) (fuel : ℕ) (hpi : P.pi ≠ 0) (hq : P.q ≠ 0) :
    (P.q ∣ N → psfVerify kdf P ⟨N, N * N⟩ proof fuel = some Go.err) ∧
    (proof.length < 13 → psfVerify kdf P ⟨N, N * N⟩ proof fuel ≠ some (.ok ())) := by
  constructor
  · intro h
    unfold psfVerify
    simp only [if_neg hpi, if_neg hq, if_pos (Int.emod_eq_zero_of_dvd h)]
  · intro hl hv
    obtain ⟨xs, hxs⟩ : ∃ xs, generateChallenges kdf P N fuel = some (.ok xs) := by
      unfold psfVerify at hv
      split at hv
      · simp at hv
      split at hv
      · simp at hv
      split at hv
      · simp at hv
      · simp at hv
      · rename_i xs h; exact ⟨xs, h⟩
    obtain ⟨_, zs, hz, hf⟩ := (C18_verify_iff kdf P N hN proof fuel xs hxs hq).1 hv
    have h1 := hf.length_eq
    rw [(generateChallenges_ok hxs).2.1] at h1
    have := congrArg List.length hz
    simp at this
    omega

/-- The proof of 12 entries panics when all given entries are right (index out of range). -/
theorem C18_short_proof_panics :
    psfVerifyLoop 143 (List.replicate 13 1) (List.replicate 12 (some 1)) = Go.crash := by
  decide +kernel

theorem psfLoop_congr (kdf : List UInt8 → List UInt8) (P : PsfParams) (N N' : ℤ)
    (hsize : N.natAbs.size = N'.natAbs.size) (x : ℕ → ℤ)
    (hx : ∀ j < 13, psfCandidate kdf P N.natAbs.size j 0 = .ok (x j) ∧ 0 < x j ∧ x j < N ∧
      x j < N') : ∀ fuel j, psfLoop kdf P N fuel j 0 = psfLoop kdf P N' fuel j 0 := by
  intro fuel
  induction fuel with
  | zero => intro j; rfl
  | succ fuel ih =>
    intro j
    unfold psfLoop
    by_cases hj : 13 ≤ j
    · simp [hj]
    · obtain ⟨h1, h2, h3, h4⟩ := hx j (by omega)
      rw [hsize] at h1
      simp only [if_neg hj, hsize, h1]
      rw [if_pos ⟨h2, h3⟩, if_pos ⟨h2, h4⟩, ih (j + 1)]

/-- The modulus is not hashed into the challenges (although a comment in the code says it should
be): two moduli of equal bit length get the same challenges whenever the first candidates are in
range for both. -/
theorem C18_challenges_ignore_modulus (kdf : List UInt8 → List UInt8) (P : PsfParams) (N N' : ℤ)
    (hsize : N.natAbs.size = N'.natAbs.size) (x : ℕ → ℤ)
    (hx : ∀ j < 13, psfCandidate kdf P N.natAbs.size j 0 = .ok (x j) ∧ 0 < x j ∧ x j < N ∧
      x j < N') (fuel : ℕ) :
    generateChallenges kdf P N fuel = generateChallenges kdf P N' fuel := by
  unfold generateChallenges
  rw [hsize, psfLoop_congr kdf P N N' hsize x hx]

/-! Concrete instances of the hypotheses. -/

theorem honest_11_13 : HonestPrimes 11 13 :=
  ⟨by norm_num, by norm_num, by norm_num, by decide⟩

example : generateChallenges (fun _ => List.replicate 32 5) ⟨1, 2, 7, 1, 3, 4⟩ 143 14 =
    some (.ok (List.replicate 13 5)) := by decide +kernel

example : psfVerify (fun _ => List.replicate 32 1) ⟨1, 2, 7, 1, 3, 4⟩ ⟨153, 153 * 153⟩
    (List.replicate 13 (some 1)) 14 = some (.ok ()) ∧ (3 : ℤ) * 3 ∣ 153 := by decide +kernel

example : psfCandidate (fun _ => List.replicate 32 5) ⟨1, 2, 7, 1, 3, 4⟩ 8 0 0 = .ok 5 := by
  decide +kernel

end Verif.Paillier
