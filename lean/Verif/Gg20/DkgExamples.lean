import Verif.Gg20.DkgSignProps
import Mathlib.NumberTheory.LucasLehmer
import Mathlib.Data.Nat.Size

/-!
# A concrete GG20 key generation

Three participants with threshold 2 over a group of order 257.  Two Mersenne primes stand in for the
safe primes.
-/

set_option linter.unusedSectionVars false
set_option exponentiation.threshold 2000

namespace Verif.Gg20

theorem prime_521 : (mersenne 521).Prime :=
  lucas_lehmer_sufficiency _ (by norm_num) (by norm_num)

theorem prime_607 : (mersenne 607).Prime :=
  lucas_lehmer_sufficiency _ (by norm_num) (by norm_num)

/-- A group of order 257 as the curve, with encoded points of two bytes. -/
def toyDkgEnv : DkgEnv 257 (ZMod 257) where
  gen := 3
  xy P := (min P.val (257 - P.val), P.val)
  kdf _ := List.replicate 32 5
  hmac k m := (k ++ m ++ List.replicate 32 0).take 32
  enc P := [UInt8.ofNat (P.val / 256), UInt8.ofNat P.val]
  dec bs := some ((beNat bs : ℕ) : ZMod 257)
  size := 2
  keyBits := 41

/-- What participant `i` draws. -/
def toyDkgRnd (i : UInt32) : DkgRnd 257 where
  ui := 10 + i.toNat
  coeffs _ := (7 + i.toNat : ℕ)
  open_ := [1, 2]
  p := 1060009
  q := 1060019
  P := mersenne 521
  Q := mersenne 607
  f := 2
  alpha := 2
  a1 _ := 0
  a2 _ := 0

theorem toyDkg_env : GoodEnv toyDkgEnv where
  gen := by decide +kernel
  sizePos := by decide
  encLen := fun _ => rfl
  decEnc := by decide +kernel
  hmacLen := by
    intro k m
    simp [toyDkgEnv]
    omega

theorem mem_parts3 {i : UInt32} : i ∈ parts 3 ↔ i = 1 ∨ i = 2 ∨ i = 3 := by
  rw [mem_parts]
  constructor
  · rintro ⟨h1, h2⟩
    have h3 : (3 : UInt32).toNat = 3 := rfl
    have : i.toNat = 1 ∨ i.toNat = 2 ∨ i.toNat = 3 := by omega
    rcases this with h | h | h
    · exact .inl (UInt32.toNat_inj.1 h)
    · exact .inr (.inl (UInt32.toNat_inj.1 h))
    · exact .inr (.inr (UInt32.toNat_inj.1 h))
  · rintro (rfl | rfl | rfl) <;> decide

theorem coprime_two_odd {a : ℤ} (h : a % 2 = 1) : IsCoprime 2 a :=
  ⟨-(a / 2), 1, by omega⟩

theorem toyDkg_good {i : UInt32} (hi : i ∈ parts 3) : GoodDkg toyDkgEnv 2 (toyDkgRnd i) where
  ui := by rcases mem_parts3.1 hi with rfl | rfl | rfl <;> decide
  coeffs := by
    intro k hk
    rcases mem_parts3.1 hi with rfl | rfl | rfl <;> (show ((_ : ℕ) : ZMod 257) ≠ 0; decide +kernel)
  primes := honest_toy
  keySize := .inl (by
    show (1060009 * 1060019 : ℕ).size = 41
    decide +kernel)
  order := by
    show ¬ 257 ∣ 1060009 * 1060019
    decide
  P := ⟨prime_521, by show mersenne 521 ≠ 2; norm_num [mersenne]⟩
  Q := ⟨prime_607, by show mersenne 607 ≠ 2; norm_num [mersenne]⟩
  ne := by
    show mersenne 521 ≠ mersenne 607
    norm_num [mersenne]
  size := by
    show 1024 ≤ (mersenne 521 * mersenne 607).size
    exact Nat.lt_size.2 (by norm_num [mersenne])
  f := coprime_two_odd (by
    show ((mersenne 521 : ℕ) : ℤ) * (mersenne 607 : ℕ) % 2 = 1
    norm_num [mersenne])
  alpha0 := by show (0 : ℤ) ≤ 2; norm_num
  alpha := coprime_two_odd (by
    show ((mersenne 521 / 2 : ℕ) : ℤ) * ((mersenne 607 / 2 : ℕ) : ℤ) % 2 = 1
    norm_num [mersenne])

theorem toyDkg_joint : joint 2 (parts 3) toyDkgRnd 0 = 36 ∧ joint 2 (parts 3) toyDkgRnd 1 = 27 := by
  decide +kernel

theorem toyDkg_psf {i : UInt32} (hi : i ∈ parts 3) (y : ZMod 257) :
    ∃ xs, Paillier.generateChallenges toyDkgEnv.kdf (psfParams toyDkgEnv i y)
      ((toyDkgRnd i).p * (toyDkgRnd i).q) 14 = some (.ok xs) := by
  refine ⟨List.replicate 13 21559051525, ?_⟩
  show Paillier.generateChallenges _ (psfParams toyDkgEnv i y) (1060009 * 1060019) 14 = _
  rcases mem_parts3.1 hi with rfl | rfl | rfl <;> revert y <;> decide +kernel

/-- A fresh participant. -/
def toyFresh (i : UInt32) : Dkg 257 (ZMod 257) :=
  ⟨i, 1, ⟨[], []⟩, ⟨⟨0, 0⟩, 0, 0, 0⟩, ⟨0, 0, 0⟩, [], [], 0, 0, [], 0, 0, []⟩

theorem toyDkg_setup : DkgSetup toyDkgEnv 2 3 toyFresh toyDkgRnd 14 where
  env := toyDkg_env
  t2 := by decide
  tn := by decide
  nq := by decide
  id := fun _ _ => rfl
  round := fun _ _ => rfl
  good := fun _ hi => toyDkg_good hi
  key := by
    show joint 2 (parts 3) toyDkgRnd 0 ≠ 0
    rw [toyDkg_joint.1]
    decide
  psf := fun _ hi => toyDkg_psf hi _

theorem toyDkg_visits {i : UInt32} (l : List UInt32) (hn : l.Nodup) (h : ∀ j, j ∈ l ↔ j ∈ parts 3) :
    Visits (parts 3) i l := ⟨hn, fun j _ => h j⟩

theorem mem_321 (j : UInt32) : j ∈ ([3, 1, 2] : List UInt32) ↔ j ∈ parts 3 := by
  rw [mem_parts3]
  simp
  tauto

/-- The honest run of the toy key generation ends with the public key `36 g = 108`, the shares
`36 + 27 i` and public shares of which the first, `126 g`, does not belong to the share `63`. -/
example : ∃ res : UInt32 → DkgResult (ZMod 257), (∀ i ∈ parts 3, (res i).y = 108 ∧
    (res i).xi = ((36 + 27 * (i.toNat : ZMod 257) : ZMod 257).cast : ℤ) ∧
    (res i).publicShares = [126 * 3, (36 + 2 * 36 + 4 * 27) * 3, (36 + 3 * 36 + 6 * 27) * 3] ∧
    (res i).data.lookup i = none) := by
  have hv : ∀ i ∈ parts 3, Visits (parts 3) i [3, 1, 2] := fun i _ =>
    toyDkg_visits _ (by decide) mem_321
  obtain ⟨_, _, _, _, _, _, _, res, _, _, _, _, h⟩ := C49_honest_run toyDkg_setup
    (fun _ => [3, 1, 2]) (fun _ => [3, 1, 2]) (fun _ => [3, 1, 2]) (fun _ => [3, 1, 2]) hv hv hv hv
  refine ⟨res, fun i hi => ?_⟩
  obtain ⟨h1, h2, h3, _, h5⟩ := h i hi
  refine ⟨?_, ?_, ?_, ?_⟩
  · rw [h1]
    decide +kernel
  · rw [h2]
    congr 1
    have := jointAt_eq (t := 2) (by norm_num) (parts 3) toyDkgRnd (i.toNat : ZMod 257)
    rw [Finset.sum_range_succ, Finset.sum_range_one, toyDkg_joint.1, toyDkg_joint.2] at this
    unfold jointAt at this
    simpa using this
  · rw [h3]
    decide +kernel
  · rw [h5]
    unfold dataOf
    rw [if_neg (by tauto)]

/-- Two of the three shares give the key; the published share of 1 is wrong and the one key for which
it would be right is another one. -/
example : (lag0 ({1, 3} : Finset UInt32) (fun k => (k.toNat : ZMod 257)) 1 *
      jointAt 2 (parts 3) toyDkgRnd 1 + lag0 ({1, 3} : Finset UInt32)
        (fun k => (k.toNat : ZMod 257)) 3 * jointAt 2 (parts 3) toyDkgRnd 3 = 36) ∧
    published 2 (parts 3) toyDkgRnd 1 ≠ jointAt 2 (parts 3) toyDkgRnd 1 := by
  constructor
  · have := C49_interpolates (q := 257) (t := 2) (by norm_num) (S := parts 3)
      (T := ({1, 3} : Finset UInt32)) (by decide) (by decide) toyDkgRnd
    rw [Finset.sum_pair (by decide)] at this
    rw [← joint_zero 2 (parts 3) toyDkgRnd, toyDkg_joint.1] at this
    exact this
  · have := C49_published_iff (q := 257) (t := 2) (by norm_num) (parts 3) toyDkgRnd (j := 1)
      (by norm_num) (by norm_num)
    rw [Nat.cast_one] at this
    rw [Ne, this]
    decide +kernel

/-! ## Round 3 of participant 1 -/

/-- The Paillier key of the toy participants. -/
theorem toyDkg_sk : ∃ sk, Paillier.newSecretKey (some 1060009) (some 1060019) = .ok sk :=
  let ⟨_, h, _⟩ := Paillier.newSecretKey_honest honest_toy
  ⟨_, h⟩

/-- Participant 1 before round 3. -/
def toyAt3 (sk : Paillier.SecretKey) : Dkg 257 (ZMod 257) :=
  { dkgAfter1 toyDkgEnv (toyFresh 1) 2 3 (toyDkgRnd 1) sk with
    round := 3
    others := [(3, ⟨sk.pk, toyDkgEnv.hmac [1, 2] (dkgMsg toyDkgEnv 2 (toyDkgRnd 3)), ⟨0, 0, 0⟩⟩),
      (2, ⟨sk.pk, toyDkgEnv.hmac [1, 2] (dkgMsg toyDkgEnv 2 (toyDkgRnd 2)), ⟨0, 0, 0⟩⟩)] }

theorem toyAt3_at {sk : Paillier.SecretKey}
    (h : Paillier.newSecretKey (some 1060009) (some 1060019) = .ok sk) :
    AtRound3 toyDkgEnv 2 3 1 (parts 3) toyDkgRnd (toyAt3 sk) where
  id := rfl
  round := rfl
  threshold := rfl
  limit := rfl
  V := rfl
  sk := h
  others := by
    intro j hj hj1
    rcases mem_parts3.1 hj with rfl | rfl | rfl
    · exact absurd rfl hj1
    · exact ⟨_, rfl, rfl⟩
    · exact ⟨_, rfl, rfl⟩

theorem toyAt3_own (sk : Paillier.SecretKey) : (toyAt3 sk).X[((1 : UInt32) - 1).toNat]? =
    some ⟨1, polyAt 2 (toyDkgRnd 1) ((1 : UInt32).toNat : ZMod 257)⟩ := rfl

theorem visits_23 : Visits (parts 3) 1 [2, 3] := by
  refine ⟨by decide, fun j hj => ?_⟩
  rw [mem_parts3]
  simp [hj]

/-- Participant 2 sends participant 1 its share for 3 (39 in place of 30): accepted, the signing
share of 1 becomes 81 in place of 63. -/
example {sk : Paillier.SecretKey}
    (h : Paillier.newSecretKey (some 1060009) (some 1060019) = .ok sk) :
    ∃ s' proof, dkgRound3 toyDkgEnv (toyAt3 sk) 14
      ([2, 3].map fun j => (j, some ⟨dkgMsg toyDkgEnv 2 (toyDkgRnd j), [1, 2]⟩))
      [(2, some ⟨3, 39⟩), (3, some ⟨1, 23⟩)] = (s', .ok proof) ∧ s'.xi = 81 ∧ s'.y = 108 := by
  obtain ⟨s', proof, h1, h2⟩ := C123_share_of_other_id_accepted (q := 257) (fuel := 14) (t := 2)
    (n := 3) (rnd := toyDkgRnd) toyDkg_env (by decide) (by decide) (by decide) (i := 1) (m := 2)
    (mem_parts3.2 (.inl rfl)) (mem_parts3.2 (.inr (.inl rfl))) (by decide) 3 (by decide)
    (fun j hj => toyDkg_good hj) toyDkg_setup.key (toyDkg_psf (mem_parts3.2 (.inl rfl)) _)
    (toyAt3_at h) (toyAt3_own sk) visits_23 visits_23
  refine ⟨s', proof, h1, ?_, ?_⟩
  · rw [h2.xi]
    decide +kernel
  · rw [h2.y]
    decide +kernel

/-- Without any message of participant 3, round 3 succeeds with another key. -/
example {sk : Paillier.SecretKey}
    (h : Paillier.newSecretKey (some 1060009) (some 1060019) = .ok sk) :
    ∃ s' proof, dkgRound3 toyDkgEnv (toyAt3 sk) 14
      [(2, some ⟨dkgMsg toyDkgEnv 2 (toyDkgRnd 2), [1, 2]⟩)] [(2, some ⟨1, 21⟩)] = (s', .ok proof) ∧
      s'.y = 23 * 3 ∧ s'.y ≠ 108 := by
  have hsub : ({1, 2} : Finset UInt32) ⊆ parts 3 := by
    intro j hj
    rw [mem_parts3]
    simp only [Finset.mem_insert, Finset.mem_singleton] at hj
    clear h
    tauto
  obtain ⟨s', proof, h1, h2⟩ := C129_subset_accepted (q := 257) (fuel := 14) (t := 2)
    (n := 3) (rnd := toyDkgRnd) toyDkg_env (by decide) (by decide) (by decide) hsub
    (i := 1) (by decide) (by decide) (fun j hj => toyDkg_good (hsub hj)) (by decide +kernel)
    (toyDkg_psf (mem_parts3.2 (.inl rfl)) _) (toyAt3_at h) (toyAt3_own sk) (ld := [2]) (lx := [2])
    ⟨by decide, by intro j hj; simp [hj]⟩ ⟨by decide, by intro j hj; simp [hj]⟩
  have hy : s'.y = 23 * 3 := by
    rw [h2.y]
    decide +kernel
  exact ⟨s', proof, h1, hy, by rw [hy]; decide⟩

/-- Participant 3 first sends a wrong opening, the call fails after the share of 2 has been added;
the repeated call gives 63 + 21. -/
example {sk : Paillier.SecretKey}
    (h : Paillier.newSecretKey (some 1060009) (some 1060019) = .ok sk) :
    ∃ s1 s2 proof, dkgRound3 toyDkgEnv (toyAt3 sk) 14
      [(2, some ⟨dkgMsg toyDkgEnv 2 (toyDkgRnd 2), [1, 2]⟩), (3, some ⟨[9], [1, 2]⟩)]
      [(2, some ⟨1, 21⟩), (3, some ⟨1, 23⟩)] = (s1, Go.err) ∧
      dkgRound3 toyDkgEnv s1 14
        ([2, 3].map fun j => (j, some ⟨dkgMsg toyDkgEnv 2 (toyDkgRnd j), [1, 2]⟩))
        [(2, some ⟨1, 21⟩), (3, some ⟨1, 23⟩)] = (s2, .ok proof) ∧ s2.xi = 84 ∧ s2.y = 108 := by
  obtain ⟨s1, s2, proof, h1, h2, h3⟩ := C124_retry_counts_twice (q := 257) (fuel := 14) (t := 2)
    (n := 3) (rnd := toyDkgRnd) toyDkg_env (by decide) (by decide) (by decide) (i := 1) (b := 3)
    (mem_parts3.2 (.inl rfl)) (by decide)
    (fun j hj => toyDkg_good hj) toyDkg_setup.key (toyDkg_psf (mem_parts3.2 (.inl rfl)) _)
    (toyAt3_at h) (toyAt3_own sk) visits_23 visits_23 (pre := [2]) (by decide)
    (by simp [mem_parts3]) (wb := some ⟨[9], [1, 2]⟩) [] (e := .error)
    (dkgStep3_bad_opening (o := ⟨sk.pk, _, ⟨0, 0, 0⟩⟩) rfl (toyDkg_env.hmacLen _ _)
      (show toyDkgEnv.hmac [1, 2] [9] ≠ toyDkgEnv.hmac [1, 2] (dkgMsg toyDkgEnv 2 (toyDkgRnd 3)) by
        decide +kernel))
  refine ⟨s1, s2, proof, h1, h2, ?_, ?_⟩
  · rw [h3.xi]
    decide +kernel
  · rw [h3.y]
    decide +kernel

end Verif.Gg20
