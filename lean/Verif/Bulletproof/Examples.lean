import Verif.Bulletproof.VerifyProps

/-!
# Concrete cases of the bulletproof theorems
-/

namespace Verif.Bulletproof

open Verif

/-- toy scalars in little-endian order -/
def leCodec : ScalarCodec Toy.K where
  enc x := (Toy.codec.enc x).reverse
  dec b := Toy.codec.dec b.reverse
  dec_enc x := by rw [List.reverse_reverse, Toy.codec.dec_enc]
  enc_dec b x h := by rw [Toy.codec.enc_dec _ _ h, List.reverse_reverse]

/-- a toy curve with little-endian scalars; the challenge depends on the length of the transcript -/
def leEnv : Env Toy.K Toy.K := ⟨leCodec, fun x => x.val, Toy.codec.enc, fun t => 3 ^ t.length⟩

/-- the same with big-endian scalars -/
def beEnv : Env Toy.K Toy.K := ⟨Toy.codec, fun x => x.val, Toy.codec.enc, fun t => 3 ^ t.length⟩

theorem leEnv_le : LittleEndian leEnv := by
  refine ⟨rfl, ?_⟩
  decide +kernel

theorem beEnv_be : BigEndian beEnv 2 := by
  unfold BigEndian
  decide +kernel

theorem leEnv_chal (t : Transcript) : leEnv.chal t ≠ 0 := pow_ne_zero _ (by decide)

theorem beEnv_chal (t : Transcript) : beEnv.chal t ≠ 0 := pow_ne_zero _ (by decide)

def toyGens : Gens Toy.K := ⟨[2, 3, 5, 7, 11, 13, 17, 19], [23, 29, 31, 37, 41, 43, 47, 53]⟩

def toyPGens : PGens Toy.K := ⟨59, 61, 67⟩

def toyRand : Rand Toy.K := ⟨71, 73, 79, 83, fun i => 2 * i + 1, fun i => 3 * i + 4⟩

/-- C59: a proof for two vectors of length four exists and is accepted -/
example : ∃ π t', ippProve leEnv toyGens [(1 : Toy.K), 2, 3, 4] [(5 : Toy.K), 6, 7, 8] 9 [] = .ok (π, t') ∧
    ippVerify leEnv toyGens (ippCommit (toyGens.gs.take 4) (toyGens.hs.take 4) [(1 : Toy.K), 2, 3, 4] [(5 : Toy.K), 6, 7, 8] 9) 9 π [] =
      .ok true := by
  obtain ⟨π, t', h⟩ := (C59_prove leEnv leEnv_chal toyGens rfl [(1 : Toy.K), 2, 3, 4] [(5 : Toy.K), 6, 7, 8] 9 []).1 ⟨2, rfl, rfl, by decide⟩
  exact ⟨π, t', h, C59_complete leEnv toyGens _ _ _ _ _ _ h⟩

/-- C59: three entries are refused -/
example : ippProve leEnv toyGens [1, 2, 3] [5, 6, 7] 9 [] = Go.err := by decide +kernel

/-- C59: the commitment of the test helper -/
example : getP toyGens [(1 : Toy.K), 2] [5, 6] 9 =
    .ok (ippCommit (toyGens.gs.take 2) (toyGens.hs.take 2) [(1 : Toy.K), 2] [5, 6] (9 : Toy.K)) := by decide +kernel

/-- C59: the verifier on a proof without rounds that nobody made -/
example : ippVerify leEnv toyGens 5 9 ⟨2, 3, [], []⟩ [] = .ok (decide ((2 : Toy.K) • 2 + 3 • 23 + 6 • 9 = (5 : Toy.K))) := by
  rw [C59_verify leEnv toyGens rfl]
  decide +kernel

/-- C60: a proof that 11 has four bits -/
example : ∃ π t', rangeProve leEnv toyGens 11 5 4 toyPGens toyRand [] = .ok (π, t') ∧
    rangeVerify leEnv toyGens π ((5 : Toy.K) • toyPGens.h + (11 : Toy.K) • toyPGens.g) toyPGens 4 [] = .ok true :=
  C60_prove_verify leEnv leEnv_le leEnv_chal toyGens rfl 11 5 2 (by decide) (by decide) (by decide +kernel)
    (by decide +kernel) _ _ _

/-- C61: a proof that 16 has four bits is made, and then refused -/
example : ∃ π t', rangeProve leEnv toyGens 16 5 4 toyPGens toyRand [] = .ok (π, t') ∧
    rangeVerify leEnv toyGens π ((5 : Toy.K) • toyPGens.h + (16 : Toy.K) • toyPGens.g) toyPGens 4 [] = .ok false :=
  C61_boundary leEnv leEnv_le (by decide) leEnv_chal toyGens rfl 16 5 2 (by decide) (by decide) (by decide +kernel)
    (by decide +kernel) _ (by decide) _ _

/-- C61: 17 is refused at once -/
example : rangeProve leEnv toyGens 17 5 4 toyPGens toyRand [] = Go.err :=
  C61_refused leEnv toyGens 17 5 4 toyPGens toyRand [] (by decide +kernel)

/-- C61: with big-endian scalars the proof for 11 is made, and then refused -/
example : ∃ π t', rangeProve beEnv toyGens 11 5 4 toyPGens toyRand [] = .ok (π, t') ∧
    rangeVerify beEnv toyGens π ((5 : Toy.K) • toyPGens.h + (11 : Toy.K) • toyPGens.g) toyPGens 4 [] = .ok false := by
  obtain ⟨π, t', h⟩ := rangeProve_ok beEnv beEnv_be.sameLen beEnv_chal toyGens rfl 11 5 2 (by decide) (by decide)
    (by decide +kernel) (by decide +kernel) (by decide +kernel) toyPGens toyRand []
  refine ⟨π, t', h, ?_⟩
  rw [C61_big_endian beEnv 2 beEnv_be beEnv_chal toyGens rfl 11 5 4 (by decide) (by decide +kernel) toyPGens
    (by decide) toyRand [] t' π h]
  decide +kernel

/-- C62: a batch of two values of four bits -/
example : ∃ π t', batchProve leEnv toyGens [11, 6] [5, 7] 4 toyPGens toyRand [] = .ok (π, t') ∧
    verifyBatched leEnv toyGens π (commits toyPGens [(11 : Toy.K), 6] [5, 7]) toyPGens 4 [] = .ok true :=
  C62_prove_verify leEnv leEnv_le leEnv_chal toyGens rfl [11, 6] [5, 7] (by decide) (by decide) 4 3 (by decide)
    (by decide) (by decide +kernel) (by decide +kernel) _ _ _

/-- C62: a batch of one value -/
example : batchProve leEnv toyGens [11] [5] 4 toyPGens toyRand [] = Go.crash :=
  C62_single_prove_panics leEnv leEnv_le.1 toyGens rfl 11 5 4 (by decide) (by decide +kernel) _ _ _

example (π : RangeProof Toy.K Toy.K) : verifyBatched leEnv toyGens π [9] toyPGens 4 [] = Go.crash :=
  C62_single_verify_panics leEnv toyGens π 9 toyPGens 4 (by decide) []

/-- C62: two values and one blinding factor -/
example : batchProve leEnv toyGens [11, 6] [5] 4 toyPGens toyRand [] = Go.crash :=
  C62_short_gamma_panics leEnv leEnv_le.1 toyGens rfl _ _ 4 (by decide) (by decide +kernel) (by decide +kernel)
    (by decide) _ _ _

/-- C114: the conditions hold for the proof that 11 has four bits -/
example : ∃ π, RangeAccepts leEnv toyGens toyPGens 4
    (fun i => 2 ^ i * leEnv.chal (trZ leEnv [] [(5 : Toy.K) • toyPGens.h + (11 : Toy.K) • toyPGens.g] π) ^ 2)
    (leEnv.chal (trZ leEnv [] [(5 : Toy.K) • toyPGens.h + (11 : Toy.K) • toyPGens.g] π) ^ 2 •
      ((5 : Toy.K) • toyPGens.h + (11 : Toy.K) • toyPGens.g)) π
    (leEnv.chal (trX leEnv [] [(5 : Toy.K) • toyPGens.h + (11 : Toy.K) • toyPGens.g] π))
    (leEnv.chal (trY leEnv [] [(5 : Toy.K) • toyPGens.h + (11 : Toy.K) • toyPGens.g] π))
    (leEnv.chal (trZ leEnv [] [(5 : Toy.K) • toyPGens.h + (11 : Toy.K) • toyPGens.g] π))
    (leEnv.chal (trW leEnv [] [(5 : Toy.K) • toyPGens.h + (11 : Toy.K) • toyPGens.g] π))
    (trW leEnv [] [(5 : Toy.K) • toyPGens.h + (11 : Toy.K) • toyPGens.g] π) := by
  obtain ⟨π, -, -, h⟩ := C60_prove_verify leEnv leEnv_le leEnv_chal toyGens rfl 11 5 2 (by decide) (by decide)
    (by decide +kernel) (by decide +kernel) toyPGens toyRand []
  exact ⟨π, ((C114_range leEnv toyGens rfl π _ toyPGens 4 []).1 h).2.2⟩

/-- C114: a proof with a valid commitment equation and no round at all, for two bits -/
example : ∃ π : RangeProof Toy.K Toy.K, rangeVerify leEnv toyGens π 0 ⟨0, 0, 1⟩ 2 [] = Go.crash :=
  ⟨⟨0, 0, 0, 0, 0, 0, 0, ⟨0, 0, [], []⟩⟩,
    C114_wrong_size_panics leEnv toyGens rfl _ 0 ⟨0, 0, 1⟩ 2 [] leEnv_chal (by decide) (by decide) _ _ _ rfl rfl rfl
      (by simp) (Or.inl (by decide))⟩

end Verif.Bulletproof
