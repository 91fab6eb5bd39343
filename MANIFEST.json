{
 "claims": [
  {
   "property": "C01",
   "status": "proved",
   "theorems": [
    "Verif.Sharing.C01_split_combine",
    "Verif.Sharing.C01_zero_share_rejected"
   ],
   "note": "All selections and orders; includes the rejection of honest zero shares."
  },
  {
   "property": "C02",
   "status": "proved",
   "theorems": [
    "Verif.Sharing.C02_secrecy"
   ],
   "note": "Exactly one coefficient vector explains any t-1 shares for any secret."
  },
  {
   "property": "C03",
   "status": "proved",
   "theorems": [
    "Verif.Sharing.C03_combine_decision",
    "Verif.Sharing.C03_combinePoints_decision",
    "Verif.Sharing.C03_nil_share_panics"
   ],
   "note": "Exact acceptance condition for non-nil share pointers; a nil pointer panics (separate theorem)."
  },
  {
   "property": "C04",
   "status": "proved",
   "theorems": [
    "Verif.Sharing.C04_combinePoints"
   ],
   "note": "Equality of results for every list."
  },
  {
   "property": "C05",
   "status": "proved",
   "theorems": [
    "Verif.Sharing.C05_lagrangeCoeffs"
   ],
   "note": "Coefficients of any >= t dealt shares reconstruct the secret."
  },
  {
   "property": "C06",
   "status": "proved",
   "theorems": [
    "Verif.Sharing.C06_feldman_verify_iff",
    "Verif.Sharing.C06_feldman_complete",
    "Verif.Sharing.C06_feldman_combine"
   ],
   "note": "Generator assumed to have trivial annihilator (prime order)."
  },
  {
   "property": "C07",
   "status": "proved",
   "theorems": [
    "Verif.Sharing.C07_pedersen_complete",
    "Verif.Sharing.C07_pedersen_binding",
    "Verif.Sharing.C07_pedersen_hiding",
    "Verif.Sharing.C07_nil_generator_panics"
   ],
   "note": "Binding with explicit extractor; hiding jointly for commitments and t-1 share pairs."
  },
  {
   "property": "C08",
   "status": "proved",
   "theorems": [
    "Verif.Sharing.C08_blind_id_ignored"
   ],
   "note": ""
  },
  {
   "property": "C09",
   "status": "proved",
   "theorems": [
    "Verif.V1.C09_combine_decision",
    "Verif.V1.C09_split_combine",
    "Verif.V1.C09_extra_shares_ignored",
    "Verif.V1.C09_leading_zeros_lost",
    "Verif.V1.C09_limit_truncation"
   ],
   "note": "Integer modulus q prime; exact decision for non-nil shares."
  },
  {
   "property": "C10",
   "status": "proved",
   "theorems": [
    "Verif.V1.C10_add_homomorphic",
    "Verif.V1.C10_add_mismatch_panics"
   ],
   "note": ""
  },
  {
   "property": "C11",
   "status": "proved",
   "theorems": [
    "Verif.Core.C11_i2osp_correct_iff",
    "Verif.Core.C11_os2ip_i2osp",
    "Verif.Core.C11_silent_failures"
   ],
   "note": "Go int modelled as an unbounded integer."
  },
  {
   "property": "C12",
   "status": "proved",
   "theorems": [
    "Verif.Core.C12_fiatShamir_binding",
    "Verif.Core.C12_sign_ignored",
    "Verif.Core.C12_nil_rejected",
    "Verif.Core.C12_internalHash_binding",
    "Verif.Core.C12_counter_distinct",
    "Verif.Core.C12_digest_is_last_query"
   ],
   "note": "HKDF is an arbitrary function with 32-byte output; collisions are exhibited among the queries of the two runs."
  },
  {
   "property": "C13",
   "status": "proved",
   "theorems": [
    "Verif.Core.C13_open_commit",
    "Verif.Core.C13_binding",
    "Verif.Core.C13_open_decision"
   ],
   "note": "HMAC is an arbitrary function with 32-byte output."
  },
  {
   "property": "C14",
   "status": "proved",
   "theorems": [
    "Verif.Core.C14_constantTimeEq",
    "Verif.Core.C14_byte_range"
   ],
   "note": "Functional behaviour only; timing is not modelled."
  },
  {
   "property": "C15",
   "status": "proved",
   "theorems": [
    "Verif.Core.C15_in",
    "Verif.Core.C15_ring_ops",
    "Verif.Core.C15_zero_modulus",
    "Verif.Core.C15_inv",
    "Verif.Core.C15_exp",
    "Verif.Core.C15_nil",
    "Verif.Core.C15_rand"
   ],
   "note": "math/big is trusted as documented."
  },
  {
   "property": "C87",
   "status": "proved",
   "theorems": [
    "Verif.V1.C87_feldman_verify_iff",
    "Verif.V1.C87_feldman_complete",
    "Verif.V1.C87_feldman_id_zero_accepted",
    "Verif.V1.C87_pedersen_complete"
   ],
   "note": "Pedersen binding is proved for the newer package (C07) only."
  },
  {
   "property": "C88",
   "status": "proved",
   "theorems": [
    "Verif.Core.C88_refinement",
    "Verif.Core.C88_division",
    "Verif.Core.C88_mismatch",
    "Verif.Core.C88_bytes",
    "Verif.Core.C88_valid"
   ],
   "note": "Sqrt, RandomElement and JSON not modelled."
  },
  {
   "property": "C89",
   "status": "proved",
   "theorems": [
    "Verif.Core.C89_expand_spec",
    "Verif.Core.C89_expand_length",
    "Verif.Core.C89_expand_binding",
    "Verif.Core.C89_hash_total",
    "Verif.Core.C89_oversize_dst"
   ],
   "note": "Hash is an arbitrary function with fixed output length."
  },
  {
   "property": "C90",
   "status": "proved",
   "theorems": [
    "Verif.Sharing.C90_newShamir_decision",
    "Verif.Sharing.C90_newPedersen_decision",
    "Verif.Sharing.C90_split_decision",
    "Verif.Sharing.C90_feldmanSplit_decision",
    "Verif.Sharing.C90_pedersenSplit_total"
   ],
   "note": ""
  },
  {
   "property": "C16",
   "status": "proved",
   "theorems": [
    "Verif.Paillier.C16_round_trip",
    "Verif.Paillier.C16_decrypt_iff",
    "Verif.Paillier.C16_decrypt_total",
    "Verif.Paillier.C16_range_checks",
    "Verif.Paillier.C16_equal_primes_accepted"
   ],
   "note": "Primality testing and prime generation are not modelled; math/big is trusted as documented."
  },
  {
   "property": "C17",
   "status": "proved",
   "theorems": [
    "Verif.Paillier.C17_add",
    "Verif.Paillier.C17_mul",
    "Verif.Paillier.C17_range_checks"
   ],
   "note": ""
  },
  {
   "property": "C18",
   "status": "proved",
   "theorems": [
    "Verif.Paillier.C18_complete",
    "Verif.Paillier.C18_verify_iff",
    "Verif.Paillier.C18_sound_square",
    "Verif.Paillier.C18_rejects",
    "Verif.Paillier.C18_short_proof_panics",
    "Verif.Paillier.C18_challenges_ignore_modulus"
   ],
   "note": "HKDF is an arbitrary function; the rejection-sampling loop carries fuel and theorems speak of terminating runs."
  },
  {
   "property": "C19",
   "status": "proved",
   "theorems": [
    "Verif.Schnorr.C19_complete",
    "Verif.Schnorr.C19_prove_decision"
   ],
   "note": "SHA3-256 is an arbitrary function; nil scalars inside a proof are not modelled."
  },
  {
   "property": "C20",
   "status": "proved",
   "theorems": [
    "Verif.Schnorr.C20_verify_iff",
    "Verif.Schnorr.C20_special_soundness",
    "Verif.Schnorr.C20_transcript_binding",
    "Verif.Schnorr.C20_simulation"
   ],
   "note": "Point encodings assumed injective of fixed length where binding is claimed."
  },
  {
   "property": "C21",
   "status": "proved",
   "theorems": [
    "Verif.Schnorr.C21_decommit_iff",
    "Verif.Schnorr.C21_complete",
    "Verif.Schnorr.C21_binding",
    "Verif.Schnorr.C21_commitment_ignores_statement",
    "Verif.Schnorr.C21_nil_panics"
   ],
   "note": ""
  },
  {
   "property": "C22",
   "status": "proved",
   "theorems": [
    "Verif.Frost.C22_honest_run",
    "Verif.Frost.C22_completes"
   ],
   "note": "Curve points and scalars abstract; SHA3/hash-to-scalar is an arbitrary function; only curve-mismatch and nil-curve paths are not modelled."
  },
  {
   "property": "C23",
   "status": "proved",
   "theorems": [
    "Verif.Frost.C23_round2_sound",
    "Verif.Frost.C23_round_order",
    "Verif.Frost.C23_share_id_unchecked",
    "Verif.Frost.C23_subset_accepted",
    "Verif.Frost.C23_commitment_count_unchecked"
   ],
   "note": "Soundness for arbitrary messages and arbitrary call sequences; the three missing checks are exhibited by accepted runs."
  },
  {
   "property": "C91",
   "status": "proved",
   "theorems": [
    "Verif.Frost.C91_context_collapses",
    "Verif.Frost.C91_context_mod_256"
   ],
   "note": ""
  },
  {
   "property": "C24",
   "status": "proved",
   "theorems": [
    "Verif.Gennaro.C24_new_decision",
    "Verif.Gennaro.C24_honest_run"
   ],
   "note": "EcPoint operations on points of the curve are assumed not to fail."
  },
  {
   "property": "C25",
   "status": "proved",
   "theorems": [
    "Verif.Gennaro.C25_formula",
    "Verif.Gennaro.C25_wrong"
   ],
   "note": "The expected property is refuted; the exact output is proved."
  },
  {
   "property": "C26",
   "status": "proved",
   "theorems": [
    "Verif.Gennaro.C26_two_party"
   ],
   "note": ""
  },
  {
   "property": "C92",
   "status": "proved",
   "theorems": [
    "Verif.Gennaro.C92_round_order",
    "Verif.Gennaro.C92_rounds_sound",
    "Verif.Gennaro.C92_round3_subset_accepted",
    "Verif.Gennaro.C92_failed_round2_leaves_share"
   ],
   "note": ""
  },
  {
   "property": "C27",
   "status": "proved",
   "theorems": [
    "Verif.FrostSign.C27_honest_run",
    "Verif.FrostSign.C27_from_dkg"
   ],
   "note": "Scalar hash, challenge derivation and IsNegative are arbitrary functions; honest runs need an even challenge when R is negative (C93 shows the failure otherwise)."
  },
  {
   "property": "C28",
   "status": "proved",
   "theorems": [
    "Verif.FrostSign.C28_at_most_one_response"
   ],
   "note": "Every call sequence, failing and panicking calls included."
  },
  {
   "property": "C29",
   "status": "proved",
   "theorems": [
    "Verif.FrostSign.C29_round3_sound",
    "Verif.FrostSign.C29_signature_equation"
   ],
   "note": ""
  },
  {
   "property": "C30",
   "status": "proved",
   "theorems": [
    "Verif.Ted.C30_aggregate",
    "Verif.Ted.C30_verifies",
    "Verif.Ted.C30_end_to_end",
    "Verif.Ted.C30_zero_share_panics"
   ],
   "note": "SHA-512, the wide reduction and the point encoding are arbitrary functions (encoding decodes back, 32 bytes). Signers are those whose TSign did not panic on a zero share."
  },
  {
   "property": "C31",
   "status": "proved",
   "theorems": [
    "Verif.Ted.C31_exact",
    "Verif.Ted.C31_error",
    "Verif.Ted.C31_too_few",
    "Verif.Ted.C31_correct_below_256",
    "Verif.Ted.C31_rejects_honest"
   ],
   "note": "The expected property is refuted; exact behaviour is proved."
  },
  {
   "property": "C32",
   "status": "proved",
   "theorems": [
    "Verif.Ot.C32_honest",
    "Verif.Ot.C32_round5_iff",
    "Verif.Ot.C32_round6_iff",
    "Verif.Ot.C32_short_messages_panic"
   ],
   "note": "For batch sizes divisible by 8 (others are refused) and masked points other than the identity."
  },
  {
   "property": "C33",
   "status": "proved",
   "theorems": [
    "Verif.Ot.C33_mul",
    "Verif.Ot.C33_modulus_irreducible",
    "Verif.Ot.C33_comm",
    "Verif.Ot.C33_assoc",
    "Verif.Ot.C33_distrib",
    "Verif.Ot.C33_one",
    "Verif.Ot.C33_inverse"
   ],
   "note": ""
  },
  {
   "property": "C34",
   "status": "proved",
   "theorems": [
    "Verif.Ot.C34_transpose",
    "Verif.Ot.C34_involutive"
   ],
   "note": ""
  },
  {
   "property": "C35",
   "status": "proved",
   "theorems": [
    "Verif.Ot.C35_honest",
    "Verif.Ot.C35_check",
    "Verif.Ot.C35_from_seed"
   ],
   "note": "Honest runs abort with an error exactly if a pseudorandom string does not encode a scalar; otherwise the shares are correct."
  },
  {
   "property": "C36",
   "status": "proved",
   "theorems": [
    "Verif.Dkls.C36_honest",
    "Verif.Dkls.C36_round3_iff"
   ],
   "note": ""
  },
  {
   "property": "C37",
   "status": "proved",
   "theorems": [
    "Verif.Dkls.C37_honest",
    "Verif.Dkls.C37_round4_iff",
    "Verif.Dkls.C37_rounds_succeed"
   ],
   "note": "Bob accepts exactly if the signature verifies (with multiplication shares of the right sum); the rounds of honest parties succeed if every digest encodes a scalar."
  },
  {
   "property": "C38",
   "status": "proved",
   "theorems": [
    "Verif.Dkls.C38_normalize",
    "Verif.Dkls.C38_gap",
    "Verif.Dkls.C38_not_low"
   ],
   "note": "The expected property (low s) is refuted; exact behaviour is proved."
  },
  {
   "property": "C39",
   "status": "proved",
   "theorems": [
    "Verif.Dkls.C39_honest",
    "Verif.Dkls.C39_zero_multiplier"
   ],
   "note": "The product of the shares and the public keys are preserved whenever the extracted multiplier is nonzero; for zero Alice gets an error and Bob is left with the share zero."
  },
  {
   "property": "C40",
   "status": "proved",
   "theorems": [
    "Verif.Dkls.C40_honest",
    "Verif.Dkls.C40_alice_accepts",
    "Verif.Dkls.C40_bob_accepts",
    "Verif.Dkls.C40_zero_share",
    "Verif.Dkls.C40_dealer",
    "Verif.Dkls.C40_then_sign"
   ],
   "note": "Also trusted dealer, and key generation followed by signing."
  },
  {
   "property": "C41",
   "status": "proved",
   "theorems": [
    "Verif.Dkls.C41_order",
    "Verif.Dkls.C41_finished",
    "Verif.Dkls.C41_result"
   ],
   "note": ""
  },
  {
   "property": "C42",
   "status": "proved",
   "theorems": [
    "Verif.Dkls.C42_versions",
    "Verif.Dkls.C42_refresh_versions",
    "Verif.Dkls.C42_roundtrip",
    "Verif.Dkls.C42_ignored",
    "Verif.Dkls.C42_cross_protocol",
    "Verif.Dkls.C42_nil"
   ],
   "note": "Holds for key generation and signing; the refresh accepts every version from 200 on, and protocol name and round number are never checked (both proved)."
  },
  {
   "property": "C43",
   "status": "proved",
   "theorems": [
    "Verif.Gg20.C43_newSigner",
    "Verif.Gg20.C43_sum",
    "Verif.Gg20.C43_setup",
    "Verif.Gg20.C43_dealt",
    "Verif.Gg20.C43_proofParams",
    "Verif.Gg20.C43_byte_collision",
    "Verif.Gg20.C43_own_id_missing_panics",
    "Verif.Gg20.C43_negative_key"
   ],
   "note": "Also: identifiers agreeing in the last byte give an error, a cosigner list without the own identifier a panic, and a negative dealer key a public key that does not match the shares."
  },
  {
   "property": "C44",
   "status": "proved",
   "theorems": [
    "Verif.Gg20.C44_mta",
    "Verif.Gg20.C44_wrap",
    "Verif.Gg20.C44_accepts"
   ],
   "note": "Also the exact value outside the honest range, and when the initiator accepts."
  },
  {
   "property": "C45",
   "status": "proved",
   "theorems": [
    "Verif.Gg20.C45_honest_run",
    "Verif.Gg20.C45_signature_valid",
    "Verif.Gg20.C45_from_shares"
   ],
   "note": "All rounds, any message order, with trusted dealer or distributed parameters; blinding values must leave room for the challenge (all but a fraction 2^-256), and R must have an x-coordinate below the order."
  },
  {
   "property": "C46",
   "status": "proved",
   "theorems": [
    "Verif.Gg20.C46_verify_iff",
    "Verif.Gg20.C46_range1_complete",
    "Verif.Gg20.C46_no_range",
    "Verif.Gg20.C46_upper"
   ],
   "note": "The range is refuted: every plaintext has an accepted proof."
  },
  {
   "property": "C47",
   "status": "proved",
   "theorems": [
    "Verif.Gg20.C47_verify_iff",
    "Verif.Gg20.C47_complete",
    "Verif.Gg20.C47_sound",
    "Verif.Gg20.C47_short_crash",
    "Verif.Gg20.C47_degenerate"
   ],
   "note": "Soundness as extraction from two accepted transcripts with a differing challenge bit; for h1 not a unit (h1 = h2 = 0) a proof always exists."
  },
  {
   "property": "C48",
   "status": "proved",
   "theorems": [
    "Verif.Gg20.C48_check",
    "Verif.Gg20.C48_rounds",
    "Verif.Gg20.C48_no_replay",
    "Verif.Gg20.C48_nil_panics"
   ],
   "note": ""
  },
  {
   "property": "C49",
   "status": "proved",
   "theorems": [
    "Verif.Gg20.C49_honest_run",
    "Verif.Gg20.C49_interpolates",
    "Verif.Gg20.C49_published_iff",
    "Verif.Gg20.C49_then_sign"
   ],
   "note": "Honest runs in any message order; the published share of j is right exactly for one value of the key given the other coefficients; signing with correct public shares succeeds."
  },
  {
   "property": "C50",
   "status": "proved",
   "theorems": [
    "Verif.Native.C50_pippenger",
    "Verif.Native.C50_pippenger_mod",
    "Verif.Native.C50_nil_iff"
   ],
   "note": "For every point type whose Add and Double implement a commutative group."
  },
  {
   "property": "C51",
   "status": "proved",
   "theorems": [
    "Verif.Native.C51_sumOfProducts",
    "Verif.Native.C51_mismatch"
   ],
   "note": ""
  },
  {
   "property": "C52",
   "status": "proved",
   "theorems": [
    "Verif.Native.C52_mul",
    "Verif.Native.C52_k256",
    "Verif.Native.C52_p256"
   ],
   "note": ""
  },
  {
   "property": "C53",
   "status": "proved",
   "theorems": [
    "Verif.Native.C53_pow",
    "Verif.Native.C53_pow2k",
    "Verif.Native.C53_exp"
   ],
   "note": ""
  },
  {
   "property": "C54",
   "status": "proved",
   "theorems": [
    "Verif.Native.C54_cmp",
    "Verif.Native.C54_equal"
   ],
   "note": ""
  },
  {
   "property": "C55",
   "status": "proved",
   "theorems": [
    "Verif.Native.C55_cmp_zero",
    "Verif.Native.C55_cmp_montgomery",
    "Verif.Native.C55_witness"
   ],
   "note": "The expected property is refuted; exact behaviour is proved."
  },
  {
   "property": "C56",
   "status": "proved",
   "theorems": [
    "Verif.Native.C56_k256_add",
    "Verif.Native.C56_k256_double",
    "Verif.Native.C56_p256_add",
    "Verif.Native.C56_p256_double",
    "Verif.Native.C56_neg",
    "Verif.Native.C56_k256",
    "Verif.Native.C56_p256"
   ],
   "note": "Against the group of points of Mathlib, for the concrete primes without hypotheses."
  },
  {
   "property": "C57",
   "status": "proved",
   "theorems": [
    "Verif.Native.C57_setBytes",
    "Verif.Native.C57_bytes",
    "Verif.Native.C57_roundtrip",
    "Verif.Native.C57_canonical",
    "Verif.Native.C57_wide",
    "Verif.Native.C57_bigInt"
   ],
   "note": "Montgomery multiplication of the generated field code is modelled by its result."
  },
  {
   "property": "C58",
   "status": "proved",
   "theorems": [
    "Verif.Native.C58_fromCompressed",
    "Verif.Native.C58_fromUncompressed",
    "Verif.Native.C58_roundtrip_compressed",
    "Verif.Native.C58_compressed_inj",
    "Verif.Native.C58_compressed_identity",
    "Verif.Native.C58_roundtrip_uncompressed",
    "Verif.Native.C58_uncompressed_any",
    "Verif.Native.C58_uncompressed_identity",
    "Verif.Native.C58_k256_identity",
    "Verif.Native.C58_p256_identity",
    "Verif.Native.k256Enc_ok",
    "Verif.Native.p256Enc_ok"
   ],
   "note": ""
  },
  {
   "property": "C59",
   "status": "proved",
   "theorems": [
    "Verif.Bulletproof.C59_verify",
    "Verif.Bulletproof.C59_complete",
    "Verif.Bulletproof.C59_getP",
    "Verif.Bulletproof.C59_prove",
    "Verif.Bulletproof.C59_isPowerOfTwo_zero",
    "Verif.Bulletproof.rangeIPP"
   ],
   "note": "Verification equation for arbitrary proofs, completeness, and exactly which inputs get a proof. Points form a module over the scalar field."
  },
  {
   "property": "C60",
   "status": "proved",
   "theorems": [
    "Verif.Bulletproof.C60_complete",
    "Verif.Bulletproof.C60_prove_verify"
   ],
   "note": ""
  },
  {
   "property": "C61",
   "status": "proved",
   "theorems": [
    "Verif.Bulletproof.C61_boundary",
    "Verif.Bulletproof.C61_refused",
    "Verif.Bulletproof.C61_bits",
    "Verif.Bulletproof.C61_big_endian"
   ],
   "note": "The expected property is refuted; exact behaviour is proved."
  },
  {
   "property": "C62",
   "status": "proved",
   "theorems": [
    "Verif.Bulletproof.C62_complete",
    "Verif.Bulletproof.C62_prove_verify",
    "Verif.Bulletproof.C62_single_verify_panics",
    "Verif.Bulletproof.C62_single_prove_panics",
    "Verif.Bulletproof.C62_short_gamma_panics"
   ],
   "note": ""
  },
  {
   "property": "C63",
   "status": "proved",
   "theorems": [
    "Verif.Accum.C63_history",
    "Verif.Accum.C63_order_independent",
    "Verif.Accum.C63_all_succeed",
    "Verif.Accum.C63_add_remove",
    "Verif.Accum.C63_absorbing",
    "Verif.Accum.C63_with_elements",
    "Verif.Accum.C63_update_decision"
   ],
   "note": "Failing calls are part of the histories."
  },
  {
   "property": "C64",
   "status": "proved",
   "theorems": [
    "Verif.Accum.C64_verify_iff",
    "Verif.Accum.C64_new_decision",
    "Verif.Accum.C64_new_verifies",
    "Verif.Accum.C64_unique",
    "Verif.Accum.C64_removed_refused"
   ],
   "note": "Pairing is an arbitrary non-degenerate bilinear map."
  },
  {
   "property": "C65",
   "status": "proved",
   "theorems": [
    "Verif.Accum.C65_batch_update",
    "Verif.Accum.C65_batch_verifies",
    "Verif.Accum.C65_multi_batch_update",
    "Verif.Accum.C65_multi_eq_sequential",
    "Verif.Accum.C65_deleted_error",
    "Verif.Accum.C65_multi_deleted_error",
    "Verif.Accum.C65_empty_update_panics",
    "Verif.Accum.C65_nil_element",
    "Verif.Accum.C65_added_any"
   ],
   "note": ""
  },
  {
   "property": "C66",
   "status": "proved",
   "theorems": [
    "Verif.Accum.C66_finalize",
    "Verif.Accum.C66_challenge",
    "Verif.Accum.C66_challenge_binding"
   ],
   "note": ""
  },
  {
   "property": "C67",
   "status": "proved",
   "theorems": [
    "Verif.Bbs.C67_verify_iff",
    "Verif.Bbs.C67_sign_decision",
    "Verif.Bbs.C67_sign_verify",
    "Verif.Bbs.C67_nonce_binding"
   ],
   "note": "Pairing is an arbitrary bilinear map (non-degenerate where the iff is claimed); SHAKE sampling is an arbitrary function."
  },
  {
   "property": "C68",
   "status": "proved",
   "theorems": [
    "Verif.Bbs.C68_generators_equal",
    "Verif.Bbs.C68_state_binding",
    "Verif.Bbs.C68_universal_forgery",
    "Verif.Bbs.C68_same_sum"
   ],
   "note": "The expected property is refuted."
  },
  {
   "property": "C69",
   "status": "proved",
   "theorems": [
    "Verif.Bbs.C69_blind_round_trip",
    "Verif.Bbs.C69_context_binding",
    "Verif.Bbs.C69_issuer_verifies"
   ],
   "note": "Go map iteration order is arbitrary."
  },
  {
   "property": "C70",
   "status": "proved",
   "theorems": [
    "Verif.Bbs.C70_proof_verifies",
    "Verif.Bbs.C70_proof_binding",
    "Verif.Bbs.C70_message_count"
   ],
   "note": ""
  },
  {
   "property": "C71",
   "status": "proved",
   "theorems": [
    "Verif.SigCommon.C71_commit",
    "Verif.SigCommon.C71_wrong_number",
    "Verif.SigCommon.C71_responses",
    "Verif.SigCommon.C71_get"
   ],
   "note": ""
  },
  {
   "property": "C72",
   "status": "proved",
   "theorems": [
    "Verif.SigCommon.C72_read_ok",
    "Verif.SigCommon.C72_read_panics",
    "Verif.SigCommon.C72_state_size",
    "Verif.SigCommon.C72_read_state"
   ],
   "note": "HMAC is an arbitrary function of fixed output size."
  },
  {
   "property": "C73",
   "status": "proved",
   "theorems": [
    "Verif.Bls.C73_decision",
    "Verif.Bls.C73_no_panic",
    "Verif.Bls.C73_sign_verifies",
    "Verif.Bls.C73_unique",
    "Verif.Bls.C73_other_message",
    "Verif.Bls.C73_other_key",
    "Verif.Bls.C73_tiny"
   ],
   "note": "Pairing is an arbitrary bilinear map, non-degenerate at the generator; hash to curve is an arbitrary function; points are in the prime-order subgroup."
  },
  {
   "property": "C74",
   "status": "proved",
   "theorems": [
    "Verif.Bls.C74_aggregate_verify",
    "Verif.Bls.C74_honest",
    "Verif.Bls.C74_aug_aggregate_verify",
    "Verif.Bls.C74_fast_aggregate",
    "Verif.Bls.C74_multi",
    "Verif.Bls.C74_tiny"
   ],
   "note": ""
  },
  {
   "property": "C75",
   "status": "proved",
   "theorems": [
    "Verif.Bls.C75_decision",
    "Verif.Bls.C75_no_panic",
    "Verif.Bls.C75_thresholdize",
    "Verif.Bls.C75_any_threshold",
    "Verif.Bls.C75_aug_threshold"
   ],
   "note": ""
  },
  {
   "property": "C76",
   "status": "proved",
   "theorems": [
    "Verif.Bls.C76_share_roundtrip",
    "Verif.Bls.C76_share_canonical",
    "Verif.Bls.C76_share_other_lengths",
    "Verif.Bls.C76_key_roundtrip",
    "Verif.Bls.C76_generate"
   ],
   "note": ""
  },
  {
   "property": "C77",
   "status": "proved",
   "theorems": [
    "Verif.Mina.C77_verify_iff",
    "Verif.Mina.C77_sign_verifies",
    "Verif.Mina.C77_message",
    "Verif.Mina.C77_sign_fails",
    "Verif.Mina.C77_newKeys"
   ],
   "note": "The coordinates of the curve are functions with the laws of a Weierstrass curve without points of order two; Blake2b is arbitrary."
  },
  {
   "property": "C78",
   "status": "proved",
   "theorems": [
    "Verif.Mina.C78_sponge",
    "Verif.Mina.C78_trailing_zeros",
    "Verif.Mina.C78_binding",
    "Verif.Mina.C78_same_input"
   ],
   "note": "The expected property is refuted; trailing zeros within a block of the sponge are exactly the freedom, up to named collisions."
  },
  {
   "property": "C79",
   "status": "proved",
   "theorems": [
    "Verif.Mina.C79_new",
    "Verif.Mina.C79_append",
    "Verif.Mina.C79_append_wrap",
    "Verif.Mina.C79_element",
    "Verif.Mina.C79_set",
    "Verif.Mina.C79_insert",
    "Verif.Mina.C79_delete",
    "Verif.Mina.C79_appends",
    "Verif.Mina.C79_pack"
   ],
   "note": "Below 2^32 bits; beyond, Append overwrites old bits (C79_append_wrap)."
  },
  {
   "property": "C80",
   "status": "proved",
   "theorems": [
    "Verif.Mina.C80_length",
    "Verif.Mina.C80_roundtrip",
    "Verif.Mina.C80_long_memo_panics",
    "Verif.Mina.C80_long_memo_garbled",
    "Verif.Mina.C80_unmarshal_panics",
    "Verif.Mina.C80_trailing",
    "Verif.Mina.C80_tag_byte"
   ],
   "note": "For keys that survive compression (C112) and networks below 256."
  },
  {
   "property": "C81",
   "status": "proved",
   "theorems": [
    "Verif.Nem.C81_verify_iff",
    "Verif.Nem.C81_verify_no_panic",
    "Verif.Nem.C81_newKey",
    "Verif.Nem.C81_sign_verifies",
    "Verif.Nem.C81_sign_total",
    "Verif.Nem.C81_parts"
   ],
   "note": "Keccak is an arbitrary function with 64 bytes of output."
  },
  {
   "property": "C82",
   "status": "proved",
   "theorems": [
    "Verif.ElGamal.C82_encrypt",
    "Verif.ElGamal.C82_encrypt_nil",
    "Verif.ElGamal.C82_decrypt_exact",
    "Verif.ElGamal.C82_decrypt_domain_exact",
    "Verif.ElGamal.C82_roundtrip",
    "Verif.ElGamal.C82_cross_domain",
    "Verif.ElGamal.C82_homomorphic",
    "Verif.ElGamal.C82_homomorphic_from_verifiable"
   ],
   "note": "AES-GCM is a pair of functions with Open(Seal) = id."
  },
  {
   "property": "C83",
   "status": "proved",
   "theorems": [
    "Verif.ElGamal.C83_accept_iff",
    "Verif.ElGamal.C83_complete",
    "Verif.ElGamal.C83_domain_exact",
    "Verif.ElGamal.C83_domain_complete",
    "Verif.ElGamal.C83_special_soundness",
    "Verif.ElGamal.C83_leak"
   ],
   "note": "VerifyDomainEncryptProof uses the proof nonce in place of the domain; exact behaviour is proved. The leak refutes zero knowledge."
  },
  {
   "property": "C84",
   "status": "proved",
   "theorems": [
    "Verif.CamShoup.C84_group",
    "Verif.CamShoup.C84_newKeys",
    "Verif.CamShoup.C84_roundtrip",
    "Verif.CamShoup.C84_encrypt_refuses",
    "Verif.CamShoup.C84_label",
    "Verif.CamShoup.C84_decrypt_sound"
   ],
   "note": ""
  },
  {
   "property": "C85",
   "status": "proved",
   "theorems": [
    "Verif.CamShoup.C85_roundtrip",
    "Verif.CamShoup.C85_negative",
    "Verif.CamShoup.C85_others"
   ],
   "note": "The expected property is refuted; exact behaviour is proved."
  },
  {
   "property": "C86",
   "status": "proved",
   "theorems": [
    "Verif.CamShoup.C86_complete",
    "Verif.CamShoup.C86_binding"
   ],
   "note": "Challenge below 2n: true for the 256-bit hash and the moduli the package makes."
  },
  {
   "property": "C93",
   "status": "proved",
   "theorems": [
    "Verif.FrostSign.C93_negative_commitment",
    "Verif.FrostSign.C93_any_response_passes",
    "Verif.FrostSign.C93_factor_mod_256",
    "Verif.FrostSign.ToyRun.C93_cosigner_order"
   ],
   "note": ""
  },
  {
   "property": "C94",
   "status": "proved",
   "theorems": [
    "Verif.Ted.C94_id_truncated",
    "Verif.Ted.C94_wrong_aggregate",
    "Verif.Ted.C94_share_round_trip",
    "Verif.Ted.C94_reconstruct"
   ],
   "note": ""
  },
  {
   "property": "C95",
   "status": "proved",
   "theorems": [
    "Verif.Ted.C95_sign_verify",
    "Verif.Ted.C95_verify_decision"
   ],
   "note": ""
  },
  {
   "property": "C96",
   "status": "proved",
   "theorems": [
    "Verif.Bbs.C96_blind_nonce_reuse",
    "Verif.Bbs.C96_index_length_panics",
    "Verif.Bbs.C96_wrong_count_panics",
    "Verif.Bbs.C96_pok_missing_panics",
    "Verif.Bbs.C96_pok_extra_ignored",
    "Verif.Bbs.C96_pok_phantom_revealed"
   ],
   "note": ""
  },
  {
   "property": "C97",
   "status": "proved",
   "theorems": [
    "Verif.Bbs.C97_signature_round_trip",
    "Verif.Bbs.C97_context_round_trip",
    "Verif.Bbs.C97_pok_round_trip"
   ],
   "note": "Point encoding is 48 bytes and decodes back."
  },
  {
   "property": "C98",
   "status": "proved",
   "theorems": [
    "Verif.Bbs.C98_extract"
   ],
   "note": ""
  },
  {
   "property": "C99",
   "status": "proved",
   "theorems": [
    "Verif.Accum.C99_extract",
    "Verif.Accum.C99_extract_verifies",
    "Verif.Accum.C99_proof_accepts_degenerate",
    "Verif.Accum.C99_nonce_reuse"
   ],
   "note": ""
  },
  {
   "property": "C100",
   "status": "proved",
   "theorems": [
    "Verif.Accum.C100_round_trip",
    "Verif.Accum.C100_canonical"
   ],
   "note": "The bare container around the payload is an external library and not modelled."
  },
  {
   "property": "C101",
   "status": "proved",
   "theorems": [
    "Verif.Bls.C101_rogue_key",
    "Verif.Bls.C101_rogue_pop",
    "Verif.Bls.C101_parts_not_checked",
    "Verif.Bls.C101_identity_key"
   ],
   "note": "The expected property is refuted; exact behaviour is proved."
  },
  {
   "property": "C102",
   "status": "proved",
   "theorems": [
    "Verif.Bls.C102_pop",
    "Verif.Bls.C102_tags",
    "Verif.Bls.C102_nil"
   ],
   "note": ""
  },
  {
   "property": "C103",
   "status": "proved",
   "theorems": [
    "Verif.Bls.C103_aug_verify",
    "Verif.Bls.C103_empty_message",
    "Verif.Bls.C103_nil_key",
    "Verif.Bls.C103_binds_key"
   ],
   "note": ""
  },
  {
   "property": "C104",
   "status": "proved",
   "theorems": [
    "Verif.Bls.C104_one_too_few",
    "Verif.Bls.C104_zero_identifier",
    "Verif.Bls.C104_empty_message"
   ],
   "note": "The expected property is refuted; exact behaviour is proved."
  },
  {
   "property": "C105",
   "status": "proved",
   "theorems": [
    "Verif.ElGamal.C105_params",
    "Verif.ElGamal.C105_reuse",
    "Verif.ElGamal.C105_recover"
   ],
   "note": "The expected property is refuted; exact behaviour is proved."
  },
  {
   "property": "C106",
   "status": "proved",
   "theorems": [
    "Verif.ElGamal.C106_decrypt_panics",
    "Verif.ElGamal.C106_proof_codec",
    "Verif.ElGamal.C106_ciphertext_codec"
   ],
   "note": "The expected property is refuted; exact behaviour is proved."
  },
  {
   "property": "C107",
   "status": "proved",
   "theorems": [
    "Verif.CamShoup.C107_uncovered"
   ],
   "note": "The expected property is refuted."
  },
  {
   "property": "C108",
   "status": "proved",
   "theorems": [
    "Verif.CamShoup.C108_even_modulus",
    "Verif.CamShoup.C108_decrypt_panics",
    "Verif.CamShoup.C108_verify_panics"
   ],
   "note": "The expected property is refuted; exact behaviour is proved."
  },
  {
   "property": "C109",
   "status": "proved",
   "theorems": [
    "Verif.CamShoup.C109_response_leaks"
   ],
   "note": "The expected property is refuted."
  },
  {
   "property": "C110",
   "status": "proved",
   "theorems": [
    "Verif.Native.C110_equal",
    "Verif.Native.C110_toAffine",
    "Verif.Native.C110_isOnCurve",
    "Verif.Native.C110_identity_not_on_curve",
    "Verif.Native.C110_setBigInt"
   ],
   "note": ""
  },
  {
   "property": "C111",
   "status": "proved",
   "theorems": [
    "Verif.Native.C111_constants",
    "Verif.Native.C111_p256_params",
    "Verif.Native.C111_k256_generator",
    "Verif.Native.C111_p256_generator",
    "Verif.Native.C111_more_constants"
   ],
   "note": ""
  },
  {
   "property": "C112",
   "status": "proved",
   "theorems": [
    "Verif.Native.C112_cmp_close",
    "Verif.Native.C112_cmp_wrong",
    "Verif.Native.C112_setBytes_canonical",
    "Verif.Native.C112_setBytes_iff",
    "Verif.Native.C112_setBytes_noncanonical",
    "Verif.Native.C112_roundtrip",
    "Verif.Native.C112_setBigInt",
    "Verif.Native.C112_roundtrip_fails",
    "Verif.Native.C112_two_encodings",
    "Verif.Native.C112_new"
   ],
   "note": "The expected property is refuted; exact behaviour is proved."
  },
  {
   "property": "C113",
   "status": "proved",
   "theorems": [
    "Verif.Native.C113_invert",
    "Verif.Native.C113_sqrt",
    "Verif.Native.C113_pasta_invert",
    "Verif.Native.C113_pasta_sqrt"
   ],
   "note": "Field multiplication is modelled by its result."
  },
  {
   "property": "C114",
   "status": "proved",
   "theorems": [
    "Verif.Bulletproof.C114_range",
    "Verif.Bulletproof.C114_batched",
    "Verif.Bulletproof.C114_one_length",
    "Verif.Bulletproof.C114_wrong_size_panics",
    "Verif.Bulletproof.verifyFromRangeProof_true"
   ],
   "note": ""
  },
  {
   "property": "C115",
   "status": "proved",
   "theorems": [
    "Verif.Bulletproof.C115_ipp_roundtrip",
    "Verif.Bulletproof.C115_ipp_canonical",
    "Verif.Bulletproof.C115_range_roundtrip",
    "Verif.Bulletproof.C115_range_canonical",
    "Verif.Bulletproof.C115_ipp_short_panics",
    "Verif.Bulletproof.C115_ipp_trailing_panics",
    "Verif.Bulletproof.C115_ipp_unequal"
   ],
   "note": "Canonicity for curves whose point decoder is canonical."
  },
  {
   "property": "C116",
   "status": "proved",
   "theorems": [
    "Verif.Ot.C116_choice_hidden",
    "Verif.Ot.C116_selective_failure",
    "Verif.Ot.C116_response"
   ],
   "note": ""
  },
  {
   "property": "C117",
   "status": "proved",
   "theorems": [
    "Verif.Ot.C117_slots_separated",
    "Verif.Ot.C117_slots_wrap"
   ],
   "note": "The expected property fails above 256 slots; both directions are proved."
  },
  {
   "property": "C118",
   "status": "proved",
   "theorems": [
    "Verif.Dkls.C118_tau_not_bound"
   ],
   "note": "The expected property is refuted; exact behaviour is proved."
  },
  {
   "property": "C119",
   "status": "proved",
   "theorems": [
    "Verif.Dkls.C119_share",
    "Verif.Dkls.C119_retry",
    "Verif.Dkls.C119_resend_rejected"
   ],
   "note": "The expected property is refuted; exact behaviour is proved."
  },
  {
   "property": "C120",
   "status": "proved",
   "theorems": [
    "Verif.Dkls.C120_retry",
    "Verif.Dkls.C120_steer"
   ],
   "note": "The expected property is refuted; exact behaviour is proved."
  },
  {
   "property": "C121",
   "status": "proved",
   "theorems": [
    "Verif.Dkls.C121_bob_restart",
    "Verif.Dkls.C121_alice_dkg",
    "Verif.Dkls.C121_bob_dkg"
   ],
   "note": "The expected property is refuted; gob is modelled as requiring registration for payload types with interface fields."
  },
  {
   "property": "C126",
   "status": "proved",
   "theorems": [
    "Verif.Gg20.C126_verify_iff",
    "Verif.Gg20.C126_complete",
    "Verif.Gg20.C126_no_relation"
   ],
   "note": "The relation is refuted; exact decision proved."
  },
  {
   "property": "C127",
   "status": "proved",
   "theorems": [
    "Verif.Gg20.C127_verify_iff",
    "Verif.Gg20.C127_honest",
    "Verif.Gg20.C127_no_relation"
   ],
   "note": "The relation is refuted; exact decision proved."
  },
  {
   "property": "C122",
   "status": "proved",
   "theorems": [
    "Verif.Gg20.C122_output_unchecked",
    "Verif.Gg20.C122_output_again",
    "Verif.Gg20.C122_sigma_unchecked"
   ],
   "note": "The expected property is refuted; exact behaviour is proved."
  },
  {
   "property": "C128",
   "status": "proved",
   "theorems": [
    "Verif.Gg20.C128_parity",
    "Verif.Gg20.C128_parity_iff"
   ],
   "note": ""
  },
  {
   "property": "C123",
   "status": "proved",
   "theorems": [
    "Verif.Gg20.C123_round3_sound",
    "Verif.Gg20.C123_share_of_other_id_accepted"
   ],
   "note": "The check at the own identifier is refuted."
  },
  {
   "property": "C124",
   "status": "proved",
   "theorems": [
    "Verif.Gg20.C124_retry_counts_twice"
   ],
   "note": "The expected property is refuted; exact behaviour is proved."
  },
  {
   "property": "C125",
   "status": "proved",
   "theorems": [
    "Verif.Gg20.C125_wrong_point",
    "Verif.Gg20.C125_round3",
    "Verif.Gg20.C125_published_shares_break_signing"
   ],
   "note": "The expected property is refuted up to zero challenges and explicit collisions."
  },
  {
   "property": "C129",
   "status": "proved",
   "theorems": [
    "Verif.Gg20.C129_subset_accepted"
   ],
   "note": "The expected property is refuted; exact behaviour is proved."
  },
  {
   "property": "C130",
   "status": "proved",
   "theorems": [
    "Verif.Gg20.C130_own_params_missing_panics",
    "Verif.Gg20.C130_result_lacks_own"
   ],
   "note": "The expected property is refuted; exact behaviour is proved."
  },
  {
   "property": "C131",
   "status": "proved",
   "theorems": [
    "Verif.Gg20.C131_round2_sound",
    "Verif.Gg20.C131_round2_bad_id_panics",
    "Verif.Gg20.C131_round3_nothing",
    "Verif.Gg20.C131_round4_iff",
    "Verif.Gg20.C131_round4_unknown_panics"
   ],
   "note": ""
  },
  {
   "property": "C132",
   "status": "proved",
   "theorems": [
    "Verif.Mina.C132_binding",
    "Verif.Mina.C132_long_memo",
    "Verif.Mina.C132_absorb"
   ],
   "note": ""
  },
  {
   "property": "C133",
   "status": "proved",
   "theorems": [
    "Verif.Mina.C133_json_fails"
   ],
   "note": "The expected property is refuted."
  },
  {
   "property": "C134",
   "status": "proved",
   "theorems": [
    "Verif.Mina.C134_network_ignored",
    "Verif.Mina.C134_verifies_iff",
    "Verif.Mina.C134_other_network"
   ],
   "note": "The expected property is refuted; exact behaviour is proved."
  },
  {
   "property": "C135",
   "status": "proved",
   "theorems": [
    "Verif.Mina.C135_sbox",
    "Verif.Mina.C135_exp",
    "Verif.Mina.C135_tables",
    "Verif.Mina.C135_bijective",
    "Verif.Mina.C135_injective",
    "Verif.Mina.C135_networks"
   ],
   "note": ""
  },
  {
   "property": "C136",
   "status": "proved",
   "theorems": [
    "Verif.Mina.C136_unique",
    "Verif.Mina.C136_nonce_reuse",
    "Verif.Mina.C136_same_challenge"
   ],
   "note": ""
  },
  {
   "property": "C137",
   "status": "proved",
   "theorems": [
    "Verif.Mina.C137_nonce_input",
    "Verif.Mina.C137_message_nonce"
   ],
   "note": ""
  },
  {
   "property": "C138",
   "status": "proved",
   "theorems": [
    "Verif.Mina.C138_roundtrip",
    "Verif.Mina.C138_decoded",
    "Verif.Mina.C138_second_encoding",
    "Verif.Mina.C138_secret",
    "Verif.Mina.C138_secret_zero"
   ],
   "note": "The expected property is refuted; exact behaviour is proved."
  },
  {
   "property": "C139",
   "status": "proved",
   "theorems": [
    "Verif.Mina.C139_roundtrip",
    "Verif.Mina.C139_malleable",
    "Verif.Mina.C139_sound"
   ],
   "note": "SHA-256 and base 58 are arbitrary functions (base 58 decodes what it encodes)."
  },
  {
   "property": "C140",
   "status": "proved",
   "theorems": [
    "Verif.Nem.C140_unique",
    "Verif.Nem.C140_identity_key",
    "Verif.Nem.C140_small_order"
   ],
   "note": ""
  },
  {
   "property": "C141",
   "status": "proved",
   "theorems": [
    "Verif.Nem.C141_two_halves",
    "Verif.Nem.C141_wrong_half"
   ],
   "note": "The expected property is refuted."
  },
  {
   "property": "C142",
   "status": "proved",
   "theorems": [
    "Verif.Dkls.C142_copy_lengths",
    "Verif.Dkls.C142_pad",
    "Verif.Dkls.C142_pad_wraps",
    "Verif.Dkls.C142_receiver_state",
    "Verif.Dkls.C142_row_bytes",
    "Verif.Dkls.C142_weight",
    "Verif.Dkls.C142_tau_rows"
   ],
   "note": ""
  },
  {
   "property": "C143",
   "status": "proved",
   "theorems": [
    "Verif.Bls381.C143_constants",
    "Verif.Bls381.C143_mac",
    "Verif.Bls381.C143_adc",
    "Verif.Bls381.C143_adc_limit",
    "Verif.Bls381.C143_sbb",
    "Verif.Bls381.C143_mul",
    "Verif.Bls381.C143_square",
    "Verif.Bls381.C143_square_mul",
    "Verif.Bls381.C143_add",
    "Verif.Bls381.C143_sub",
    "Verif.Bls381.C143_double",
    "Verif.Bls381.C143_mulBy3b",
    "Verif.Bls381.C143_neg",
    "Verif.Bls381.C143_toMont",
    "Verif.Bls381.C143_setUint64",
    "Verif.Bls381.C143_raw",
    "Verif.Bls381.C143_injective",
    "Verif.Bls381.C143_surjective",
    "Verif.Bls381.C143_pow",
    "Verif.Bls381.C143_exp"
   ],
   "note": ""
  },
  {
   "property": "C144",
   "status": "proved",
   "theorems": [
    "Verif.Bls381.C144_invert",
    "Verif.Bls381.C144_sqrt"
   ],
   "note": ""
  },
  {
   "property": "C145",
   "status": "proved",
   "theorems": [
    "Verif.Bls381.C145_setBytes",
    "Verif.Bls381.C145_bytes",
    "Verif.Bls381.C145_roundtrip",
    "Verif.Bls381.C145_canonical",
    "Verif.Bls381.C145_wide",
    "Verif.Bls381.C145_setBigInt",
    "Verif.Bls381.C145_bigInt",
    "Verif.Bls381.C145_hash"
   ],
   "note": ""
  },
  {
   "property": "C146",
   "status": "proved",
   "theorems": [
    "Verif.Bls381.C146_predicates",
    "Verif.Bls381.C146_lexLargest",
    "Verif.Bls381.C146_sgn0",
    "Verif.Bls381.C146_cmp",
    "Verif.Bls381.C146_cmp_not_order",
    "Verif.Bls381.C146_cmove",
    "Verif.Bls381.C146_cneg_zero"
   ],
   "note": "Cmp refuted as an order of values."
  },
  {
   "property": "C147",
   "status": "proved",
   "theorems": [
    "Verif.Bls381.C147_mul",
    "Verif.Bls381.C147_square",
    "Verif.Bls381.C147_add",
    "Verif.Bls381.C147_sub",
    "Verif.Bls381.C147_toMont",
    "Verif.Bls381.C147_fromMont",
    "Verif.Bls381.C147_bytes",
    "Verif.Bls381.C147_neg",
    "Verif.Bls381.C147_neg_nonzero",
    "Verif.Bls381.C147_neg_zero",
    "Verif.Bls381.C147_negated_zero"
   ],
   "note": "Negation of zero refuted."
  },
  {
   "property": "C148",
   "status": "proved",
   "theorems": [
    "Verif.Bls381.C148_tower_exists",
    "Verif.Bls381.C148_coordinates",
    "Verif.Bls381.C148_fp2",
    "Verif.Bls381.C148_fp6",
    "Verif.Bls381.C148_fp12",
    "Verif.Bls381.C148_laws"
   ],
   "note": ""
  },
  {
   "property": "C149",
   "status": "proved",
   "theorems": [
    "Verif.Bls381.C149_invert_fp2",
    "Verif.Bls381.C149_invert_fp6",
    "Verif.Bls381.C149_invert_fp12",
    "Verif.Bls381.C149_tests",
    "Verif.Bls381.C149_isOne_iff",
    "Verif.Bls381.C149_isOne_wrong",
    "Verif.Bls381.C149_isOne_norm_one"
   ],
   "note": "IsOne refuted in general, proved for elements of norm one."
  },
  {
   "property": "C150",
   "status": "proved",
   "theorems": [
    "Verif.Bls381.C150_sqrt",
    "Verif.Bls381.C150_signs",
    "Verif.Bls381.C150_signs_zero",
    "Verif.Bls381.C150_signs_iff",
    "Verif.Bls381.C150_root_unique"
   ],
   "note": ""
  },
  {
   "property": "C151",
   "status": "proved",
   "theorems": [
    "Verif.Bls381.C151_frobenius",
    "Verif.Bls381.C151_twelve",
    "Verif.Bls381.C151_conj"
   ],
   "note": ""
  },
  {
   "property": "C152",
   "status": "proved",
   "theorems": [
    "Verif.Bls381.C152_cyclotomic",
    "Verif.Bls381.C152_not_square",
    "Verif.Bls381.C152_final",
    "Verif.Bls381.C152_final_zero",
    "Verif.Bls381.C152_final_order",
    "Verif.Bls381.C152_final_mul",
    "Verif.Bls381.C152_final_one_iff"
   ],
   "note": ""
  },
  {
   "property": "C153",
   "status": "proved",
   "theorems": [
    "Verif.Bls381.C153_group",
    "Verif.Bls381.C153_neg_wrong",
    "Verif.Bls381.C153_mul_zero",
    "Verif.Bls381.C153_bytes_length",
    "Verif.Bls381.C153_roundtrip",
    "Verif.Bls381.C153_injective",
    "Verif.Bls381.C153_canonical",
    "Verif.Bls381.C153_accepts_zero",
    "Verif.Bls381.C153_partial_update"
   ],
   "note": "Mul refuted; exact behaviour proved."
  },
  {
   "property": "C154",
   "status": "proved",
   "theorems": [
    "Verif.Bls381.C154_generator_order",
    "Verif.Bls381.C154_generator_in_group"
   ],
   "note": ""
  },
  {
   "property": "C155",
   "status": "proved",
   "theorems": [
    "Verif.Bls381.C155_g1_add",
    "Verif.Bls381.C155_g1_double",
    "Verif.Bls381.C155_g1_neg_sub",
    "Verif.Bls381.C155_g2_add",
    "Verif.Bls381.C155_g2_double",
    "Verif.Bls381.C155_g2_neg_sub",
    "Verif.Bls381.C155_g1_predicates",
    "Verif.Bls381.C155_g2_predicates",
    "Verif.Bls381.C155_zero_value",
    "Verif.Bls381.C155_toAffine_g1",
    "Verif.Bls381.C155_toAffine_g2",
    "Verif.Bls381.C155_generators"
   ],
   "note": ""
  },
  {
   "property": "C156",
   "status": "proved",
   "theorems": [
    "Verif.Bls381.C156_g1_mul",
    "Verif.Bls381.C156_g2_mul",
    "Verif.Bls381.C156_g1_sumOfProducts",
    "Verif.Bls381.C156_g2_sumOfProducts",
    "Verif.Bls381.C156_sumOfProducts_length",
    "Verif.Bls381.C156_mulByX",
    "Verif.Bls381.C156_g1_clearCofactor",
    "Verif.Bls381.C156_inSubgroup"
   ],
   "note": ""
  },
  {
   "property": "C157",
   "status": "proved",
   "theorems": [
    "Verif.Bls381.C157_g1_roundtrip",
    "Verif.Bls381.C157_g2_roundtrip",
    "Verif.Bls381.C157_g1_injective",
    "Verif.Bls381.C157_g2_injective",
    "Verif.Bls381.C157_g1_accepted",
    "Verif.Bls381.C157_g2_accepted",
    "Verif.Bls381.C157_g1_accepted_uncompressed",
    "Verif.Bls381.C157_g2_accepted_uncompressed",
    "Verif.Bls381.C157_g1_format",
    "Verif.Bls381.C157_g2_format",
    "Verif.Bls381.C157_flags",
    "Verif.Bls381.C157_identity_encodings",
    "Verif.Bls381.C157_refused"
   ],
   "note": ""
  },
  {
   "property": "C158",
   "status": "proved",
   "theorems": [
    "Verif.Bls381.C158_g1_roundtrip",
    "Verif.Bls381.C158_g1_accepted",
    "Verif.Bls381.C158_g2_bigInt",
    "Verif.Bls381.C158_g2_setBigInt"
   ],
   "note": "G2.BigInt refuted."
  },
  {
   "property": "C170",
   "status": "proved",
   "theorems": [
    "Verif.Gg20.C170_round2",
    "Verif.Gg20.C170_round3",
    "Verif.Gg20.C170_round3_nil",
    "Verif.Gg20.C170_round5",
    "Verif.Gg20.C170_round6",
    "Verif.Gg20.C170_output",
    "Verif.Gg20.C170_nil_panics"
   ],
   "note": ""
  },
  {
   "property": "C159",
   "status": "proved",
   "theorems": [
    "Verif.Bls381.C159_g1_card",
    "Verif.Bls381.C159_g1_order",
    "Verif.Bls381.C159_g1_exponent",
    "Verif.Bls381.C159_g1_clearCofactor",
    "Verif.Bls381.C159_g1_subgroup",
    "Verif.Bls381.C159_g2_order",
    "Verif.Bls381.C159_psi_equation",
    "Verif.Bls381.C159_g2_clearCofactor_formula",
    "Verif.Bls381.C159_g2_clearCofactor",
    "Verif.Bls381.C159_g2_clearCofactor_subgroup",
    "Verif.Bls381.C159_g2_subgroup",
    "Verif.Bls381.C159_psi_subgroup"
   ],
   "note": ""
  },
  {
   "property": "C160",
   "status": "proved",
   "theorems": [
    "Verif.Native.C160_k256_map",
    "Verif.Native.C160_p256_map"
   ],
   "note": ""
  },
  {
   "property": "C161",
   "status": "proved",
   "theorems": [
    "Verif.Native.C161_k256_tables",
    "Verif.Native.C161_k256_isogeny",
    "Verif.Native.C161_k256_point",
    "Verif.Native.C161_p256_point",
    "Verif.Native.C161_elem",
    "Verif.Native.C161_k256_hash",
    "Verif.Native.C161_p256_hash"
   ],
   "note": ""
  },
  {
   "property": "C162",
   "status": "proved",
   "theorems": [
    "Verif.Native.C162_expandXmd",
    "Verif.Native.C162_agrees",
    "Verif.Native.C162_expandXmd_length",
    "Verif.Native.C162_expandXof",
    "Verif.Native.C162_shake128_oversize"
   ],
   "note": "RFC conformance refuted for SHAKE128 with tags over 255 bytes."
  },
  {
   "property": "C163",
   "status": "proved",
   "theorems": [
    "Verif.Bls381.C163_g1_map",
    "Verif.Bls381.C163_g1_tables",
    "Verif.Bls381.C163_g1_point",
    "Verif.Bls381.C163_g1_kernel",
    "Verif.Bls381.C163_g1_kernel_reached",
    "Verif.Bls381.C163_g1_hash"
   ],
   "note": "RFC conformance refuted for inputs in the kernel of the isogeny."
  },
  {
   "property": "C164",
   "status": "proved",
   "theorems": [
    "Verif.Bls381.C164_g2_map",
    "Verif.Bls381.C164_g2_map_zero",
    "Verif.Bls381.C164_g2_tables",
    "Verif.Bls381.C164_g2_isogeny",
    "Verif.Bls381.C164_g2_point",
    "Verif.Bls381.C164_g2_point_zero",
    "Verif.Bls381.C164_g2_hash",
    "Verif.Bls381.C164_random"
   ],
   "note": "RFC conformance refuted for the zero element."
  },
  {
   "property": "C165",
   "status": "proved",
   "theorems": [
    "Verif.Bls381.C165_doublingStep",
    "Verif.Bls381.C165_additionStep",
    "Verif.Bls381.C165_result",
    "Verif.Bls381.C165_check",
    "Verif.Bls381.C165_single",
    "Verif.Bls381.C165_empty",
    "Verif.Bls381.C165_outside"
   ],
   "note": "Second points must lie in the subgroup; outside it the expected property is refuted."
  },
  {
   "property": "C166",
   "status": "proved",
   "theorems": [
    "Verif.Bls381.C166_add_left",
    "Verif.Bls381.C166_add_right",
    "Verif.Bls381.C166_mul",
    "Verif.Bls381.C166_inverse"
   ],
   "note": ""
  },
  {
   "property": "C167",
   "status": "proved",
   "theorems": [
    "Verif.Bls381.C167_generator",
    "Verif.Bls381.C167_nondegenerate",
    "Verif.Bls381.C167_check",
    "Verif.Bls381.C167_cofactor"
   ],
   "note": ""
  },
  {
   "property": "C168",
   "status": "proved",
   "theorems": [
    "Verif.Bls381.C168_bilinear",
    "Verif.Bls381.C168_nondegenerate",
    "Verif.Bls381.C168_hash1",
    "Verif.Bls381.C168_hash2",
    "Verif.Bls381.C168_usual_verify",
    "Verif.Bls381.C168_usual_subgroup",
    "Verif.Bls381.C168_usual_key",
    "Verif.Bls381.C168_usual_aggregate",
    "Verif.Bls381.C168_usual_aggregate_subgroup",
    "Verif.Bls381.C168_tiny_verify",
    "Verif.Bls381.C168_tiny_subgroup",
    "Verif.Bls381.C168_tiny_aggregate",
    "Verif.Bls381.C168_multiPairing",
    "Verif.Bls381.C168_multiPairing_nil",
    "Verif.Bls381.C168_pairing"
   ],
   "note": ""
  },
  {
   "property": "C169",
   "status": "proved",
   "theorems": [
    "Verif.Native.C169_k256_card",
    "Verif.Native.C169_p256_card",
    "Verif.Native.C169_k256_cyclic",
    "Verif.Native.C169_p256_cyclic",
    "Verif.Native.C169_k256_mul",
    "Verif.Native.C169_p256_mul",
    "Verif.Native.C169_k256_laws",
    "Verif.Native.C169_p256_laws",
    "Verif.Pallas.C169_pallas_generator",
    "Verif.Pallas.C169_pallas_card",
    "Verif.Pallas.C169_pallas_cyclic",
    "Verif.Pallas.C169_pallas_mul",
    "Verif.Pallas.C169_pallas_laws"
   ],
   "note": ""
  },
  {
   "property": "C171",
   "status": "proved",
   "theorems": [
    "Verif.Pallas.C171_group",
    "Verif.Pallas.C171_equal",
    "Verif.Pallas.C171_isIdentity",
    "Verif.Pallas.C171_isOnCurve",
    "Verif.Pallas.C171_mul",
    "Verif.Pallas.C171_sumOfProducts"
   ],
   "note": ""
  },
  {
   "property": "C172",
   "status": "proved",
   "theorems": [
    "Verif.Pallas.C172_compress",
    "Verif.Pallas.C172_decompress",
    "Verif.Pallas.C172_decompress_point",
    "Verif.Pallas.C172_compress_roundtrip",
    "Verif.Pallas.C172_compress_identity",
    "Verif.Pallas.C172_malleable",
    "Verif.Pallas.C172_lost",
    "Verif.Pallas.C172_uncompress",
    "Verif.Pallas.C172_decode",
    "Verif.Pallas.C172_uncompress_roundtrip",
    "Verif.Pallas.C172_set",
    "Verif.Pallas.C172_set_identity",
    "Verif.Pallas.C172_set_zero",
    "Verif.Pallas.C172_set_one",
    "Verif.Pallas.C172_isOdd_two"
   ],
   "note": "Round trip refuted for the identity and the refused range; exact behaviour proved."
  },
  {
   "property": "C173",
   "status": "proved",
   "theorems": [
    "Verif.Pallas.C173_map",
    "Verif.Pallas.C173_isogeny",
    "Verif.Pallas.C173_point",
    "Verif.Pallas.C173_hash",
    "Verif.Pallas.C173_hash_exists"
   ],
   "note": "BLAKE2b is an arbitrary function with 64 bytes of output."
  },
  {
   "property": "C174",
   "status": "proved",
   "theorems": [
    "Verif.Pallas.C174_isOnCurve",
    "Verif.Pallas.C174_add",
    "Verif.Pallas.C174_double",
    "Verif.Pallas.C174_scalarMult",
    "Verif.Pallas.C174_scalarBaseMult",
    "Verif.Pallas.C174_isOnCurve_gap",
    "Verif.Pallas.C174_isOnCurve_wrong",
    "Verif.Pallas.C174_scalarBaseMult_wrong"
   ],
   "note": ""
  },
  {
   "property": "C175",
   "status": "proved",
   "theorems": [
    "Verif.Pallas.C175_lawful",
    "Verif.Pallas.C175_sign",
    "Verif.Pallas.C175_verify",
    "Verif.Pallas.C175_sign_verifies",
    "Verif.Pallas.C175_lift",
    "Verif.Pallas.C175_compress",
    "Verif.Pallas.C175_decompress",
    "Verif.Pallas.C175_transaction"
   ],
   "note": "BLAKE2b, SHA-256 and base58 are arbitrary functions."
  },
  {
   "property": "C176",
   "status": "proved",
   "theorems": [
    "Verif.Curves.C176_names",
    "Verif.Curves.C176_binary_roundtrip",
    "Verif.Curves.C176_text_roundtrip",
    "Verif.Curves.C176_json_roundtrip",
    "Verif.Curves.C176_json_no_group",
    "Verif.Curves.C176_binary_accept",
    "Verif.Curves.C176_text_accept",
    "Verif.Curves.C176_text_short",
    "Verif.Curves.C176_text_panic",
    "Verif.Curves.C176_no_panic",
    "Verif.Curves.C176_injective",
    "Verif.Curves.C176_target",
    "Verif.Curves.C176_point_roundtrip",
    "Verif.Curves.C176_point_accept",
    "Verif.Curves.C176_point_no_panic",
    "Verif.Curves.C176_std",
    "Verif.Curves.C176_pallas"
   ],
   "note": "The decoder of JSON is a parameter that reads what the encoder writes of plain texts."
  },
  {
   "property": "C177",
   "status": "proved",
   "theorems": [
    "Verif.Curves.C177_ring",
    "Verif.Curves.C177_div",
    "Verif.Curves.C177_sqrt",
    "Verif.Curves.C177_predicates",
    "Verif.Curves.C177_cmp",
    "Verif.Curves.C177_new",
    "Verif.Curves.C177_bigInt",
    "Verif.Curves.C177_bytes",
    "Verif.Curves.C177_setBytes",
    "Verif.Curves.C177_roundtrip",
    "Verif.Curves.C177_wide",
    "Verif.Curves.C177_wide_order",
    "Verif.Curves.C177_hash",
    "Verif.Curves.C177_foreign",
    "Verif.Curves.C177_neg",
    "Verif.Curves.C177_neg_bls",
    "Verif.Curves.C177_neg_bls_zero"
   ],
   "note": "Neg at zero on BLS12-381 refuted."
  },
  {
   "property": "C178",
   "status": "proved",
   "theorems": [
    "Verif.Curves.Ed.C178_ring",
    "Verif.Curves.Ed.C178_div",
    "Verif.Curves.Ed.C178_predicates",
    "Verif.Curves.Ed.C178_cmp",
    "Verif.Curves.Ed.C178_new",
    "Verif.Curves.Ed.C178_new_exact",
    "Verif.Curves.Ed.C178_bigInt",
    "Verif.Curves.Ed.C178_sqrt",
    "Verif.Curves.Ed.C178_bytes",
    "Verif.Curves.Ed.C178_wide",
    "Verif.Curves.Ed.C178_clamping",
    "Verif.Curves.Ed.C178_clamping_odd",
    "Verif.Curves.Ed.C178_hash",
    "Verif.Curves.Ed.C178_foreign"
   ],
   "note": "The scalars of filippo.io/edwards25519 are taken from its documentation."
  },
  {
   "property": "C179",
   "status": "proved",
   "theorems": [
    "Verif.Ed25519.C179_base_order",
    "Verif.Ed25519.C179_card",
    "Verif.Ed25519.C179_cyclic",
    "Verif.Ed25519.C179_subgroup",
    "Verif.Ed25519.C179_cofactor",
    "Verif.Ed25519.C179_mul_smul",
    "Verif.Ed25519.C179_mul_add",
    "Verif.Ed25519.C179_mul_mul",
    "Verif.Ed25519.C179_ops"
   ],
   "note": "Points of filippo.io/edwards25519 are points of the curve in affine coordinates; its extended coordinates are trusted."
  },
  {
   "property": "C180",
   "status": "proved",
   "theorems": [
    "Verif.Ed25519.C180_fromCompressed",
    "Verif.Ed25519.C180_fromCompressed_total",
    "Verif.Ed25519.C180_compressed_roundtrip",
    "Verif.Ed25519.C180_compressed_injective",
    "Verif.Ed25519.C180_malleable",
    "Verif.Ed25519.C180_identity_encodings",
    "Verif.Ed25519.C180_no_subgroup_check",
    "Verif.Ed25519.C180_fromUncompressed",
    "Verif.Ed25519.C180_uncompressed_roundtrip",
    "Verif.Ed25519.C180_set",
    "Verif.Ed25519.C180_set_twoTors",
    "Verif.Ed25519.C180_sqrtRatio",
    "Verif.Ed25519.C180_sqrtM1"
   ],
   "note": "Set refuted for points with a zero coordinate."
  },
  {
   "property": "C181",
   "status": "proved",
   "theorems": [
    "Verif.Ed25519.C181_elligator",
    "Verif.Ed25519.C181_elligator_on_curve",
    "Verif.Ed25519.C181_toEdwards",
    "Verif.Ed25519.C181_hash",
    "Verif.Ed25519.C181_hash_subgroup",
    "Verif.Ed25519.C181_hash_symmetric"
   ],
   "note": "SHA-512 is an arbitrary function."
  },
  {
   "property": "C182",
   "status": "proved",
   "theorems": [
    "Verif.Ed25519.C182_sumOfProducts",
    "Verif.Ed25519.C182_sum_subgroup",
    "Verif.Ed25519.C182_foreign_scalar",
    "Verif.Ed25519.C182_sum_nil",
    "Verif.Ed25519.C182_double",
    "Verif.Ed25519.C182_mangle"
   ],
   "note": ""
  },
  {
   "property": "C183",
   "status": "proved",
   "theorems": [
    "Verif.Ed25519.C183_nem_lawful",
    "Verif.Ed25519.C183_nem_sign_verifies",
    "Verif.Ed25519.C183_annihilator",
    "Verif.Ed25519.C183_verify_of_model",
    "Verif.Ed25519.C183_verify_iff_model",
    "Verif.Ed25519.C183_sign_verify",
    "Verif.Ed25519.C183_threshold"
   ],
   "note": ""
  },
  {
   "property": "C184",
   "status": "proved",
   "theorems": [
    "Verif.Ed25519.C184_verify_iff",
    "Verif.Ed25519.C184_unique",
    "Verif.Ed25519.C184_torsion_key",
    "Verif.Ed25519.C184_two_torsion",
    "Verif.Ed25519.C184_identity_key"
   ],
   "note": ""
  },
  {
   "property": "C185",
   "status": "proved",
   "theorems": [
    "Verif.Curves.GtS.C185_group",
    "Verif.Curves.GtS.C185_not_a_field",
    "Verif.Curves.GtS.C185_errors",
    "Verif.Curves.GtS.C185_setBytes",
    "Verif.Curves.GtS.C185_roundtrip",
    "Verif.Curves.GtS.C185_malleable",
    "Verif.Curves.GtS.C185_wide",
    "Verif.Curves.GtS.C185_new",
    "Verif.Curves.GtS.C185_new_wrong",
    "Verif.Curves.GtS.C185_random",
    "Verif.Curves.GtS.C185_hash",
    "Verif.Curves.GtS.C185_parity"
   ],
   "note": "Field laws and New refuted."
  },
  {
   "property": "C186",
   "status": "proved",
   "theorems": [
    "Verif.Legacy.C186_p256_scalarMul",
    "Verif.Legacy.C186_lawful",
    "Verif.Legacy.C186_double",
    "Verif.Legacy.C186_isOnCurve",
    "Verif.Legacy.C186_scalar",
    "Verif.Legacy.C186_neg_identity"
   ],
   "note": ""
  },
  {
   "property": "C187",
   "status": "proved",
   "theorems": [
    "Verif.Legacy.C187_isOnCurve",
    "Verif.Legacy.C187_ops",
    "Verif.Legacy.C187_add_base",
    "Verif.Legacy.C187_mul",
    "Verif.Legacy.C187_mul_iff",
    "Verif.Legacy.C187_basePoint",
    "Verif.Legacy.C187_g2",
    "Verif.Legacy.C187_refused",
    "Verif.Legacy.C187_g2_accepted"
   ],
   "note": "ScalarMult on G1 and everything on G2 refuted."
  },
  {
   "property": "C188",
   "status": "proved",
   "theorems": [
    "Verif.Legacy.C188_scalar",
    "Verif.Legacy.C188_ops",
    "Verif.Legacy.C188_computes",
    "Verif.Legacy.C188_identity",
    "Verif.Legacy.C188_zero",
    "Verif.Legacy.C188_neg",
    "Verif.Legacy.C188_isOnCurve",
    "Verif.Legacy.C188_hash"
   ],
   "note": "Neg and IsIdentity refuted."
  },
  {
   "property": "C189",
   "status": "proved",
   "theorems": [
    "Verif.Legacy.C189_equals",
    "Verif.Legacy.C189_isIdentity",
    "Verif.Legacy.C189_add",
    "Verif.Legacy.C189_neg",
    "Verif.Legacy.C189_neg_identity",
    "Verif.Legacy.C189_mul",
    "Verif.Legacy.C189_fieldSize",
    "Verif.Legacy.C189_bytes",
    "Verif.Legacy.C189_fromBytes",
    "Verif.Legacy.C189_marshal",
    "Verif.Legacy.C189_unmarshal",
    "Verif.Legacy.C189_json"
   ],
   "note": ""
  },
  {
   "property": "C190",
   "status": "proved",
   "theorems": [
    "Verif.Legacy.C190_mod",
    "Verif.Legacy.C190_pallas",
    "Verif.Legacy.C190_bls",
    "Verif.Legacy.C190_ed",
    "Verif.Legacy.C190_ed_other",
    "Verif.Legacy.C190_bytes",
    "Verif.Legacy.C190_random"
   ],
   "note": ""
  },
  {
   "property": "C191",
   "status": "proved",
   "theorems": [
    "Verif.Legacy.C191_feldman_verify",
    "Verif.Legacy.C191_feldman_split",
    "Verif.Legacy.C191_pedersen_verify",
    "Verif.Legacy.C191_pedersen_split",
    "Verif.Legacy.C191_newPedersen",
    "Verif.Legacy.C191_k256",
    "Verif.Legacy.C191_ed25519",
    "Verif.Legacy.C191_g1",
    "Verif.Legacy.C191_g1_honest"
   ],
   "note": "Refuted on BLS12-381 G1."
  },
  {
   "property": "C192",
   "status": "proved",
   "theorems": [
    "Verif.Inst.C192_scalars",
    "Verif.Inst.C192_points",
    "Verif.Inst.C192_generators",
    "Verif.Inst.C192_point_codecs"
   ],
   "note": "Injectivity refuted on P-256."
  },
  {
   "property": "C193",
   "status": "proved",
   "theorems": [
    "Verif.Inst.C193_env",
    "Verif.Inst.C193_k256",
    "Verif.Inst.C193_p256",
    "Verif.Inst.C193_large_abscissa"
   ],
   "note": "Hash functions are arbitrary."
  },
  {
   "property": "C194",
   "status": "proved",
   "theorems": [
    "Verif.Inst.C194_lawful",
    "Verif.Inst.C194_curves"
   ],
   "note": "ScalarMult of P-256 in the standard library is assumed to multiply."
  },
  {
   "property": "C195",
   "status": "proved",
   "theorems": [
    "Verif.Inst.C195_verify",
    "Verif.Inst.C195_sign",
    "Verif.Inst.C195_end_to_end"
   ],
   "note": "SHA-512 is an arbitrary function."
  },
  {
   "property": "C196",
   "status": "proved",
   "theorems": [
    "Verif.Inst.C196_points",
    "Verif.Inst.C196_p256_confusion"
   ],
   "note": "Binding refuted on P-256."
  },
  {
   "property": "C197",
   "status": "proved",
   "theorems": [
    "Verif.Inst.C197_codecs",
    "Verif.Inst.C197_scalars",
    "Verif.Inst.C197_groups",
    "Verif.Inst.C197_checks",
    "Verif.Inst.C197_cyclic",
    "Verif.Inst.C197_bbs",
    "Verif.Inst.C197_pok",
    "Verif.Inst.C197_bbs_roundtrip",
    "Verif.Inst.C197_accumulator",
    "Verif.Inst.C197_witness_canonical"
   ],
   "note": "Uniqueness of the encoding refuted for the identity."
  },
  {
   "property": "C198",
   "status": "proved",
   "theorems": [
    "Verif.Fiat.C198_mul",
    "Verif.Fiat.C198_square",
    "Verif.Fiat.C198_add",
    "Verif.Fiat.C198_sub",
    "Verif.Fiat.C198_opp",
    "Verif.Fiat.C198_from",
    "Verif.Fiat.C198_to",
    "Verif.Fiat.C198_carries",
    "Verif.Fiat.C198_field",
    "Verif.Fiat.C198_toBytes",
    "Verif.Fiat.C198_fromBytes",
    "Verif.Fiat.C198_wide",
    "Verif.Fiat.C198_nonzero",
    "Verif.Fiat.C198_select",
    "Verif.Fiat.C198_setOne"
   ],
   "note": "Divstep and Msat, which nothing calls, are not modelled."
  },
  {
   "property": "C199",
   "status": "proved",
   "theorems": [
    "Verif.DklsV0.C199_verify",
    "Verif.DklsV0.C199_incomplete",
    "Verif.DklsV0.C199_complete",
    "Verif.DklsV0.C199_extract",
    "Verif.DklsV0.C199_decommit",
    "Verif.DklsV0.C199_binding",
    "Verif.DklsV0.C199_dkg",
    "Verif.DklsV0.C199_dkg_any",
    "Verif.DklsV0.C199_dkg_identity",
    "Verif.DklsV0.C199_other_curve"
   ],
   "note": "Rejection of the neutral element refuted."
  },
  {
   "property": "C200",
   "status": "proved",
   "theorems": [
    "Verif.DklsV0.C200_receiver",
    "Verif.DklsV0.C200_hiding",
    "Verif.DklsV0.C200_sender",
    "Verif.DklsV0.C200_response",
    "Verif.DklsV0.C200_final",
    "Verif.DklsV0.C200_honest",
    "Verif.DklsV0.C200_selective"
   ],
   "note": "Hiding of the choices against an active sender refuted."
  },
  {
   "property": "C201",
   "status": "proved",
   "theorems": [
    "Verif.DklsV0.C201_idx",
    "Verif.DklsV0.C201_init",
    "Verif.DklsV0.C201_zeta",
    "Verif.DklsV0.C201_short",
    "Verif.DklsV0.C201_check",
    "Verif.DklsV0.C201_check_vacuous",
    "Verif.DklsV0.C201_agree",
    "Verif.DklsV0.C201_honest"
   ],
   "note": "Consistency check refuted."
  },
  {
   "property": "C202",
   "status": "proved",
   "theorems": [
    "Verif.DklsV0.C202_encode",
    "Verif.DklsV0.C202_encode_wide",
    "Verif.DklsV0.C202_multiply"
   ],
   "note": ""
  },
  {
   "property": "C203",
   "status": "proved",
   "theorems": [
    "Verif.DklsV0.C203_alice",
    "Verif.DklsV0.C203_bob",
    "Verif.DklsV0.C203_checked",
    "Verif.DklsV0.C203_honest",
    "Verif.DklsV0.C203_sound",
    "Verif.DklsV0.C203_valid",
    "Verif.DklsV0.C203_incomplete",
    "Verif.DklsV0.C203_no_point",
    "Verif.DklsV0.C203_k256"
   ],
   "note": "crypto/ecdsa.Verify is assumed to verify."
  },
  {
   "property": "C204",
   "status": "proved",
   "theorems": [
    "Verif.DklsV0.C204_retry",
    "Verif.DklsV0.C204_bob_sign",
    "Verif.DklsV0.C204_results",
    "Verif.DklsV0.C204_alice_dkg",
    "Verif.DklsV0.C204_bob_dkg",
    "Verif.DklsV0.C204_dkg",
    "Verif.DklsV0.C204_end_to_end"
   ],
   "note": "encoding/gob is an arbitrary lossless codec."
  },
  {
   "property": "C205",
   "status": "proved",
   "theorems": [
    "Verif.Ot.C205_schedule",
    "Verif.Ot.C205_single_run",
    "Verif.Ot.C205_seed",
    "Verif.Ot.C205_cot",
    "Verif.Ot.C205_both",
    "Verif.Ot.C205_receiver",
    "Verif.Ot.C205_sender",
    "Verif.Ot.C205_unregistered",
    "Verif.Ot.C205_readahead"
   ],
   "note": "Consecutive streams on a connection that does not keep the values apart refuted. A gob value is one unit; nil fields in decoded values are not modelled."
  },
  {
   "property": "C206",
   "status": "proved",
   "theorems": [
    "Verif.DklsV0.C206_set",
    "Verif.DklsV0.C206_party",
    "Verif.DklsV0.C206_seed",
    "Verif.DklsV0.C206_names",
    "Verif.DklsV0.C206_roundtrip",
    "Verif.DklsV0.C206_signs",
    "Verif.DklsV0.C206_k256",
    "Verif.DklsV0.C206_p256"
   ],
   "note": "ScalarMult of P-256 in the standard library is assumed to multiply; gob is an arbitrary lossless codec."
  },
  {
   "property": "C207",
   "status": "proved",
   "theorems": [
    "Verif.Bls377.C207_prime",
    "Verif.Bls377.C207_is",
    "Verif.Bls377.C207_field",
    "Verif.Bls377.C207_invert",
    "Verif.Bls377.C207_sqrt",
    "Verif.Bls377.C207_foreign",
    "Verif.Bls377.C207_bytes",
    "Verif.Bls377.C207_new",
    "Verif.Bls377.C207_xmd",
    "Verif.Bls377.C207_hash"
   ],
   "note": "Usability of returned scalars refuted. big.Int.ModSqrt is a parameter."
  },
  {
   "property": "C208",
   "status": "proved",
   "theorems": [
    "Verif.Bls377.C208_group",
    "Verif.Bls377.C208_sum",
    "Verif.Bls377.C208_set",
    "Verif.Bls377.C208_set_coordinates",
    "Verif.Bls377.C208_uncompressed",
    "Verif.Bls377.C208_pairing",
    "Verif.Bls377.C208_multi",
    "Verif.Bls377.C208_bilinear",
    "Verif.Bls377.C208_compare"
   ],
   "note": "Bilinearity of Pairing refuted. gnark-crypto is assumed to compute a bilinear map, to test the subgroups, and to look at the first half of a compressed encoding only."
  },
  {
   "property": "C209",
   "status": "proved",
   "theorems": [
    "Verif.Bls377.Gt.C209_codec",
    "Verif.Bls377.Gt.C209_field",
    "Verif.Bls377.Gt.C209_zero",
    "Verif.Bls377.Gt.C209_parity",
    "Verif.Bls377.Gt.C209_new",
    "Verif.Bls377.Gt.C209_bigInt",
    "Verif.Bls377.Gt.C209_wide",
    "Verif.Bls377.Gt.C209_random"
   ],
   "note": "New and Random refuted. The field arithmetic of gnark-crypto is assumed."
  },
  {
   "property": "C210",
   "status": "proved",
   "theorems": [
    "Verif.Paillier.C210_safePrime",
    "Verif.Paillier.C210_modulus",
    "Verif.Paillier.C210_fresh",
    "Verif.Paillier.C210_error",
    "Verif.Paillier.C210_withPrimes"
   ],
   "note": "Distinctness of the primes refuted. crypto/rand.Prime and ProbablyPrime are assumed to be right."
  },
  {
   "property": "C211",
   "status": "proved",
   "theorems": [
    "Verif.Gg20.Json.C211_proofs",
    "Verif.Gg20.Json.C211_messages",
    "Verif.Gg20.Json.C211_dkg_share_lost",
    "Verif.Gg20.Json.C211_paillier",
    "Verif.Gg20.Json.C211_share",
    "Verif.Gg20.Json.C211_panics",
    "Verif.Gg20.Json.C211_participant",
    "Verif.Gg20.Json.C211_publicShares"
   ],
   "note": "Survival of the share in key generation and absence of panics refuted. The text of a document is the work of encoding/json; of repeated keys the last counts."
  },
  {
   "property": "C212",
   "status": "proved",
   "theorems": [
    "Verif.Ted.C212_range",
    "Verif.Ted.C212_reached",
    "Verif.Ted.C212_half",
    "Verif.Ted.C212_draws",
    "Verif.Ted.C212_split",
    "Verif.Ted.C212_shares_leak",
    "Verif.Ted.C212_excluded",
    "Verif.Ted.C212_nonce"
   ],
   "note": "Reaching every scalar and secrecy of shares over this field refuted (C02 holds for uniform coefficients). SHA-512 and HKDF are arbitrary functions."
  },
  {
   "property": "C213",
   "status": "proved",
   "theorems": [
    "Verif.Ted.C213_hkdf_input",
    "Verif.Ted.C213_hkdf_ambiguous",
    "Verif.Ted.C213_commitments_decision",
    "Verif.Ted.C213_commitments_round_trip",
    "Verif.Ted.C213_newKeyShare",
    "Verif.Ted.C213_nonceShareAdd",
    "Verif.Ted.C213_halves",
    "Verif.Ted.C213_generateKey"
   ],
   "note": ""
  },
  {
   "property": "C214",
   "status": "proved",
   "theorems": [
    "Verif.Accum.Marshal.C214_names",
    "Verif.Accum.Marshal.C214_accumulator",
    "Verif.Accum.Marshal.C214_public_key",
    "Verif.Accum.Marshal.C214_secret_key",
    "Verif.Accum.Marshal.C214_witness",
    "Verif.Accum.Marshal.C214_params",
    "Verif.Accum.Marshal.C214_proof",
    "Verif.Accum.Marshal.C214_foreign",
    "Verif.Accum.Marshal.C214_verify_types"
   ],
   "note": "Round trip of every public key, membership of decoded values and absence of panics refuted. git.sr.ht/~sircmpwn/go-bare is an arbitrary lossless packing of a struct of byte strings."
  },
  {
   "property": "C215",
   "status": "proved",
   "theorems": [
    "Verif.Pallas.Iface.C215_ring",
    "Verif.Pallas.Iface.C215_div",
    "Verif.Pallas.Iface.C215_sqrt",
    "Verif.Pallas.Iface.C215_predicates",
    "Verif.Pallas.Iface.C215_cmp",
    "Verif.Pallas.Iface.C215_bigInt",
    "Verif.Pallas.Iface.C215_bytes",
    "Verif.Pallas.Iface.C215_gap",
    "Verif.Pallas.Iface.C215_wide",
    "Verif.Pallas.Iface.C215_hash",
    "Verif.Pallas.Iface.C215_foreign",
    "Verif.Pallas.Iface.C215_points",
    "Verif.Pallas.Iface.C215_sum",
    "Verif.Pallas.Iface.C215_old_curve"
   ],
   "note": "Parity, order, SetBigInt, absence of panics, usability of sums and the name of the old curve refuted."
  },
  {
   "property": "C216",
   "status": "proved",
   "theorems": [
    "Verif.Curves.Pt.C216_group",
    "Verif.Curves.Pt.C216_foreign",
    "Verif.Curves.Pt.C216_sum",
    "Verif.Curves.Pt.C216_k256",
    "Verif.Curves.Pt.C216_p256",
    "Verif.Curves.Pt.C216_g1",
    "Verif.Curves.Pt.C216_g2",
    "Verif.Curves.Pt.C216_isNegative",
    "Verif.Curves.Pt.C216_isNegative_not_sign",
    "Verif.Curves.Pt.C216_g1_isNegative",
    "Verif.Curves.Pt.C216_g2_isNegative",
    "Verif.Curves.Pt.C216_bls_roundtrip",
    "Verif.Curves.Pt.C216_bls_lengths",
    "Verif.Curves.Pt.C216_bls_coordinates",
    "Verif.Curves.Pt.C216_toEllipticCurve"
   ],
   "note": "Sign of secp256k1 and P-256, lengths of BLS12-381 encodings and absence of panics refuted."
  },
  {
   "property": "C217",
   "status": "proved",
   "theorems": [
    "Verif.Bls381.SigBytes.C217_accepted",
    "Verif.Bls381.SigBytes.C217_roundtrip",
    "Verif.Bls381.SigBytes.C217_canonical",
    "Verif.Bls381.SigBytes.C217_refused",
    "Verif.Bls381.SigBytes.C217_length",
    "Verif.Bls381.SigBytes.C217_getPublicKey",
    "Verif.Bls381.SigBytes.C217_keys",
    "Verif.Bls381.SigBytes.C217_createSignature",
    "Verif.Bls381.SigBytes.C217_aggregate",
    "Verif.Bls381.SigBytes.C217_aggregate_subgroup",
    "Verif.Bls381.SigBytes.C217_partialSign",
    "Verif.Bls381.SigBytes.C217_combineSigs",
    "Verif.Bls381.SigBytes.C217_usual",
    "Verif.Bls381.SigBytes.C217_usual_unique",
    "Verif.Bls381.SigBytes.C217_tiny",
    "Verif.Bls381.SigBytes.C217_tiny_unique",
    "Verif.Bls381.SigBytes.C217_pop"
   ],
   "note": "Messages whose hash is exceptional are described in C163 and C164."
  },
  {
   "property": "C218",
   "status": "proved",
   "theorems": [
    "Verif.Bbs.Key.C218_secret_accepted",
    "Verif.Bbs.Key.C218_secret_roundtrip",
    "Verif.Bbs.Key.C218_names",
    "Verif.Bbs.Key.C218_public",
    "Verif.Bbs.Key.C218_public_roundtrip",
    "Verif.Bbs.Key.C218_public_group",
    "Verif.Bbs.Key.C218_wrong_group",
    "Verif.Bbs.Key.C218_verify",
    "Verif.Bbs.Key.C218_sign_verify"
   ],
   "note": "Round trip of the secret key and absence of panics refuted. The hash of the state of the generators is assumed to be a point of the subgroup (C163 describes the exceptions)."
  },
  {
   "property": "C219",
   "status": "proved",
   "theorems": [
    "Verif.Dkls.C219_constructors",
    "Verif.Dkls.C219_dkg",
    "Verif.Dkls.C219_sign",
    "Verif.Dkls.C219_sign_versions",
    "Verif.Dkls.C219_signature",
    "Verif.Dkls.C219_refresh",
    "Verif.Dkls.C219_refresh_result"
   ],
   "note": "Versions of the result of a refresh refuted."
  },
  {
   "property": "C220",
   "status": "proved",
   "theorems": [
    "Verif.Core.C220_roundtrip",
    "Verif.Core.C220_accepted",
    "Verif.Core.C220_receiver",
    "Verif.Core.C220_texts",
    "Verif.Core.C220_out_of_range"
   ],
   "note": "Validity of accepted elements, uniqueness of documents and the receiver after a failure refuted. encoding/json is assumed to deliver the two strings."
  },
  {
   "property": "C221",
   "status": "proved",
   "theorems": [
    "Verif.Bulletproof.C221_generators",
    "Verif.Bulletproof.C221_distinct",
    "Verif.Bulletproof.C221_lengths",
    "Verif.Bulletproof.C221_range",
    "Verif.Bulletproof.C221_batch",
    "Verif.Bulletproof.C221_ipp_lengths",
    "Verif.Bulletproof.C221_range_lengths"
   ],
   "note": "Acceptance across maximal lengths refuted. Correctness of range proofs needs little-endian scalars (C61)."
  },
  {
   "property": "C222",
   "status": "proved",
   "theorems": [
    "Verif.Legacy.C222_digest",
    "Verif.Legacy.C222_verify",
    "Verif.Legacy.C222_nil",
    "Verif.Legacy.C222_complete",
    "Verif.Legacy.C222_malleable",
    "Verif.Legacy.C222_identity_key",
    "Verif.Legacy.C222_digest_forgery",
    "Verif.Legacy.C222_k256",
    "Verif.Legacy.C222_dklsv0",
    "Verif.Legacy.C222_off_curve",
    "Verif.Legacy.C222_unreduced",
    "Verif.Inst.C222_dkls_k256",
    "Verif.Inst.C222_dkls_p256"
   ],
   "note": "Refusal of the identity, absence of panics and uniqueness of signatures refuted. crypto/ecdsa.Verify is modelled as it is for curves outside the standard library."
  },
  {
   "property": "C223",
   "status": "proved",
   "theorems": [
    "Verif.Inst.C223_big_endian",
    "Verif.Inst.C223_ed25519",
    "Verif.Inst.C223_scalars"
   ],
   "note": "Acceptance on secp256k1, P-256 and BLS12-381 refuted for all values but zero. The challenges are arbitrary non-zero functions of the transcript."
  },
  {
   "property": "C224",
   "status": "proved",
   "theorems": [
    "Verif.Bls.C224_tags",
    "Verif.Bls.C224_sign",
    "Verif.Bls.C224_cross",
    "Verif.Bls.C224_separate",
    "Verif.Bls.C224_custom",
    "Verif.Bls.C224_keygen",
    "Verif.Bls.C224_threshold",
    "Verif.Bls.C224_tiny",
    "Verif.Bls.C224_long_tag"
   ],
   "note": "Separation by own tags and refusal of the empty message in the tiny augmented scheme refuted. Keys that are nil are in C103."
  },
  {
   "property": "C225",
   "status": "proved",
   "theorems": [
    "Verif.Inst.C225_curves"
   ],
   "note": "Pallas does not read back all scalars it writes and is in C226."
  },
  {
   "property": "C226",
   "status": "proved",
   "theorems": [
    "Verif.Pallas.Split.C226_split",
    "Verif.Pallas.Split.C226_validate",
    "Verif.Pallas.Split.C226_combine",
    "Verif.Pallas.Split.C226_reconstruct",
    "Verif.Pallas.Split.C226_lost_share",
    "Verif.Pallas.Split.C226_not_canonical"
   ],
   "note": "Use of every share the dealer writes and uniqueness of encodings refuted. Shares that are nil are in C03."
  },
  {
   "property": "C227",
   "status": "proved",
   "theorems": [
    "Verif.Core.C227_collision",
    "Verif.Core.C227_binding",
    "Verif.Core.C227_open",
    "Verif.Core.C227_compute",
    "Verif.Core.C227_equal_keys"
   ],
   "note": "Different codes for different keys refuted when lengths differ. crypto/hmac is modelled as in RFC 2104."
  },
  {
   "property": "C228",
   "status": "proved",
   "theorems": [
    "Verif.Sharing.Generator.C228_hash",
    "Verif.Sharing.Generator.C228_on_curve",
    "Verif.Sharing.Generator.C228_identity"
   ],
   "note": "An error for the identity refuted. SHA-256 is an arbitrary function with digests of its length."
  },
  {
   "property": "C229",
   "status": "proved",
   "theorems": [
    "Verif.DklsV0.Pipe.C229_order",
    "Verif.DklsV0.Pipe.C229_count",
    "Verif.DklsV0.Pipe.C229_count_le",
    "Verif.DklsV0.Pipe.C229_blocked",
    "Verif.DklsV0.Pipe.C229_read"
   ],
   "note": "Exchanges without blocking refuted. io.Pipe is modelled as documented; counters do not overflow and each end is used by one goroutine."
  },
  {
   "property": "C230",
   "status": "proved",
   "theorems": [
    "Verif.Gennaro.C230_new",
    "Verif.Gennaro.C230_not_binding",
    "Verif.Gennaro.C230_two_blinds"
   ],
   "note": "Security of the drawn generator and agreement when both draw refuted."
  }
 ]
}