# Design of the formal model of coinbase/kryptology

## What this is

`/verif/lean` is a Lean 4 (4.33.0, Mathlib) project containing a hand-written
model of the Go code in `/repo`, and theorems about that model for the
properties listed in `properties.jsonl`.  `MANIFEST.json` maps each property to
the theorems that establish it.  The Go code is neither built nor run; it was
read as text, function by function, and every Lean definition names the file and
lines it models.

## Trusted base

* The Lean 4 kernel, and the three standard axioms `propext`,
  `Classical.choice`, `Quot.sound` (every theorem depends on at most these;
  no axioms are declared, there is no `sorry`, `admit`, `native_decide` or
  `bv_decide`).

* The correspondence between Go source and Lean definitions (hand translation,
  tested by the mutation log in `seeded/LOG.jsonl`).
* The abstractions below.

## Abstractions (what is *not* modelled)

* **Scalars.**  Protocol-level code uses the `curves.Scalar` interface.  It is
  modelled as an arbitrary field `F` (Mathlib `Field`), with the hypothesis
  where needed that the integers `1..255` are distinct non-zero elements
  (true for every curve supported).  Where code depends on bytes, a
  `ScalarCodec` gives `Bytes`/`SetBytes`, and concrete 32-byte big-endian and
  little-endian codecs over `ZMod q` are proved to be instances.
  `Scalar.Random` is an explicit argument ("the randomness"), so theorems are
  universally quantified over it.  A failing `io.Reader` is not modelled.
* **Points.**  Modelled as an arbitrary module `G` over `F`; i.e. every
  point is assumed to lie in the prime-order group.  This is proved for
  secp256k1, P-256 and Pallas (C169) and, after subgroup checks, for BLS12-381 (C159, C168), on coordinates.  For edwards25519
  (cofactor 8) the subgroup of prime order is proved to be one (C179); the decoders do not check membership (C180), and what
  signature verification does with other points is proved separately (C140, C184).  The generator `g` is assumed to have
  trivial annihilator (`r • g = 0 → r = 0`) where soundness needs it.
* **Pairings.**  In the models of the schemes, a bilinear map into a module, non-degenerate where needed.  The engine of
  BLS12-381 is modelled separately, down to the coordinates, and proved to be such a map (C165 to C168).
* **BLS12-377** is computed by gnark-crypto, which is not in the repository: its operations are parameters with explicit
  hypotheses (C208, C209); only the scalars are modelled down to the integers (C207).
* **Hash functions, HKDF, HMAC, AEAD, PRGs, transcripts.**  Arbitrary functions
  given as parameters; every theorem holds for every such function.
  Binding statements have the form "equal, or here is a collision".
* **Big integers.**  `Int`/`Nat` with the semantics of `math/big`, including `Bytes()`
  dropping the sign, and `Exp` with negative exponents.
* **Machine integers.**  `UInt8`/`UInt32`/`UInt64`/`BitVec` wherever
  overflow or bit tricks matter.
* **Field arithmetic on limbs.**  The hand-written limb code of BLS12-381 (`fp.go`, `fq.go`) is modelled
  word by word and proved correct; the extension tower above is modelled on residues.  The straight-line code generated by fiat-crypto
  (secp256k1, P-256, Pasta) is kept as data, statement by statement (`Verif/Fiat`), and executed on 64-bit words; a checker, proved
  sound, shows for all inputs that it computes what the models of the curves use.  The translation of the Go text into
  this data was done by a script and is trusted like any other transcription; `bits.Mul64`, `Add64`, `Sub64` are as documented.
* **Errors and panics** are values: `Go α := Except Fail α` with
  `Fail = error | panic`.  Error messages are not modelled.
* Timing, memory, side channels, concurrency between Go routines sharing one
  object (the library is not thread safe), JSON/gob internals are not modelled
  unless stated.

## Method

Each area has `Model.lean` (definitions citing Go lines), `Lemmas.lean`, and
`Props.lean` (property theorems, each followed by an `example` showing its
hypotheses are satisfiable).  Where the code violates the
property one would expect, the file has a theorem proving the negation
on a concrete witness, and a `_partial` theorem for what does hold.

## Properties

### C01 Shamir shares reconstruct the secret

For every scheme accepted by NewShamir(t, n), every non-zero secret and every randomness used by Split: calling Combine on any selection of at least t pairwise distinct shares, in any order, never returns a scalar other than the secret, and returns exactly the secret whenever none of the selected shares has the value zero (a zero-valued honest share makes Combine return an error).

*Quantified over:* all t,n with 2<=t<=n<=255, all secrets, all polynomial coefficients, all sub-lists (any order) of the shares with at least t elements.

*Plan:* Model NewShamir/Split/Combine over ZMod q with an abstract-but-instantiated scalar codec; prove with Mathlib Lagrange interpolation.

*Status:* proved. All selections and orders; includes the rejection of honest zero shares.

Theorems: `Verif.Sharing.C01_split_combine`, `Verif.Sharing.C01_zero_share_rejected`

### C02 Fewer than t Shamir shares reveal nothing about the secret

For any t-1 distinct participant identifiers and any values handed out for them, every candidate secret is explained by exactly one choice of the random coefficients used by Split; hence the distribution of any t-1 shares is independent of the secret.

*Quantified over:* all thresholds, all sets of t-1 identifiers in 1..n, all observed values, all candidate secrets.

*Plan:* Existence and uniqueness of the coefficient vector given secret and t-1 share values (Vandermonde/Lagrange), stated on the model's Split.

*Status:* proved. Exactly one coefficient vector explains any t-1 shares for any secret.

Theorems: `Verif.Sharing.C02_secrecy`

### C03 Shamir Combine rejects malformed share lists and never panics

Combine returns an error (no result, no panic) whenever it is given fewer than t shares, a share with identifier 0 or greater than n, two shares with the same identifier, a share whose bytes are not a canonical scalar, or a share whose value is zero; otherwise it succeeds. CombinePoints makes the same decision.

*Quantified over:* all share lists whatsoever (any identifiers, any byte strings).

*Plan:* Exact characterisation of the success condition of the modelled Combine.

*Status:* proved. Exact acceptance condition for non-nil share pointers; a nil pointer panics (separate theorem).

Theorems: `Verif.Sharing.C03_combine_decision`, `Verif.Sharing.C03_combinePoints_decision`, `Verif.Sharing.C03_nil_share_panics`

### C04 CombinePoints is Combine in the exponent

For every share list accepted by Combine with result s, CombinePoints returns s times the generator; and it errors exactly when Combine errors.

*Quantified over:* all share lists, all groups whose scalars act on them.

*Plan:* Linear-algebra lemma: scalar action commutes with the interpolation fold.

*Status:* proved. Equality of results for every list.

Theorems: `Verif.Sharing.C04_combinePoints`

### C05 LagrangeCoeffs reconstruct any degree<t sharing at zero

For any list of distinct participant identifiers in 1..255 of length at least t, the coefficients returned by LagrangeCoeffs satisfy sum(lambda_i * share_i) = secret for the shares of any Split.

*Quantified over:* all identifier lists, all polynomials.

*Plan:* Model the map-producing loop; prove equality with the Lagrange basis evaluated at 0.

*Status:* proved. Coefficients of any >= t dealt shares reconstruct the secret.

Theorems: `Verif.Sharing.C05_lagrangeCoeffs`

### C06 Feldman verification accepts exactly the dealt share

With the verifier output of Feldman.Split, Verify accepts every share that Split produced (unless its value is the zero scalar), and for every identifier x, accepts a share (x, y) if and only if y is the canonical non-zero encoding of the dealer's polynomial at x; consequently any t accepted shares with distinct identifiers reconstruct the committed secret.

*Quantified over:* all dealer polynomials, identifiers and candidate share values; all t-subsets of accepted shares.

*Plan:* Module over the scalar field with injective generator map; iff-theorem for Verify.

*Status:* proved. Generator assumed to have trivial annihilator (prime order).

Theorems: `Verif.Sharing.C06_feldman_verify_iff`, `Verif.Sharing.C06_feldman_complete`, `Verif.Sharing.C06_feldman_combine`

### C07 Pedersen verification: completeness, binding up to a discrete log, perfect hiding

Every share pair produced by Pedersen.Split verifies (for non-zero values). If two different share values verify for the same identifier then the discrete logarithm of the second generator is computed explicitly from them. For every commitment vector and every candidate secret there are blinding coefficients producing the same commitments.

*Quantified over:* all polynomials, blinding polynomials, identifiers, forged pairs, candidate secrets.

*Plan:* Algebra in a module; explicit extractor; explicit re-blinding polynomial.

*Status:* proved. Binding with explicit extractor; hiding jointly for commitments and t-1 share pairs.

Theorems: `Verif.Sharing.C07_pedersen_complete`, `Verif.Sharing.C07_pedersen_binding`, `Verif.Sharing.C07_pedersen_hiding`, `Verif.Sharing.C07_nil_generator_panics`

### C08 Pedersen verification ignores the identifier of the blinding share

The outcome of PedersenVerifier.Verify(share, blindShare) depends on blindShare only through its value: replacing blindShare.Id by any other identifier valid on its own never changes the verdict.

*Quantified over:* all share pairs and identifiers.

*Plan:* Direct non-interference theorem on the model.

*Status:* proved. 

Theorems: `Verif.Sharing.C08_blind_id_ignored`

### C09 v1 Shamir shares reconstruct the secret from the first t shares only

In the v1 scheme any list whose first t shares are distinct dealt shares combines to the secret (without its leading zero bytes), zero-valued shares included; Combine succeeds exactly when the first t shares have distinct identifiers in 1..n, duplicates being rejected although the duplicate map is never filled; shares after the first t never influence the result, so an inconsistent extra share goes unnoticed; NewShamir accepts limits of 2^32 and more and silently truncates them.

*Quantified over:* all secrets below the modulus, polynomials, share lists and suffixes of extra shares.

*Plan:* Separate model of v1 with integer-mod-p elements; Lagrange interpolation on the prefix.

*Status:* proved. Integer modulus q prime; exact decision for non-nil shares.

Theorems: `Verif.V1.C09_combine_decision`, `Verif.V1.C09_split_combine`, `Verif.V1.C09_extra_shares_ignored`, `Verif.V1.C09_leading_zeros_lost`, `Verif.V1.C09_limit_truncation`

### C10 Shamir share addition is homomorphic

Adding the shares of two independently shared secrets point-wise (v1 ShamirShare.Add, equal identifiers) gives shares of the sum of the secrets: any t of them combine to the sum; adding shares with different identifiers panics.

*Quantified over:* all pairs of secrets and polynomials, all t-subsets.

*Plan:* Linearity of evaluation plus C09.

*Status:* proved. 

Theorems: `Verif.V1.C10_add_homomorphic`, `Verif.V1.C10_add_mismatch_panics`

### C11 I2OSP/OS2IP are mutually inverse on representable integers and silently wrong otherwise

For every n >= 0 I2OSP(b, n) yields exactly n bytes; for 0 <= b < 256^n OS2IP of it is b, and OS2IP followed by I2OSP of the same length gives the same bytes back. It never reports an error: the sign is dropped, and an integer that does not fit is cut to its n leading bytes, so the result is wrong exactly when b is outside [0, 256^n); a negative length panics.

*Quantified over:* all integers b, all lengths n, all byte strings.

*Plan:* Positional-notation lemmas over List UInt8.

*Status:* proved. Go int modelled as an unbounded integer.

Theorems: `Verif.Core.C11_i2osp_correct_iff`, `Verif.Core.C11_os2ip_i2osp`, `Verif.Core.C11_silent_failures`

### C12 The Fiat-Shamir transcript is injective up to a hash collision, except for signs

If FiatShamir returns the same digest on two argument lists of the same length then either the lists agree up to the sign of each argument or the run exhibits two distinct inputs of the underlying hash with equal outputs; conversely flipping the sign of an argument never changes the digest. The per-step counter bytes are pairwise distinct for up to 255^32 arguments.

*Quantified over:* all argument lists of equal length, every hash function.

*Plan:* Model chain with arbitrary HKDF function parameter; collision extractor by induction; ByteSub as a base-255 counter.

*Status:* proved. HKDF is an arbitrary function with 32-byte output; collisions are exhibited among the queries of the two runs.

Theorems: `Verif.Core.C12_fiatShamir_binding`, `Verif.Core.C12_sign_ignored`, `Verif.Core.C12_nil_rejected`, `Verif.Core.C12_internalHash_binding`, `Verif.Core.C12_counter_distinct`, `Verif.Core.C12_digest_is_last_query`

### C13 Commitments open to what was committed and only to that

Open(Commit(msg)) is true; if one commitment opens for two witnesses (msg, r) and (msg', r') then they are equal or they are a collision of the keyed hash; a commitment of the wrong length is rejected with an error.

*Quantified over:* all messages, nonces and hash functions.

*Plan:* Hash as an arbitrary function parameter.

*Status:* proved. HMAC is an arbitrary function with 32-byte output.

Theorems: `Verif.Core.C13_open_commit`, `Verif.Core.C13_binding`, `Verif.Core.C13_open_decision`

### C14 ConstantTimeEq decides integer equality

ConstantTimeEq(a, b) is true exactly when both are nil or both are non-nil and equal as integers (sign included).

*Quantified over:* all big integers and nil.

*Plan:* Model Bytes() as minimal big-endian magnitude; injectivity.

*Status:* proved. Functional behaviour only; timing is not modelled.

Theorems: `Verif.Core.C14_constantTimeEq`, `Verif.Core.C14_byte_range`

### C15 Modular helpers compute in Z_m

In accepts exactly 0 <= x < m; Add, Mul and Neg return the canonical representative of the ring operation; Inv succeeds exactly when gcd(x, m) = 1 and then returns the unique inverse in [0, m); Exp with a negative exponent is the power of the inverse or nil.

*Quantified over:* all integers x, y and all positive moduli.

*Plan:* Int.emod based model of math/big; Bezout.

*Status:* proved. math/big is trusted as documented.

Theorems: `Verif.Core.C15_in`, `Verif.Core.C15_ring_ops`, `Verif.Core.C15_zero_modulus`, `Verif.Core.C15_inv`, `Verif.Core.C15_exp`, `Verif.Core.C15_nil`, `Verif.Core.C15_rand`

### C87 v1 Feldman and Pedersen verification

With the dealer's verifiers the v1 Feldman verifier accepts a share exactly when its value is the dealer's polynomial at its identifier, for every identifier below the field order including 0 (the pair (0, secret) verifies) and for zero-valued shares; every dealt v1 Pedersen pair verifies; Pedersen splitting with a zero blinding fails.

*Quantified over:* all secrets, polynomials, shares, groups with a generator of prime order.

*Plan:* Reuse of the v1 Shamir model.

*Status:* proved. Pedersen binding is proved for the newer package (C07) only.

Theorems: `Verif.V1.C87_feldman_verify_iff`, `Verif.V1.C87_feldman_complete`, `Verif.V1.C87_feldman_id_zero_accepted`, `Verif.V1.C87_pedersen_complete`

### C88 Field elements refine integers modulo a prime

For a prime modulus every Element operation (Add, Sub, Neg, Mul, Div, Pow, Invert, Clone, byte conversions) on elements of that field returns the element of the corresponding ring operation, in canonical form; operations on elements of different fields panic; Div and Invert by zero panic; ElementFromBytes panics exactly when the integer is not below the modulus.

*Quantified over:* all primes, all pairs of elements, all byte strings.

*Plan:* Int.emod model, homomorphism to ZMod p.

*Status:* proved. Sqrt, RandomElement and JSON not modelled.

Theorems: `Verif.Core.C88_refinement`, `Verif.Core.C88_division`, `Verif.Core.C88_mismatch`, `Verif.Core.C88_bytes`, `Verif.Core.C88_valid`

### C89 ExpandMessageXmd follows the specification and binds message and domain

For a hash with h-byte output ExpandMessageXmd returns exactly lenInBytes bytes equal to the expand_message_xmd construction for 1 <= lenInBytes <= 255*h (with a DST of at most 255 bytes), an error above, and panics for lenInBytes <= 0; equal first output blocks for two (message, DST) pairs of the same requested length imply equal messages and DSTs or an explicit hash collision; Hash to a field element of a supported curve never fails and is below p.

*Quantified over:* all messages, DSTs, lengths and hash functions of fixed output length.

*Plan:* Iterated hash model versus a separate specification by recursion.

*Status:* proved. Hash is an arbitrary function with fixed output length.

Theorems: `Verif.Core.C89_expand_spec`, `Verif.Core.C89_expand_length`, `Verif.Core.C89_expand_binding`, `Verif.Core.C89_hash_total`, `Verif.Core.C89_oversize_dst`

### C90 Sharing constructors and Split decide exactly which parameters and secrets are dealt

NewShamir and NewFeldman succeed exactly for 2 <= t <= n <= 255 and a non-nil curve and otherwise return an error; NewPedersen additionally rejects the identity generator (a nil generator panics). Split errors exactly on the zero secret (Pedersen deals it) and otherwise returns n shares with identifiers 1..n in order whose values are a polynomial with t coefficients and the secret as constant term.

*Quantified over:* all parameters, secrets and randomness.

*Plan:* Decision logic outright on the model of C01/C06/C07; added after mutation tests showed that C01 takes success of the constructor as a hypothesis.

*Status:* proved. 

Theorems: `Verif.Sharing.C90_newShamir_decision`, `Verif.Sharing.C90_newPedersen_decision`, `Verif.Sharing.C90_split_decision`, `Verif.Sharing.C90_feldmanSplit_decision`, `Verif.Sharing.C90_pedersenSplit_total`

### C16 Paillier decryption inverts encryption

For every public key N = p*q with p, q distinct primes and gcd(N,(p-1)(q-1)) = 1, every message in [0, N) and every nonce coprime to N, Decrypt(Encrypt(m, r)) = m; Decrypt succeeds exactly on in-range ciphertexts coprime to N and returns an error otherwise; Encrypt and Decrypt reject out-of-range inputs. NewSecretKey does not check that the primes differ.

*Quantified over:* all primes p,q with gcd(pq,(p-1)(q-1))=1, all messages, all nonces coprime to N.

*Plan:* ZMod (N^2) computation with binomial expansion; Carmichael/Euler argument.

*Status:* proved. Primality testing and prime generation are not modelled; math/big is trusted as documented.

Theorems: `Verif.Paillier.C16_round_trip`, `Verif.Paillier.C16_decrypt_iff`, `Verif.Paillier.C16_decrypt_total`, `Verif.Paillier.C16_range_checks`, `Verif.Paillier.C16_equal_primes_accepted`

### C17 Paillier ciphertext operations are homomorphic

Decrypt(Add(Enc m1, Enc m2)) = m1 + m2 mod N and Decrypt(Mul(a, Enc m)) = a*m mod N for all in-range operands.

*Quantified over:* all keys, messages, nonces and multipliers.

*Plan:* Same algebra as C16.

*Status:* proved. 

Theorems: `Verif.Paillier.C17_add`, `Verif.Paillier.C17_mul`, `Verif.Paillier.C17_range_checks`

### C18 Square-free proofs: completeness, soundness against square factors, and what the challenges bind

The proof produced by PsfProofParams.Prove for an honest key (N coprime to phi(N), not divisible by the order of the curve) is accepted by PsfProof.Verify with matching parameters. If Verify accepts a modulus divisible by the square of a prime l, all 13 challenges satisfy x^l = x mod l^2. The verifier refuses moduli divisible by the curve order and never accepts fewer than 13 entries. The modulus itself is not hashed: two moduli of the same bit length can have the same challenges.

*Quantified over:* all honest keys and public values, every hash function.

*Plan:* N-th root extraction modulo N via M = N^{-1} mod phi.

*Status:* proved. HKDF is an arbitrary function; the rejection-sampling loop carries fuel and theorems speak of terminating runs.

Theorems: `Verif.Paillier.C18_complete`, `Verif.Paillier.C18_verify_iff`, `Verif.Paillier.C18_sound_square`, `Verif.Paillier.C18_rejects`, `Verif.Paillier.C18_short_proof_panics`, `Verif.Paillier.C18_challenges_ignore_modulus`

### C19 Schnorr proofs: completeness

For every witness x, nonce k, base point and session id, if Prove returns a proof then Verify accepts it with the same base point and session id.

*Quantified over:* all witnesses, nonces, base points, session ids and hash functions.

*Plan:* Hash as parameter; scalar decode partial; module algebra.

*Status:* proved. SHA3-256 is an arbitrary function; nil scalars inside a proof are not modelled.

Theorems: `Verif.Schnorr.C19_complete`, `Verif.Schnorr.C19_prove_decision`

### C20 Schnorr proofs: special soundness, transcript binding and simulation

Verify accepts a proof exactly when the challenge is Hash(session, base, statement, R) for the commitment point R with S*base = R + C*statement. Two accepted proofs whose verifications ask the same hash query but get different answers yield the witness by an explicit formula. Two accepted proofs with the same challenge have the same session, base, statement and R, or exhibit a hash collision. For a programmed challenge every response arises from exactly one nonce, whatever the witness.

*Quantified over:* all proofs, sessions, base points, witnesses and hash functions.

*Plan:* Exact acceptance condition plus explicit extractor.

*Status:* proved. Point encodings assumed injective of fixed length where binding is claimed.

Theorems: `Verif.Schnorr.C20_verify_iff`, `Verif.Schnorr.C20_special_soundness`, `Verif.Schnorr.C20_transcript_binding`, `Verif.Schnorr.C20_simulation`

### C21 Committed Schnorr proofs are binding, statement included

DecommitVerify accepts exactly when the commitment is the hash of (C, S) and the proof verifies; honest committed proofs open; the commitment value does not depend on the statement, yet two accepted openings of one commitment are the same proof (statement, base and session included) or one of two named pairs of hash inputs collides.

*Quantified over:* all proofs, commitments, sessions and hash functions.

*Plan:* Decision characterisation on the model plus C20 transcript binding.

*Status:* proved. 

Theorems: `Verif.Schnorr.C21_decommit_iff`, `Verif.Schnorr.C21_complete`, `Verif.Schnorr.C21_binding`, `Verif.Schnorr.C21_commitment_ignores_statement`, `Verif.Schnorr.C21_nil_panics`

### C22 FROST DKG: honest run gives a consistent key

When every participant runs rounds 1 and 2 honestly, all obtain the same verification key, it equals generator times the sum of the secrets, each participant's public share equals generator times its signing share, and any t signing shares interpolate to the secret key. Round 2 completes for every participant provided no challenge, commitment or share happens to be zero / the identity.

*Quantified over:* all t<=n, secrets, polynomials, nonces; any hash function.

*Plan:* Model participants as state + round functions; sum of polynomials.

*Status:* proved. Curve points and scalars abstract; SHA3/hash-to-scalar is an arbitrary function; only curve-mismatch and nil-curve paths are not modelled.

Theorems: `Verif.Frost.C22_honest_run`, `Verif.Frost.C22_completes`

### C23 FROST DKG: round order and input validation

Round1 succeeds only in state 1 and Round2 only in state 2, each at most once in any call sequence. When Round2 succeeds, every accepted broadcast carries a proof of knowledge that verifies and every accepted share matches the broadcast commitments at the identifier written in the share; the outputs are the sums of the accepted values. Not checked, with concrete accepted runs: that this identifier is the receiver's own, that all participants were heard (t-1 suffice, so keys can differ), and that the number of commitments is the threshold.

*Quantified over:* all call sequences and all adversarial messages.

*Plan:* State machine invariant + inversion of Round2 + concrete adversarial runs.

*Status:* proved. Soundness for arbitrary messages and arbitrary call sequences; the three missing checks are exhibited by accepted runs.

Theorems: `Verif.Frost.C23_round2_sound`, `Verif.Frost.C23_round_order`, `Verif.Frost.C23_share_id_unchecked`, `Verif.Frost.C23_subset_accepted`, `Verif.Frost.C23_commitment_count_unchecked`

### C91 FROST DKG: the context string is reduced to one byte

The context passed to NewDkgParticipant should separate protocol executions. It is parsed as a decimal number with the error ignored and truncated to a byte: all contexts that are not decimal numerals give identical participants, as do numerals congruent modulo 256.

*Quantified over:* all pairs of context strings.

*Plan:* Model strconv.Atoi and the byte cast.

*Status:* proved. 

Theorems: `Verif.Frost.C91_context_collapses`, `Verif.Frost.C91_context_mod_256`

### C24 Gennaro DKG: verification key and shares are consistent

NewParticipant succeeds exactly when the identifiers are 1..n in some order and 2<=t<=n. In every honest run all participants complete rounds 2 and 3 (round 3 refuses exactly when the key would be the identity), compute the same verification key, equal to generator times the sum of the individual secrets, and any t or more signing shares interpolate to that sum.

*Quantified over:* all t<=n, all secrets, blindings and polynomials, all delivery orders.

*Plan:* Pedersen+Feldman model reuse.

*Status:* proved. EcPoint operations on points of the curve are assumed not to fail.

Theorems: `Verif.Gennaro.C24_new_decision`, `Verif.Gennaro.C24_honest_run`

### C25 Gennaro DKG round 4 public shares

Round4 should output for every participant j the point generator * (signing share of j). It does not: it computes key + sum_k (j*(k+1)) * R_{j,k} instead; an honest run is exhibited in which the published value differs from the real public share for every participant.

*Quantified over:* all states; refutation by a concrete honest run plus exact formula for what is returned.

*Plan:* Exact output formula theorem + counterexample.

*Status:* proved. The expected property is refuted; the exact output is proved.

Theorems: `Verif.Gennaro.C25_formula`, `Verif.Gennaro.C25_wrong`

### C26 Two-party Gennaro wrapper yields a usable 2-of-2 key

After the message exchanges of the two-party wrapper both sides finish (unless the key would be the identity), hold the same public key, and the two secret shares interpolate (with the coefficients of identifiers 1 and 2) to its discrete logarithm.

*Quantified over:* all secrets and randomness of both parties.

*Plan:* Instance of C24 with t=n=2.

*Status:* proved. 

Theorems: `Verif.Gennaro.C26_two_party`

### C92 Gennaro DKG: round order and guarantees against arbitrary messages

In any sequence of calls with any inputs the rounds succeed in the order 1, 2, 3, each at most once, and then only round 4. If rounds 2 and 3 succeed with the same senders and shares addressed to this participant, its key share lies on the sum of the committed polynomials whose constant term is the public key. The condition is needed: round 3 accepts a subset of the senders of round 2, and a failed round 2 leaves accepted shares behind, so that key and share can disagree (concrete runs).

*Quantified over:* all call sequences, all adversarial messages.

*Plan:* State machine with state updates on failure; inversion of rounds 2 and 3.

*Status:* proved. 

Theorems: `Verif.Gennaro.C92_round_order`, `Verif.Gennaro.C92_rounds_sound`, `Verif.Gennaro.C92_round3_subset_accepted`, `Verif.Gennaro.C92_failed_round2_leaves_share`

### C27 FROST threshold signatures verify

For every honest key generation and every set of exactly t distinct signers, if all run the three signing rounds honestly, every signer's Round3 succeeds, all output the same signature, and Verify accepts it for that message and key.

*Quantified over:* all signer sets, nonces, messages, and hash/challenge functions.

*Plan:* State-machine model, module algebra.

*Status:* proved. Scalar hash, challenge derivation and IsNegative are arbitrary functions; honest runs need an even challenge when R is negative (C93 shows the failure otherwise).

Theorems: `Verif.FrostSign.C27_honest_run`, `Verif.FrostSign.C27_from_dkg`

### C28 FROST signing nonces are used at most once

In any sequence of calls on one signer, at most one Round2 response is produced from a given pair of nonces: Round2 succeeds only once after Round1, erases the nonces, and repeating any round returns an error.

*Quantified over:* all finite call sequences with arbitrary inputs.

*Plan:* Invariant by induction over the call list.

*Status:* proved. Every call sequence, failing and panicking calls included.

Theorems: `Verif.FrostSign.C28_at_most_one_response`

### C29 FROST round 3 never releases an invalid signature and detects bad responses

If SignRound3 returns a signature then that signature satisfies the Schnorr verification equation and every cosigner response satisfied its own share equation.

*Quantified over:* all (adversarial) round-3 inputs.

*Plan:* Inversion of the model's success path.

*Status:* proved. 

Theorems: `Verif.FrostSign.C29_round3_sound`, `Verif.FrostSign.C29_signature_equation`

### C30 Aggregated ted25519 signatures equal a single-signer signature

For any t partial signatures from distinct holders of shares of one key and one nonce (after adding nonce shares), Aggregate yields exactly the Ed25519 signature equation value R, s = r + H(R,pk,m)*sk, which satisfies the Ed25519 verification equation.

*Quantified over:* all keys, nonces, polynomials, messages, t-subsets.

*Plan:* Linear combination with Lagrange coefficients.

*Status:* proved. SHA-512, the wide reduction and the point encoding are arbitrary functions (encoding decodes back, 32 bytes). Signers are those whose TSign did not panic on a zero share.

Theorems: `Verif.Ted.C30_aggregate`, `Verif.Ted.C30_verifies`, `Verif.Ted.C30_end_to_end`, `Verif.Ted.C30_zero_share_panics`

### C31 ted25519 VSS verification rejects honest shares once id^j exceeds a byte

VerifyVSS should accept every honestly dealt share. It treats big-endian integer bytes as little-endian scalars, so it accepts honest shares only as long as every power id^j (j<t) is below 256; a concrete honest share with larger power is rejected.

*Quantified over:* all identifiers and thresholds; refutation by a concrete witness.

*Plan:* Model byte order explicitly; negation + partial.

*Status:* proved. The expected property is refuted; exact behaviour is proved.

Theorems: `Verif.Ted.C31_exact`, `Verif.Ted.C31_error`, `Verif.Ted.C31_too_few`, `Verif.Ted.C31_correct_below_256`, `Verif.Ted.C31_rejects_honest`

### C32 Seed OT delivers exactly the chosen pad

After an honest run of the simplest-OT rounds the receiver's pad for every index equals the sender's pad for the chosen bit; the receiver's verification message is accepted and Encrypt/Decrypt returns the chosen message.

*Quantified over:* all batch sizes, choice bits, scalars, messages and hash functions.

*Plan:* Diffie-Hellman algebra in a module; hash as parameter.

*Status:* proved. For batch sizes divisible by 8 (others are refused) and masked points other than the identity.

Theorems: `Verif.Ot.C32_honest`, `Verif.Ot.C32_round5_iff`, `Verif.Ot.C32_round6_iff`, `Verif.Ot.C32_short_messages_panic`

### C33 binaryFieldMul multiplies in GF(2^256)

The carry-less multiply-and-reduce loop of the OT extension computes multiplication of polynomials over GF(2) modulo X^256+X^10+X^5+X^2+1: it is commutative, distributes over XOR, has identity 1 and is associative.

*Quantified over:* all pairs/triples of 256-bit strings.

*Plan:* BitVec 256 model, homomorphism into AdjoinRoot/Polynomial (ZMod 2) quotient.

*Status:* proved. 

Theorems: `Verif.Ot.C33_mul`, `Verif.Ot.C33_modulus_irreducible`, `Verif.Ot.C33_comm`, `Verif.Ot.C33_assoc`, `Verif.Ot.C33_distrib`, `Verif.Ot.C33_one`, `Verif.Ot.C33_inverse`

### C34 OT-extension matrix transpose is the transpose

transposeBooleanMatrix maps bit (i, j) of the packed input to bit (j, i) of the packed output for every position.

*Quantified over:* all matrices and all positions.

*Plan:* Bit-level fold model.

*Status:* proved. 

Theorems: `Verif.Ot.C34_transpose`, `Verif.Ot.C34_involutive`

### C35 Correlated OT extension is correct and its consistency check passes for honest parties

In an honest run the sender accepts the receiver's check and for each index and each overlaid slot the two output shares sum to choice bit times the sender's input.

*Quantified over:* all seeds, choice vectors, inputs, and PRG/hash functions.

*Plan:* Row-wise XOR algebra; abstract field for check; uses C33 linearity.

*Status:* proved. Honest runs abort with an error exactly if a pseudorandom string does not encode a scalar; otherwise the shares are correct.

Theorems: `Verif.Ot.C35_honest`, `Verif.Ot.C35_check`, `Verif.Ot.C35_from_seed`

### C36 DKLs multiplication produces additive shares of the product

For every encoding randomness, an honest run of the multiply protocol gives outputs with aliceShare + bobShare = alpha * beta, and Bob's check of Alice's message passes.

*Quantified over:* all inputs alpha, beta, random pads and gadget vectors.

*Plan:* Field algebra over lists indexed by gadget.

*Status:* proved. 

Theorems: `Verif.Dkls.C36_honest`, `Verif.Dkls.C36_round3_iff`

### C37 DKLs signing produces a valid ECDSA signature

For every pair of key shares, nonces and digest for which no inverse of zero is taken, honest runs of Alice and Bob end in Bob holding (r, s) that satisfies the ECDSA verification equation for the joint public key; Bob never outputs a signature failing verification.

*Quantified over:* all key shares, nonces, masks and digests.

*Plan:* Field/module algebra with x-coordinate as arbitrary function.

*Status:* proved. Bob accepts exactly if the signature verifies (with multiplication shares of the right sum); the rounds of honest parties succeed if every digest encodes a scalar.

Theorems: `Verif.Dkls.C37_honest`, `Verif.Dkls.C37_round4_iff`, `Verif.Dkls.C37_rounds_succeed`

### C38 DKLs signature normalisation is not canonical low-S

Bob's output should always have s <= (q-1)/2. The code negates s iff bit 255 is set, so the result is low only when q/2 and 2^255 coincide closely; for every s in (q/2, 2^255) the emitted signature is high-S (a non-empty range for secp256k1 and P-256), while negation preserves validity.

*Quantified over:* all s in [1,q-1]; refutation by witness.

*Plan:* Concrete moduli; negation + partial.

*Status:* proved. The expected property (low s) is refuted; exact behaviour is proved.

Theorems: `Verif.Dkls.C38_normalize`, `Verif.Dkls.C38_gap`, `Verif.Dkls.C38_not_low`

### C39 DKLs refresh preserves the key and re-randomises shares

After an honest refresh both parties' new shares still multiply to the same secret key and the public key is unchanged.

*Quantified over:* all shares and all seeds (any hash).

*Plan:* Field algebra: k and k^-1 factors.

*Status:* proved. The product of the shares and the public keys are preserved whenever the extracted multiplier is nonzero; for zero Alice gets an error and Bob is left with the share zero.

Theorems: `Verif.Dkls.C39_honest`, `Verif.Dkls.C39_zero_multiplier`

### C40 DKLs DKG: both parties derive the same public key

In an honest DKG both parties output pk = skA*skB*G; Bob accepts only if Alice's decommitment matches her earlier commitment.

*Quantified over:* all secrets, nonces, hash functions.

*Plan:* Module algebra reusing schnorr model.

*Status:* proved. Also trusted dealer, and key generation followed by signing.

Theorems: `Verif.Dkls.C40_honest`, `Verif.Dkls.C40_alice_accepts`, `Verif.Dkls.C40_bob_accepts`, `Verif.Dkls.C40_zero_share`, `Verif.Dkls.C40_dealer`, `Verif.Dkls.C40_then_sign`

### C41 The protocol stepper executes each step exactly once and in order

For any sequence of Next calls with arbitrary step outcomes, the executed steps form an increasing sequence without gaps in which a failed step is retried; once all steps succeeded Next always reports EOF, and Result is available only then.

*Quantified over:* all sequences of Next/Result calls and step outcomes.

*Plan:* State machine; trace invariant.

*Status:* proved. 

Theorems: `Verif.Dkls.C41_order`, `Verif.Dkls.C41_finished`, `Verif.Dkls.C41_result`

### C42 Protocol messages are version-checked

Decoding a serialized protocol message or DKG state succeeds only if its version equals the supported one and decoding an encoded payload returns the payload.

*Quantified over:* all messages and payloads; any injective payload codec.

*Plan:* Model the envelope with abstract payload codec.

*Status:* proved. Holds for key generation and signing; the refresh accepts every version from 200 on, and protocol name and round number are never checked (both proved).

Theorems: `Verif.Dkls.C42_versions`, `Verif.Dkls.C42_refresh_versions`, `Verif.Dkls.C42_roundtrip`, `Verif.Dkls.C42_ignored`, `Verif.Dkls.C42_cross_protocol`, `Verif.Dkls.C42_nil`

### C43 GG20 additive shares sum to the key

For every dealt key and every set of at least t cosigners with identifiers in 1..255, the additive shares derived by the signers sum to the secret key and each derived public additive share is generator times the private one.

*Quantified over:* all polynomials, cosigner sets.

*Plan:* Lagrange at zero with sign conventions of the code.

*Status:* proved. Also: identifiers agreeing in the last byte give an error, a cosigner list without the own identifier a panic, and a negative dealer key a public key that does not match the shares.

Theorems: `Verif.Gg20.C43_newSigner`, `Verif.Gg20.C43_sum`, `Verif.Gg20.C43_setup`, `Verif.Gg20.C43_dealt`, `Verif.Gg20.C43_proofParams`, `Verif.Gg20.C43_byte_collision`, `Verif.Gg20.C43_own_id_missing_panics`, `Verif.Gg20.C43_negative_key`

### C44 GG20 MtA yields additive shares modulo q

If a,b < q and q^2+q^5 <= N, decrypting the response ciphertext and reducing mod q gives alpha with alpha + beta = a*b mod q.

*Quantified over:* all a, b, beta', nonces and Paillier keys of sufficient size.

*Plan:* Uses Paillier homomorphism (C17); no-wrap argument over Nat.

*Status:* proved. Also the exact value outside the honest range, and when the initiator accepts.

Theorems: `Verif.Gg20.C44_mta`, `Verif.Gg20.C44_wrap`, `Verif.Gg20.C44_accepts`

### C45 GG20 honest signing gives a valid low-S ECDSA signature

In an honest run of all rounds the offline check V = g passes, the combined (r, s) satisfies the ECDSA equation for the public key, s <= q/2, and the recovery bit is flipped exactly when s was negated.

*Quantified over:* all shares, nonces, digests, t.

*Plan:* Field/module algebra over Finset of signers.

*Status:* proved. All rounds, any message order, with trusted dealer or distributed parameters; blinding values must leave room for the challenge (all but a fraction 2^-256), and R must have an x-coordinate below the order.

Theorems: `Verif.Gg20.C45_honest_run`, `Verif.Gg20.C45_signature_valid`, `Verif.Gg20.C45_from_shares`

### C46 GG20 range proofs: completeness, and the range check is one-sided

Every honest range-1 proof with s1 <= q^3 verifies. The verifier bounds s1 only from above: for every negative plaintext of arbitrary magnitude a dishonest prover obtains an accepted proof, so acceptance does not imply the plaintext is in the claimed range.

*Quantified over:* all plaintexts, nonces, moduli and hash functions.

*Plan:* Model big.Int Exp with negative exponents in units of ZMod n.

*Status:* proved. The range is refuted: every plaintext has an accepted proof.

Theorems: `Verif.Gg20.C46_verify_iff`, `Verif.Gg20.C46_range1_complete`, `Verif.Gg20.C46_no_range`, `Verif.Gg20.C46_upper`

### C47 GG20 composite-dlog proofs verify

For h2 = h1^x modulo N with h1 of order dividing the product p'q' the proof of Prove is accepted by Verify; an accepted pair of transcripts with a differing challenge bit determines the discrete logarithm.

*Quantified over:* all moduli, generators, exponents, nonces and hash functions.

*Plan:* Units of ZMod N.

*Status:* proved. Soundness as extraction from two accepted transcripts with a differing challenge bit; for h1 not a unit (h1 = h2 = 0) a proof always exists.

Theorems: `Verif.Gg20.C47_verify_iff`, `Verif.Gg20.C47_complete`, `Verif.Gg20.C47_sound`, `Verif.Gg20.C47_short_crash`, `Verif.Gg20.C47_degenerate`

### C48 GG20 signer rounds accept exactly the expected cosigners

A signing round proceeds only when the signer's round counter matches and the set of senders other than itself equals the configured cosigner set.

*Quantified over:* all maps of senders and all states.

*Plan:* Finset model of the two loops.

*Status:* proved. 

Theorems: `Verif.Gg20.C48_check`, `Verif.Gg20.C48_rounds`, `Verif.Gg20.C48_no_replay`, `Verif.Gg20.C48_nil_panics`

### C49 GG20 DKG: shares consistent, published public shares wrong

In an honest DKG all participants compute the same key y = g^{sum u_i} and signing shares that interpolate to its logarithm, but the published public shares X_j differ from g^{x_j} (linear instead of polynomial evaluation); exact formula and counterexample.

*Quantified over:* all honest runs.

*Plan:* As C25.

*Status:* proved. Honest runs in any message order; the published share of j is right exactly for one value of the key given the other coefficients; signing with correct public shares succeeds.

Theorems: `Verif.Gg20.C49_honest_run`, `Verif.Gg20.C49_interpolates`, `Verif.Gg20.C49_published_iff`, `Verif.Gg20.C49_then_sign`

### C50 Pippenger multi-exponentiation equals the naive sum

SumOfProducts (window 6, 43 windows, 63 buckets) returns sum_i s_i*P_i for all lists of equal non-zero length whose scalars encode below 2^256, and nil for lists of different length.

*Quantified over:* all list lengths, scalars and points.

*Plan:* AddCommGroup model of the bucket algorithm; digit decomposition.

*Status:* proved. For every point type whose Add and Double implement a commutative group.

Theorems: `Verif.Native.C50_pippenger`, `Verif.Native.C50_pippenger_mod`, `Verif.Native.C50_nil_iff`

### C51 Native SumOfProducts equals the naive sum

The 4-bit-window multi-scalar multiplication of the native point type returns sum_i s_i*P_i and an error on length mismatch.

*Quantified over:* all list lengths, scalars and points.

*Plan:* Same technique, window 4.

*Status:* proved. 

Theorems: `Verif.Native.C51_sumOfProducts`, `Verif.Native.C51_mismatch`

### C52 Windowed scalar multiplication computes n*P

EllipticPoint.Mul with its precomputed table of 16 multiples returns scalar*P for every point and every canonical scalar.

*Quantified over:* all points in an abelian group, all 256-bit scalars.

*Plan:* Loop invariant over nibbles.

*Status:* proved. 

Theorems: `Verif.Native.C52_mul`, `Verif.Native.C52_k256`, `Verif.Native.C52_p256`

### C53 Field exponentiation loop computes powers

Field.Pow (and Pow2k) return base^exp for every 256-bit exponent in any commutative monoid.

*Quantified over:* all bases, exponents.

*Plan:* Loop invariant over bits.

*Status:* proved. 

Theorems: `Verif.Native.C53_pow`, `Verif.Native.C53_pow2k`, `Verif.Native.C53_exp`

### C54 Constant-time limb comparison is the integer comparison of limbs

cmpHelper returns -1, 0 or 1 exactly according to the order of the two 256-bit integers given by the limbs; equality and zero tests agree with integer equality; none of the bit tricks overflow incorrectly.

*Quantified over:* all pairs of 4x64-bit limb vectors.

*Plan:* UInt64/BitVec lemmas.

*Status:* proved. 

Theorems: `Verif.Native.C54_cmp`, `Verif.Native.C54_equal`

### C55 Scalar Cmp compares Montgomery residues, not integers

Cmp of native scalars should order them as integers in [0,q). It compares Montgomery representations: it returns 0 iff equal, but for a concrete pair x < y it returns 1.

*Quantified over:* all pairs; refutation by witness.

*Plan:* Concrete modulus; Montgomery map x*2^256 mod q.

*Status:* proved. The expected property is refuted; exact behaviour is proved.

Theorems: `Verif.Native.C55_cmp_zero`, `Verif.Native.C55_cmp_montgomery`, `Verif.Native.C55_witness`

### C56 secp256k1 projective formulas implement the group law

The complete Add and Double formulas of the native K256 point agree with affine chord-and-tangent addition for every pair of valid points including doubling, inverses and the identity, and stay on the curve.

*Quantified over:* all pairs of points on y^2=x^3+7 over any field of characteristic not 2,3 with no 2-torsion.

*Plan:* WeierstrassCurve.Affine group law in Mathlib or polynomial identities.

*Status:* proved. Against the group of points of Mathlib, for the concrete primes without hypotheses.

Theorems: `Verif.Native.C56_k256_add`, `Verif.Native.C56_k256_double`, `Verif.Native.C56_p256_add`, `Verif.Native.C56_p256_double`, `Verif.Native.C56_neg`, `Verif.Native.C56_k256`, `Verif.Native.C56_p256`

### C57 Scalar byte encodings round-trip and are canonical

SetBytes(Bytes(x)) = x for every scalar, SetBytes accepts a 32-byte string iff it encodes an integer below the modulus, and accepted strings re-encode to themselves (big-endian and little-endian families).

*Quantified over:* all scalars and byte strings.

*Plan:* Positional notation.

*Status:* proved. Montgomery multiplication of the generated field code is modelled by its result.

Theorems: `Verif.Native.C57_setBytes`, `Verif.Native.C57_bytes`, `Verif.Native.C57_roundtrip`, `Verif.Native.C57_canonical`, `Verif.Native.C57_wide`, `Verif.Native.C57_bigInt`

### C58 Compressed point encoding round-trips except for the identity on P-256, and decoding of off-curve x yields the identity

Decoding a compressed encoding of any non-identity point returns that point. A compressed string whose x is not on the curve decodes to the identity without error; the identity encodes as x=0, which on a curve where x=0 is a valid abscissa (P-256) decodes to a different point. Uncompressed decoding round-trips for non-identity points but accepts every pair of canonical field elements, on the curve or not, and decodes the encoded identity to coordinates off the curve.

*Quantified over:* all points and byte strings.

*Plan:* Model over a field with sqrt oracle and parity function.

*Status:* proved. 

Theorems: `Verif.Native.C58_fromCompressed`, `Verif.Native.C58_fromUncompressed`, `Verif.Native.C58_roundtrip_compressed`, `Verif.Native.C58_compressed_inj`, `Verif.Native.C58_compressed_identity`, `Verif.Native.C58_roundtrip_uncompressed`, `Verif.Native.C58_uncompressed_any`, `Verif.Native.C58_uncompressed_identity`, `Verif.Native.C58_k256_identity`, `Verif.Native.C58_p256_identity`, `Verif.Native.k256Enc_ok`, `Verif.Native.p256Enc_ok`

### C59 Inner-product proofs of every power-of-two length verify

For vectors a, b of any length 2^k and any generators, the proof produced by the prover is accepted by Verify and by VerifyFromRangeProof for the matching commitment, for every challenge function with non-zero outputs; non-powers of two and mismatched lengths are rejected.

*Quantified over:* all k, vectors, generators, challenge functions.

*Plan:* Recursive prover model; induction on k.

*Status:* proved. Verification equation for arbitrary proofs, completeness, and exactly which inputs get a proof. Points form a module over the scalar field.

Theorems: `Verif.Bulletproof.C59_verify`, `Verif.Bulletproof.C59_complete`, `Verif.Bulletproof.C59_getP`, `Verif.Bulletproof.C59_prove`, `Verif.Bulletproof.C59_isPowerOfTwo_zero`, `Verif.Bulletproof.rangeIPP`

### C60 Range proofs of in-range values verify

For every n a power of two >= 2, every value 0 <= v < 2^n (little-endian scalar encoding), blinding and challenges, the proof of RangeProver is accepted by RangeVerifier.

*Quantified over:* all n, v, blindings, challenges.

*Plan:* Vector algebra; reuse C59.

*Status:* proved. 

Theorems: `Verif.Bulletproof.C60_complete`, `Verif.Bulletproof.C60_prove_verify`

### C61 Range prover boundary and encoding defects

The prover should refuse v >= 2^n. It accepts v = 2^n; and the bit decomposition reads the scalar's bytes as little-endian, so for big-endian scalar types the committed bits are not those of v; concrete witnesses.

*Quantified over:* all n, v; refutation by witnesses.

*Plan:* Decision theorem + counterexamples.

*Status:* proved. The expected property is refuted; exact behaviour is proved.

Theorems: `Verif.Bulletproof.C61_boundary`, `Verif.Bulletproof.C61_refused`, `Verif.Bulletproof.C61_bits`, `Verif.Bulletproof.C61_big_endian`

### C62 Batched range proofs of in-range values verify

The aggregated proof over m >= 2 values of n bits, n*m a power of two, is accepted by the batched verifier for all in-range values. A batch of one value makes both prover and verifier panic; fewer blindings than values make the prover panic.

*Quantified over:* all n, m, values, blindings, challenges.

*Plan:* Extension of C60.

*Status:* proved. 

Theorems: `Verif.Bulletproof.C62_complete`, `Verif.Bulletproof.C62_prove_verify`, `Verif.Bulletproof.C62_single_verify_panics`, `Verif.Bulletproof.C62_single_prove_panics`, `Verif.Bulletproof.C62_short_gamma_panics`

### C63 Accumulator value depends only on the multiset of elements

After any history of Add, Remove, AddElements and Update the accumulator equals base * prod(e+sk) over additions divided by removals; adding then removing an element restores the value; the order of operations is irrelevant.

*Quantified over:* all operation histories.

*Plan:* Induction over operation lists.

*Status:* proved. Failing calls are part of the histories.

Theorems: `Verif.Accum.C63_history`, `Verif.Accum.C63_order_independent`, `Verif.Accum.C63_all_succeed`, `Verif.Accum.C63_add_remove`, `Verif.Accum.C63_absorbing`, `Verif.Accum.C63_with_elements`, `Verif.Accum.C63_update_decision`

### C64 Membership witnesses verify iff they satisfy the pairing equation

A witness created for y against the current accumulator verifies (when values are non-degenerate), for members and non-members alike; Verify accepts exactly the unique C with (y+sk)*C = V.

*Quantified over:* all elements, keys, accumulators.

*Plan:* Non-degenerate bilinear pairing.

*Status:* proved. Pairing is an arbitrary non-degenerate bilinear map.

Theorems: `Verif.Accum.C64_verify_iff`, `Verif.Accum.C64_new_decision`, `Verif.Accum.C64_new_verifies`, `Verif.Accum.C64_unique`, `Verif.Accum.C64_removed_refused`

### C65 Batch witness updates track the accumulator

For every sequence of batch updates (additions and deletions not containing y), BatchUpdate and MultiBatchUpdate turn a witness valid for the old accumulator into one valid for the new accumulator using only public coefficients; when y itself is deleted the update fails with an error.

*Quantified over:* all batches, all histories, all y.

*Plan:* Telescoping polynomial identities over a field.

*Status:* proved. 

Theorems: `Verif.Accum.C65_batch_update`, `Verif.Accum.C65_batch_verifies`, `Verif.Accum.C65_multi_batch_update`, `Verif.Accum.C65_multi_eq_sequential`, `Verif.Accum.C65_deleted_error`, `Verif.Accum.C65_multi_deleted_error`, `Verif.Accum.C65_empty_update_panics`, `Verif.Accum.C65_nil_element`, `Verif.Accum.C65_added_any`

### C66 Accumulator membership proofs are complete

Finalize recomputes exactly the commitments of the prover, hence the verifier's challenge equals the prover's, for every valid witness and every randomness.

*Quantified over:* all witnesses and randomness.

*Plan:* Bilinear algebra.

*Status:* proved. 

Theorems: `Verif.Accum.C66_finalize`, `Verif.Accum.C66_challenge`, `Verif.Accum.C66_challenge_binding`

### C67 BBS+ signatures verify

For every key, message list and signature randomness with e+x != 0, a signature returned by Sign is accepted by Verify for the same messages and generators.

*Quantified over:* all keys, messages, randomness, hash functions.

*Plan:* Bilinear algebra.

*Status:* proved. Pairing is an arbitrary bilinear map (non-degenerate where the iff is claimed); SHAKE sampling is an arbitrary function.

Theorems: `Verif.Bbs.C67_verify_iff`, `Verif.Bbs.C67_sign_decision`, `Verif.Bbs.C67_sign_verify`, `Verif.Bbs.C67_nonce_binding`

### C68 BBS+ signatures should bind the message vector but only bind its sum

One would expect a signature to bind the message vector. All message generators Get(1..n) are the same point as the blinding generator, so a signature verifies for every other vector with the same sum, and changing only its s component turns it, without the secret key, into a valid signature on any other message vector of admissible length.

*Quantified over:* all signatures and message vectors with equal sum.

*Plan:* Model Get faithfully incl. the unused modified copy.

*Status:* proved. The expected property is refuted.

Theorems: `Verif.Bbs.C68_generators_equal`, `Verif.Bbs.C68_state_binding`, `Verif.Bbs.C68_universal_forgery`, `Verif.Bbs.C68_same_sum`

### C69 BBS+ blind signing round trip

A blind signature on a verified commitment context, unblinded by the holder, verifies for the complete message vector.

*Quantified over:* all messages split into known/hidden, blindings.

*Plan:* Bilinear algebra + map iteration order as arbitrary permutation.

*Status:* proved. Go map iteration order is arbitrary.

Theorems: `Verif.Bbs.C69_blind_round_trip`, `Verif.Bbs.C69_context_binding`, `Verif.Bbs.C69_issuer_verifies`

### C70 BBS+ selective-disclosure proofs verify

A proof of knowledge of a valid signature generated with any subset of revealed messages is accepted by the verifier for those revealed messages and the same nonce.

*Quantified over:* all signatures, subsets, randomness, hash functions.

*Plan:* Sigma protocol algebra.

*Status:* proved. 

Theorems: `Verif.Bbs.C70_proof_verifies`, `Verif.Bbs.C70_proof_binding`, `Verif.Bbs.C70_message_count`

### C71 Sigma-protocol builder responses reproduce the commitment

For any number of committed (point, secret) pairs the responses s_i = r_i + c*x_i satisfy sum s_i P_i = commitment + c * statement; Get and GenerateProof preserve order and reject a wrong number of secrets.

*Quantified over:* all list lengths, secrets, nonces, challenges.

*Plan:* List induction.

*Status:* proved. 

Theorems: `Verif.SigCommon.C71_commit`, `Verif.SigCommon.C71_wrong_number`, `Verif.SigCommon.C71_responses`, `Verif.SigCommon.C71_get`

### C72 HMAC-DRBG reads

Read(dst) should fill any destination. The loop writes whole hash blocks without bound check: it returns normally exactly when len(dst) is a multiple of the hash size and otherwise panics.

*Quantified over:* all destination lengths.

*Plan:* Index-explicit loop model.

*Status:* proved. HMAC is an arbitrary function of fixed output size.

Theorems: `Verif.SigCommon.C72_read_ok`, `Verif.SigCommon.C72_read_panics`, `Verif.SigCommon.C72_state_size`, `Verif.SigCommon.C72_read_state`

### C73 BLS signatures verify and are unique

For every non-zero secret key and message, Verify accepts exactly the signature produced by Sign (for a non-identity message hash): any accepted signature equals it.

*Quantified over:* all keys, messages, candidate signatures, hash functions.

*Plan:* Non-degenerate pairing.

*Status:* proved. Pairing is an arbitrary bilinear map, non-degenerate at the generator; hash to curve is an arbitrary function; points are in the prime-order subgroup.

Theorems: `Verif.Bls.C73_decision`, `Verif.Bls.C73_no_panic`, `Verif.Bls.C73_sign_verifies`, `Verif.Bls.C73_unique`, `Verif.Bls.C73_other_message`, `Verif.Bls.C73_other_key`, `Verif.Bls.C73_tiny`

### C74 BLS aggregation accepts exactly the sum of valid signatures

AggregateVerify accepts iff the sum of the supplied signatures equals the sum of the individual valid signatures; the basic scheme rejects repeated messages; FastAggregateVerify equals verification under the sum of keys.

*Quantified over:* all lists of keys, messages, signatures.

*Plan:* Pairing linearity + allRowsUnique characterisation.

*Status:* proved. 

Theorems: `Verif.Bls.C74_aggregate_verify`, `Verif.Bls.C74_honest`, `Verif.Bls.C74_aug_aggregate_verify`, `Verif.Bls.C74_fast_aggregate`, `Verif.Bls.C74_multi`, `Verif.Bls.C74_tiny`

### C75 Threshold BLS: any t partial signatures combine to the full signature

Combining partial signatures of any >= t distinct shares returns the signature under the shared key; duplicates, nil and fewer than two partials are rejected.

*Quantified over:* all polynomials, subsets, messages.

*Plan:* Lagrange in the exponent.

*Status:* proved. 

Theorems: `Verif.Bls.C75_decision`, `Verif.Bls.C75_no_panic`, `Verif.Bls.C75_thresholdize`, `Verif.Bls.C75_any_threshold`, `Verif.Bls.C75_aug_threshold`

### C76 BLS secret key share encoding round-trips

MarshalBinary/UnmarshalBinary of secret key shares are inverse for every 32-byte value and identifier not all zero.

*Quantified over:* all share values and identifiers.

*Plan:* Byte-list model.

*Status:* proved. 

Theorems: `Verif.Bls.C76_share_roundtrip`, `Verif.Bls.C76_share_canonical`, `Verif.Bls.C76_share_other_lengths`, `Verif.Bls.C76_key_roundtrip`, `Verif.Bls.C76_generate`

### C77 Mina signatures verify

For every secret key, message or transaction and derived nonce, a signature returned by signing is accepted by verification.

*Quantified over:* all keys, messages, hash functions.

*Plan:* Group with x/y-parity functions satisfying negation laws.

*Status:* proved. The coordinates of the curve are functions with the laws of a Weierstrass curve without points of order two; Blake2b is arbitrary.

Theorems: `Verif.Mina.C77_verify_iff`, `Verif.Mina.C77_sign_verifies`, `Verif.Mina.C77_message`, `Verif.Mina.C77_sign_fails`, `Verif.Mina.C77_newKeys`

### C78 Mina message signatures do not bind trailing zero bytes

A signature should be valid only for the signed message. The packing of message bits into field elements omits the length, so a signature on msg verifies for msg followed by zero bytes whenever the number of 254-bit chunks is unchanged; within one chunk count, packing is injective up to trailing zeros.

*Quantified over:* all messages and paddings.

*Plan:* Bit-list model; negation + partial injectivity.

*Status:* proved. The expected property is refuted; trailing zeros within a block of the sponge are exactly the freedom, up to named collisions.

Theorems: `Verif.Mina.C78_sponge`, `Verif.Mina.C78_trailing_zeros`, `Verif.Mina.C78_binding`, `Verif.Mina.C78_same_input`

### C79 BitVector operations refine list operations

Append, Element, Set, Insert and Delete act as the corresponding operations on the list of the first `length` bits, for every operation sequence; out-of-range indexes panic.

*Quantified over:* all operation sequences.

*Plan:* Refinement to List Bool.

*Status:* proved. Below 2^32 bits; beyond, Append overwrites old bits (C79_append_wrap).

Theorems: `Verif.Mina.C79_new`, `Verif.Mina.C79_append`, `Verif.Mina.C79_append_wrap`, `Verif.Mina.C79_element`, `Verif.Mina.C79_set`, `Verif.Mina.C79_insert`, `Verif.Mina.C79_delete`, `Verif.Mina.C79_appends`, `Verif.Mina.C79_pack`

### C80 Mina transaction encoding

UnmarshalBinary(MarshalBinary(t)) = t for every transaction whose memo has at most 32 bytes; for longer memos the encoding is garbled or encoding panics, and decoding a 175-byte string whose keys decode panics exactly if its memo-length byte exceeds 117.

*Quantified over:* all transactions and byte strings.

*Plan:* Byte-list model with uint8 arithmetic.

*Status:* proved. For keys that survive compression (C112) and networks below 256.

Theorems: `Verif.Mina.C80_length`, `Verif.Mina.C80_roundtrip`, `Verif.Mina.C80_long_memo_panics`, `Verif.Mina.C80_long_memo_garbled`, `Verif.Mina.C80_unmarshal_panics`, `Verif.Mina.C80_trailing`, `Verif.Mina.C80_tag_byte`

### C81 NEM (Ed25519-Keccak) signatures verify

For every seed and message, Verify accepts Sign's output; signatures with any of the top three bits of the last byte set or of wrong length are rejected.

*Quantified over:* all seeds, messages, hash functions.

*Plan:* Module algebra + codec.

*Status:* proved. Keccak is an arbitrary function with 64 bytes of output.

Theorems: `Verif.Nem.C81_verify_iff`, `Verif.Nem.C81_verify_no_panic`, `Verif.Nem.C81_newKey`, `Verif.Nem.C81_sign_verifies`, `Verif.Nem.C81_sign_total`, `Verif.Nem.C81_parts`

### C82 Verifiable ElGamal decrypts what was encrypted and homomorphic addition works

VerifiableDecrypt(WithDomain) of a ciphertext made with the matching domain returns the message; decryption of the sum of two homomorphic ciphertexts is the sum of the message points.

*Quantified over:* all keys, messages, blindings, nonces, hash and AEAD functions with Open(Seal)=id.

*Plan:* Module algebra.

*Status:* proved. AES-GCM is a pair of functions with Open(Seal) = id.

Theorems: `Verif.ElGamal.C82_encrypt`, `Verif.ElGamal.C82_encrypt_nil`, `Verif.ElGamal.C82_decrypt_exact`, `Verif.ElGamal.C82_decrypt_domain_exact`, `Verif.ElGamal.C82_roundtrip`, `Verif.ElGamal.C82_cross_domain`, `Verif.ElGamal.C82_homomorphic`, `Verif.ElGamal.C82_homomorphic_from_verifiable`

### C83 Verifiable ElGamal proofs are complete but reveal the message point

Proofs generated with the matching domain/nonce verify. The proof should reveal nothing beyond validity, but because the ElGamal blinding is reused as the proof nonce, anybody can compute message*G from ciphertext and proof: c^{-1}*(C1 - s1*G).

*Quantified over:* all messages, blindings, nonces and hash functions with non-zero challenge.

*Plan:* Explicit public extractor function.

*Status:* proved. VerifyDomainEncryptProof uses the proof nonce in place of the domain; exact behaviour is proved. The leak refutes zero knowledge.

Theorems: `Verif.ElGamal.C83_accept_iff`, `Verif.ElGamal.C83_complete`, `Verif.ElGamal.C83_domain_exact`, `Verif.ElGamal.C83_domain_complete`, `Verif.ElGamal.C83_special_soundness`, `Verif.ElGamal.C83_leak`

### C84 Camenisch-Shoup decryption inverts encryption

Decrypt(Encrypt(msgs)) = msgs for all messages in [0,n), labels and randomness; a message equal to n is accepted by Encrypt and decrypts to 0.

*Quantified over:* all groups, keys, messages, labels, hash functions.

*Plan:* ZMod n^2 units; binomial.

*Status:* proved. 

Theorems: `Verif.CamShoup.C84_group`, `Verif.CamShoup.C84_newKeys`, `Verif.CamShoup.C84_roundtrip`, `Verif.CamShoup.C84_encrypt_refuses`, `Verif.CamShoup.C84_label`, `Verif.CamShoup.C84_decrypt_sound`

### C85 Camenisch-Shoup proofs lose their sign when serialized

A valid proof should survive MarshalBinary/UnmarshalBinary. Responses are usually negative and Bytes() drops the sign: the round trip returns the absolute values; it is the identity iff all responses are non-negative.

*Quantified over:* all proofs.

*Plan:* Int/natAbs model.

*Status:* proved. The expected property is refuted; exact behaviour is proved.

Theorems: `Verif.CamShoup.C85_roundtrip`, `Verif.CamShoup.C85_negative`, `Verif.CamShoup.C85_others`

### C86 Camenisch-Shoup encryption proofs are complete

The proof made by EncryptAndProve is accepted by VerifyEncryptProof with the same nonce (randomness below n/2, challenge below 2n).

*Quantified over:* all messages, randomness, hash functions.

*Plan:* Integer exponents in unit group of ZMod n^2.

*Status:* proved. Challenge below 2n: true for the 256-bit hash and the moduli the package makes.

Theorems: `Verif.CamShoup.C86_complete`, `Verif.CamShoup.C86_binding`

### C93 FROST signing: checks that do not protect

One would expect round 3 to identify a signer who sends a bad response and honest signers always to finish. Neither holds: the share check uses the verification share contained in the message, so every response passes with a suitable one; a 'negative' common commitment together with a challenge that depends on the sign makes every honest signer fail; signers created with the same cosigners in another order do not agree; identifiers enter the binding factor modulo 256 only.

*Quantified over:* all responses, coefficients, commitments, nonces, hash and challenge functions.

*Plan:* Explicit forged verification share; inversion of honest run.

*Status:* proved. 

Theorems: `Verif.FrostSign.C93_negative_commitment`, `Verif.FrostSign.C93_any_response_passes`, `Verif.FrostSign.C93_factor_mod_256`, `Verif.FrostSign.ToyRun.C93_cosigner_order`

### C94 ted25519 share handling

Reconstruct returns the dealt key from any t distinct shares and share serialization round-trips. One would also expect Aggregate to work for every identifier the dealer hands out; TSign keeps only the low byte of the identifier, so partial signatures of holders 2 and 257 aggregate without an error to a wrong value.

*Quantified over:* all keys, polynomials, shares, messages, subsets.

*Plan:* Interpolation of the combined polynomial at truncated identifiers.

*Status:* proved. 

Theorems: `Verif.Ted.C94_id_truncated`, `Verif.Ted.C94_wrong_aggregate`, `Verif.Ted.C94_share_round_trip`, `Verif.Ted.C94_reconstruct`

### C95 ted25519 single-signer signatures verify

Every signature produced by Sign with a key of NewKeyFromSeed is accepted by Verify under the public half of the key, and Verify accepts exactly the signatures with canonical s < L and R = s*B - H(R,A,m)*A.

*Quantified over:* all seeds, messages, signatures, public keys.

*Plan:* Clamping with masks 63 and 127 agrees; group equation.

*Status:* proved. 

Theorems: `Verif.Ted.C95_sign_verify`, `Verif.Ted.C95_verify_decision`

### C96 BBS+ blind signing and proofs: unchecked inputs

One would expect fresh issuer randomness per blind signature and errors for malformed input. The issuer's e and s depend on the key, generators and known messages only, so two issuances to different commitments give signatures for every affine combination of the commitments; index == length makes NewBlindSignatureContext panic; a wrong number of responses makes BlindSignatureContext.Verify and PokSignatureProof.Verify panic, surplus responses are ignored, and revealed messages at negative positions are accepted.

*Quantified over:* all contexts, commitments, known messages, proofs, indices.

*Plan:* Symbolic execution of the failing paths; linear combination of two issuances.

*Status:* proved. 

Theorems: `Verif.Bbs.C96_blind_nonce_reuse`, `Verif.Bbs.C96_index_length_panics`, `Verif.Bbs.C96_wrong_count_panics`, `Verif.Bbs.C96_pok_missing_panics`, `Verif.Bbs.C96_pok_extra_ignored`, `Verif.Bbs.C96_pok_phantom_revealed`

### C97 BBS+ serialization round trips

Unmarshalling the marshalled form of a signature, blind signature, blind-signature context or proof of knowledge returns the same value for every number of messages.

*Quantified over:* all values, any number of responses.

*Plan:* Offsets on byte lists, induction on the scalar list.

*Status:* proved. Point encoding is 48 bytes and decodes back.

Theorems: `Verif.Bbs.C97_signature_round_trip`, `Verif.Bbs.C97_context_round_trip`, `Verif.Bbs.C97_pok_round_trip`

### C98 BBS+ proofs of knowledge are extractable

From two accepted proofs with the same commitments and different challenges one computes a signature that Verify accepts for a message vector containing all revealed messages, or a linear relation between the generators.

*Quantified over:* all proofs (adversarial), revealed sets, challenges.

*Plan:* Special soundness.

*Status:* proved. 

Theorems: `Verif.Bbs.C98_extract`

### C99 Accumulator membership proofs are extractable, and laxer than Verify

From two accepted proofs with the same commitments and different challenges one computes (C,y) with (y+sk)*C = V; reused randomness reveals the witness; a proof is accepted for the zero element and for the identity accumulator, which Verify refuses.

*Quantified over:* all proofs (adversarial), parameters, keys, challenges.

*Plan:* Special soundness by linear algebra.

*Status:* proved. 

Theorems: `Verif.Accum.C99_extract`, `Verif.Accum.C99_extract_verifies`, `Verif.Accum.C99_proof_accepts_degenerate`, `Verif.Accum.C99_nonce_reuse`

### C100 Witness and delta encodings are canonical

MarshalBinary then UnmarshalBinary returns the same witness or delta; UnmarshalBinary accepts only the encoding MarshalBinary produces whenever the point has a single accepted encoding, which holds for every point of the curve but the identity.

*Quantified over:* all witnesses, all byte strings.

*Plan:* Offsets on byte lists.

*Status:* proved. The bare container around the payload is an external library and not modelled.

Theorems: `Verif.Accum.C100_round_trip`, `Verif.Accum.C100_canonical`

### C101 BLS aggregation without proofs of possession is forgeable, and parts are not checked

One would expect an accepted FastAggregateVerify to mean that every listed key signed. A rogue key x*g - pk lets its owner sign for both; PopVerify accepts for the rogue key only the proof made with the secret key x - sk. An accepted aggregate does not make the individual signatures valid, nor is their number tied to the number of keys; an identity key goes unnoticed in FastAggregateVerify while AggregateVerify refuses it.

*Quantified over:* all keys, messages, signatures, lists.

*Plan:* Linear algebra on the exact acceptance conditions.

*Status:* proved. The expected property is refuted; exact behaviour is proved.

Theorems: `Verif.Bls.C101_rogue_key`, `Verif.Bls.C101_rogue_pop`, `Verif.Bls.C101_parts_not_checked`, `Verif.Bls.C101_identity_key`

### C102 Proofs of possession

PopVerify accepts for a key exactly the proof PopProve makes; a nil key is an error; NewSigPopWithDst refuses exactly equal tags and a proof of possession is a signature of the encoded key only if the hashes under both tags agree.

*Quantified over:* all keys, proofs, tags, hash functions.

*Plan:* Instance of C73.

*Status:* proved. 

Theorems: `Verif.Bls.C102_pop`, `Verif.Bls.C102_tags`, `Verif.Bls.C102_nil`

### C103 Augmented BLS scheme: acceptance, empty messages, nil keys

Verify accepts exactly sk*hash(pk||m). The usual scheme refuses to sign the empty message while the tiny scheme signs it and Verify accepts it. A nil public key makes Verify, PartialSign and AggregateVerify panic, whereas AggregateVerify of the basic scheme never panics.

*Quantified over:* all keys, messages, signatures, lists containing nil.

*Plan:* Symbolic execution.

*Status:* proved. 

Theorems: `Verif.Bls.C103_aug_verify`, `Verif.Bls.C103_empty_message`, `Verif.Bls.C103_nil_key`, `Verif.Bls.C103_binds_key`

### C104 Threshold BLS: too few or foreign partial signatures are combined silently

One would expect CombineSignatures to detect fewer than t partial signatures. With t-1 >= 2 it returns, without error, a point which differs from the signature by a non-zero multiple of the leading coefficient; a partial signature with identifier 0 alone decides the result; shares cannot sign the empty message although Sign can.

*Quantified over:* all polynomials, subsets, messages, partial signatures.

*Plan:* Lagrange error term -prod(-x_i).

*Status:* proved. The expected property is refuted; exact behaviour is proved.

Theorems: `Verif.Bls.C104_one_too_few`, `Verif.Bls.C104_zero_identifier`, `Verif.Bls.C104_empty_message`

### C105 Verifiable ElGamal: reusing the parameters reuses the blinding

One would expect every VerifiableEncrypt call with Blinding unset to use fresh randomness. The call stores the blinding it chose in the caller's parameters, so the next call with them repeats it: the first components coincide, without a domain the second ones differ by (m'-m)*G, and two proofs for the same message reveal the message scalar and the blinding to anybody.

*Quantified over:* all keys, messages, parameters, randomness.

*Plan:* Parameters as state; algebra on both outputs.

*Status:* proved. The expected property is refuted; exact behaviour is proved.

Theorems: `Verif.ElGamal.C105_params`, `Verif.ElGamal.C105_reuse`, `Verif.ElGamal.C105_recover`

### C106 Verifiable ElGamal: malformed inputs and encodings

One would expect malformed ciphertexts and proofs to be refused with an error. Decryption panics exactly when the nonce is longer than 12 bytes (and the AEAD part has at least 16); UnmarshalBinary of a proof panics exactly for an unknown curve name; proofs and ciphertexts survive serialization; decoding a ciphertext never panics.

*Quantified over:* all ciphertexts, serialized proofs, curve tables.

*Plan:* Symbolic execution.

*Status:* proved. The expected property is refuted; exact behaviour is proved.

Theorems: `Verif.ElGamal.C106_decrypt_panics`, `Verif.ElGamal.C106_proof_codec`, `Verif.ElGamal.C106_ciphertext_codec`

### C107 Camenisch-Shoup proofs do not cover all components of the ciphertext

One would expect an accepted proof to speak about every component of the ciphertext. The verifier only loops over the responses in the proof: for any messages (even none) arbitrary further components can be appended and the proof is accepted; with a zero among them decryption fails for the recipient.

*Quantified over:* all groups, keys, messages, appended components, randomness.

*Plan:* Completeness proof for a prover with appended components.

*Status:* proved. The expected property is refuted.

Theorems: `Verif.CamShoup.C107_uncovered`

### C108 Camenisch-Shoup: inputs that panic

One would expect malformed inputs to be refused with an error. Decoding a group or key with an even modulus panics; Decrypt panics on u = v = n with any non-zero components; VerifyEncryptProof panics when the proof has more responses than the ciphertext has components.

*Quantified over:* all groups, keys, labels, components, proofs.

*Plan:* Symbolic execution with non-invertible values.

*Status:* proved. The expected property is refuted; exact behaviour is proved.

Theorems: `Verif.CamShoup.C108_even_modulus`, `Verif.CamShoup.C108_decrypt_panics`, `Verif.CamShoup.C108_verify_panics`

### C109 Camenisch-Shoup responses do not hide large messages

One would expect the responses to hide the messages. Blindings are below n/2 while the masked value is challenge*message: two messages that can lead to the same response differ by less than n/2 divided by the challenge, and challenge*message lies in an interval of length n/2 given by the response.

*Quantified over:* all groups, blindings, challenges, messages.

*Plan:* Integer inequalities.

*Status:* proved. The expected property is refuted.

Theorems: `Verif.CamShoup.C109_response_leaks`

### C110 Native points: equality, normal form, curve membership, coordinates

Equal decides equality of points for any denominators; ToAffine returns the same point with denominator one; SetBigInt accepts exactly coordinates whose residues satisfy the curve equation, or both reduce to zero (the identity). One would expect IsOnCurve to hold for every group element; it is false for the identity.

*Quantified over:* all coordinates, curves without 2-torsion.

*Plan:* Against Mathlib's group of points.

*Status:* proved. 

Theorems: `Verif.Native.C110_equal`, `Verif.Native.C110_toAffine`, `Verif.Native.C110_isOnCurve`, `Verif.Native.C110_identity_not_on_curve`, `Verif.Native.C110_setBigInt`

### C111 The hard-coded field and curve parameters are correct

The moduli of the secp256k1 and P-256 fields are prime; R, R2, R3 and BiModulus match the modulus; the Montgomery limbs of the P-256 coefficients and generator are the published constants; neither curve has a point of order two; both generators are on the curve and have exactly the group order q.

*Quantified over:* the constants in the source.

*Plan:* Pocklington certificates and projective arithmetic evaluated by the kernel.

*Status:* proved. 

Theorems: `Verif.Native.C111_constants`, `Verif.Native.C111_p256_params`, `Verif.Native.C111_k256_generator`, `Verif.Native.C111_p256_generator`, `Verif.Native.C111_more_constants`

### C112 Pasta field comparison and decoding are not exact at the modulus

One would expect Pasta SetBytes to accept exactly the canonical encodings. Cmp compares limbs by the sign of a wrapped difference, so SetBytes rejects the canonical encodings of p-x for x from 2^63 to the low limb of p (so Bytes followed by SetBytes fails for them) and accepts every string far above the modulus, reducing it; SetBigInt silently leaves its target unchanged for the rejected values, and ScalarPallas.New(MinInt64) is zero. All other values behave as expected.

*Quantified over:* all 32-byte strings, integers and 64-bit inputs.

*Plan:* Limb-level model; exact acceptance set.

*Status:* proved. The expected property is refuted; exact behaviour is proved.

Theorems: `Verif.Native.C112_cmp_close`, `Verif.Native.C112_cmp_wrong`, `Verif.Native.C112_setBytes_canonical`, `Verif.Native.C112_setBytes_iff`, `Verif.Native.C112_setBytes_noncanonical`, `Verif.Native.C112_roundtrip`, `Verif.Native.C112_setBigInt`, `Verif.Native.C112_roundtrip_fails`, `Verif.Native.C112_two_encodings`, `Verif.Native.C112_new`

### C113 Inversion and square roots in the native fields are correct

Invert returns the inverse and true for every non-zero element and leaves its output and returns false for zero; Sqrt returns a root and true for every square and false (output untouched) for every non-square, in the base and scalar fields of secp256k1 and P-256, the scalar field of BLS12-381 and both Pasta fields.

*Quantified over:* all field elements.

*Plan:* Chains transcribed step by step, exponent computed by evaluating the chain in the naturals; Tonelli-Shanks invariant.

*Status:* proved. Field multiplication is modelled by its result.

Theorems: `Verif.Native.C113_invert`, `Verif.Native.C113_sqrt`, `Verif.Native.C113_pasta_invert`, `Verif.Native.C113_pasta_sqrt`

### C114 What the range verifiers accept, on arbitrary proofs

On every proof, commitment, bit length and transcript, not only those of the prover, Verify and VerifyBatched answer yes exactly if the equations of the Bulletproofs paper hold for the challenges derived from the transcript of the commitments and proof points, and the number of rounds fits the bit length. No proof is accepted for two bit lengths. One would expect an error for a proof of the wrong size; the verifier panics.

*Quantified over:* all proofs, commitments, generators, bit lengths, transcripts and challenge functions.

*Plan:* Invert every step of the verifier.

*Status:* proved. 

Theorems: `Verif.Bulletproof.C114_range`, `Verif.Bulletproof.C114_batched`, `Verif.Bulletproof.C114_one_length`, `Verif.Bulletproof.C114_wrong_size_panics`, `Verif.Bulletproof.verifyFromRangeProof_true`

### C115 Bulletproof serialization round-trips and is canonical

UnmarshalBinary inverts MarshalBinary for inner-product and range proofs, and accepts only strings that MarshalBinary produces from its result. One would expect an error for truncated input; the decoder panics on input ending within a scalar and on trailing bytes fewer than a point.

*Quantified over:* all proofs and byte strings.

*Plan:* Parser inversion.

*Status:* proved. Canonicity for curves whose point decoder is canonical.

Theorems: `Verif.Bulletproof.C115_ipp_roundtrip`, `Verif.Bulletproof.C115_ipp_canonical`, `Verif.Bulletproof.C115_range_roundtrip`, `Verif.Bulletproof.C115_range_canonical`, `Verif.Bulletproof.C115_ipp_short_panics`, `Verif.Bulletproof.C115_ipp_trailing_panics`, `Verif.Bulletproof.C115_ipp_unequal`

### C116 What a malicious seed-OT sender learns about the receiver's choice bits

The receiver's round-2 message is independent of its choice bits whatever public key and proof the sender used: every choice string gives the same distribution of messages over the receiver's scalars. A sender may deviate in the later rounds; the exact condition under which the receiver's abort depends on its choice bit, and the exact dependence of its response, are as stated (one bit per slot can be tested at the price of a possible abort).

*Quantified over:* all senders, choice strings, scalars, hash functions.

*Plan:* Bijection on the receiver's scalars; inversion of the check.

*Status:* proved. 

Theorems: `Verif.Ot.C116_choice_hidden`, `Verif.Ot.C116_selective_failure`, `Verif.Ot.C116_response`

### C117 Slots of a batch of seed OTs are separated only up to 256

The hash inputs of two different slots of a batch never coincide. True for the first 256 slots; the slot number is a single byte, so in larger batches a receiver that repeats a point in slots i and i+256 obtains equal keys there.

*Quantified over:* all batches, points and salts.

*Plan:* Injectivity of the byte layout; wrap-around counterexample.

*Status:* proved. The expected property fails above 256 slots; both directions are proved.

Theorems: `Verif.Ot.C117_slots_separated`, `Verif.Ot.C117_slots_wrap`

### C118 DKLs multiplication: the challenge binds the whole of Alice's message

One would expect the challenges of Bob's consistency check to depend on all of Tau. They depend on rows 0 to 255 only (of 672): whenever Bob accepts a message, Alice can also change a row j >= 256 by (d, -d*chi0/chi1), which leaves the challenges and Bob's decision unchanged and moves Bob's output by omega_j * g_j * d.

*Quantified over:* all messages accepted by Bob, all rows above 255, all shifts.

*Plan:* Decision of Round3 as an iff, then the shift.

*Status:* proved. The expected property is refuted; exact behaviour is proved.

Theorems: `Verif.Dkls.C118_tau_not_bound`

### C119 A failed refresh round can be repeated without damage

One would expect that after an error in round 3 of the key refresh the caller can feed another message (as the protocol stepper allows). Alice's share is already divided by the multiplier of the rejected message, and her transcript is extended: a repetition divides it again, so the shares stop matching the public key unless the product of both multipliers happens to be Bob's, and a message she would have accepted at first is rejected after one bad message.

*Quantified over:* all shares, messages, seeds and hash functions.

*Plan:* State is returned together with the error.

*Status:* proved. The expected property is refuted; exact behaviour is proved.

Theorems: `Verif.Dkls.C119_share`, `Verif.Dkls.C119_retry`, `Verif.Dkls.C119_resend_rejected`

### C120 A repeated last signing round signs the same message

One would expect that Bob's last signing round, run again by the stepper after a failed verification, still accepts only signatures on his message. The message is appended to the hash object on each attempt, so the second attempt accepts exactly signatures on message||message, and by choice of her last value Alice can make it accept every such signature with the nonce of the round.

*Quantified over:* all states of Bob, messages and values sent by Alice.

*Plan:* State after the failed attempt; decision as an iff.

*Status:* proved. The expected property is refuted; exact behaviour is proved.

Theorems: `Verif.Dkls.C120_retry`, `Verif.Dkls.C120_steer`

### C121 Protocol messages can be decoded in a fresh process

One would expect each party to be able to run in its own process. Types behind interfaces are registered with gob only by some of the encoders and decoders: Bob can run key generation, but Alice in a process of her own never gets past her first step, whatever she receives, and NewBobSign and NewBobRefresh fail on every stored key share in a process that did not register the types.

*Quantified over:* all messages, round functions and sequences of calls.

*Plan:* Registry as part of the state of a process.

*Status:* proved. The expected property is refuted; gob is modelled as requiring registration for payload types with interface fields.

Theorems: `Verif.Dkls.C121_bob_restart`, `Verif.Dkls.C121_alice_dkg`, `Verif.Dkls.C121_bob_dkg`

### C126 GG20 proof of discrete logarithm: completeness, and the relation is not enforced

Every honest PDL proof with a blinding value leaving room for e*x verifies. Verify accepts exactly if the three verification equations hold and s1 <= q^3, with s1 an arbitrary integer: for every ciphertext, whatever its plaintext m, and every point x*R an accepted proof is computed with the ordinary prover from a negative representative of (m mod N, x mod q). So acceptance does not tie the point to the plaintext.

*Quantified over:* all keys, plaintexts, points, nonces and hash functions.

*Plan:* Decision as an iff over integers; Chinese remaindering for the witness.

*Status:* proved. The relation is refuted; exact decision proved.

Theorems: `Verif.Gg20.C126_verify_iff`, `Verif.Gg20.C126_complete`, `Verif.Gg20.C126_no_relation`

### C127 GG20 MtA response proofs: completeness, and B is not tied to the ciphertext

Verify of the second range proof accepts exactly if its verification equations hold, s1 <= q^3 and t1 <= q^7. Honest responses satisfy them. One would expect the variant with check to force the response to be computed with the logarithm of B; for every b used in the response and every unrelated point x*g an accepted proof exists (given gcd(N,q)=1), again because the bounds are one-sided.

*Quantified over:* all keys, ciphertexts, factors, points and hash functions.

*Plan:* Decision as an iff over integers; Chinese remaindering for the witness.

*Status:* proved. The relation is refuted; exact decision proved.

Theorems: `Verif.Gg20.C127_verify_iff`, `Verif.Gg20.C127_honest`, `Verif.Gg20.C127_no_relation`

### C122 GG20 signers check the signature they output

One would expect SignOutput to return only signatures that verify under the public key (step 6 of the paper: abort if the signature is invalid). Signers made by NewSigner use a check that accepts everything: whatever the earlier rounds, the last cosigner to answer can force any value s up to q/2, SignOutput can be repeated, and the consistency check for the shares of k*x before releasing the partial signature does not exist (round 6 does not depend on them).

*Quantified over:* all signer states, message sets, hashes and values.

*Plan:* Quantify over all states and messages.

*Status:* proved. The expected property is refuted; exact behaviour is proved.

Theorems: `Verif.Gg20.C122_output_unchecked`, `Verif.Gg20.C122_output_again`, `Verif.Gg20.C122_sigma_unchecked`

### C128 GG20 parity leak through an out-of-range nonce ciphertext

An initiator that encrypts (N+1)/2 instead of a nonce below q (accepted because the range check is one-sided) obtains shares of b/2 if the responder's secret b is even and of (b+N)/2 otherwise, so continuing with k = 1/2 succeeds exactly if b is even.

*Quantified over:* all Paillier keys of sufficient size, responder secrets and randomness.

*Plan:* From the wrap-around formula.

*Status:* proved. 

Theorems: `Verif.Gg20.C128_parity`, `Verif.Gg20.C128_parity_iff`

### C123 GG20 DKG round 3: what is checked about received shares

A successful round 3 has opened every commitment given to it and checked that every share lies on the committed polynomial; the public key is the sum of the committed constant terms. One would expect the share to be checked at the own identifier. It is checked at the identifier it carries: a dealer that sends participant i its share for another identifier m is accepted, and i ends with a signing share that is off by the difference of the two values and does not fit the others.

*Quantified over:* all states, messages, identifiers and polynomials.

*Plan:* Soundness of the loop, and an accepted run with a foreign share.

*Status:* proved. The check at the own identifier is refuted.

Theorems: `Verif.Gg20.C123_round3_sound`, `Verif.Gg20.C123_share_of_other_id_accepted`

### C124 GG20 DKG: a failed round 3 can be repeated

One would expect that after an error in round 3 the call can be repeated with the right message. The own share is updated in place, so the shares which were added before the error are counted twice: the repeated call succeeds with the same public key and a wrong signing share.

*Quantified over:* all participants, message orders and errors.

*Plan:* State is returned together with the error.

*Status:* proved. The expected property is refuted; exact behaviour is proved.

Theorems: `Verif.Gg20.C124_retry_counts_twice`

### C125 GG20: the public shares published by the DKG can be used for signing

One would expect that a signer set up with the public shares of DkgResult can sign. Because these are not x_j*g, an honest cosigner's response proof is rejected in round 3: a signer gets past round 3 only if the public share it holds for the sender is w_j*g (for the published shares: only for one exceptional key), or the challenge is zero modulo q, or a named pair of hash inputs collides.

*Quantified over:* all keys, signer sets, nonces and hash functions.

*Plan:* Inversion of prover and verifier equations with colliding inputs named.

*Status:* proved. The expected property is refuted up to zero challenges and explicit collisions.

Theorems: `Verif.Gg20.C125_wrong_point`, `Verif.Gg20.C125_round3`, `Verif.Gg20.C125_published_shares_break_signing`

### C129 GG20 DKG round 3 needs the messages of all participants

One would expect round 3 to fail when the messages of a participant are missing. It processes whatever it is given: for every subset of participants (including the own) round 3 succeeds and computes the key and shares of that subset, so participants can end with different keys without an error.

*Quantified over:* all subsets of participants.

*Plan:* Run with an arbitrary subset.

*Status:* proved. The expected property is refuted; exact behaviour is proved.

Theorems: `Verif.Gg20.C129_subset_accepted`

### C130 GG20: the parameters returned by the DKG suffice for signing

One would expect that the participant data of DkgResult can be used as proof parameters for signing. They contain no entry for the participant itself, and a signer without parameters for its own identifier panics in round 2 at the first message with a valid range proof.

*Quantified over:* all signer states and messages.

*Plan:* Evaluation of the nil case, for all states.

*Status:* proved. The expected property is refuted; exact behaviour is proved.

Theorems: `Verif.Gg20.C130_own_params_missing_panics`, `Verif.Gg20.C130_result_lacks_own`

### C131 GG20 DKG rounds 2 and 4: what is checked

A successful round 2 has checked modulus size and both discrete log proofs of every other sender; round 3 refuses to run without any decommitment or share; round 4 succeeds exactly if every known participant sent a proof and every proof given verifies for its sender's key and identifier. Identifiers are not checked: a valid message under an identifier outside 1..n makes round 2 panic (index out of range), a proof under an unknown identifier makes round 4 panic (nil pointer).

*Quantified over:* all states and message sets.

*Plan:* Decision as an iff.

*Status:* proved. 

Theorems: `Verif.Gg20.C131_round2_sound`, `Verif.Gg20.C131_round2_bad_id_panics`, `Verif.Gg20.C131_round3_nothing`, `Verif.Gg20.C131_round4_iff`, `Verif.Gg20.C131_round4_unknown_panics`

### C132 Mina transaction signatures bind the transaction

A signature accepted under one key for two transactions with memos of at most 32 bytes means that the transactions are equal, network included, or that the sponge has a collision on two named inputs. Memos of 32 and more bytes are bound only in their first 32 bytes and their length modulo 256.

*Quantified over:* all keys, signatures and pairs of transactions.

*Plan:* Injectivity of the packing into bits and field elements.

*Status:* proved. 

Theorems: `Verif.Mina.C132_binding`, `Verif.Mina.C132_long_memo`, `Verif.Mina.C132_absorb`

### C133 Mina transactions from JSON

Transaction.UnmarshalJSON should decode transactions. It asserts struct types on values decoded into interface{}, so it returns an error for every input.

*Quantified over:* all JSON inputs.

*Plan:* Case analysis on the dynamic types json.Unmarshal produces.

*Status:* proved. The expected property is refuted.

Theorems: `Verif.Mina.C133_json_fails`

### C134 Threshold signatures of Mina transactions

A threshold signature (R, z) made with MinaTSchnorrHandler should be a valid Mina signature. The challenge is always that of the main network, whatever the transaction says; (x(R), z) is accepted for a main network transaction exactly when y(R) is even (and key, x(R) and z are nonzero), and for another network only if the two networks' sponges agree on the named input.

*Quantified over:* all keys, commitments, transactions.

*Plan:* Exact condition.

*Status:* proved. The expected property is refuted; exact behaviour is proved.

Theorems: `Verif.Mina.C134_network_ignored`, `Verif.Mina.C134_verifies_iff`, `Verif.Mina.C134_other_network`

### C135 The Poseidon permutation is a permutation

For each of the three parameter sets, the round function sequence over the Pallas field is a bijection on states (the S-box exponent is prime to p-1, the MDS matrix is invertible), and the three networks start from the documented states.

*Quantified over:* all states.

*Plan:* Inverse of the power map and explicit inverse matrices, all published constants in the model.

*Status:* proved. 

Theorems: `Verif.Mina.C135_sbox`, `Verif.Mina.C135_exp`, `Verif.Mina.C135_tables`, `Verif.Mina.C135_bijective`, `Verif.Mina.C135_injective`, `Verif.Mina.C135_networks`

### C136 Mina signatures: uniqueness and nonce reuse

For a fixed key, input and first half R at most one second half S is accepted. A signature accepted for two inputs has the same challenge for both. Two accepted signatures with one R and different challenges determine the secret key.

*Quantified over:* all keys, inputs, signatures.

*Plan:* Group equations with the parity rule.

*Status:* proved. 

Theorems: `Verif.Mina.C136_unique`, `Verif.Mina.C136_nonce_reuse`, `Verif.Mina.C136_same_challenge`

### C137 Mina nonces depend on key, message and network

The bytes hashed to derive a nonce determine the secret key, the public key, the signed input and the last byte of the network identifier; different messages give different strings, so a nonce is repeated only by a hash collision.

*Quantified over:* all keys and pairs of inputs.

*Plan:* Injectivity of the bit packing.

*Status:* proved. 

Theorems: `Verif.Mina.C137_nonce_input`, `Verif.Mina.C137_message_nonce`

### C138 Encodings of Mina signatures and secret keys

UnmarshalBinary(MarshalBinary(x)) = x should hold for every signature and secret key and encodings should be unique. Both fail: values in a range just below the modulus are refused, and adding three times the order to the second half gives another accepted encoding of the same signature.

*Quantified over:* all signatures, secret keys, byte strings.

*Plan:* Exact condition for the round trip.

*Status:* proved. The expected property is refuted; exact behaviour is proved.

Theorems: `Verif.Mina.C138_roundtrip`, `Verif.Mina.C138_decoded`, `Verif.Mina.C138_second_encoding`, `Verif.Mina.C138_secret`, `Verif.Mina.C138_secret_zero`

### C139 Mina addresses

ParseAddress(GenerateAddress(pk)) = pk for every encodable key. Parsing accepts only 40 bytes with the version prefix and a matching checksum and never returns the identity, but ignores all but the lowest bit of the parity byte, so a key has several addresses.

*Quantified over:* all keys and strings.

*Plan:* Round trip, soundness, second addresses.

*Status:* proved. SHA-256 and base 58 are arbitrary functions (base 58 decodes what it encodes).

Theorems: `Verif.Mina.C139_roundtrip`, `Verif.Mina.C139_malleable`, `Verif.Mina.C139_sound`

### C140 NEM signatures: uniqueness and weak keys

For a fixed public key, message and first half at most one second half is accepted. Verify accepts low order public keys: with the identity as public key, signatures can be made for every message without a secret; with a key of order k whenever k divides the challenge.

*Quantified over:* all keys, messages, signatures.

*Plan:* The whole curve group, scalars acting as integers.

*Status:* proved. 

Theorems: `Verif.Nem.C140_unique`, `Verif.Nem.C140_identity_key`, `Verif.Nem.C140_small_order`

### C141 NEM signing trusts the public half of the private key

Sign should not reveal the secret. It hashes the stored public half without checking it: two signatures of one message with the same seed and different halves share the nonce, and determine the secret scalar unless the challenges agree; a signature under a wrong half verifies for it exactly if the challenge annihilates the difference of the keys.

*Quantified over:* all seeds, halves, messages.

*Plan:* Linear relation between the two signatures.

*Status:* proved. The expected property is refuted.

Theorems: `Verif.Nem.C141_two_halves`, `Verif.Nem.C141_wrong_half`

### C142 What the hashes of the DKLs oblivious transfers bind

Equal pads of the seed OT come from equal salt, slot and point or a named hash collision; slots 256 apart share their pad; the weights of the extension's consistency check bind the row number and the digest of the receiver's message; both components of the first 256 rows of Tau enter the transcript; the receiver keeps the public key that was proved and one pad per slot.

*Quantified over:* all states and messages.

*Plan:* Injectivity of the hash inputs.

*Status:* proved. 

Theorems: `Verif.Dkls.C142_copy_lengths`, `Verif.Dkls.C142_pad`, `Verif.Dkls.C142_pad_wraps`, `Verif.Dkls.C142_receiver_state`, `Verif.Dkls.C142_row_bytes`, `Verif.Dkls.C142_weight`, `Verif.Dkls.C142_tau_rows`

### C143 BLS12-381 base field: the limb arithmetic computes modulo p

On reduced six-limb Montgomery values, Mul, Square, Add, Sub, Double, Neg, MulBy3b, pow and Exp of fp.go return reduced limbs standing for the product, square, sum, difference, negation and power modulo p; conversion to and from Montgomery form is exact; reduced limbs and residues correspond one to one; the word primitives mac, adc, sbb lose no carry on the inputs that occur.

*Quantified over:* all six-limb values.

*Plan:* 64-bit words as UInt64, limb lists of any length; row invariants, then the 6-limb case.

*Status:* proved. 

Theorems: `Verif.Bls381.C143_constants`, `Verif.Bls381.C143_mac`, `Verif.Bls381.C143_adc`, `Verif.Bls381.C143_adc_limit`, `Verif.Bls381.C143_sbb`, `Verif.Bls381.C143_mul`, `Verif.Bls381.C143_square`, `Verif.Bls381.C143_square_mul`, `Verif.Bls381.C143_add`, `Verif.Bls381.C143_sub`, `Verif.Bls381.C143_double`, `Verif.Bls381.C143_mulBy3b`, `Verif.Bls381.C143_neg`, `Verif.Bls381.C143_toMont`, `Verif.Bls381.C143_setUint64`, `Verif.Bls381.C143_raw`, `Verif.Bls381.C143_injective`, `Verif.Bls381.C143_surjective`, `Verif.Bls381.C143_pow`, `Verif.Bls381.C143_exp`

### C144 BLS12-381 base field: inversion and square root

Invert succeeds exactly on non-zero elements and returns the inverse; Sqrt succeeds exactly on squares and returns a root, and otherwise leaves the receiver unchanged.

*Quantified over:* all elements.

*Plan:* Fermat, p = 3 mod 4.

*Status:* proved. 

Theorems: `Verif.Bls381.C144_invert`, `Verif.Bls381.C144_sqrt`

### C145 BLS12-381 base field: encodings

SetBytes accepts exactly the 48-byte little-endian values below p and inverts Bytes; encodings are unique; SetBytesWide reduces any 768-bit value, SetBigInt any integer (also negative) modulo p; Hash reduces the expanded message as a big-endian number.

*Quantified over:* all byte strings, integers, elements.

*Plan:* Value of limbs against value of bytes.

*Status:* proved. 

Theorems: `Verif.Bls381.C145_setBytes`, `Verif.Bls381.C145_bytes`, `Verif.Bls381.C145_roundtrip`, `Verif.Bls381.C145_canonical`, `Verif.Bls381.C145_wide`, `Verif.Bls381.C145_setBigInt`, `Verif.Bls381.C145_bigInt`, `Verif.Bls381.C145_hash`

### C146 BLS12-381 base field: predicates, order, selection

IsZero, IsOne, Equal, Sgn0 and LexicographicallyLargest decide what they say. Cmp should order elements by value, but orders their Montgomery limbs, so 1 is reported greater than 2. CMove selects; CNeg with choice 0 keeps the old receiver instead of copying its argument.

*Quantified over:* all elements, choices and receivers.

*Plan:* Values of the limbs.

*Status:* proved. Cmp refuted as an order of values.

Theorems: `Verif.Bls381.C146_predicates`, `Verif.Bls381.C146_lexLargest`, `Verif.Bls381.C146_sgn0`, `Verif.Bls381.C146_cmp`, `Verif.Bls381.C146_cmp_not_order`, `Verif.Bls381.C146_cmove`, `Verif.Bls381.C146_cneg_zero`

### C147 BLS12-381 scalar field: the limb code, and the negation of zero

Mul, Square, Add, Sub and the conversions of fq.go compute modulo q for all reduced limbs. Neg does for non-zero arguments; for zero it returns the modulus, which encodes like zero but is not IsZero, not equal to zero, compares greater, and is reported as inverted by Invert.

*Quantified over:* all reduced limbs.

*Plan:* Same row lemmas with four limbs; equality with the value-level model of C111-C113.

*Status:* proved. Negation of zero refuted.

Theorems: `Verif.Bls381.C147_mul`, `Verif.Bls381.C147_square`, `Verif.Bls381.C147_add`, `Verif.Bls381.C147_sub`, `Verif.Bls381.C147_toMont`, `Verif.Bls381.C147_fromMont`, `Verif.Bls381.C147_bytes`, `Verif.Bls381.C147_neg`, `Verif.Bls381.C147_neg_nonzero`, `Verif.Bls381.C147_neg_zero`, `Verif.Bls381.C147_negated_zero`

### C148 BLS12-381 tower: structs form the field of p^12 elements

-1 is no square mod p, u+1 no cube and v no square, so the tower of fp2, fp6, fp12 is a field; Add, Sub, Neg, Double, Mul, Square, Mul0, MulByNonResidue, MulByB, MulByAB and MulByABD (Karatsuba and sparse forms) compute in it; structs and field elements correspond one to one.

*Quantified over:* all elements.

*Plan:* A specification field with generators u, v, w; existence by quadratic and cubic extensions.

*Status:* proved. 

Theorems: `Verif.Bls381.C148_tower_exists`, `Verif.Bls381.C148_coordinates`, `Verif.Bls381.C148_fp2`, `Verif.Bls381.C148_fp6`, `Verif.Bls381.C148_fp12`, `Verif.Bls381.C148_laws`

### C149 BLS12-381 tower: inversion and tests

Invert of fp2, fp6 and fp12 succeeds exactly on non-zero elements, returns the inverse, and keeps the receiver for zero; IsZero and Equal decide. IsOne should too, but fp6.IsOne tests B twice and C never: exactly the elements 1 + c v^2 pass; on elements of norm one only 1 passes.

*Quantified over:* all elements and receivers.

*Plan:* Norms.

*Status:* proved. IsOne refuted in general, proved for elements of norm one.

Theorems: `Verif.Bls381.C149_invert_fp2`, `Verif.Bls381.C149_invert_fp6`, `Verif.Bls381.C149_invert_fp12`, `Verif.Bls381.C149_tests`, `Verif.Bls381.C149_isOne_iff`, `Verif.Bls381.C149_isOne_wrong`, `Verif.Bls381.C149_isOne_norm_one`

### C150 BLS12-381 fp2: square roots and signs

Sqrt reports exactly whether a root exists and returns one, otherwise keeps its receiver; of x and -x exactly one is lexicographically largest and exactly one has Sgn0 one (x non-zero), by the documented comparison orders; a square together with either sign determines the root.

*Quantified over:* all elements of fp2.

*Plan:* Fermat in fp2.

*Status:* proved. 

Theorems: `Verif.Bls381.C150_sqrt`, `Verif.Bls381.C150_signs`, `Verif.Bls381.C150_signs_zero`, `Verif.Bls381.C150_signs_iff`, `Verif.Bls381.C150_root_unique`

### C151 BLS12-381 tower: Frobenius maps

FrobeniusMap of fp2, fp6 and fp12 with their tabulated constants is the p-th power map; six applications conjugate, twelve are the identity.

*Quantified over:* all elements.

*Plan:* Powers of u+1 by modular exponentiation in the kernel.

*Status:* proved. 

Theorems: `Verif.Bls381.C151_frobenius`, `Verif.Bls381.C151_twelve`, `Verif.Bls381.C151_conj`

### C152 BLS12-381 final exponentiation

cyclotomicSquare, Conjugate and cyclotomicExp square, invert and raise to the curve parameter on the cyclotomic subgroup (and squaring fails outside); FinalExponentiation of a non-zero element is its power 3(p^12-1)/r, hence an r-th root of unity, multiplicative, and one exactly when the power (p^12-1)/r is one; of zero it keeps the receiver.

*Quantified over:* all elements.

*Plan:* Exponents tracked through the chain as integer powers.

*Status:* proved. 

Theorems: `Verif.Bls381.C152_cyclotomic`, `Verif.Bls381.C152_not_square`, `Verif.Bls381.C152_final`, `Verif.Bls381.C152_final_zero`, `Verif.Bls381.C152_final_order`, `Verif.Bls381.C152_final_mul`, `Verif.Bls381.C152_final_one_iff`

### C153 BLS12-381 target group: operations and encoding

On the group of order r Add, Double, Square, Neg and Sub are the group operations; Bytes/SetBytes round trip, are injective and canonical. Mul should be the scalar multiple but always returns zero, because its accumulator starts at zero; SetBytes accepts elements outside the group, for which Neg, Sub and Square are wrong, and a refused input can change the receiver.

*Quantified over:* all elements, scalars and inputs.

*Plan:* Tower facts; byte lemmas.

*Status:* proved. Mul refuted; exact behaviour proved.

Theorems: `Verif.Bls381.C153_group`, `Verif.Bls381.C153_neg_wrong`, `Verif.Bls381.C153_mul_zero`, `Verif.Bls381.C153_bytes_length`, `Verif.Bls381.C153_roundtrip`, `Verif.Bls381.C153_injective`, `Verif.Bls381.C153_canonical`, `Verif.Bls381.C153_accepts_zero`, `Verif.Bls381.C153_partial_update`

### C154 BLS12-381 target group: the generator

Gt.Generator has order exactly r.

*Quantified over:* the constant.

*Plan:* Frobenius equals exponentiation by the curve parameter on it; gcd with p^4-p^2+1.

*Status:* proved. 

Theorems: `Verif.Bls381.C154_generator_order`, `Verif.Bls381.C154_generator_in_group`

### C155 BLS12-381 G1 and G2: the group law

Add, Double, Neg and Sub of G1 and G2 on any projective coordinates of points of the two curves give coordinates of the sum, double, opposite and difference; Identity, IsIdentity, Equal and IsOnCurve decide what their names say on coordinates of points; ToAffine gives the affine coordinates of any point but the identity, of which it gives the zero value of the struct. The zero value passes IsIdentity, IsOnCurve and Equal with the identity, yet any sum with it is the zero value again. The generators are points.

*Quantified over:* all projective coordinates of all points of both curves.

*Plan:* Against the group of points of Mathlib's Weierstrass curves over ZMod p and the quadratic extension.

*Status:* proved. 

Theorems: `Verif.Bls381.C155_g1_add`, `Verif.Bls381.C155_g1_double`, `Verif.Bls381.C155_g1_neg_sub`, `Verif.Bls381.C155_g2_add`, `Verif.Bls381.C155_g2_double`, `Verif.Bls381.C155_g2_neg_sub`, `Verif.Bls381.C155_g1_predicates`, `Verif.Bls381.C155_g2_predicates`, `Verif.Bls381.C155_zero_value`, `Verif.Bls381.C155_toAffine_g1`, `Verif.Bls381.C155_toAffine_g2`, `Verif.Bls381.C155_generators`

### C156 BLS12-381 G1 and G2: multiples, sums of products, subgroup test

Mul multiplies by the scalar, SumOfProducts is the sum of the multiples (Pippenger windows included) and refuses lists of different lengths, MulByX multiplies by the parameter, G1.ClearCofactor by one minus it, and InCorrectSubgroup decides exactly whether r times the point is the identity.

*Quantified over:* all points, all 32-byte scalars, lists of any length.

*Plan:* Induction over the windows, shared with the generic native implementation.

*Status:* proved. 

Theorems: `Verif.Bls381.C156_g1_mul`, `Verif.Bls381.C156_g2_mul`, `Verif.Bls381.C156_g1_sumOfProducts`, `Verif.Bls381.C156_g2_sumOfProducts`, `Verif.Bls381.C156_sumOfProducts_length`, `Verif.Bls381.C156_mulByX`, `Verif.Bls381.C156_g1_clearCofactor`, `Verif.Bls381.C156_inSubgroup`

### C157 BLS12-381 G1 and G2: point encodings

ToCompressed and ToUncompressed depend only on the point, separate points, and have the documented big-endian layout with the flags in the top bits; decoding returns the point if it is in the r-torsion subgroup and refuses it otherwise; whatever is accepted is in the subgroup and, without the infinity flag, re-encodes to the same bytes up to ignored flag bits. With the infinity flag everything else is ignored, so the identity has many accepted encodings; uncompressed inputs ignore bits 7 and 5.

*Quantified over:* all points of both curves and all byte strings.

*Plan:* Sign bit plus abscissa determine the point through the square root claims C150.

*Status:* proved. 

Theorems: `Verif.Bls381.C157_g1_roundtrip`, `Verif.Bls381.C157_g2_roundtrip`, `Verif.Bls381.C157_g1_injective`, `Verif.Bls381.C157_g2_injective`, `Verif.Bls381.C157_g1_accepted`, `Verif.Bls381.C157_g2_accepted`, `Verif.Bls381.C157_g1_accepted_uncompressed`, `Verif.Bls381.C157_g2_accepted_uncompressed`, `Verif.Bls381.C157_g1_format`, `Verif.Bls381.C157_g2_format`, `Verif.Bls381.C157_flags`, `Verif.Bls381.C157_identity_encodings`, `Verif.Bls381.C157_refused`

### C158 BLS12-381 G1 and G2: conversion to integers

SetBigInt(BigInt(P)) is P for G1, and what G1.SetBigInt accepts is the subgroup point with the reduced coordinates; G2.BigInt ignores its receiver and always gives the integers of the identity, while G2.SetBigInt of the two halves of an uncompressed encoding gives the point.

*Quantified over:* all points and all pairs of integers.

*Plan:* From C157.

*Status:* proved. G2.BigInt refuted.

Theorems: `Verif.Bls381.C158_g1_roundtrip`, `Verif.Bls381.C158_g1_accepted`, `Verif.Bls381.C158_g2_bigInt`, `Verif.Bls381.C158_g2_setBigInt`

### C170 GG20 signing: what a successful round has verified

If SignRound2 succeeds then for every other sender the range proof was verified against that sender's Paillier key, the own dealer parameters and the ciphertext stored for later; if SignRound3 succeeds both responses of every sender were finalized, the second against its public share; if SignRound5 succeeds the stored commitment of every sender was opened; if SignRound6 succeeds the proof of every sender's point was verified against the stored ciphertext and the points sum to the generator; SignOutput returns only low-s signatures accepted by the configured check. A nil message in round 3 is an error, nil proof fields and missing private proofs panic.

*Quantified over:* all states, all messages of all other signers, honest or not, in any order.

*Plan:* Inversion of the round functions for arbitrary inputs.

*Status:* proved. 

Theorems: `Verif.Gg20.C170_round2`, `Verif.Gg20.C170_round3`, `Verif.Gg20.C170_round3_nil`, `Verif.Gg20.C170_round5`, `Verif.Gg20.C170_round6`, `Verif.Gg20.C170_output`, `Verif.Gg20.C170_nil_panics`

### C159 BLS12-381 G1 and G2: group orders and cofactors

The curve of G1 has (1-x)^2/3 times r points and the curve of G2 its published cofactor times r; the generators have order r and InCorrectSubgroup accepts exactly their multiples; G1.ClearCofactor sends every point of the curve into that subgroup; G2.ClearCofactor is, for every point of the curve, the multiple by the effective cofactor of RFC 9380 and lands in the subgroup; psi and psi2 are an endomorphism satisfying the Frobenius equation and its square, and act on the subgroup as the curve parameter.

*Quantified over:* all points of both curves.

*Plan:* Independent points of the prime orders checked by the kernel and the trivial bound of two points per abscissa; primes by Pocklington certificates.

*Status:* proved. 

Theorems: `Verif.Bls381.C159_g1_card`, `Verif.Bls381.C159_g1_order`, `Verif.Bls381.C159_g1_exponent`, `Verif.Bls381.C159_g1_clearCofactor`, `Verif.Bls381.C159_g1_subgroup`, `Verif.Bls381.C159_g2_order`, `Verif.Bls381.C159_psi_equation`, `Verif.Bls381.C159_g2_clearCofactor_formula`, `Verif.Bls381.C159_g2_clearCofactor`, `Verif.Bls381.C159_g2_clearCofactor_subgroup`, `Verif.Bls381.C159_g2_subgroup`, `Verif.Bls381.C159_psi_subgroup`

### C160 Hash to curve: the simplified SWU map on secp256k1 and P-256

On every field element OptimizedSswu3Mod4 with the built-in constants gives the point that RFC 9380, 6.6.2 prescribes for the constants of sections 8.7 and 8.2: exceptional inputs included, the abscissa is the first candidate when it belongs to a point and the second otherwise, the point is on the curve and the ordinate has the sign of the input.

*Quantified over:* all field elements.

*Plan:* A specification by existence of the first candidate, shown to determine the point; Euler's criterion.

*Status:* proved. 

Theorems: `Verif.Native.C160_k256_map`, `Verif.Native.C160_p256_map`

### C161 Hash to curve: the isogeny and Hash on secp256k1 and P-256

The tabulated isogeny has the published coefficients, its denominators do not vanish on the isogenous curve and it maps that curve into secp256k1; Hash is, for all messages, tags and hash functions, the sum of the images of the two field elements read big-endian from 96 expanded bytes.

*Quantified over:* all field elements, points, messages, tags and hash functions of the declared lengths.

*Plan:* Polynomial identity over ZMod p checked by the kernel; the kernel abscissa gives a non-residue.

*Status:* proved. 

Theorems: `Verif.Native.C161_k256_tables`, `Verif.Native.C161_k256_isogeny`, `Verif.Native.C161_k256_point`, `Verif.Native.C161_p256_point`, `Verif.Native.C161_elem`, `Verif.Native.C161_k256_hash`, `Verif.Native.C161_p256_hash`

### C162 Hash to curve: the expansion of messages

ExpandMsgXmd is expand_message_xmd of RFC 9380 for every tag, long tags being hashed, returns as many bytes as asked for, and agrees with ExpandMessageXmd of pkg/core wherever that succeeds; ExpandMsgXof is expand_message_xof for tags of at most 255 bytes and for SHAKE256, but with SHAKE128 and a longer tag it hashes different bytes.

*Quantified over:* all messages, tags, lengths and hash functions.

*Plan:* Induction over the blocks against the specification already used for C89.

*Status:* proved. RFC conformance refuted for SHAKE128 with tags over 255 bytes.

Theorems: `Verif.Native.C162_expandXmd`, `Verif.Native.C162_agrees`, `Verif.Native.C162_expandXmd_length`, `Verif.Native.C162_expandXof`, `Verif.Native.C162_shake128_oversize`

### C163 Hash to curve: BLS12-381 G1

On every field element osswu3mod4 gives the point that RFC 9380 prescribes for the curve of section 8.8.1; the isogeny table has the published coefficients and sends every point outside its kernel to the prescribed point of G1's curve; Hash is, for all messages and tags whose two field elements avoid the kernel, the sum of the two points times 1-x, and lies in the subgroup. For inputs in the kernel, which exist, the code yields (0,0,1), which is not on the curve, where the standard prescribes the identity.

*Quantified over:* all field elements, messages, tags and hash functions.

*Plan:* Polynomial identities over ZMod p checked by the kernel; an explicit kernel input.

*Status:* proved. RFC conformance refuted for inputs in the kernel of the isogeny.

Theorems: `Verif.Bls381.C163_g1_map`, `Verif.Bls381.C163_g1_tables`, `Verif.Bls381.C163_g1_point`, `Verif.Bls381.C163_g1_kernel`, `Verif.Bls381.C163_g1_kernel_reached`, `Verif.Bls381.C163_g1_hash`

### C164 Hash to curve: BLS12-381 G2

On every non-zero element of Fp2 sswu gives the point that RFC 9380 prescribes for the curve of section 8.8.2; the isogeny's denominators do not vanish on that curve and its images are the prescribed points of G2's curve; Hash is, when both field elements are non-zero, the sum of the two points times the effective cofactor, and lies in the subgroup. For the element zero sswu yields (0,0,1), not a point of the curve, and its image is not on the curve of G2. Random fails unless 64 bytes were read.

*Quantified over:* all elements of Fp2, messages, tags and hash functions.

*Plan:* Norm argument for non-residues; polynomial identities over Fp2 checked by the kernel.

*Status:* proved. RFC conformance refuted for the zero element.

Theorems: `Verif.Bls381.C164_g2_map`, `Verif.Bls381.C164_g2_map_zero`, `Verif.Bls381.C164_g2_tables`, `Verif.Bls381.C164_g2_isogeny`, `Verif.Bls381.C164_g2_point`, `Verif.Bls381.C164_g2_point_zero`, `Verif.Bls381.C164_g2_hash`, `Verif.Bls381.C164_random`

### C165 The pairing engine computes the optimal ate pairing

The doubling and addition steps of the Miller loop give the coefficients of the tangent and of the line through the two points, and the double and the sum; for any list of pairs whose second points lie in the subgroup, Result never panics and is the product of the textbook optimal ate pairings of the pairs (Miller's function of length |x| to the power -3(p^12-1)/r), pairs with a point at infinity contributing nothing; Check is true exactly if that product is one; a new engine and one after Reset give one. The engine makes no subgroup check: with a point of order 13 of the curve of G2 it returns zero, which is not in the target group.

*Quantified over:* all lists of pairs of points.

*Plan:* Invariant of the loop over the bits of x; field identities for the steps; the unwanted factors lie in proper subfields and are killed by the final exponentiation.

*Status:* proved. Second points must lie in the subgroup; outside it the expected property is refuted.

Theorems: `Verif.Bls381.C165_doublingStep`, `Verif.Bls381.C165_additionStep`, `Verif.Bls381.C165_result`, `Verif.Bls381.C165_check`, `Verif.Bls381.C165_single`, `Verif.Bls381.C165_empty`, `Verif.Bls381.C165_outside`

### C166 The pairing is bilinear

For points of the curve and of the subgroup of G2, the pairing of a sum computed by Add in either argument is the product computed by Gt.Add of the pairings; the pairing of multiples computed by Mul is the power with the product of the scalars; AddPairInvG1 and AddPairInvG2 both contribute the inverse.

*Quantified over:* all points, scalars and representations.

*Plan:* Divisor-free proof: reciprocity of lines and a cocycle argument for Miller's functions, using the Frobenius eigenspaces.

*Status:* proved. 

Theorems: `Verif.Bls381.C166_add_left`, `Verif.Bls381.C166_add_right`, `Verif.Bls381.C166_mul`, `Verif.Bls381.C166_inverse`

### C167 The pairing is non-degenerate and Check decides pairing equations

The pairing of the two generators is the constant returned by Gt.Generator; for points of the subgroups Result is one exactly if one of them is the point at infinity; for multiples a_i G and b_i H Check is true exactly if r divides the sum of the a_i b_i. A point of the curve of G1 killed by 1-x, outside the subgroup, pairs to one with everything.

*Quantified over:* all lists of points of the subgroups.

*Plan:* Kernel evaluation of one pairing, bilinearity and the group orders of C159.

*Status:* proved. 

Theorems: `Verif.Bls381.C167_generator`, `Verif.Bls381.C167_nondegenerate`, `Verif.Bls381.C167_check`, `Verif.Bls381.C167_cofactor`

### C168 The signature schemes run on the concrete pairing as on the abstract one

On the subgroups of order r the pairing engine is a bilinear, non-degenerate map over the scalar field, as the models of the signature schemes, of BBS+ and of the accumulator assume; verifySignature and coreAggregateVerify of both variants, executed on coordinates with hashing to the curve, subgroup checks and the engine, equal the functions of the abstract model for all keys, messages and signatures in the subgroups, nil included (hashing excludes the exceptional messages of C163 and C164); they refuse signatures outside the subgroup, coreAggregateVerify also keys; verifySignature does not check the key, but a component of a G1 key outside the subgroup makes no difference. MultiPairing of alternating points is the sum of the pairings, its IsOne decides whether the sum vanishes, and every other list of points gives nil.

*Quantified over:* all keys, messages, signatures, lists of points.

*Plan:* The torsion subgroups as modules over ZMod r; C165 to C167.

*Status:* proved. 

Theorems: `Verif.Bls381.C168_bilinear`, `Verif.Bls381.C168_nondegenerate`, `Verif.Bls381.C168_hash1`, `Verif.Bls381.C168_hash2`, `Verif.Bls381.C168_usual_verify`, `Verif.Bls381.C168_usual_subgroup`, `Verif.Bls381.C168_usual_key`, `Verif.Bls381.C168_usual_aggregate`, `Verif.Bls381.C168_usual_aggregate_subgroup`, `Verif.Bls381.C168_tiny_verify`, `Verif.Bls381.C168_tiny_subgroup`, `Verif.Bls381.C168_tiny_aggregate`, `Verif.Bls381.C168_multiPairing`, `Verif.Bls381.C168_multiPairing_nil`, `Verif.Bls381.C168_pairing`

### C169 secp256k1, P-256 and Pallas are groups of prime order on which the scalars act

Each of the three curves has exactly as many points as the modulus of its scalar field; every point is exactly one multiple of the generator; Mul by a scalar is a linear action of the scalar field, so multiplying by a sum or a product of scalars equals, as Equal decides it, the sum of the products and the repeated product.

*Quantified over:* all points, representations and scalars.

*Plan:* Order of the generator by the kernel, two points per abscissa as an upper bound, no point of order two.

*Status:* proved. 

Theorems: `Verif.Native.C169_k256_card`, `Verif.Native.C169_p256_card`, `Verif.Native.C169_k256_cyclic`, `Verif.Native.C169_p256_cyclic`, `Verif.Native.C169_k256_mul`, `Verif.Native.C169_p256_mul`, `Verif.Native.C169_k256_laws`, `Verif.Native.C169_p256_laws`, `Verif.Pallas.C169_pallas_generator`, `Verif.Pallas.C169_pallas_card`, `Verif.Pallas.C169_pallas_cyclic`, `Verif.Pallas.C169_pallas_mul`, `Verif.Pallas.C169_pallas_laws`

### C171 Pallas: the Jacobian formulas are the group law

Add, Double, Neg, Sub, Mul and SumOfProducts on any Jacobian coordinates of points of Pallas give coordinates of the sum, double, opposite, difference, multiple and sum of products, equal, opposite and infinite points included; Equal, IsIdentity and IsOnCurve decide equality, infinity and membership; SumOfProducts of lists of different lengths gives nil.

*Quantified over:* all points, representations and scalars.

*Plan:* Field identities in Jacobian coordinates against the Weierstrass group law.

*Status:* proved. 

Theorems: `Verif.Pallas.C171_group`, `Verif.Pallas.C171_equal`, `Verif.Pallas.C171_isIdentity`, `Verif.Pallas.C171_isOnCurve`, `Verif.Pallas.C171_mul`, `Verif.Pallas.C171_sumOfProducts`

### C172 Pallas: which encodings are accepted and which points survive them

FromAffineCompressed and FromAffineUncompressed accept exactly the encodings of the right length of numbers the field reads and that satisfy the equation, and return the point so described. A finite point survives the compressed round trip exactly when its abscissa, and the uncompressed one when both coordinates, lie outside the range the field's SetBytes refuses; points that do not survive exist; the identity never does. One point has two accepted compressed encodings. Set(x,0) returns a point with a different ordinate. The scalar two is said to be odd.

*Quantified over:* all byte strings, points and integers.

*Plan:* Exact acceptance conditions from C112; explicit witnesses.

*Status:* proved. Round trip refuted for the identity and the refused range; exact behaviour proved.

Theorems: `Verif.Pallas.C172_compress`, `Verif.Pallas.C172_decompress`, `Verif.Pallas.C172_decompress_point`, `Verif.Pallas.C172_compress_roundtrip`, `Verif.Pallas.C172_compress_identity`, `Verif.Pallas.C172_malleable`, `Verif.Pallas.C172_lost`, `Verif.Pallas.C172_uncompress`, `Verif.Pallas.C172_decode`, `Verif.Pallas.C172_uncompress_roundtrip`, `Verif.Pallas.C172_set`, `Verif.Pallas.C172_set_identity`, `Verif.Pallas.C172_set_zero`, `Verif.Pallas.C172_set_one`, `Verif.Pallas.C172_isOdd_two`

### C173 Pallas: hash to curve

On every field element mapSswu gives the point of the isogenous curve that RFC 9380 prescribes for the curve's constants, and isoMap sends every point of that curve to a finite point of Pallas; Hash is, for all messages, the sum of the images of the two field elements read little-endian from 128 expanded bytes, and is always on the curve.

*Quantified over:* all field elements, messages and hash functions with 64 bytes of output.

*Plan:* Specification by the first candidate as in C160; the kernel of the isogeny has no rational points.

*Status:* proved. BLAKE2b is an arbitrary function with 64 bytes of output.

Theorems: `Verif.Pallas.C173_map`, `Verif.Pallas.C173_isogeny`, `Verif.Pallas.C173_point`, `Verif.Pallas.C173_hash`, `Verif.Pallas.C173_hash_exists`

### C174 Pallas behind elliptic.Curve

Add, Double, ScalarMult and ScalarBaseMult of PallasCurve (the type that implements elliptic.Curve) compute, for integers the field reads as they are, the coordinates of the sum, the double and the multiple by the big-endian number, with (0,0) for infinity; IsOnCurve decides membership there. For integers or scalars in the ranges that SetBigInt refuses, which occur, IsOnCurve denies a point of the curve and ScalarMult and ScalarBaseMult return (0,0).

*Quantified over:* all integers, byte strings and points.

*Plan:* C171 and the exact behaviour of SetBigInt.

*Status:* proved. 

Theorems: `Verif.Pallas.C174_isOnCurve`, `Verif.Pallas.C174_add`, `Verif.Pallas.C174_double`, `Verif.Pallas.C174_scalarMult`, `Verif.Pallas.C174_scalarBaseMult`, `Verif.Pallas.C174_isOnCurve_gap`, `Verif.Pallas.C174_isOnCurve_wrong`, `Verif.Pallas.C174_scalarBaseMult_wrong`

### C175 Mina signatures, addresses and transactions on the concrete Pallas curve

Pallas satisfies everything the theorems about Mina signatures, keys and transactions assume of a group; signing and verification on Jacobian coordinates equal the functions of the abstract model for all keys, messages and networks, so every signature that is produced verifies; compressing and decompressing on coordinates are the functions of the abstract model, so every transaction whose keys can be encoded is read back.

*Quantified over:* all keys, coordinates, messages, networks, byte strings and hash functions.

*Plan:* C169, C171 and C172 instantiate the group of C77 to C80.

*Status:* proved. BLAKE2b, SHA-256 and base58 are arbitrary functions.

Theorems: `Verif.Pallas.C175_lawful`, `Verif.Pallas.C175_sign`, `Verif.Pallas.C175_verify`, `Verif.Pallas.C175_sign_verifies`, `Verif.Pallas.C175_lift`, `Verif.Pallas.C175_compress`, `Verif.Pallas.C175_decompress`, `Verif.Pallas.C175_transaction`

### C176 Serialization of scalars and points

MarshalBinary/UnmarshalBinary and MarshalText/UnmarshalText are inverse on every scalar whose Bytes/SetBytes round-trips (proved for every scalar of secp256k1, P-256 and both BLS12-381 groups; refuted for a Pallas scalar), keep the group, and different scalars have different encodings. A receiver accepts exactly the encodings named after a curve of its own scalar or point type, with two more names for the G1 groups. UnmarshalBinary, UnmarshalJSON and the three decoders of points never panic. UnmarshalText of scalars panics exactly on 66 or more hexadecimal digits after a known name, and accepts fewer than 64 digits, filling in zero bytes at the end. UnmarshalJSON of a BLS scalar into a new object leaves it without group, so that its next Marshal or Point panics. Target-group elements cannot be read back, panic in MarshalText and are cut to 32 bytes by MarshalBinary.

*Quantified over:* all inputs, scalars, points and curves.

*Plan:* Exact acceptance conditions against a specification of names and hexadecimal pairs.

*Status:* proved. The decoder of JSON is a parameter that reads what the encoder writes of plain texts.

Theorems: `Verif.Curves.C176_names`, `Verif.Curves.C176_binary_roundtrip`, `Verif.Curves.C176_text_roundtrip`, `Verif.Curves.C176_json_roundtrip`, `Verif.Curves.C176_json_no_group`, `Verif.Curves.C176_binary_accept`, `Verif.Curves.C176_text_accept`, `Verif.Curves.C176_text_short`, `Verif.Curves.C176_text_panic`, `Verif.Curves.C176_no_panic`, `Verif.Curves.C176_injective`, `Verif.Curves.C176_target`, `Verif.Curves.C176_point_roundtrip`, `Verif.Curves.C176_point_accept`, `Verif.Curves.C176_point_no_panic`, `Verif.Curves.C176_std`, `Verif.Curves.C176_pallas`

### C177 Scalars of secp256k1, P-256 and BLS12-381

Every method of the Scalar interface is the operation of the integers modulo the order: Zero, One, Add, Sub, Mul, MulAdd, Square, Double, Cube, Div, Invert (refused exactly for zero), Sqrt (exactly for non-squares), New for every machine integer, Cmp, the predicates, SetBigInt/BigInt, Bytes/SetBytes (exactly the canonical big-endian encodings) and Hash. SetBytesWide reads little-endian, so it does not extend SetBytes. A foreign first factor makes MulAdd panic where the other methods return nil. On BLS12-381 Neg is right except at zero, where it returns a value that IsZero and Cmp tell apart from zero and that can be inverted.

*Quantified over:* all field elements, integers and byte strings.

*Plan:* The native fields of C53 to C57, C111, C113 and C147.

*Status:* proved. Neg at zero on BLS12-381 refuted.

Theorems: `Verif.Curves.C177_ring`, `Verif.Curves.C177_div`, `Verif.Curves.C177_sqrt`, `Verif.Curves.C177_predicates`, `Verif.Curves.C177_cmp`, `Verif.Curves.C177_new`, `Verif.Curves.C177_bigInt`, `Verif.Curves.C177_bytes`, `Verif.Curves.C177_setBytes`, `Verif.Curves.C177_roundtrip`, `Verif.Curves.C177_wide`, `Verif.Curves.C177_wide_order`, `Verif.Curves.C177_hash`, `Verif.Curves.C177_foreign`, `Verif.Curves.C177_neg`, `Verif.Curves.C177_neg_bls`, `Verif.Curves.C177_neg_bls_zero`

### C178 Scalars of Ed25519

The methods of ScalarEd25519 are the operations modulo the group order, with these exceptions, each characterised: New keeps the low 32 bits of the absolute value, so it is right exactly below 2^32; Invert and Div by zero return zero without an error; Cmp is 0 or -2 and never orders; Sqrt of a non-square returns the element itself without an error; SetBytesClamping reduces the clamped number modulo the order, after which it may be odd. SetBytes accepts exactly the canonical little-endian encodings and SetBytesWide extends it; Hash is never nil.

*Quantified over:* all field elements, integers and byte strings.

*Plan:* Scalars of the library are residues modulo the order; the wrapper is modelled line by line.

*Status:* proved. The scalars of filippo.io/edwards25519 are taken from its documentation.

Theorems: `Verif.Curves.Ed.C178_ring`, `Verif.Curves.Ed.C178_div`, `Verif.Curves.Ed.C178_predicates`, `Verif.Curves.Ed.C178_cmp`, `Verif.Curves.Ed.C178_new`, `Verif.Curves.Ed.C178_new_exact`, `Verif.Curves.Ed.C178_bigInt`, `Verif.Curves.Ed.C178_sqrt`, `Verif.Curves.Ed.C178_bytes`, `Verif.Curves.Ed.C178_wide`, `Verif.Curves.Ed.C178_clamping`, `Verif.Curves.Ed.C178_clamping_odd`, `Verif.Curves.Ed.C178_hash`, `Verif.Curves.Ed.C178_foreign`

### C179 The group of edwards25519

The complete twisted Edwards addition law makes the points of the curve a commutative group with exactly 8l points; it is cyclic, the base point has order l, its multiples are exactly the points killed by l, and 8 times any point is one of them. Add, Sub, Neg, Double, Equal and IsIdentity of PointEd25519 are those of the group. Mul by scalars modulo l respects sums of scalars exactly for the points of the prime-order subgroup, and products of scalars exactly for the same points; there it is the action of the scalar field that the protocol models assume.

*Quantified over:* all points and scalars.

*Plan:* The group law from polynomial identities, the order from a count of ordinates and two points whose orders the kernel computes.

*Status:* proved. Points of filippo.io/edwards25519 are points of the curve in affine coordinates; its extended coordinates are trusted.

Theorems: `Verif.Ed25519.C179_base_order`, `Verif.Ed25519.C179_card`, `Verif.Ed25519.C179_cyclic`, `Verif.Ed25519.C179_subgroup`, `Verif.Ed25519.C179_cofactor`, `Verif.Ed25519.C179_mul_smul`, `Verif.Ed25519.C179_mul_add`, `Verif.Ed25519.C179_mul_mul`, `Verif.Ed25519.C179_ops`

### C180 Encodings of edwards25519 points

Compressed and uncompressed encodings of every point read back, are injective and have 32 and 64 bytes; IsOnCurve is true of every value. FromAffineCompressed accepts exactly 32 bytes whose low 255 bits, reduced modulo the prime, are the ordinate of a point, with a free sign when the abscissa is zero: an accepted string is the one that is written, or has an unreduced ordinate, or is minus zero; the identity has such encodings. FromAffineUncompressed also accepts unreduced coordinates, and 64 zero bytes as the identity. No decoder checks the order. Set returns the identity whenever one coordinate is zero, whatever the other is, also for the coordinates of the point of order two. sqrtRatio decides whether a ratio is a square and returns its even root; its constant is the other root of -1 than in the draft it cites, so the value for non-squares differs from the draft.

*Quantified over:* all byte strings, integers and points.

*Plan:* Exact characterisations of the accepted strings.

*Status:* proved. Set refuted for points with a zero coordinate.

Theorems: `Verif.Ed25519.C180_fromCompressed`, `Verif.Ed25519.C180_fromCompressed_total`, `Verif.Ed25519.C180_compressed_roundtrip`, `Verif.Ed25519.C180_compressed_injective`, `Verif.Ed25519.C180_malleable`, `Verif.Ed25519.C180_identity_encodings`, `Verif.Ed25519.C180_no_subgroup_check`, `Verif.Ed25519.C180_fromUncompressed`, `Verif.Ed25519.C180_uncompressed_roundtrip`, `Verif.Ed25519.C180_set`, `Verif.Ed25519.C180_set_twoTors`, `Verif.Ed25519.C180_sqrtRatio`, `Verif.Ed25519.C180_sqrtM1`

### C181 Hashing to edwards25519

elligatorEncode is the Elligator 2 map of curve25519 for every field element; its value is always the abscissa of a point of the Montgomery curve and never -1, so toEdwards and Hash never return nil and always land in the prime-order subgroup: the result is 8P for the point P with ordinate (u-1)/(u+1) and the sign taken from bit 255 of the digest. Opposite field elements hash to the same point, and the field element zero to the identity.

*Quantified over:* all messages, hash functions with at least 32 bytes of output, field elements and signs.

*Plan:* Quadratic characters of 2, -1, A-2 and the birational map.

*Status:* proved. SHA-512 is an arbitrary function.

Theorems: `Verif.Ed25519.C181_elligator`, `Verif.Ed25519.C181_elligator_on_curve`, `Verif.Ed25519.C181_toEdwards`, `Verif.Ed25519.C181_hash`, `Verif.Ed25519.C181_hash_subgroup`, `Verif.Ed25519.C181_hash_symmetric`

### C182 Sums of products and mangled keys on edwards25519

SumOfProducts is the sum of the products for points and scalars of the curve, over the scalar field for points of the subgroup; it panics exactly when the lengths differ; a nil or foreign point or non-canonical bytes give nil; a scalar of another curve is read by its bytes in little-endian order without an error. VarTimeDoubleScalarBaseMult is a*A + b*B. MangleScalarBitsAndMulByBasepointToProducePublicKey is the multiple of the base point by the clamped bytes, and differs from s*B unless the clamped number agrees with s modulo the order.

*Quantified over:* all lists of points and scalars and all byte strings.

*Plan:* C179 and the model of the methods.

*Status:* proved. 

Theorems: `Verif.Ed25519.C182_sumOfProducts`, `Verif.Ed25519.C182_sum_subgroup`, `Verif.Ed25519.C182_foreign_scalar`, `Verif.Ed25519.C182_sum_nil`, `Verif.Ed25519.C182_double`, `Verif.Ed25519.C182_mangle`

### C183 Ed25519, threshold Ed25519 and NEM signatures on the concrete curve

The curve with its encodings meets everything the models of NEM signatures (whole curve) and of threshold Ed25519 (prime-order subgroup) assume. For keys in the subgroup the verifier on the curve and the verifier of the threshold model accept the same signatures. So every signature of Sign with a key from NewKeyFromSeed, every NEM signature with a key from a seed, and every aggregate of the partial signatures of a threshold of signers is accepted by the verifier on the curve.

*Quantified over:* all seeds, messages, thresholds, sets of signers, nonces and hash functions with 64 bytes of output.

*Plan:* C179 and C180 instantiate C30, C81 and C95.

*Status:* proved. 

Theorems: `Verif.Ed25519.C183_nem_lawful`, `Verif.Ed25519.C183_nem_sign_verifies`, `Verif.Ed25519.C183_annihilator`, `Verif.Ed25519.C183_verify_of_model`, `Verif.Ed25519.C183_verify_iff_model`, `Verif.Ed25519.C183_sign_verify`, `Verif.Ed25519.C183_threshold`

### C184 What ted25519.Verify accepts on the whole curve

Verify accepts exactly the 64-byte strings R||s with s below the order, R the canonical encoding of a point and s*B = R + h*A on the whole curve, where A is any point the public key decodes to and h is the digest reduced modulo the order: the cofactor is not cleared. For one key, message and R at most one s is accepted. For a key a*B + T an honest signature for a is accepted exactly when h kills T: with the point of order two, exactly when h is even. A key that decodes to the identity accepts a signature of every message made without a secret.

*Quantified over:* all byte strings and hash functions with 64 bytes of output.

*Plan:* C179 to C183.

*Status:* proved. 

Theorems: `Verif.Ed25519.C184_verify_iff`, `Verif.Ed25519.C184_unique`, `Verif.Ed25519.C184_torsion_key`, `Verif.Ed25519.C184_two_torsion`, `Verif.Ed25519.C184_identity_key`

### C185 Scalars of the target group of BLS12-381

The methods of ScalarBls12381Gt compute, on the elements whose power r is one, in a single multiplicative group: Add and Mul are the product, Sub and Div the quotient, Neg and Invert the inverse, Double and Square the square. They are not those of a field: Zero absorbs under Add, a - a is One, and Mul distributes over Add for the factor One alone. Bytes and SetBytes, BigInt and SetBigInt are inverse on values, but SetBytes accepts every length, padding or cutting, and negative numbers are read without their sign. New does not make small integers: no value of it is One and New(27) is nil. IsOdd reads the most significant byte of a coefficient. Random and Hash give elements of the field and not of the group.

*Quantified over:* all elements, byte strings, integers, readers and hash functions.

*Plan:* Model of the methods over the tower of C148 and the encodings of C153.

*Status:* proved. Field laws and New refuted.

Theorems: `Verif.Curves.GtS.C185_group`, `Verif.Curves.GtS.C185_not_a_field`, `Verif.Curves.GtS.C185_errors`, `Verif.Curves.GtS.C185_setBytes`, `Verif.Curves.GtS.C185_roundtrip`, `Verif.Curves.GtS.C185_malleable`, `Verif.Curves.GtS.C185_wide`, `Verif.Curves.GtS.C185_new`, `Verif.Curves.GtS.C185_new_wrong`, `Verif.Curves.GtS.C185_random`, `Verif.Curves.GtS.C185_hash`, `Verif.Curves.GtS.C185_parity`

### C186 The older curves of secp256k1 and P-256

The elliptic.Curve values K256Curve and NistP256Curve compute in the groups of secp256k1 and P-256 on coordinates in integers, with (0,0) for the point at infinity: Add, Double, ScalarMult and ScalarBaseMult are the group operations and the base points of the parameters are the generators. IsOnCurve reduces, so it accepts negative and unreduced coordinates and (0,0). Scalars that are not reduced give nil and long strings are cut. EcPoint.Neg of the point at infinity is (0,P), which is accepted and is neither IsIdentity nor equal to any point.

*Quantified over:* all points, integers and byte strings.

*Plan:* Model of the methods over the point arithmetic of the native curves and the orders of C169.

*Status:* proved. 

Theorems: `Verif.Legacy.C186_p256_scalarMul`, `Verif.Legacy.C186_lawful`, `Verif.Legacy.C186_double`, `Verif.Legacy.C186_isOnCurve`, `Verif.Legacy.C186_scalar`, `Verif.Legacy.C186_neg_identity`

### C187 The older curves of BLS12-381

Bls12381G1Curve computes sums, doubles and multiples of the base point in the subgroup of order r for all integers. Its ScalarMult reads the scalar in the other byte order, so EcPoint.ScalarMult is the multiple exactly when the bytes of the integer are those of the same number in both orders, gives 256*P = P and panics where the number so read is not below the order. The base point of its parameters is not on the curve. Bls12381G2 returns the encoding of the neutral element from every operation that does not fail, whatever the points and the scalar.

*Quantified over:* all points of the subgroup, integers and byte strings.

*Plan:* Model of the methods over the points of C155 and C156.

*Status:* proved. ScalarMult on G1 and everything on G2 refuted.

Theorems: `Verif.Legacy.C187_isOnCurve`, `Verif.Legacy.C187_ops`, `Verif.Legacy.C187_add_base`, `Verif.Legacy.C187_mul`, `Verif.Legacy.C187_mul_iff`, `Verif.Legacy.C187_basePoint`, `Verif.Legacy.C187_g2`, `Verif.Legacy.C187_refused`, `Verif.Legacy.C187_g2_accepted`

### C188 The older curve of Ed25519

On points of prime order EcPoint sums and multiples on the Ed25519Curve are right for all integers and equality decides. The neutral element of the curve is never IsIdentity, and nothing of the subgroup is; (0,0) is the neutral element for Add and a point of order four for ScalarMult; EcPoint.Neg never gives the opposite of any point; IsOnCurve looks neither at the abscissa nor at the sign of the ordinate and panics from 2^256 on; scalars keep the low 256 bits when these are below the order; Hash returns the bytes of the point in the wrong order.

*Quantified over:* all points of the curve, integers and byte strings.

*Plan:* Model of the methods over the curve of C179.

*Status:* proved. Neg and IsIdentity refuted.

Theorems: `Verif.Legacy.C188_scalar`, `Verif.Legacy.C188_ops`, `Verif.Legacy.C188_computes`, `Verif.Legacy.C188_identity`, `Verif.Legacy.C188_zero`, `Verif.Legacy.C188_neg`, `Verif.Legacy.C188_isOnCurve`, `Verif.Legacy.C188_hash`

### C189 EcPoint on any curve that computes in a group

For every elliptic.Curve that computes in a group, Equals decides equality, Add is the sum (nil points and parameters at another address are refused), ScalarMult and NewScalarBaseMult are the multiple by the integer whatever its sign and size, Neg is the opposite of every point but the neutral one, Bytes have a fixed length, are injective and read back, and what PointFromBytesUncompressed accepts with reduced coordinates is a point of the group. MarshalBinary and MarshalJSON are read back for curves of five names and coordinates of 256 bits; the curve of BLS12-381 loses bytes; UnmarshalBinary and UnmarshalJSON check neither the curve equation nor the sign, and short data panics.

*Quantified over:* all curves, points, integers and data.

*Plan:* Model of EcPoint over an abstract elliptic.Curve; instances in C186 and C188.

*Status:* proved. 

Theorems: `Verif.Legacy.C189_equals`, `Verif.Legacy.C189_isIdentity`, `Verif.Legacy.C189_add`, `Verif.Legacy.C189_neg`, `Verif.Legacy.C189_neg_identity`, `Verif.Legacy.C189_mul`, `Verif.Legacy.C189_fieldSize`, `Verif.Legacy.C189_bytes`, `Verif.Legacy.C189_fromBytes`, `Verif.Legacy.C189_marshal`, `Verif.Legacy.C189_unmarshal`, `Verif.Legacy.C189_json`

### C190 EcScalar

The arithmetic of K256Scalar, P256Scalar, PallasScalar and Bls12381Scalar is that of the prime field for all integers; a division by zero panics, except on BLS12-381 where it returns the dividend. IsValid of Pallas and Ed25519 accepts every negative integer. Ed25519Scalar is right on reduced integers, drops the sign and the bits above 256, and panics otherwise. Bytes are 32 bytes that read back except on Pallas, whose encoding has no fixed length; Random of secp256k1 and P-256 may be zero, that of Ed25519 never.

*Quantified over:* all integers and byte strings.

*Plan:* Model of the methods, compared with the prime field.

*Status:* proved. 

Theorems: `Verif.Legacy.C190_mod`, `Verif.Legacy.C190_pallas`, `Verif.Legacy.C190_bls`, `Verif.Legacy.C190_ed`, `Verif.Legacy.C190_ed_other`, `Verif.Legacy.C190_bytes`, `Verif.Legacy.C190_random`

### C191 The older Feldman and Pedersen sharing on the points of the code

On every curve that computes in a group, Split and Verify of the older Feldman and Pedersen schemes on EcPoints are those over the group. So on secp256k1 dealt shares verify, and with the commitments of a dealer a share verifies exactly when its value is that of the polynomial; dealt shares verify on Ed25519. On BLS12-381 G1, for a threshold of two, an honest share is accepted exactly when the polynomial is constant or the bytes of its identifier read the same in both orders: never for the identifier 256. NewPedersen accepts every point of the curve but the neutral one.

*Quantified over:* all thresholds, secrets, random coefficients and identifiers.

*Plan:* C87 transported through C189.

*Status:* proved. Refuted on BLS12-381 G1.

Theorems: `Verif.Legacy.C191_feldman_verify`, `Verif.Legacy.C191_feldman_split`, `Verif.Legacy.C191_pedersen_verify`, `Verif.Legacy.C191_pedersen_split`, `Verif.Legacy.C191_newPedersen`, `Verif.Legacy.C191_k256`, `Verif.Legacy.C191_ed25519`, `Verif.Legacy.C191_g1`, `Verif.Legacy.C191_g1_honest`

### C192 Encodings on secp256k1 and P-256 as the protocols use them

The bytes of scalars are 32 bytes in big-endian order and only those below the order are read; ToAffineCompressed depends on the point alone, not on its coordinates, and FromAffineCompressed gives a point of the curve or an error. On secp256k1 the bytes of all points are read back, so they are injective; on P-256 those of the neutral element are those of a point of abscissa zero, and all others are read back. The scalars act freely on the generators.

*Quantified over:* all scalars and points.

*Plan:* C112 and C177 turned into codecs; orders of C169.

*Status:* proved. Injectivity refuted on P-256.

Theorems: `Verif.Inst.C192_scalars`, `Verif.Inst.C192_points`, `Verif.Inst.C192_generators`, `Verif.Inst.C192_point_codecs`

### C193 Two-party ECDSA on secp256k1 and P-256

The concrete curves with their encodings are what the models of DKLs assume. A run of the key generation by honest parties on either curve ends with the same key skA*skB*G, and whenever the first two rounds of a signature are completed the last gives a valid ECDSA signature for the hash of the message, but for the zeros that ECDSA excludes. A nonce point with abscissa above the order makes the signing fail with an error: it is not reduced.

*Quantified over:* all secrets, random values, messages, hash functions and both curves.

*Plan:* C192 instantiates the end-to-end theorems on DKLs.

*Status:* proved. Hash functions are arbitrary.

Theorems: `Verif.Inst.C193_env`, `Verif.Inst.C193_k256`, `Verif.Inst.C193_p256`, `Verif.Inst.C193_large_abscissa`

### C194 GG20 on the older curves

On every elliptic.Curve that computes in a group the bytes of points have the fixed length and are read back, coordinates determine the point, and a point and its negative have the same abscissa and ordinates of different parity. So the assumptions of the theorems on GG20 hold on secp256k1 and P-256.

*Quantified over:* all curves and points.

*Plan:* C186 and C189.

*Status:* proved. ScalarMult of P-256 in the standard library is assumed to multiply.

Theorems: `Verif.Inst.C194_lawful`, `Verif.Inst.C194_curves`

### C195 FROST on Ed25519 makes Ed25519 signatures

Verify of FROST with the challenge of Ed25519 accepts (z,c) exactly when the message is not empty, c is the challenge for R = z*B - c*A and (R,z) is a signature that the Ed25519 verifier on the curve accepts. Honest signers all end with the same (R,z), which is an Ed25519 signature under the joint key; the same for a run of the key generation followed by signing with any t of the participants.

*Quantified over:* all thresholds, participants, sets of signers, nonces, messages and hash functions with 64 bytes of output.

*Plan:* C183 and the theorems on FROST over the prime-order subgroup.

*Status:* proved. SHA-512 is an arbitrary function.

Theorems: `Verif.Inst.C195_verify`, `Verif.Inst.C195_sign`, `Verif.Inst.C195_end_to_end`

### C196 Schnorr proofs on the curves of the library

The encodings of secp256k1 and of the prime-order subgroup of Ed25519 are fixed-length and injective, as binding of a proof to its statement needs; no length makes that of P-256 so. There is a nonzero secret x for which, with every hash function, session and nonce, the proofs for x and for zero on P-256 have the same challenge though the statements differ.

*Quantified over:* all points, hash functions, sessions and nonces.

*Plan:* C192 and the theorems on Schnorr proofs.

*Status:* proved. Binding refuted on P-256.

Theorems: `Verif.Inst.C196_points`, `Verif.Inst.C196_p256_confusion`

### C197 BBS+ and the accumulator on the pairing of BLS12-381

The groups, pairing and encodings of the code are what the theorems on BBS+ and the accumulator assume: the subgroups are cyclic of order r, the pairing with the generator is injective, points have encodings of fixed length that are injective and read back, as do scalars. For all coordinates of the points the MultiPairing checks of Verify, VerifySigPok and MembershipWitness.Verify give one exactly when (x+e)A = B, Abar = xA', (y+alpha)C = V. So signing and verification, proofs of knowledge with extraction, serialization and the membership proofs have their properties on the curve. A serialized witness has one accepted encoding, except with the identity.

*Quantified over:* all keys, signatures, messages, proofs, coordinates and hash functions.

*Plan:* C157 and C168 instantiate C64 to C70 and C97 to C100.

*Status:* proved. Uniqueness of the encoding refuted for the identity.

Theorems: `Verif.Inst.C197_codecs`, `Verif.Inst.C197_scalars`, `Verif.Inst.C197_groups`, `Verif.Inst.C197_checks`, `Verif.Inst.C197_cyclic`, `Verif.Inst.C197_bbs`, `Verif.Inst.C197_pok`, `Verif.Inst.C197_bbs_roundtrip`, `Verif.Inst.C197_accumulator`, `Verif.Inst.C197_witness_canonical`

### C198 The generated field arithmetic computes the field operations

The functions generated by fiat-crypto for the fields of secp256k1, P-256 and Pasta, taken statement by statement on 64-bit words, compute Montgomery multiplication, squaring, addition, subtraction, negation and the conversions modulo the prime, with reduced result. Multiplication needs only a*b < m*2^256, so the calls with unreduced halves in SetBytesWide are correct; the conversions are correct for arbitrary limbs, as SetRaw needs; without the bound the result need not be reduced. Every carry handed to bits.Add64 and bits.Sub64 is 0 or 1. ToBytes, FromBytes, Nonzero, Selectznz and SetOne do what their names say.

*Quantified over:* all limbs, all bytes, all six fields.

*Plan:* The programs are data; a checker that substitutes backwards is proved sound and evaluated on them by the kernel.

*Status:* proved. Divstep and Msat, which nothing calls, are not modelled.

Theorems: `Verif.Fiat.C198_mul`, `Verif.Fiat.C198_square`, `Verif.Fiat.C198_add`, `Verif.Fiat.C198_sub`, `Verif.Fiat.C198_opp`, `Verif.Fiat.C198_from`, `Verif.Fiat.C198_to`, `Verif.Fiat.C198_carries`, `Verif.Fiat.C198_field`, `Verif.Fiat.C198_toBytes`, `Verif.Fiat.C198_fromBytes`, `Verif.Fiat.C198_wide`, `Verif.Fiat.C198_nonzero`, `Verif.Fiat.C198_select`, `Verif.Fiat.C198_setOne`

### C199 Older DKLs: the Schnorr proofs and the joint key

Verify accepts (C,S) for P exactly when C fits 32 bytes and is the hash of P and S*G - C*P; a longer C makes it panic. Every honest proof is accepted; two accepted proofs with one commitment and different challenges give the secret. The commitment to C and S binds P too, or there is a collision. Honest parties end with the same key, the product of the secrets; against any message the key is the secret times the point proved. The neutral element is accepted as the other's public key and gives the neutral element as joint key. A proof with a nil challenge panics; a proof on another curve is refused.

*Quantified over:* all proofs, secrets, nonces, commitments and hash functions.

*Plan:* The points are those of EcPoint over a curve that computes in a group.

*Status:* proved. Rejection of the neutral element refuted.

Theorems: `Verif.DklsV0.C199_verify`, `Verif.DklsV0.C199_incomplete`, `Verif.DklsV0.C199_complete`, `Verif.DklsV0.C199_extract`, `Verif.DklsV0.C199_decommit`, `Verif.DklsV0.C199_binding`, `Verif.DklsV0.C199_dkg`, `Verif.DklsV0.C199_dkg_any`, `Verif.DklsV0.C199_dkg_identity`, `Verif.DklsV0.C199_other_curve`

### C200 Older DKLs: the seed OT

Honest parties accept each other, the receiver has the chosen one of the two pads of the sender in all 256 slots, and the other pad is the hash of another point. The message of the receiver is the same for other choices and suitable scalars. The sender accepts exactly the responses H(H(rho0)); the receiver accepts exactly openings of its pad that give the challenge. A sender can test choice bits: with a wrong challenge in some slots both checks pass if the choices there are zero, and otherwise the response shows it.

*Quantified over:* all secrets, choices, scalars, messages and hash functions.

*Plan:* Slot by slot; the selective challenge is constructed.

*Status:* proved. Hiding of the choices against an active sender refuted.

Theorems: `Verif.DklsV0.C200_receiver`, `Verif.DklsV0.C200_hiding`, `Verif.DklsV0.C200_sender`, `Verif.DklsV0.C200_response`, `Verif.DklsV0.C200_final`, `Verif.DklsV0.C200_honest`, `Verif.DklsV0.C200_selective`

### C201 Older DKLs: the correlated OT extension

Honest parties with a new receiver pass the check and get additive shares of choice bit times input in all slots. The check compares bit by bit, since the code takes AND for multiplication in GF(2^256), and so is vacuous: for any rows there are two values with which it passes for every secret of the sender, though the receiver used another choice vector in every row. A message with a short row makes the sender panic. The matrix of a receiver that is used again is ORed with the old one.

*Quantified over:* all multiplicities up to 126, seeds, choices, inputs, messages and hash functions.

*Plan:* The transposition theorem of the newer OT and parities of bits.

*Status:* proved. Consistency check refuted.

Theorems: `Verif.DklsV0.C201_idx`, `Verif.DklsV0.C201_init`, `Verif.DklsV0.C201_zeta`, `Verif.DklsV0.C201_short`, `Verif.DklsV0.C201_check`, `Verif.DklsV0.C201_check_vacuous`, `Verif.DklsV0.C201_agree`, `Verif.DklsV0.C201_honest`

### C202 Older DKLs: multiplication

The choice bits that encode makes have inner product with the gadget vector equal to the input, whatever the random bits; the last 80 of the 160 bits shared by all inputs are always zero, though 160 random bits are meant. Honest parties end with additive shares of each product. An input of more than 32 bytes makes the receiver panic.

*Quantified over:* all inputs, randomness, seeds and multiplicities up to 126.

*Plan:* Invariants of the subtraction loops over the order.

*Status:* proved. 

Theorems: `Verif.DklsV0.C202_encode`, `Verif.DklsV0.C202_encode_wide`, `Verif.DklsV0.C202_multiply`

### C203 Older DKLs: signing

Whatever Alice sends, a signature that Bob returns is a valid ECDSA signature under the joint key on the first 32 bytes of the digest. Honest parties compute s = (m + r*sk)/k up to sign, where m is the integer of the whole digest and r is not reduced, with the recovery bit of the normalized s; so for digests of at most 32 bytes and an abscissa below the order the signature is returned and is valid. A message without the point R' makes Bob panic after he finished the multiplication.

*Quantified over:* all keys, nonces, digests, messages, seeds and hash functions.

*Plan:* C199 to C202 and the ECDSA equation of the newer DKLs.

*Status:* proved. crypto/ecdsa.Verify is assumed to verify.

Theorems: `Verif.DklsV0.C203_alice`, `Verif.DklsV0.C203_bob`, `Verif.DklsV0.C203_checked`, `Verif.DklsV0.C203_honest`, `Verif.DklsV0.C203_sound`, `Verif.DklsV0.C203_valid`, `Verif.DklsV0.C203_incomplete`, `Verif.DklsV0.C203_no_point`, `Verif.DklsV0.C203_k256`

### C204 Older DKLs: the iterators

Next runs the steps in order and a failed step leaves the party as it was, so Bob tries any number of answers with one nonce. Result gives an error until all steps are done, and for AliceSign always. For every sequence of messages and randomness: a signature from BobSign.Result was verified for the message and key it was created with; a result of AliceDkg or BobDkg holds a key made from a point whose proof was checked (for Bob: committed to in the first message), and pads whose openings were checked. Honest key generation, encoding, decoding and signing, end to end, gives a valid signature under the joint key.

*Quantified over:* all sequences of messages, randomness, codecs and digests.

*Plan:* An invariant of the steps over all calls; the honest run is computed step by step.

*Status:* proved. encoding/gob is an arbitrary lossless codec.

Theorems: `Verif.DklsV0.C204_retry`, `Verif.DklsV0.C204_bob_sign`, `Verif.DklsV0.C204_results`, `Verif.DklsV0.C204_alice_dkg`, `Verif.DklsV0.C204_bob_dkg`, `Verif.DklsV0.C204_dkg`, `Verif.DklsV0.C204_end_to_end`

### C205 OT streams

Over a connection that delivers one gob value per read, the order in which the two parties act does not matter: all executions of the seed OT, of the extension, and of one after the other end, within a fixed number of actions, in success at both ends with correct outputs. For a single run this remains true however much the gob decoders read ahead. Whatever the peer does, a receiver that returns nil has verified the sender's proof, and in every slot the opening of its own pad and the consistency of the challenge; a sender that returns nil has got the double hash of its first key in every slot. One stream after the other on one connection is safe even if the decoders read ahead (refuted: the last message of the seed OT and the first of the extension go in the same direction, the new decoder never sees what the old one has buffered, and both parties wait for ever). If gob refuses the proof, because its types are not registered, the sender never succeeds.

*Quantified over:* all interleavings, reads, peers, messages, randomness, codecs and hash functions.

*Plan:* The functions are processes over two queues; their actions commute (diamond), so one execution decides all. Reading ahead is simulated by putting the buffers back.

*Status:* proved. Consecutive streams on a connection that does not keep the values apart refuted. A gob value is one unit; nil fields in decoded values are not modelled.

Theorems: `Verif.Ot.C205_schedule`, `Verif.Ot.C205_single_run`, `Verif.Ot.C205_seed`, `Verif.Ot.C205_cot`, `Verif.Ot.C205_both`, `Verif.Ot.C205_receiver`, `Verif.Ot.C205_sender`, `Verif.Ot.C205_unregistered`, `Verif.Ot.C205_readahead`

### C206 DKLs: results of the older key generation are usable in the newer protocol

An honest run of the older key generation on secp256k1 or P-256, the conversion of the saved states of both parties, and the decoding of the converted messages give outputs with the same joint key, the shares reduced modulo the order, and correct seeds, so the newer signing returns valid signatures under the old key whenever its rounds end. The curve is chosen by the name in the parameters only; other names and bytes that do not decode give an error, coordinates that are not on that curve are refused, and a saved state without public key makes the conversion panic.

*Quantified over:* all secrets, randomness, hash functions, codecs, messages and nonces.

*Plan:* C204_dkg gives the states, C37 the signature; in between the seeds are shown to meet SeedOk.

*Status:* proved. ScalarMult of P-256 in the standard library is assumed to multiply; gob is an arbitrary lossless codec.

Theorems: `Verif.DklsV0.C206_set`, `Verif.DklsV0.C206_party`, `Verif.DklsV0.C206_seed`, `Verif.DklsV0.C206_names`, `Verif.DklsV0.C206_roundtrip`, `Verif.DklsV0.C206_signs`, `Verif.DklsV0.C206_k256`, `Verif.DklsV0.C206_p256`

### C207 BLS12-377 scalars are a prime field

The modulus is prime, and the methods of the scalars are the arithmetic of the field. Every scalar a method returns without an error can be used (refuted: Invert of zero and Sqrt of a non-square return a scalar without value and a nil error, on which every method panics; Div by zero panics). Bytes are 32, big-endian, and are read back; SetBytes accepts every length and rejects exactly the numbers not below the order, so leading zeros are accepted; SetBytesWide reduces 32 to 128 bytes; SetBigInt accepts exactly the reduced integers. Hash is expand_message_xmd reduced; the expansion never returns its error for long domains, as the length is compared after it was cut to a byte; Random ignores the errors of its reader.

*Quantified over:* all scalars, integers, byte strings, hash functions and readers.

*Plan:* Values are optional integers; Pocklington certificate for the modulus; the stdlib ModSqrt is a parameter with its specification.

*Status:* proved. Usability of returned scalars refuted. big.Int.ModSqrt is a parameter.

Theorems: `Verif.Bls377.C207_prime`, `Verif.Bls377.C207_is`, `Verif.Bls377.C207_field`, `Verif.Bls377.C207_invert`, `Verif.Bls377.C207_sqrt`, `Verif.Bls377.C207_foreign`, `Verif.Bls377.C207_bytes`, `Verif.Bls377.C207_new`, `Verif.Bls377.C207_xmd`, `Verif.Bls377.C207_hash`

### C208 BLS12-377 points and pairing

Given a library that computes a bilinear map on the subgroups of prime order: the points are a group, SumOfProducts is the linear combination, MultiPairing gives a result exactly for a non-empty sequence of pairs from the two subgroups in order, and it is the product. Pairing is bilinear (refuted: with an identity it returns zero, which is not in the target group and absorbs products, whereas MultiPairing returns one). Comparing two values of Pairing is nevertheless right for a non-degenerate map. Set uses absolute values, panics on coordinates that do not fit, and takes a first coordinate with the highest bit set for a compressed encoding, ignoring the second; FromAffineUncompressed accepts a compressed encoding followed by anything.

*Quantified over:* all points, scalars, sequences and byte strings.

*Plan:* gnark-crypto is a parameter with a specification, satisfied by the additive characters of the residues.

*Status:* proved. Bilinearity of Pairing refuted. gnark-crypto is assumed to compute a bilinear map, to test the subgroups, and to look at the first half of a compressed encoding only.

Theorems: `Verif.Bls377.C208_group`, `Verif.Bls377.C208_sum`, `Verif.Bls377.C208_set`, `Verif.Bls377.C208_set_coordinates`, `Verif.Bls377.C208_uncompressed`, `Verif.Bls377.C208_pairing`, `Verif.Bls377.C208_multi`, `Verif.Bls377.C208_bilinear`, `Verif.Bls377.C208_compare`

### C209 BLS12-377 target group

The methods are those of the field of degree twelve; an encoding is 576 bytes, read back, and not unique as coordinates are reduced. Invert and Div by zero give zero, Sqrt nil, without an error. New(n) is the constant n (refuted: it writes its bytes in reverse at the front of the encoding, so no argument gives one). Random draws from the whole field (refuted: its coordinates are below the order of the groups). SetBigInt takes absolute values, panics on numbers that do not fit, and inverts BigInt; SetBytesWide adds its halves.

*Quantified over:* all elements, integers and byte strings.

*Plan:* An element is given by twelve coordinates in the order of the encoding.

*Status:* proved. New and Random refuted. The field arithmetic of gnark-crypto is assumed.

Theorems: `Verif.Bls377.Gt.C209_codec`, `Verif.Bls377.Gt.C209_field`, `Verif.Bls377.Gt.C209_zero`, `Verif.Bls377.Gt.C209_parity`, `Verif.Bls377.Gt.C209_new`, `Verif.Bls377.Gt.C209_bigInt`, `Verif.Bls377.Gt.C209_wide`, `Verif.Bls377.Gt.C209_random`

### C210 Safe primes and pairs of safe primes

Given random primes with the promised length and a correct primality test, GenerateSafePrime returns only safe primes of exactly the requested length, in the upper half, skipping the draws that do not give one, and refuses fewer than three bits; the product of two has exactly twice as many bits. The loop that draws two primes until they differ makes sure that they differ (refuted: it compares pointers, so it ends in its first turn with whatever two allocated numbers were drawn). Given two primes by the caller, it returns both in some order as soon as its goroutines did not race for the shared index, and never ends if the caller passes one pointer twice. An error of either goroutine is returned.

*Quantified over:* all sizes, draws, schedules of the goroutines and pointers.

*Plan:* The loops run over lists of draws; a pointer is an address with a value.

*Status:* proved. Distinctness of the primes refuted. crypto/rand.Prime and ProbablyPrime are assumed to be right.

Theorems: `Verif.Paillier.C210_safePrime`, `Verif.Paillier.C210_modulus`, `Verif.Paillier.C210_fresh`, `Verif.Paillier.C210_error`, `Verif.Paillier.C210_withPrimes`

### C211 GG20: messages and keys survive JSON

Proofs, witnesses, the broadcasts and responses of the signing rounds, Paillier keys, shares and the data a participant keeps come back from their JSON form as they were, nil fields included. The share that a participant of the key generation sends to another survives (refuted: the field is not exported, so the document is empty and every document decodes to a message without share). No document makes a decoder panic (refuted: null panics in the decoders of the Cdl proof, the second range proof and the Pdl proof, which is the message of the fifth round; a share without point or with a value that is not reduced panics; all others never panic). Decoded Paillier keys have the square of their modulus and are not checked otherwise. A dealer without parameters comes back as a distributed key generation.

*Quantified over:* all proofs, messages, keys and documents.

*Plan:* A document is a tree, decoded with the rules of encoding/json for keys, null and absent fields.

*Status:* proved. Survival of the share in key generation and absence of panics refuted. The text of a document is the work of encoding/json; of repeated keys the last counts.

Theorems: `Verif.Gg20.Json.C211_proofs`, `Verif.Gg20.Json.C211_messages`, `Verif.Gg20.Json.C211_dkg_share_lost`, `Verif.Gg20.Json.C211_paillier`, `Verif.Gg20.Json.C211_share`, `Verif.Gg20.Json.C211_panics`, `Verif.Gg20.Json.C211_participant`, `Verif.Gg20.Json.C211_publicShares`

### C212 Random elements of the Ed25519 field

RandomElement for the order of Ed25519 fails exactly on a failed or short read. It reaches every scalar (refuted: it clamps a hash to 2^254 + 8k with k < 2^251 and reduces, so exactly 2^251 scalars, fewer than half, can be drawn, and each of them is). Fewer than t shares of a secret split over this field say nothing about it (refuted: t-1 shares exclude more than half of all secrets; with threshold two the secret is never the share, nor the share minus 2^255 times its identifier). The nonce of a ted25519 dealer is one of these scalars, so the discrete logarithm of the published nonce point is known to lie in a set of fewer than half of the scalars.

*Quantified over:* all hash functions, all bytes read, all thresholds, identifiers and share values.

*Plan:* The draws are followed down to the bytes read; counting by the injective map k to 2^254 + 8k.

*Status:* proved. Reaching every scalar and secrecy of shares over this field refuted (C02 holds for uniform coefficients). SHA-512 and HKDF are arbitrary functions.

Theorems: `Verif.Ted.C212_range`, `Verif.Ted.C212_reached`, `Verif.Ted.C212_half`, `Verif.Ted.C212_draws`, `Verif.Ted.C212_split`, `Verif.Ted.C212_shares_leak`, `Verif.Ted.C212_excluded`, `Verif.Ted.C212_nonce`

### C213 ted25519 helpers

The input of the nonce derivation determines the share, the random bytes and, for public keys of one length, the public key and the message (for keys of other lengths, which are not refused, it does not). CommitmentsFromBytes succeeds exactly on lists of 32-byte encodings that decode, inverts CommitmentsToBytes and never panics. NewKeyShare agrees with KeyShareFromBytes and panics exactly for values not below the order; NonceShare.Add is the addition of shares; GenerateKey, Public, Seed and PrivateKey.Sign fit together: signatures verify under the returned public key.

*Quantified over:* all shares, keys, messages and byte strings.

*Plan:* Byte-level model of the helpers over the model of C30.

*Status:* proved. 

Theorems: `Verif.Ted.C213_hkdf_input`, `Verif.Ted.C213_hkdf_ambiguous`, `Verif.Ted.C213_commitments_decision`, `Verif.Ted.C213_commitments_round_trip`, `Verif.Ted.C213_newKeyShare`, `Verif.Ted.C213_nonceShareAdd`, `Verif.Ted.C213_halves`, `Verif.Ted.C213_generateKey`

### C214 Accumulator: serialization of keys, accumulators, witnesses and proofs

Accumulators, secret keys, witnesses, deltas, proof parameters and proofs whose parts belong to one curve come back from their bytes; nil parts are errors. A public key that can be marshalled can be read back (refuted: the reader knows only the names of the two BLS12-381 groups, so a key of BLS12-377 is packed and refused). What is read belongs to the accumulator scheme (refuted: a point of any of the eight curves is accepted as an accumulator, and a point of the first group as a public key). Verify of a decoded witness never panics (refuted: its equation is reached exactly for a key in the second group and a witness and accumulator in the first; a key in the first group panics).

*Quantified over:* all points, scalars and curves.

*Plan:* Any packing of byte strings that can be undone; the codecs of the curves are those of C176.

*Status:* proved. Round trip of every public key, membership of decoded values and absence of panics refuted. git.sr.ht/~sircmpwn/go-bare is an arbitrary lossless packing of a struct of byte strings.

Theorems: `Verif.Accum.Marshal.C214_names`, `Verif.Accum.Marshal.C214_accumulator`, `Verif.Accum.Marshal.C214_public_key`, `Verif.Accum.Marshal.C214_secret_key`, `Verif.Accum.Marshal.C214_witness`, `Verif.Accum.Marshal.C214_params`, `Verif.Accum.Marshal.C214_proof`, `Verif.Accum.Marshal.C214_foreign`, `Verif.Accum.Marshal.C214_verify_types`

### C215 Pallas behind the Scalar and Point interfaces

ScalarPallas is the prime field and PointPallas the group of the curve: Add, Sub, Mul, Div, Invert, Sqrt, Square, Cube, MulAdd, Neg, Equal and SumOfProducts compute what their names say, with nil for foreign arguments. Refuted: IsOdd and IsEven are the parity of the residue (they look at the Montgomery form: two is odd); Cmp is the order of residues; SetBigInt accepts every integer (it gives zero for the residues that SetBytes refuses, for instance -2^63, and panics for nil); no foreign argument panics (MulAdd does); SumOfProducts returns a usable value or nil (with a foreign scalar or lists of different lengths it returns a point that panics when used); the old curve has a name (its initialisation writes the name of the other one).

*Quantified over:* all scalars, points, byte strings and integers.

*Plan:* The methods on the limbs and coordinates of C112, C113 and C171.

*Status:* proved. Parity, order, SetBigInt, absence of panics, usability of sums and the name of the old curve refuted.

Theorems: `Verif.Pallas.Iface.C215_ring`, `Verif.Pallas.Iface.C215_div`, `Verif.Pallas.Iface.C215_sqrt`, `Verif.Pallas.Iface.C215_predicates`, `Verif.Pallas.Iface.C215_cmp`, `Verif.Pallas.Iface.C215_bigInt`, `Verif.Pallas.Iface.C215_bytes`, `Verif.Pallas.Iface.C215_gap`, `Verif.Pallas.Iface.C215_wide`, `Verif.Pallas.Iface.C215_hash`, `Verif.Pallas.Iface.C215_foreign`, `Verif.Pallas.Iface.C215_points`, `Verif.Pallas.Iface.C215_sum`, `Verif.Pallas.Iface.C215_old_curve`

### C216 Points of secp256k1, P-256 and BLS12-381 behind the Point interface

On all four types the methods are the operations of the group of the curve; nil and foreign arguments give nil and are equal to nothing; SumOfProducts is nil exactly for lists of different lengths or with nil or foreign elements, ScalarBaseMult multiplies the generator. ScalarG1BaseMult and ScalarG2BaseMult treat foreign scalars alike (refuted: they panic). IsNegative is true for exactly one of a point and its negative, other than the identity, and is the sign that the compressed encoding carries (refuted for secp256k1 and P-256: it is the parity of the Montgomery form). Points of BLS12-381 decode from exactly one length (refuted: missing bytes are read as zeros and further bytes are ignored, so one byte 0xC0 is an encoding of the identity). Set of X and Y gives the point back. ToEllipticCurve converts exactly secp256k1 and P-256.

*Quantified over:* all points, scalars, lists and byte strings.

*Plan:* One model of the wrappers over native operations, four instances.

*Status:* proved. Sign of secp256k1 and P-256, lengths of BLS12-381 encodings and absence of panics refuted.

Theorems: `Verif.Curves.Pt.C216_group`, `Verif.Curves.Pt.C216_foreign`, `Verif.Curves.Pt.C216_sum`, `Verif.Curves.Pt.C216_k256`, `Verif.Curves.Pt.C216_p256`, `Verif.Curves.Pt.C216_g1`, `Verif.Curves.Pt.C216_g2`, `Verif.Curves.Pt.C216_isNegative`, `Verif.Curves.Pt.C216_isNegative_not_sign`, `Verif.Curves.Pt.C216_g1_isNegative`, `Verif.Curves.Pt.C216_g2_isNegative`, `Verif.Curves.Pt.C216_bls_roundtrip`, `Verif.Curves.Pt.C216_bls_lengths`, `Verif.Curves.Pt.C216_bls_coordinates`, `Verif.Curves.Pt.C216_toEllipticCurve`

### C217 BLS keys, signatures and proofs of possession, from coordinates to bytes

Of either group, UnmarshalBinary accepts exactly the encodings of the points of order r: of each one byte string, and none of the identity or of a point outside the subgroup, which MarshalBinary does write. Every non-zero secret has a public key and different secrets have different keys. A key and a signature that are produced, written and read again verify, with keys in either group, if the hash of the message is a point other than the identity; so does a proof of possession. A message has one signature per key as bytes: no other byte string is accepted and verifies. GetPublicKey, createSignature, the aggregations, partialSign and combineSigs on coordinates are the functions on abstract groups to which C73 to C76 apply, and a point outside the subgroup makes aggregation fail.

*Quantified over:* all secrets, messages, byte strings, lists of keys, signatures and partial signatures.

*Plan:* The two files as one model over the operations of C155 to C157, C164 and C168.

*Status:* proved. Messages whose hash is exceptional are described in C163 and C164.

Theorems: `Verif.Bls381.SigBytes.C217_accepted`, `Verif.Bls381.SigBytes.C217_roundtrip`, `Verif.Bls381.SigBytes.C217_canonical`, `Verif.Bls381.SigBytes.C217_refused`, `Verif.Bls381.SigBytes.C217_length`, `Verif.Bls381.SigBytes.C217_getPublicKey`, `Verif.Bls381.SigBytes.C217_keys`, `Verif.Bls381.SigBytes.C217_createSignature`, `Verif.Bls381.SigBytes.C217_aggregate`, `Verif.Bls381.SigBytes.C217_aggregate_subgroup`, `Verif.Bls381.SigBytes.C217_partialSign`, `Verif.Bls381.SigBytes.C217_combineSigs`, `Verif.Bls381.SigBytes.C217_usual`, `Verif.Bls381.SigBytes.C217_usual_unique`, `Verif.Bls381.SigBytes.C217_tiny`, `Verif.Bls381.SigBytes.C217_tiny_unique`, `Verif.Bls381.SigBytes.C217_pop`

### C218 BBS+ keys on BLS12-381, from bytes to verification

A secret key has one encoding, every 32-byte residue below the order is accepted (zero included) and nothing else. A secret key that is written and read back has the same public key (refuted: the group of the public key is that of the curve given to Init; with the curves called BLS12831 and BLS12381G1 it is the first group). Public keys survive being written and read; further bytes are ignored. Verify on coordinates is the verification of C67 with the subgroups and the pairing of BLS12-381; Sign succeeds exactly for one to length messages, a secret other than zero and a nonce other than its negative, and what it returns verifies unless the commitment is the identity. Verify returns a decision for every public key (refuted: with a public key in the first group it panics, and never accepts).

*Quantified over:* all seeds, curves, byte strings, keys, generators and messages.

*Plan:* Model on points of either group over C155, C168 and C216.

*Status:* proved. Round trip of the secret key and absence of panics refuted. The hash of the state of the generators is assumed to be a point of the subgroup (C163 describes the exceptions).

Theorems: `Verif.Bbs.Key.C218_secret_accepted`, `Verif.Bbs.Key.C218_secret_roundtrip`, `Verif.Bbs.Key.C218_names`, `Verif.Bbs.Key.C218_public`, `Verif.Bbs.Key.C218_public_roundtrip`, `Verif.Bbs.Key.C218_public_group`, `Verif.Bbs.Key.C218_wrong_group`, `Verif.Bbs.Key.C218_verify`, `Verif.Bbs.Key.C218_sign_verify`

### C219 DKLs through messages

Handing the messages of one party to the other through Next runs the rounds of key generation, signing and refresh: the exchange fails exactly when a round fails and with its failure; otherwise both parties are complete, with the states that the rounds give. NewAliceSign and NewAliceRefresh accept a result of key generation exactly if it has version 200 and decodes, NewBobSign and NewBobRefresh only in a process in which the types are registered. In signing no other version gets past the first call. The refresh works with any two versions from 200 on. Result of a complete refresh works for the versions in which the refresh works (refuted: it is encoded as a result of key generation, which exists for version 200 only); its message starts new parties. Bob's result is the signature in his state.

*Quantified over:* all rounds, codecs, versions and results of key generation.

*Plan:* The steppers of C41 with the constructors of signing and refresh; rounds are arbitrary functions.

*Status:* proved. Versions of the result of a refresh refuted.

Theorems: `Verif.Dkls.C219_constructors`, `Verif.Dkls.C219_dkg`, `Verif.Dkls.C219_sign`, `Verif.Dkls.C219_sign_versions`, `Verif.Dkls.C219_signature`, `Verif.Dkls.C219_refresh`, `Verif.Dkls.C219_refresh_result`

### C220 JSON of field elements

Every field element comes back from its JSON document. UnmarshalJSON accepts exactly the documents whose two strings are decimal integers, with a sign or without, and never panics. What it accepts is an element of a prime field (refuted: any integer modulus and any integer value are accepted; the ring operations reduce the value, but IsEqual takes it for different from the element it stands for, Clone panics for a large value and drops the sign of a negative one; with modulus zero the operations panic). An element has one document (refuted: signs and zeros). A failed call leaves the receiver as it was (refuted: the modulus is replaced and the value becomes nil, so that every use panics).

*Quantified over:* all elements, moduli and documents.

*Plan:* Decimal texts of math/big as functions, over the model of C88.

*Status:* proved. Validity of accepted elements, uniqueness of documents and the receiver after a failure refuted. encoding/json is assumed to deliver the two strings.

Theorems: `Verif.Core.C220_roundtrip`, `Verif.Core.C220_accepted`, `Verif.Core.C220_receiver`, `Verif.Core.C220_texts`, `Verif.Core.C220_out_of_range`

### C221 Generators of bulletproofs

The generators for maximal length n are the first 2n points of the domain's stream, no point twice unless the hash collides; length zero is refused, a negative one panics. A prover and a verifier made with the same maximal length and range domain agree on every value in range, one or several, whatever their inner product domains. A verifier for vectors of length at most its maximum accepts proofs of any prover for the same domain (refuted: a proof of length one made with another maximal length is accepted exactly if the second vector is zero or two points of the domain collide; a range proof within both lengths is refused).

*Quantified over:* all domains, lengths, vectors, values and randomness.

*Plan:* Stream and hash are arbitrary functions; over the models of C59 to C62.

*Status:* proved. Acceptance across maximal lengths refuted. Correctness of range proofs needs little-endian scalars (C61).

Theorems: `Verif.Bulletproof.C221_generators`, `Verif.Bulletproof.C221_distinct`, `Verif.Bulletproof.C221_lengths`, `Verif.Bulletproof.C221_range`, `Verif.Bulletproof.C221_batch`, `Verif.Bulletproof.C221_ipp_lengths`, `Verif.Bulletproof.C221_range_lengths`

### C222 VerifyEcdsa decides the ECDSA equation

For every public key on the curve, every digest and all integers R and S, VerifyEcdsa ends without a panic and returns true exactly if R and S lie between 1 and the order and satisfy the ECDSA equation for the leftmost bits of the digest, as many as the order has. So textbook signatures are accepted, and V and further digest bits play no part. It returns false for parameters that are not sane, as its documentation says (refuted: the identity is accepted as a public key, under which anybody signs every digest not zero modulo the order; on secp256k1 a key off the curve panics once R and S are in range, as do nil keys, signatures and integers; unreduced coordinates verify what the key verifies). A digest has one signature per nonce (refuted: (R, N - S) is accepted exactly if (R, S) is). On secp256k1 and P-256 it is the check that both versions of DKLs signing assume.

*Quantified over:* all curves that compute in a group of prime order; all keys, digests and integers.

*Plan:* The generic path of crypto/ecdsa.Verify over the curves of C186 and C189.

*Status:* proved. Refusal of the identity, absence of panics and uniqueness of signatures refuted. crypto/ecdsa.Verify is modelled as it is for curves outside the standard library.

Theorems: `Verif.Legacy.C222_digest`, `Verif.Legacy.C222_verify`, `Verif.Legacy.C222_nil`, `Verif.Legacy.C222_complete`, `Verif.Legacy.C222_malleable`, `Verif.Legacy.C222_identity_key`, `Verif.Legacy.C222_digest_forgery`, `Verif.Legacy.C222_k256`, `Verif.Legacy.C222_dklsv0`, `Verif.Legacy.C222_off_curve`, `Verif.Legacy.C222_unreduced`, `Verif.Inst.C222_dkls_k256`, `Verif.Inst.C222_dkls_p256`

### C223 Range proofs on the curves of the library

On every curve of the library, a range prover and a range verifier made with the same maximal length and domain agree: for every value of at most 2^k bits, every blinding factor and randomness, the prover returns a proof and the verifier accepts it. It holds on Ed25519 up to 256 bits (refuted on secp256k1, P-256 and both groups of BLS12-381: for every value in range up to 128 bits the prover returns a proof without an error and the verifier refuses it, unless the value is zero).

*Quantified over:* all values, blinding factors, generators, domains and randomness; range lengths of powers of two up to 128 or 256.

*Plan:* The theorems of C59 to C62 and C221 taken at the groups and scalars of the modelled curves.

*Status:* proved. Acceptance on secp256k1, P-256 and BLS12-381 refuted for all values but zero. The challenges are arbitrary non-zero functions of the transcript.

Theorems: `Verif.Inst.C223_big_endian`, `Verif.Inst.C223_ed25519`, `Verif.Inst.C223_scalars`

### C224 The BLS schemes as objects

For every scheme, standard or with own tags, in either group: Sign of a message with a key accepts under Verify, and another scheme accepts the signature for some message exactly if the hashes of what the two sign under their tags agree; so between standard schemes of different kinds, and between proofs of possession and signatures, an accepted signature is a hash collision under two tags. The standard tags are distinct. ThresholdKeygenWithSeed succeeds exactly if KeygenWithSeed does and 2 <= threshold <= total <= 255, with the same public key, and any threshold of its shares signs as that key does. Schemes with distinct own tags are separate (refuted: a tag longer than 255 bytes is interchangeable with its digest; the augmented scheme and the basic scheme with one tag accept each other's signatures with the key moved into the message, and a proof of possession is such a signature). Both forms refuse to sign the empty message in the augmented scheme (refuted: the one with signatures in G1 signs it).

*Quantified over:* all schemes, tags, keys, seeds, messages, thresholds and sets of shares.

*Plan:* Over the models of C73 to C76 and C101 to C104; the tags as bytes.

*Status:* proved. Separation by own tags and refusal of the empty message in the tiny augmented scheme refuted. Keys that are nil are in C103.

Theorems: `Verif.Bls.C224_tags`, `Verif.Bls.C224_sign`, `Verif.Bls.C224_cross`, `Verif.Bls.C224_separate`, `Verif.Bls.C224_custom`, `Verif.Bls.C224_keygen`, `Verif.Bls.C224_threshold`, `Verif.Bls.C224_tiny`, `Verif.Bls.C224_long_tag`

### C225 Verifiable sharing on the curves of the library

On secp256k1, P-256, Ed25519 and both groups of BLS12-381, for every generator other than the identity: a share passes the check of Feldman exactly if it is the non-zero value of the dealer's polynomial at its identifier, encoded as the curve does; as many distinct such shares as the threshold combine to the secret, and in the exponent to its multiple of the generator; two openings of one Pedersen share reveal the logarithm of the second generator; and one share fewer than the threshold together with the Pedersen commitments fits every secret.

*Quantified over:* all generators, thresholds, secrets, randomness, shares and sets of shares.

*Plan:* The theorems of C01 to C07 taken at the groups and scalars of the modelled curves.

*Status:* proved. Pallas does not read back all scalars it writes and is in C226.

Theorems: `Verif.Inst.C225_curves`

### C226 Shamir sharing with the scalars of Pallas

With the scalars of Pallas, Split returns the encoded values of the polynomial, and any distinct shares of the dealer, as many as the threshold, combine to the secret unless a value is zero (refuted: a value within the gap of about 2^60 residues that SetBytes refuses is written by the dealer, is not zero, and is refused by Validate and Combine; for every threshold, limit and secret some polynomial gives the first party such a share. Outside the gap the claim holds). A share has one encoding (refuted: numbers above the order are accepted).

*Quantified over:* all secrets, polynomials, thresholds and sets of shares.

*Plan:* The functions of pkg/sharing on limbs, over the model of C215.

*Status:* proved. Use of every share the dealer writes and uniqueness of encodings refuted. Shares that are nil are in C03.

Theorems: `Verif.Pallas.Split.C226_split`, `Verif.Pallas.Split.C226_validate`, `Verif.Pallas.Split.C226_combine`, `Verif.Pallas.Split.C226_reconstruct`, `Verif.Pallas.Split.C226_lost_share`, `Verif.Pallas.Split.C226_not_canonical`

### C227 Commitments bind if the hash has no collisions

Two different witnesses that Open accepts for one commitment contain two different inputs of SHA-256 with one digest, computed on the way; more generally, ComputeHMAC gives one code to two pairs of message and key with keys of one length that fits in a block only through a collision of the hash itself. It fails exactly without a hash function. Different keys give different codes (refuted for keys of different lengths: trailing zeros within a block do not count, and a key longer than a block is interchangeable with its digest).

*Quantified over:* all hashes, block sizes, messages, keys and witnesses.

*Plan:* crypto/hmac as in RFC 2104 over an arbitrary hash; refines C13.

*Status:* proved. Different codes for different keys refuted when lengths differ. crypto/hmac is modelled as in RFC 2104.

Theorems: `Verif.Core.C227_collision`, `Verif.Core.C227_binding`, `Verif.Core.C227_open`, `Verif.Core.C227_compute`, `Verif.Core.C227_equal_keys`

### C228 The generator of Pedersen sharing from hashed bytes

For every byte string, K256GeneratorFromHashedBytes returns the affine coordinates of hash_to_curve of RFC 9380 for secp256k1 with SHA-256: the sum of the images of the two field elements read from the expanded bytes, reduced and on the curve. It returns a point or an error (refuted: if the two images cancel it returns (0, 0), which is not on the curve, and no error; it does so in no other case).

*Quantified over:* all byte strings; all hashes.

*Plan:* Over the model of C161.

*Status:* proved. An error for the identity refuted. SHA-256 is an arbitrary function with digests of its length.

Theorems: `Verif.Sharing.Generator.C228_hash`, `Verif.Sharing.Generator.C228_on_curve`, `Verif.Sharing.Generator.C228_identity`

### C229 The connection of two parties in one process

With the two ends that NewPipeWrappers returns, in every execution each party reads the bytes that the other one wrote, in order and without loss, and has read all of them unless a Write of the other is in progress; once no Write is in progress, both counters of exchanged bytes are the number of bytes written by both parties. While one party writes, a Read of the other returns as many of the bytes to come as fit in its buffer. Exchanges do not block (refuted: if both parties write, be it nothing at all, no call ever returns; in no other state are both stuck).

*Quantified over:* all executions: all orders of calls, bytes and buffer lengths.

*Plan:* A transition system over the pipes of the standard library, one call at a time for each wrapper.

*Status:* proved. Exchanges without blocking refuted. io.Pipe is modelled as documented; counters do not overflow and each end is used by one goroutine.

Theorems: `Verif.DklsV0.Pipe.C229_order`, `Verif.DklsV0.Pipe.C229_count`, `Verif.DklsV0.Pipe.C229_count_le`, `Verif.DklsV0.Pipe.C229_blocked`, `Verif.DklsV0.Pipe.C229_read`

### C230 The blinding generator of two-party key generation

NewParticipant of the two-party key generation succeeds exactly if the identifiers are 1 and 2 and a generator is given or can be drawn, and keeps a generator that is given. A generator it draws is secure (refuted: it is a multiple of the base point whose factor the participant has seen, so its broadcast of the first round binds it to nothing: for every other secret and polynomial it knows blinding values with the same broadcast). Both participants may leave the choice to NewParticipant (refuted: then a party accepts the honest message of the other exactly if both generators have the same multiple with the blinding share).

*Quantified over:* all identifiers, generators, secrets, polynomials and randomness.

*Plan:* Over the model of C24 and C26.

*Status:* proved. Security of the drawn generator and agreement when both draw refuted.

Theorems: `Verif.Gennaro.C230_new`, `Verif.Gennaro.C230_not_binding`, `Verif.Gennaro.C230_two_blinds`

