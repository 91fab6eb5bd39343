{"id": "C01", "title": "Shamir shares reconstruct the secret", "statement": "For every scheme accepted by NewShamir(t, n), every non-zero secret and every randomness used by Split: calling Combine on any selection of at least t pairwise distinct shares, in any order, never returns a scalar other than the secret, and returns exactly the secret whenever none of the selected shares has the value zero (a zero-valued honest share makes Combine return an error).", "quantifier": "all t,n with 2<=t<=n<=255, all secrets, all polynomial coefficients, all sub-lists (any order) of the shares with at least t elements", "why_tests_cant": "The number of (subset, order, polynomial) triples is astronomically large; tests only try a few subsets with a few random polynomials and essentially never see a zero-valued share.", "anchors": ["pkg/sharing/shamir.go: Shamir.Split, Shamir.Combine, Shamir.getPolyAndShares, ShamirShare.Validate", "pkg/sharing/polynomial.go: Polynomial.Init, Polynomial.Evaluate"]}
{"id": "C02", "title": "Fewer than t Shamir shares reveal nothing about the secret", "statement": "For any t-1 distinct participant identifiers and any values handed out for them, every candidate secret is explained by exactly one choice of the random coefficients used by Split; hence the distribution of any t-1 shares is independent of the secret.", "quantifier": "all thresholds, all sets of t-1 identifiers in 1..n, all observed values, all candidate secrets", "why_tests_cant": "Perfect secrecy is a statement about all secrets and all coefficient vectors simultaneously; no execution exhibits it.", "anchors": ["pkg/sharing/shamir.go: Shamir.getPolyAndShares", "pkg/sharing/polynomial.go: Polynomial"]}
{"id": "C03", "title": "Shamir Combine rejects malformed share lists and never panics", "statement": "Combine returns an error (no result, no panic) whenever it is given fewer than t shares, a share with identifier 0 or greater than n, two shares with the same identifier, a share whose bytes are not a canonical scalar, or a share whose value is zero; otherwise it succeeds. CombinePoints makes the same decision.", "quantifier": "all share lists whatsoever (any identifiers, any byte strings)", "why_tests_cant": "The input space of adversarial share lists is infinite; tests enumerate a handful of bad lists.", "anchors": ["pkg/sharing/shamir.go: Shamir.Combine, Shamir.CombinePoints, Shamir.interpolate, ShamirShare.Validate"]}
{"id": "C04", "title": "CombinePoints is Combine in the exponent", "statement": "For every share list accepted by Combine with result s, CombinePoints returns s times the generator; and it errors exactly when Combine errors.", "quantifier": "all share lists, all groups whose scalars act on them", "why_tests_cant": "Ranges over every list of shares and every group.", "anchors": ["pkg/sharing/shamir.go: Shamir.CombinePoints, Shamir.interpolatePoint"]}
{"id": "C05", "title": "LagrangeCoeffs reconstruct any degree<t sharing at zero", "statement": "For any list of distinct participant identifiers in 1..255 of length at least t, the coefficients returned by LagrangeCoeffs satisfy sum(lambda_i * share_i) = secret for the shares of any Split.", "quantifier": "all identifier lists, all polynomials", "why_tests_cant": "Infinitely many polynomials; exponentially many identifier sets.", "anchors": ["pkg/sharing/shamir.go: Shamir.LagrangeCoeffs"]}
{"id": "C06", "title": "Feldman verification accepts exactly the dealt share", "statement": "With the verifier output of Feldman.Split, Verify accepts every share that Split produced (unless its value is the zero scalar), and for every identifier x, accepts a share (x, y) if and only if y is the canonical non-zero encoding of the dealer's polynomial at x; consequently any t accepted shares with distinct identifiers reconstruct the committed secret.", "quantifier": "all dealer polynomials, identifiers and candidate share values; all t-subsets of accepted shares", "why_tests_cant": "Soundness quantifies over all forged shares.", "anchors": ["pkg/sharing/feldman.go: Feldman.Split, FeldmanVerifier.Verify"]}
{"id": "C07", "title": "Pedersen verification: completeness, binding up to a discrete log, perfect hiding", "statement": "Every share pair produced by Pedersen.Split verifies (for non-zero values). If two different share values verify for the same identifier then the discrete logarithm of the second generator is computed explicitly from them. For every commitment vector and every candidate secret there are blinding coefficients producing the same commitments.", "quantifier": "all polynomials, blinding polynomials, identifiers, forged pairs, candidate secrets", "why_tests_cant": "Binding and hiding are universally quantified over adversarial openings.", "anchors": ["pkg/sharing/pedersen.go: Pedersen.Split, PedersenVerifier.Verify"]}
{"id": "C08", "title": "Pedersen verification ignores the identifier of the blinding share", "statement": "The outcome of PedersenVerifier.Verify(share, blindShare) depends on blindShare only through its value: replacing blindShare.Id by any other identifier valid on its own never changes the verdict.", "quantifier": "all share pairs and identifiers", "why_tests_cant": "Non-interference property over all inputs.", "anchors": ["pkg/sharing/pedersen.go: PedersenVerifier.Verify"]}
{"id": "C09", "title": "v1 Shamir shares reconstruct the secret from the first t shares only", "statement": "In the v1 scheme any list whose first t shares are distinct dealt shares combines to the secret (without its leading zero bytes), zero-valued shares included; Combine succeeds exactly when the first t shares have distinct identifiers in 1..n, duplicates being rejected although the duplicate map is never filled; shares after the first t never influence the result, so an inconsistent extra share goes unnoticed; NewShamir accepts limits of 2^32 and more and silently truncates them.", "quantifier": "all secrets below the modulus, polynomials, share lists and suffixes of extra shares", "why_tests_cant": "Ranges over all polynomials, orders and arbitrary extra shares.", "anchors": ["pkg/sharing/v1/shamir.go: Shamir.Split, Shamir.Combine, Shamir.interpolate", "pkg/core/curves/field.go: Element"]}
{"id": "C10", "title": "Shamir share addition is homomorphic", "statement": "Adding the shares of two independently shared secrets point-wise (v1 ShamirShare.Add, equal identifiers) gives shares of the sum of the secrets: any t of them combine to the sum; adding shares with different identifiers panics.", "quantifier": "all pairs of secrets and polynomials, all t-subsets", "why_tests_cant": "Infinite input space.", "anchors": ["pkg/sharing/v1/shamir.go: ShamirShare.Add, Shamir.Combine"]}
{"id": "C11", "title": "I2OSP/OS2IP are mutually inverse on representable integers and silently wrong otherwise", "statement": "For every n >= 0 I2OSP(b, n) yields exactly n bytes; for 0 <= b < 256^n OS2IP of it is b, and OS2IP followed by I2OSP of the same length gives the same bytes back. It never reports an error: the sign is dropped, and an integer that does not fit is cut to its n leading bytes, so the result is wrong exactly when b is outside [0, 256^n); a negative length panics.", "quantifier": "all integers b, all lengths n, all byte strings", "why_tests_cant": "Unbounded integers and lengths.", "anchors": ["pkg/core/hash.go: I2OSP, OS2IP"]}
{"id": "C12", "title": "The Fiat-Shamir transcript is injective up to a hash collision, except for signs", "statement": "If FiatShamir returns the same digest on two argument lists of the same length then either the lists agree up to the sign of each argument or the run exhibits two distinct inputs of the underlying hash with equal outputs; conversely flipping the sign of an argument never changes the digest. The per-step counter bytes are pairwise distinct for up to 255^32 arguments.", "quantifier": "all argument lists of equal length, every hash function", "why_tests_cant": "Quantifies over all pairs of transcripts.", "anchors": ["pkg/core/hash.go: FiatShamir", "internal/hash.go: Hash, ByteSub"]}
{"id": "C13", "title": "Commitments open to what was committed and only to that", "statement": "Open(Commit(msg)) is true; if one commitment opens for two witnesses (msg, r) and (msg', r') then they are equal or they are a collision of the keyed hash; a commitment of the wrong length is rejected with an error.", "quantifier": "all messages, nonces and hash functions", "why_tests_cant": "Binding is universally quantified.", "anchors": ["pkg/core/commit.go: Commit, Open, ComputeHMAC"]}
{"id": "C14", "title": "ConstantTimeEq decides integer equality", "statement": "ConstantTimeEq(a, b) is true exactly when both are nil or both are non-nil and equal as integers (sign included).", "quantifier": "all big integers and nil", "why_tests_cant": "All pairs of unbounded integers.", "anchors": ["pkg/core/mod.go: ConstantTimeEqByte, ConstantTimeEq"]}
{"id": "C15", "title": "Modular helpers compute in Z_m", "statement": "In accepts exactly 0 <= x < m; Add, Mul and Neg return the canonical representative of the ring operation; Inv succeeds exactly when gcd(x, m) = 1 and then returns the unique inverse in [0, m); Exp with a negative exponent is the power of the inverse or nil.", "quantifier": "all integers x, y and all positive moduli", "why_tests_cant": "Unbounded integers.", "anchors": ["pkg/core/mod.go: In, Add, Mul, Exp, Neg, Inv"]}
{"id": "C87", "title": "v1 Feldman and Pedersen verification", "statement": "With the dealer's verifiers the v1 Feldman verifier accepts a share exactly when its value is the dealer's polynomial at its identifier, for every identifier below the field order including 0 (the pair (0, secret) verifies) and for zero-valued shares; every dealt v1 Pedersen pair verifies; Pedersen splitting with a zero blinding fails.", "quantifier": "all secrets, polynomials, shares, groups with a generator of prime order", "why_tests_cant": "Adversarial shares.", "anchors": ["pkg/sharing/v1/feldman.go: Feldman.Split, Feldman.Verify", "pkg/sharing/v1/pedersen.go: Pedersen.Split, Pedersen.Verify"]}
{"id": "C88", "title": "Field elements refine integers modulo a prime", "statement": "For a prime modulus every Element operation (Add, Sub, Neg, Mul, Div, Pow, Invert, Clone, byte conversions) on elements of that field returns the element of the corresponding ring operation, in canonical form; operations on elements of different fields panic; Div and Invert by zero panic; ElementFromBytes panics exactly when the integer is not below the modulus.", "quantifier": "all primes, all pairs of elements, all byte strings", "why_tests_cant": "Unbounded moduli and values.", "anchors": ["pkg/core/curves/field.go: Element, Field"]}
{"id": "C89", "title": "ExpandMessageXmd follows the specification and binds message and domain", "statement": "For a hash with h-byte output ExpandMessageXmd returns exactly lenInBytes bytes equal to the expand_message_xmd construction for 1 <= lenInBytes <= 255*h (with a DST of at most 255 bytes), an error above, and panics for lenInBytes <= 0; equal first output blocks for two (message, DST) pairs of the same requested length imply equal messages and DSTs or an explicit hash collision; Hash to a field element of a supported curve never fails and is below p.", "quantifier": "all messages, DSTs, lengths and hash functions of fixed output length", "why_tests_cant": "All messages and an arbitrary hash.", "anchors": ["pkg/core/hash.go: ExpandMessageXmd, hashToField, Hash"]}
{"id": "C90", "title": "Sharing constructors and Split decide exactly which parameters and secrets are dealt", "statement": "NewShamir and NewFeldman succeed exactly for 2 <= t <= n <= 255 and a non-nil curve and otherwise return an error; NewPedersen additionally rejects the identity generator (a nil generator panics). Split errors exactly on the zero secret (Pedersen deals it) and otherwise returns n shares with identifiers 1..n in order whose values are a polynomial with t coefficients and the secret as constant term.", "quantifier": "all parameters, secrets and randomness", "why_tests_cant": "All parameter values and all random streams.", "anchors": ["pkg/sharing/shamir.go: NewShamir, Shamir.Split", "pkg/sharing/feldman.go: NewFeldman, Feldman.Split", "pkg/sharing/pedersen.go: NewPedersen, Pedersen.Split"]}
{"id": "C16", "title": "Paillier decryption inverts encryption", "statement": "For every public key N = p*q with p, q distinct primes and gcd(N,(p-1)(q-1)) = 1, every message in [0, N) and every nonce coprime to N, Decrypt(Encrypt(m, r)) = m; Decrypt succeeds exactly on in-range ciphertexts coprime to N and returns an error otherwise; Encrypt and Decrypt reject out-of-range inputs. NewSecretKey does not check that the primes differ.", "quantifier": "all primes p,q with gcd(pq,(p-1)(q-1))=1, all messages, all nonces coprime to N", "why_tests_cant": "Number-theoretic statement over all keys and messages.", "anchors": ["pkg/paillier/paillier.go: NewSecretKey, PublicKey.encrypt, SecretKey.Decrypt, L"]}
{"id": "C17", "title": "Paillier ciphertext operations are homomorphic", "statement": "Decrypt(Add(Enc m1, Enc m2)) = m1 + m2 mod N and Decrypt(Mul(a, Enc m)) = a*m mod N for all in-range operands.", "quantifier": "all keys, messages, nonces and multipliers", "why_tests_cant": "All inputs of a number-theoretic identity.", "anchors": ["pkg/paillier/paillier.go: PublicKey.Add, PublicKey.Mul"]}
{"id": "C18", "title": "Square-free proofs: completeness, soundness against square factors, and what the challenges bind", "statement": "The proof produced by PsfProofParams.Prove for an honest key (N coprime to phi(N), not divisible by the order of the curve) is accepted by PsfProof.Verify with matching parameters. If Verify accepts a modulus divisible by the square of a prime l, all 13 challenges satisfy x^l = x mod l^2. The verifier refuses moduli divisible by the curve order and never accepts fewer than 13 entries. The modulus itself is not hashed: two moduli of the same bit length can have the same challenges.", "quantifier": "all honest keys and public values, every hash function", "why_tests_cant": "Ranges over all keys and hash outputs.", "anchors": ["pkg/paillier/psf.go: PsfProofParams.Prove, PsfProof.Verify, generateChallenges"]}
{"id": "C19", "title": "Schnorr proofs: completeness", "statement": "For every witness x, nonce k, base point and session id, if Prove returns a proof then Verify accepts it with the same base point and session id.", "quantifier": "all witnesses, nonces, base points, session ids and hash functions", "why_tests_cant": "Infinite input space including hash outputs that are not canonical scalars.", "anchors": ["pkg/zkp/schnorr/schnorr.go: Prover.Prove, Verify"]}
{"id": "C20", "title": "Schnorr proofs: special soundness, transcript binding and simulation", "statement": "Verify accepts a proof exactly when the challenge is Hash(session, base, statement, R) for the commitment point R with S*base = R + C*statement. Two accepted proofs whose verifications ask the same hash query but get different answers yield the witness by an explicit formula. Two accepted proofs with the same challenge have the same session, base, statement and R, or exhibit a hash collision. For a programmed challenge every response arises from exactly one nonce, whatever the witness.", "quantifier": "all proofs, sessions, base points, witnesses and hash functions", "why_tests_cant": "Adversarial quantification over proofs.", "anchors": ["pkg/zkp/schnorr/schnorr.go: Verify, Prover.Prove"]}
{"id": "C21", "title": "Committed Schnorr proofs are binding, statement included", "statement": "DecommitVerify accepts exactly when the commitment is the hash of (C, S) and the proof verifies; honest committed proofs open; the commitment value does not depend on the statement, yet two accepted openings of one commitment are the same proof (statement, base and session included) or one of two named pairs of hash inputs collides.", "quantifier": "all proofs, commitments, sessions and hash functions", "why_tests_cant": "Universal over adversarial openings.", "anchors": ["pkg/zkp/schnorr/schnorr.go: Prover.ProveCommit, DecommitVerify"]}
{"id": "C22", "title": "FROST DKG: honest run gives a consistent key", "statement": "When every participant runs rounds 1 and 2 honestly, all obtain the same verification key, it equals generator times the sum of the secrets, each participant's public share equals generator times its signing share, and any t signing shares interpolate to the secret key. Round 2 completes for every participant provided no challenge, commitment or share happens to be zero / the identity.", "quantifier": "all t<=n, secrets, polynomials, nonces; any hash function", "why_tests_cant": "Ranges over all parties' randomness and all subsets.", "anchors": ["pkg/dkg/frost/dkg_round1.go: DkgParticipant.Round1", "pkg/dkg/frost/dkg_round2.go: DkgParticipant.Round2"]}
{"id": "C23", "title": "FROST DKG: round order and input validation", "statement": "Round1 succeeds only in state 1 and Round2 only in state 2, each at most once in any call sequence. When Round2 succeeds, every accepted broadcast carries a proof of knowledge that verifies and every accepted share matches the broadcast commitments at the identifier written in the share; the outputs are the sums of the accepted values. Not checked, with concrete accepted runs: that this identifier is the receiver's own, that all participants were heard (t-1 suffice, so keys can differ), and that the number of commitments is the threshold.", "quantifier": "all call sequences and all adversarial messages", "why_tests_cant": "Unbounded call sequences and message spaces.", "anchors": ["pkg/dkg/frost/dkg_round2.go: DkgParticipant.Round2", "pkg/dkg/frost/participant.go: DkgParticipant"]}
{"id": "C91", "title": "FROST DKG: the context string is reduced to one byte", "statement": "The context passed to NewDkgParticipant should separate protocol executions. It is parsed as a decimal number with the error ignored and truncated to a byte: all contexts that are not decimal numerals give identical participants, as do numerals congruent modulo 256.", "quantifier": "all pairs of context strings", "why_tests_cant": "Tests use one context only.", "anchors": ["pkg/dkg/frost/participant.go: NewDkgParticipant"]}
{"id": "C24", "title": "Gennaro DKG: verification key and shares are consistent", "statement": "NewParticipant succeeds exactly when the identifiers are 1..n in some order and 2<=t<=n. In every honest run all participants complete rounds 2 and 3 (round 3 refuses exactly when the key would be the identity), compute the same verification key, equal to generator times the sum of the individual secrets, and any t or more signing shares interpolate to that sum.", "quantifier": "all t<=n, all secrets, blindings and polynomials, all delivery orders", "why_tests_cant": "All parties' randomness and all subsets.", "anchors": ["pkg/dkg/gennaro/participant.go: NewParticipant, validIds", "pkg/dkg/gennaro/round1.go", "pkg/dkg/gennaro/round2.go", "pkg/dkg/gennaro/round3.go"]}
{"id": "C25", "title": "Gennaro DKG round 4 public shares", "statement": "Round4 should output for every participant j the point generator * (signing share of j). It does not: it computes key + sum_k (j*(k+1)) * R_{j,k} instead; an honest run is exhibited in which the published value differs from the real public share for every participant.", "quantifier": "all states; refutation by a concrete honest run plus exact formula for what is returned", "why_tests_cant": "A single fixed test vector can only compare participants with each other (all are wrong in the same way).", "anchors": ["pkg/dkg/gennaro/round4.go: Participant.Round4"]}
{"id": "C26", "title": "Two-party Gennaro wrapper yields a usable 2-of-2 key", "statement": "After the message exchanges of the two-party wrapper both sides finish (unless the key would be the identity), hold the same public key, and the two secret shares interpolate (with the coefficients of identifiers 1 and 2) to its discrete logarithm.", "quantifier": "all secrets and randomness of both parties", "why_tests_cant": "All randomness of two parties.", "anchors": ["pkg/dkg/gennaro2p/genarro2p.go"]}
{"id": "C92", "title": "Gennaro DKG: round order and guarantees against arbitrary messages", "statement": "In any sequence of calls with any inputs the rounds succeed in the order 1, 2, 3, each at most once, and then only round 4. If rounds 2 and 3 succeed with the same senders and shares addressed to this participant, its key share lies on the sum of the committed polynomials whose constant term is the public key. The condition is needed: round 3 accepts a subset of the senders of round 2, and a failed round 2 leaves accepted shares behind, so that key and share can disagree (concrete runs).", "quantifier": "all call sequences, all adversarial messages", "why_tests_cant": "Unbounded call sequences and message spaces.", "anchors": ["pkg/dkg/gennaro/round2.go: Participant.Round2", "pkg/dkg/gennaro/round3.go: Participant.Round3"]}
{"id": "C27", "title": "FROST threshold signatures verify", "statement": "For every honest key generation and every set of exactly t distinct signers, if all run the three signing rounds honestly, every signer's Round3 succeeds, all output the same signature, and Verify accepts it for that message and key.", "quantifier": "all signer sets, nonces, messages, and hash/challenge functions", "why_tests_cant": "All randomness and subsets.", "anchors": ["pkg/ted25519/frost/round1.go", "pkg/ted25519/frost/round2.go", "pkg/ted25519/frost/round3.go", "pkg/ted25519/frost/participant.go"]}
{"id": "C28", "title": "FROST signing nonces are used at most once", "statement": "In any sequence of calls on one signer, at most one Round2 response is produced from a given pair of nonces: Round2 succeeds only once after Round1, erases the nonces, and repeating any round returns an error.", "quantifier": "all finite call sequences with arbitrary inputs", "why_tests_cant": "Unbounded histories.", "anchors": ["pkg/ted25519/frost/round1.go: Signer.SignRound1", "pkg/ted25519/frost/round2.go: Signer.SignRound2"]}
{"id": "C29", "title": "FROST round 3 never releases an invalid signature and detects bad responses", "statement": "If SignRound3 returns a signature then that signature satisfies the Schnorr verification equation and every cosigner response satisfied its own share equation.", "quantifier": "all (adversarial) round-3 inputs", "why_tests_cant": "Adversarial messages.", "anchors": ["pkg/ted25519/frost/round3.go: Signer.SignRound3"]}
{"id": "C30", "title": "Aggregated ted25519 signatures equal a single-signer signature", "statement": "For any t partial signatures from distinct holders of shares of one key and one nonce (after adding nonce shares), Aggregate yields exactly the Ed25519 signature equation value R, s = r + H(R,pk,m)*sk, which satisfies the Ed25519 verification equation.", "quantifier": "all keys, nonces, polynomials, messages, t-subsets", "why_tests_cant": "All randomness and subsets.", "anchors": ["pkg/ted25519/ted25519/sigagg.go: Aggregate", "pkg/ted25519/ted25519/partialsig.go: TSign", "pkg/ted25519/ted25519/keygen.go: GenerateSharedKey"]}
{"id": "C31", "title": "ted25519 VSS verification rejects honest shares once id^j exceeds a byte", "statement": "VerifyVSS should accept every honestly dealt share. It treats big-endian integer bytes as little-endian scalars, so it accepts honest shares only as long as every power id^j (j<t) is below 256; a concrete honest share with larger power is rejected.", "quantifier": "all identifiers and thresholds; refutation by a concrete witness", "why_tests_cant": "Default tests use small identifiers and thresholds only.", "anchors": ["pkg/ted25519/ted25519/keygen.go: KeyShare.VerifyVSS"]}
{"id": "C32", "title": "Seed OT delivers exactly the chosen pad", "statement": "After an honest run of the simplest-OT rounds the receiver's pad for every index equals the sender's pad for the chosen bit; the receiver's verification message is accepted and Encrypt/Decrypt returns the chosen message.", "quantifier": "all batch sizes, choice bits, scalars, messages and hash functions", "why_tests_cant": "All randomness and batch sizes.", "anchors": ["pkg/ot/base/simplest/ot.go"]}
{"id": "C33", "title": "binaryFieldMul multiplies in GF(2^256)", "statement": "The carry-less multiply-and-reduce loop of the OT extension computes multiplication of polynomials over GF(2) modulo X^256+X^10+X^5+X^2+1: it is commutative, distributes over XOR, has identity 1 and is associative.", "quantifier": "all pairs/triples of 256-bit strings", "why_tests_cant": "2^512 input pairs.", "anchors": ["pkg/ot/extension/kos/kos.go: binaryFieldMul"]}
{"id": "C34", "title": "OT-extension matrix transpose is the transpose", "statement": "transposeBooleanMatrix maps bit (i, j) of the packed input to bit (j, i) of the packed output for every position.", "quantifier": "all matrices and all positions", "why_tests_cant": "2^(256*1008) matrices.", "anchors": ["pkg/ot/extension/kos/kos.go: transposeBooleanMatrix"]}
{"id": "C35", "title": "Correlated OT extension is correct and its consistency check passes for honest parties", "statement": "In an honest run the sender accepts the receiver's check and for each index and each overlaid slot the two output shares sum to choice bit times the sender's input.", "quantifier": "all seeds, choice vectors, inputs, and PRG/hash functions", "why_tests_cant": "All randomness; functions universally quantified.", "anchors": ["pkg/ot/extension/kos/kos.go: Receiver.Round1Initialize, Sender.Round2Transfer, Receiver.Round3Transfer"]}
{"id": "C36", "title": "DKLs multiplication produces additive shares of the product", "statement": "For every encoding randomness, an honest run of the multiply protocol gives outputs with aliceShare + bobShare = alpha * beta, and Bob's check of Alice's message passes.", "quantifier": "all inputs alpha, beta, random pads and gadget vectors", "why_tests_cant": "All randomness.", "anchors": ["pkg/tecdsa/dkls/v1/sign/multiply.go"]}
{"id": "C37", "title": "DKLs signing produces a valid ECDSA signature", "statement": "For every pair of key shares, nonces and digest for which no inverse of zero is taken, honest runs of Alice and Bob end in Bob holding (r, s) that satisfies the ECDSA verification equation for the joint public key; Bob never outputs a signature failing verification.", "quantifier": "all key shares, nonces, masks and digests", "why_tests_cant": "All randomness.", "anchors": ["pkg/tecdsa/dkls/v1/sign/sign.go"]}
{"id": "C38", "title": "DKLs signature normalisation is not canonical low-S", "statement": "Bob's output should always have s <= (q-1)/2. The code negates s iff bit 255 is set, so the result is low only when q/2 and 2^255 coincide closely; for every s in (q/2, 2^255) the emitted signature is high-S (a non-empty range for secp256k1 and P-256), while negation preserves validity.", "quantifier": "all s in [1,q-1]; refutation by witness", "why_tests_cant": "The gap for secp256k1 has relative size 2^-129; never sampled by tests.", "anchors": ["pkg/tecdsa/dkls/v1/sign/sign.go: Bob.Round4Final"]}
{"id": "C39", "title": "DKLs refresh preserves the key and re-randomises shares", "statement": "After an honest refresh both parties' new shares still multiply to the same secret key and the public key is unchanged.", "quantifier": "all shares and all seeds (any hash)", "why_tests_cant": "All randomness.", "anchors": ["pkg/tecdsa/dkls/v1/refresh/refresh.go"]}
{"id": "C40", "title": "DKLs DKG: both parties derive the same public key", "statement": "In an honest DKG both parties output pk = skA*skB*G; Bob accepts only if Alice's decommitment matches her earlier commitment.", "quantifier": "all secrets, nonces, hash functions", "why_tests_cant": "All randomness.", "anchors": ["pkg/tecdsa/dkls/v1/dkg/dkg.go"]}
{"id": "C41", "title": "The protocol stepper executes each step exactly once and in order", "statement": "For any sequence of Next calls with arbitrary step outcomes, the executed steps form an increasing sequence without gaps in which a failed step is retried; once all steps succeeded Next always reports EOF, and Result is available only then.", "quantifier": "all sequences of Next/Result calls and step outcomes", "why_tests_cant": "Unbounded histories.", "anchors": ["pkg/tecdsa/dkls/v1/protocol.go: protoStepper.Next, complete", "pkg/tecdsa/dkls/v1/boilerplate.go"]}
{"id": "C42", "title": "Protocol messages are version-checked", "statement": "Decoding a serialized protocol message or DKG state succeeds only if its version equals the supported one and decoding an encoded payload returns the payload.", "quantifier": "all messages and payloads; any injective payload codec", "why_tests_cant": "All messages.", "anchors": ["pkg/tecdsa/dkls/v1/dkgserializers.go", "pkg/tecdsa/dkls/v1/signserializers.go", "pkg/core/protocol/protocol.go"]}
{"id": "C43", "title": "GG20 additive shares sum to the key", "statement": "For every dealt key and every set of at least t cosigners with identifiers in 1..255, the additive shares derived by the signers sum to the secret key and each derived public additive share is generator times the private one.", "quantifier": "all polynomials, cosigner sets", "why_tests_cant": "All polynomials and subsets.", "anchors": ["pkg/tecdsa/gg20/participant/participant.go: convertToAdditive, makeXMap", "pkg/tecdsa/gg20/dealer/dealer.go: NewDealerShares"]}
{"id": "C44", "title": "GG20 MtA yields additive shares modulo q", "statement": "If a,b < q and q^2+q^5 <= N, decrypting the response ciphertext and reducing mod q gives alpha with alpha + beta = a*b mod q.", "quantifier": "all a, b, beta', nonces and Paillier keys of sufficient size", "why_tests_cant": "All inputs; wrap-around condition.", "anchors": ["pkg/tecdsa/gg20/proof/mta.go: genResponseProof, ResponseProof.Finalize"]}
{"id": "C45", "title": "GG20 honest signing gives a valid low-S ECDSA signature", "statement": "In an honest run of all rounds the offline check V = g passes, the combined (r, s) satisfies the ECDSA equation for the public key, s <= q/2, and the recovery bit is flipped exactly when s was negated.", "quantifier": "all shares, nonces, digests, t", "why_tests_cant": "All randomness.", "anchors": ["pkg/tecdsa/gg20/participant/round3.go", "pkg/tecdsa/gg20/participant/round5.go", "pkg/tecdsa/gg20/participant/round6.go: SignOutput, normalizeS"]}
{"id": "C46", "title": "GG20 range proofs: completeness, and the range check is one-sided", "statement": "Every honest range-1 proof with s1 <= q^3 verifies. The verifier bounds s1 only from above: for every negative plaintext of arbitrary magnitude a dishonest prover obtains an accepted proof, so acceptance does not imply the plaintext is in the claimed range.", "quantifier": "all plaintexts, nonces, moduli and hash functions", "why_tests_cant": "Soundness failure needs adversarial inputs outside the honest prover's domain.", "anchors": ["pkg/tecdsa/gg20/proof/mta.go: Proof1Params.Prove, genProof1, Range1Proof.Verify", "pkg/tecdsa/gg20/proof/util.go"]}
{"id": "C47", "title": "GG20 composite-dlog proofs verify", "statement": "For h2 = h1^x modulo N with h1 of order dividing the product p'q' the proof of Prove is accepted by Verify; an accepted pair of transcripts with a differing challenge bit determines the discrete logarithm.", "quantifier": "all moduli, generators, exponents, nonces and hash functions", "why_tests_cant": "All inputs.", "anchors": ["pkg/tecdsa/gg20/proof/cdl.go"]}
{"id": "C48", "title": "GG20 signer rounds accept exactly the expected cosigners", "statement": "A signing round proceeds only when the signer's round counter matches and the set of senders other than itself equals the configured cosigner set.", "quantifier": "all maps of senders and all states", "why_tests_cant": "All subsets of identifiers.", "anchors": ["pkg/tecdsa/gg20/participant/participant.go: Signer.verifyStateMap"]}
{"id": "C49", "title": "GG20 DKG: shares consistent, published public shares wrong", "statement": "In an honest DKG all participants compute the same key y = g^{sum u_i} and signing shares that interpolate to its logarithm, but the published public shares X_j differ from g^{x_j} (linear instead of polynomial evaluation); exact formula and counterexample.", "quantifier": "all honest runs", "why_tests_cant": "Tests compare participants with each other only.", "anchors": ["pkg/tecdsa/gg20/participant/dkg_round3.go: DkgRound3"]}
{"id": "C50", "title": "Pippenger multi-exponentiation equals the naive sum", "statement": "SumOfProducts (window 6, 43 windows, 63 buckets) returns sum_i s_i*P_i for all lists of equal non-zero length whose scalars encode below 2^256, and nil for lists of different length.", "quantifier": "all list lengths, scalars and points", "why_tests_cant": "All list lengths and scalars.", "anchors": ["pkg/core/curves/curve.go: sumOfProductsPippenger"]}
{"id": "C51", "title": "Native SumOfProducts equals the naive sum", "statement": "The 4-bit-window multi-scalar multiplication of the native point type returns sum_i s_i*P_i and an error on length mismatch.", "quantifier": "all list lengths, scalars and points", "why_tests_cant": "All list lengths and scalars.", "anchors": ["pkg/core/curves/native/point.go: EllipticPoint.SumOfProducts"]}
{"id": "C52", "title": "Windowed scalar multiplication computes n*P", "statement": "EllipticPoint.Mul with its precomputed table of 16 multiples returns scalar*P for every point and every canonical scalar.", "quantifier": "all points in an abelian group, all 256-bit scalars", "why_tests_cant": "2^256 scalars.", "anchors": ["pkg/core/curves/native/point.go: EllipticPoint.Mul"]}
{"id": "C53", "title": "Field exponentiation loop computes powers", "statement": "Field.Pow (and Pow2k) return base^exp for every 256-bit exponent in any commutative monoid.", "quantifier": "all bases, exponents", "why_tests_cant": "2^256 exponents.", "anchors": ["pkg/core/curves/native/field.go: pow, Field.Pow2k"]}
{"id": "C54", "title": "Constant-time limb comparison is the integer comparison of limbs", "statement": "cmpHelper returns -1, 0 or 1 exactly according to the order of the two 256-bit integers given by the limbs; equality and zero tests agree with integer equality; none of the bit tricks overflow incorrectly.", "quantifier": "all pairs of 4x64-bit limb vectors", "why_tests_cant": "2^512 input pairs.", "anchors": ["pkg/core/curves/native/field.go: cmpHelper, equalHelper, Field.IsZero"]}
{"id": "C55", "title": "Scalar Cmp compares Montgomery residues, not integers", "statement": "Cmp of native scalars should order them as integers in [0,q). It compares Montgomery representations: it returns 0 iff equal, but for a concrete pair x < y it returns 1.", "quantifier": "all pairs; refutation by witness", "why_tests_cant": "Tests only check Cmp() == 0.", "anchors": ["pkg/core/curves/native/field.go: Field.Cmp", "pkg/core/curves/k256_curve.go: ScalarK256.Cmp"]}
{"id": "C56", "title": "secp256k1 projective formulas implement the group law", "statement": "The complete Add and Double formulas of the native K256 point agree with affine chord-and-tangent addition for every pair of valid points including doubling, inverses and the identity, and stay on the curve.", "quantifier": "all pairs of points on y^2=x^3+7 over any field of characteristic not 2,3 with no 2-torsion", "why_tests_cant": "2^512 pairs including exceptional cases.", "anchors": ["pkg/core/curves/native/k256/point.go: k256PointArithmetic.Add, Double"]}
{"id": "C57", "title": "Scalar byte encodings round-trip and are canonical", "statement": "SetBytes(Bytes(x)) = x for every scalar, SetBytes accepts a 32-byte string iff it encodes an integer below the modulus, and accepted strings re-encode to themselves (big-endian and little-endian families).", "quantifier": "all scalars and byte strings", "why_tests_cant": "2^256 inputs.", "anchors": ["pkg/core/curves/native/field.go: Field.SetBytes, Bytes", "pkg/core/curves/k256_curve.go: ScalarK256.SetBytes, Bytes"]}
{"id": "C58", "title": "Compressed point encoding round-trips except for the identity on P-256, and decoding of off-curve x yields the identity", "statement": "Decoding a compressed encoding of any non-identity point returns that point. A compressed string whose x is not on the curve decodes to the identity without error; the identity encodes as x=0, which on a curve where x=0 is a valid abscissa (P-256) decodes to a different point. Uncompressed decoding round-trips for non-identity points but accepts every pair of canonical field elements, on the curve or not, and decodes the encoded identity to coordinates off the curve.", "quantifier": "all points and byte strings", "why_tests_cant": "2^256 x-coordinates.", "anchors": ["pkg/core/curves/k256_curve.go: PointK256.ToAffineCompressed, FromAffineCompressed", "pkg/core/curves/p256_curve.go"]}
{"id": "C59", "title": "Inner-product proofs of every power-of-two length verify", "statement": "For vectors a, b of any length 2^k and any generators, the proof produced by the prover is accepted by Verify and by VerifyFromRangeProof for the matching commitment, for every challenge function with non-zero outputs; non-powers of two and mismatched lengths are rejected.", "quantifier": "all k, vectors, generators, challenge functions", "why_tests_cant": "All lengths and vectors.", "anchors": ["pkg/bulletproof/ipp_prover.go: InnerProductProver.Prove", "pkg/bulletproof/ipp_verifier.go: InnerProductVerifier.Verify"]}
{"id": "C60", "title": "Range proofs of in-range values verify", "statement": "For every n a power of two >= 2, every value 0 <= v < 2^n (little-endian scalar encoding), blinding and challenges, the proof of RangeProver is accepted by RangeVerifier.", "quantifier": "all n, v, blindings, challenges", "why_tests_cant": "All values and randomness.", "anchors": ["pkg/bulletproof/range_prover.go: RangeProver.Prove", "pkg/bulletproof/range_verifier.go: RangeVerifier.Verify"]}
{"id": "C61", "title": "Range prover boundary and encoding defects", "statement": "The prover should refuse v >= 2^n. It accepts v = 2^n; and the bit decomposition reads the scalar's bytes as little-endian, so for big-endian scalar types the committed bits are not those of v; concrete witnesses.", "quantifier": "all n, v; refutation by witnesses", "why_tests_cant": "Edge value 2^n and non-default curves are untested.", "anchors": ["pkg/bulletproof/range_prover.go: RangeProver.Prove, getaL, checkRange"]}
{"id": "C62", "title": "Batched range proofs of in-range values verify", "statement": "The aggregated proof over m >= 2 values of n bits, n*m a power of two, is accepted by the batched verifier for all in-range values. A batch of one value makes both prover and verifier panic; fewer blindings than values make the prover panic.", "quantifier": "all n, m, values, blindings, challenges", "why_tests_cant": "All values and randomness.", "anchors": ["pkg/bulletproof/range_batch_prover.go", "pkg/bulletproof/range_batch_verifier.go"]}
{"id": "C63", "title": "Accumulator value depends only on the multiset of elements", "statement": "After any history of Add, Remove, AddElements and Update the accumulator equals base * prod(e+sk) over additions divided by removals; adding then removing an element restores the value; the order of operations is irrelevant.", "quantifier": "all operation histories", "why_tests_cant": "Unbounded histories.", "anchors": ["pkg/accumulator/accumulator.go: Accumulator.Add, Remove, AddElements, WithElements, Update"]}
{"id": "C64", "title": "Membership witnesses verify iff they satisfy the pairing equation", "statement": "A witness created for y against the current accumulator verifies (when values are non-degenerate), for members and non-members alike; Verify accepts exactly the unique C with (y+sk)*C = V.", "quantifier": "all elements, keys, accumulators", "why_tests_cant": "All elements and adversarial witnesses.", "anchors": ["pkg/accumulator/witness.go: MembershipWitness.New, Verify"]}
{"id": "C65", "title": "Batch witness updates track the accumulator", "statement": "For every sequence of batch updates (additions and deletions not containing y), BatchUpdate and MultiBatchUpdate turn a witness valid for the old accumulator into one valid for the new accumulator using only public coefficients; when y itself is deleted the update fails with an error.", "quantifier": "all batches, all histories, all y", "why_tests_cant": "All batches and histories.", "anchors": ["pkg/accumulator/accumulator.go: Update", "pkg/accumulator/key.go: CreateCoefficients, BatchAdditions", "pkg/accumulator/witness.go: BatchUpdate, MultiBatchUpdate, ApplyDelta"]}
{"id": "C66", "title": "Accumulator membership proofs are complete", "statement": "Finalize recomputes exactly the commitments of the prover, hence the verifier's challenge equals the prover's, for every valid witness and every randomness.", "quantifier": "all witnesses and randomness", "why_tests_cant": "All randomness.", "anchors": ["pkg/accumulator/proof.go: MembershipProofCommitting, GenProof, MembershipProof.Finalize"]}
{"id": "C67", "title": "BBS+ signatures verify", "statement": "For every key, message list and signature randomness with e+x != 0, a signature returned by Sign is accepted by Verify for the same messages and generators.", "quantifier": "all keys, messages, randomness, hash functions", "why_tests_cant": "All inputs.", "anchors": ["pkg/signatures/bbs/secret_key.go: Sign", "pkg/signatures/bbs/public_key.go: Verify"]}
{"id": "C68", "title": "BBS+ signatures should bind the message vector but only bind its sum", "statement": "One would expect a signature to bind the message vector. All message generators Get(1..n) are the same point as the blinding generator, so a signature verifies for every other vector with the same sum, and changing only its s component turns it, without the secret key, into a valid signature on any other message vector of admissible length.", "quantifier": "all signatures and message vectors with equal sum", "why_tests_cant": "Tests never try a forged permutation.", "anchors": ["pkg/signatures/bbs/message_generators.go: MessageGenerators.Init, Get"]}
{"id": "C69", "title": "BBS+ blind signing round trip", "statement": "A blind signature on a verified commitment context, unblinded by the holder, verifies for the complete message vector.", "quantifier": "all messages split into known/hidden, blindings", "why_tests_cant": "All inputs.", "anchors": ["pkg/signatures/bbs/blind_signature_context.go", "pkg/signatures/bbs/blind_signature.go"]}
{"id": "C70", "title": "BBS+ selective-disclosure proofs verify", "statement": "A proof of knowledge of a valid signature generated with any subset of revealed messages is accepted by the verifier for those revealed messages and the same nonce.", "quantifier": "all signatures, subsets, randomness, hash functions", "why_tests_cant": "All inputs.", "anchors": ["pkg/signatures/bbs/pok_signature.go", "pkg/signatures/bbs/pok_signature_proof.go"]}
{"id": "C71", "title": "Sigma-protocol builder responses reproduce the commitment", "statement": "For any number of committed (point, secret) pairs the responses s_i = r_i + c*x_i satisfy sum s_i P_i = commitment + c * statement; Get and GenerateProof preserve order and reject a wrong number of secrets.", "quantifier": "all list lengths, secrets, nonces, challenges", "why_tests_cant": "All inputs.", "anchors": ["pkg/signatures/common/proof_committed_builder.go"]}
{"id": "C72", "title": "HMAC-DRBG reads", "statement": "Read(dst) should fill any destination. The loop writes whole hash blocks without bound check: it returns normally exactly when len(dst) is a multiple of the hash size and otherwise panics.", "quantifier": "all destination lengths", "why_tests_cant": "Tests only use multiples of the block size.", "anchors": ["pkg/signatures/common/hmacdrbg.go: HmacDrbg.Read"]}
{"id": "C73", "title": "BLS signatures verify and are unique", "statement": "For every non-zero secret key and message, Verify accepts exactly the signature produced by Sign (for a non-identity message hash): any accepted signature equals it.", "quantifier": "all keys, messages, candidate signatures, hash functions", "why_tests_cant": "Adversarial signatures.", "anchors": ["pkg/signatures/bls/bls_sig/usual_bls_sig.go: createSignature, verifySignature"]}
{"id": "C74", "title": "BLS aggregation accepts exactly the sum of valid signatures", "statement": "AggregateVerify accepts iff the sum of the supplied signatures equals the sum of the individual valid signatures; the basic scheme rejects repeated messages; FastAggregateVerify equals verification under the sum of keys.", "quantifier": "all lists of keys, messages, signatures", "why_tests_cant": "All list lengths.", "anchors": ["pkg/signatures/bls/bls_sig/usual_bls.go: SigBasic.AggregateVerify, SigPop.FastAggregateVerify", "pkg/signatures/bls/bls_sig/usual_bls_sig.go: coreAggregateVerify, aggregateSignatures"]}
{"id": "C75", "title": "Threshold BLS: any t partial signatures combine to the full signature", "statement": "Combining partial signatures of any >= t distinct shares returns the signature under the shared key; duplicates, nil and fewer than two partials are rejected.", "quantifier": "all polynomials, subsets, messages", "why_tests_cant": "All subsets and polynomials.", "anchors": ["pkg/signatures/bls/bls_sig/usual_bls_sig.go: combineSigs, splitXY, partialSign", "pkg/signatures/bls/bls_sig/lib.go: thresholdizeSecretKey"]}
{"id": "C76", "title": "BLS secret key share encoding round-trips", "statement": "MarshalBinary/UnmarshalBinary of secret key shares are inverse for every 32-byte value and identifier not all zero.", "quantifier": "all share values and identifiers", "why_tests_cant": "2^264 inputs.", "anchors": ["pkg/signatures/bls/bls_sig/lib.go: SecretKeyShare.MarshalBinary, UnmarshalBinary"]}
{"id": "C77", "title": "Mina signatures verify", "statement": "For every secret key, message or transaction and derived nonce, a signature returned by signing is accepted by verification.", "quantifier": "all keys, messages, hash functions", "why_tests_cant": "All inputs incl. parity cases of R.", "anchors": ["pkg/signatures/schnorr/mina/keys.go: finishSchnorrSign, finishSchnorrVerify"]}
{"id": "C78", "title": "Mina message signatures do not bind trailing zero bytes", "statement": "A signature should be valid only for the signed message. The packing of message bits into field elements omits the length, so a signature on msg verifies for msg followed by zero bytes whenever the number of 254-bit chunks is unchanged; within one chunk count, packing is injective up to trailing zeros.", "quantifier": "all messages and paddings", "why_tests_cant": "Adversarial message pairs.", "anchors": ["pkg/signatures/schnorr/mina/roinput.go: roinput.Fields, AddBytes", "pkg/signatures/schnorr/mina/keys.go: SignMessage, VerifyMessage"]}
{"id": "C79", "title": "BitVector operations refine list operations", "statement": "Append, Element, Set, Insert and Delete act as the corresponding operations on the list of the first `length` bits, for every operation sequence; out-of-range indexes panic.", "quantifier": "all operation sequences", "why_tests_cant": "Unbounded histories.", "anchors": ["pkg/signatures/schnorr/mina/bitvector.go"]}
{"id": "C80", "title": "Mina transaction encoding", "statement": "UnmarshalBinary(MarshalBinary(t)) = t for every transaction whose memo has at most 32 bytes; for longer memos the encoding is garbled or encoding panics, and decoding a 175-byte string whose keys decode panics exactly if its memo-length byte exceeds 117.", "quantifier": "all transactions and byte strings", "why_tests_cant": "2^1400 byte strings.", "anchors": ["pkg/signatures/schnorr/mina/txn.go: Transaction.MarshalBinary, UnmarshalBinary"]}
{"id": "C81", "title": "NEM (Ed25519-Keccak) signatures verify", "statement": "For every seed and message, Verify accepts Sign's output; signatures with any of the top three bits of the last byte set or of wrong length are rejected.", "quantifier": "all seeds, messages, hash functions", "why_tests_cant": "All inputs.", "anchors": ["pkg/signatures/schnorr/nem/ed25519_keccak.go: sign, Verify"]}
{"id": "C82", "title": "Verifiable ElGamal decrypts what was encrypted and homomorphic addition works", "statement": "VerifiableDecrypt(WithDomain) of a ciphertext made with the matching domain returns the message; decryption of the sum of two homomorphic ciphertexts is the sum of the message points.", "quantifier": "all keys, messages, blindings, nonces, hash and AEAD functions with Open(Seal)=id", "why_tests_cant": "All inputs.", "anchors": ["pkg/verenc/elgamal/encryption_key.go", "pkg/verenc/elgamal/decryption_key.go", "pkg/verenc/elgamal/ciphertext.go"]}
{"id": "C83", "title": "Verifiable ElGamal proofs are complete but reveal the message point", "statement": "Proofs generated with the matching domain/nonce verify. The proof should reveal nothing beyond validity, but because the ElGamal blinding is reused as the proof nonce, anybody can compute message*G from ciphertext and proof: c^{-1}*(C1 - s1*G).", "quantifier": "all messages, blindings, nonces and hash functions with non-zero challenge", "why_tests_cant": "Leakage is a statement about an extractor for all runs.", "anchors": ["pkg/verenc/elgamal/proof_enc.go: genProof, verify"]}
{"id": "C84", "title": "Camenisch-Shoup decryption inverts encryption", "statement": "Decrypt(Encrypt(msgs)) = msgs for all messages in [0,n), labels and randomness; a message equal to n is accepted by Encrypt and decrypts to 0.", "quantifier": "all groups, keys, messages, labels, hash functions", "why_tests_cant": "All inputs incl. boundary.", "anchors": ["pkg/verenc/camshoup/encryption_key.go: Encrypt", "pkg/verenc/camshoup/decryption_key.go: Decrypt", "pkg/verenc/camshoup/paillier_group.go"]}
{"id": "C85", "title": "Camenisch-Shoup proofs lose their sign when serialized", "statement": "A valid proof should survive MarshalBinary/UnmarshalBinary. Responses are usually negative and Bytes() drops the sign: the round trip returns the absolute values; it is the identity iff all responses are non-negative.", "quantifier": "all proofs", "why_tests_cant": "Tests do not verify a deserialized proof.", "anchors": ["pkg/verenc/camshoup/proof_enc.go: ProofVerEnc.MarshalBinary, UnmarshalBinary, schnorr"]}
{"id": "C86", "title": "Camenisch-Shoup encryption proofs are complete", "statement": "The proof made by EncryptAndProve is accepted by VerifyEncryptProof with the same nonce (randomness below n/2, challenge below 2n).", "quantifier": "all messages, randomness, hash functions", "why_tests_cant": "All inputs.", "anchors": ["pkg/verenc/camshoup/proof_enc.go: EncryptAndProveBlindings, VerifyEncryptProof"]}
{"id": "C93", "title": "FROST signing: checks that do not protect", "statement": "One would expect round 3 to identify a signer who sends a bad response and honest signers always to finish. Neither holds: the share check uses the verification share contained in the message, so every response passes with a suitable one; a 'negative' common commitment together with a challenge that depends on the sign makes every honest signer fail; signers created with the same cosigners in another order do not agree; identifiers enter the binding factor modulo 256 only.", "quantifier": "all responses, coefficients, commitments, nonces, hash and challenge functions", "why_tests_cant": "Tests use honest signers, Ed25519 and one cosigner order.", "anchors": ["pkg/ted25519/frost/round3.go: Signer.SignRound3", "pkg/ted25519/frost/round2.go: Signer.SignRound2, concatHashArray"]}
{"id": "C94", "title": "ted25519 share handling", "statement": "Reconstruct returns the dealt key from any t distinct shares and share serialization round-trips. One would also expect Aggregate to work for every identifier the dealer hands out; TSign keeps only the low byte of the identifier, so partial signatures of holders 2 and 257 aggregate without an error to a wrong value.", "quantifier": "all keys, polynomials, shares, messages, subsets", "why_tests_cant": "Tests use few participants with small identifiers.", "anchors": ["pkg/ted25519/ted25519/keygen.go: Reconstruct, KeyShareFromBytes", "pkg/ted25519/ted25519/partialsig.go: TSign, NewPartialSignature", "pkg/ted25519/ted25519/sigagg.go: Aggregate"]}
{"id": "C95", "title": "ted25519 single-signer signatures verify", "statement": "Every signature produced by Sign with a key of NewKeyFromSeed is accepted by Verify under the public half of the key, and Verify accepts exactly the signatures with canonical s < L and R = s*B - H(R,A,m)*A.", "quantifier": "all seeds, messages, signatures, public keys", "why_tests_cant": "Unbounded seeds and messages.", "anchors": ["pkg/ted25519/ted25519/ed25519.go: Sign, Verify, NewKeyFromSeed"]}
{"id": "C96", "title": "BBS+ blind signing and proofs: unchecked inputs", "statement": "One would expect fresh issuer randomness per blind signature and errors for malformed input. The issuer's e and s depend on the key, generators and known messages only, so two issuances to different commitments give signatures for every affine combination of the commitments; index == length makes NewBlindSignatureContext panic; a wrong number of responses makes BlindSignatureContext.Verify and PokSignatureProof.Verify panic, surplus responses are ignored, and revealed messages at negative positions are accepted.", "quantifier": "all contexts, commitments, known messages, proofs, indices", "why_tests_cant": "Tests issue once per key and use well-formed inputs.", "anchors": ["pkg/signatures/bbs/blind_signature_context.go: NewBlindSignatureContext, Verify, ToBlindSignature", "pkg/signatures/bbs/pok_signature_proof.go: GetChallengeContribution, Verify"]}
{"id": "C97", "title": "BBS+ serialization round trips", "statement": "Unmarshalling the marshalled form of a signature, blind signature, blind-signature context or proof of knowledge returns the same value for every number of messages.", "quantifier": "all values, any number of responses", "why_tests_cant": "Unbounded number of responses.", "anchors": ["pkg/signatures/bbs/signature.go", "pkg/signatures/bbs/blind_signature_context.go: MarshalBinary, UnmarshalBinary", "pkg/signatures/bbs/pok_signature_proof.go: MarshalBinary, UnmarshalBinary"]}
{"id": "C98", "title": "BBS+ proofs of knowledge are extractable", "statement": "From two accepted proofs with the same commitments and different challenges one computes a signature that Verify accepts for a message vector containing all revealed messages, or a linear relation between the generators.", "quantifier": "all proofs (adversarial), revealed sets, challenges", "why_tests_cant": "Security property over adversarial provers.", "anchors": ["pkg/signatures/bbs/pok_signature_proof.go: GetChallengeContribution, VerifySigPok"]}
{"id": "C99", "title": "Accumulator membership proofs are extractable, and laxer than Verify", "statement": "From two accepted proofs with the same commitments and different challenges one computes (C,y) with (y+sk)*C = V; reused randomness reveals the witness; a proof is accepted for the zero element and for the identity accumulator, which Verify refuses.", "quantifier": "all proofs (adversarial), parameters, keys, challenges", "why_tests_cant": "Security property over adversarial provers.", "anchors": ["pkg/accumulator/proof.go: MembershipProof.Finalize, MembershipProofFinal.GetChallenge"]}
{"id": "C100", "title": "Witness and delta encodings are canonical", "statement": "MarshalBinary then UnmarshalBinary returns the same witness or delta; UnmarshalBinary accepts only the encoding MarshalBinary produces whenever the point has a single accepted encoding, which holds for every point of the curve but the identity.", "quantifier": "all witnesses, all byte strings", "why_tests_cant": "All byte strings.", "anchors": ["pkg/accumulator/witness.go: MarshalBinary, UnmarshalBinary"]}
{"id": "C101", "title": "BLS aggregation without proofs of possession is forgeable, and parts are not checked", "statement": "One would expect an accepted FastAggregateVerify to mean that every listed key signed. A rogue key x*g - pk lets its owner sign for both; PopVerify accepts for the rogue key only the proof made with the secret key x - sk. An accepted aggregate does not make the individual signatures valid, nor is their number tied to the number of keys; an identity key goes unnoticed in FastAggregateVerify while AggregateVerify refuses it.", "quantifier": "all keys, messages, signatures, lists", "why_tests_cant": "Adversarial keys and signatures.", "anchors": ["pkg/signatures/bls/bls_sig/usual_bls.go: FastAggregateVerify, AggregateVerify", "pkg/signatures/bls/bls_sig/usual_bls_sig.go: aggregatePublicKeys, aggregateSignatures"]}
{"id": "C102", "title": "Proofs of possession", "statement": "PopVerify accepts for a key exactly the proof PopProve makes; a nil key is an error; NewSigPopWithDst refuses exactly equal tags and a proof of possession is a signature of the encoded key only if the hashes under both tags agree.", "quantifier": "all keys, proofs, tags, hash functions", "why_tests_cant": "Adversarial proofs.", "anchors": ["pkg/signatures/bls/bls_sig/usual_bls_sig.go: createProofOfPossession, ProofOfPossession.verify", "pkg/signatures/bls/bls_sig/usual_bls.go: NewSigPopWithDst, PopProve, PopVerify"]}
{"id": "C103", "title": "Augmented BLS scheme: acceptance, empty messages, nil keys", "statement": "Verify accepts exactly sk*hash(pk||m). The usual scheme refuses to sign the empty message while the tiny scheme signs it and Verify accepts it. A nil public key makes Verify, PartialSign and AggregateVerify panic, whereas AggregateVerify of the basic scheme never panics.", "quantifier": "all keys, messages, signatures, lists containing nil", "why_tests_cant": "Tests use well-formed inputs.", "anchors": ["pkg/signatures/bls/bls_sig/usual_bls.go: SigAug.Sign, SigAug.Verify, SigAug.PartialSign, SigAug.AggregateVerify", "pkg/signatures/bls/bls_sig/tiny_bls.go: SigAugVt.Sign"]}
{"id": "C104", "title": "Threshold BLS: too few or foreign partial signatures are combined silently", "statement": "One would expect CombineSignatures to detect fewer than t partial signatures. With t-1 >= 2 it returns, without error, a point which differs from the signature by a non-zero multiple of the leading coefficient; a partial signature with identifier 0 alone decides the result; shares cannot sign the empty message although Sign can.", "quantifier": "all polynomials, subsets, messages, partial signatures", "why_tests_cant": "All subsets and polynomials.", "anchors": ["pkg/signatures/bls/bls_sig/usual_bls_sig.go: combineSigs, partialSign"]}
{"id": "C105", "title": "Verifiable ElGamal: reusing the parameters reuses the blinding", "statement": "One would expect every VerifiableEncrypt call with Blinding unset to use fresh randomness. The call stores the blinding it chose in the caller's parameters, so the next call with them repeats it: the first components coincide, without a domain the second ones differ by (m'-m)*G, and two proofs for the same message reveal the message scalar and the blinding to anybody.", "quantifier": "all keys, messages, parameters, randomness", "why_tests_cant": "Tests do not reuse a parameter struct and compare ciphertexts.", "anchors": ["pkg/verenc/elgamal/proof_enc.go: VerifiableEncrypt, genProof"]}
{"id": "C106", "title": "Verifiable ElGamal: malformed inputs and encodings", "statement": "One would expect malformed ciphertexts and proofs to be refused with an error. Decryption panics exactly when the nonce is longer than 12 bytes (and the AEAD part has at least 16); UnmarshalBinary of a proof panics exactly for an unknown curve name; proofs and ciphertexts survive serialization; decoding a ciphertext never panics.", "quantifier": "all ciphertexts, serialized proofs, curve tables", "why_tests_cant": "Adversarial lengths and names.", "anchors": ["pkg/verenc/elgamal/decryption_key.go: decryptData", "pkg/verenc/elgamal/proof_enc.go: UnmarshalBinary", "pkg/verenc/elgamal/ciphertext.go"]}
{"id": "C107", "title": "Camenisch-Shoup proofs do not cover all components of the ciphertext", "statement": "One would expect an accepted proof to speak about every component of the ciphertext. The verifier only loops over the responses in the proof: for any messages (even none) arbitrary further components can be appended and the proof is accepted; with a zero among them decryption fails for the recipient.", "quantifier": "all groups, keys, messages, appended components, randomness", "why_tests_cant": "Needs an adversarial prover.", "anchors": ["pkg/verenc/camshoup/proof_enc.go: VerifyEncryptProof"]}
{"id": "C108", "title": "Camenisch-Shoup: inputs that panic", "statement": "One would expect malformed inputs to be refused with an error. Decoding a group or key with an even modulus panics; Decrypt panics on u = v = n with any non-zero components; VerifyEncryptProof panics when the proof has more responses than the ciphertext has components.", "quantifier": "all groups, keys, labels, components, proofs", "why_tests_cant": "Adversarial inputs.", "anchors": ["pkg/verenc/camshoup/paillier_group.go: UnmarshalBinary", "pkg/verenc/camshoup/decryption_key.go: Decrypt", "pkg/verenc/camshoup/proof_enc.go: VerifyEncryptProof"]}
{"id": "C109", "title": "Camenisch-Shoup responses do not hide large messages", "statement": "One would expect the responses to hide the messages. Blindings are below n/2 while the masked value is challenge*message: two messages that can lead to the same response differ by less than n/2 divided by the challenge, and challenge*message lies in an interval of length n/2 given by the response.", "quantifier": "all groups, blindings, challenges, messages", "why_tests_cant": "A statement about all pairs of messages.", "anchors": ["pkg/verenc/camshoup/proof_enc.go: schnorr, EncryptAndProve", "pkg/verenc/camshoup/paillier_group.go: RandForEncrypt"]}
{"id": "C110", "title": "Native points: equality, normal form, curve membership, coordinates", "statement": "Equal decides equality of points for any denominators; ToAffine returns the same point with denominator one; SetBigInt accepts exactly coordinates whose residues satisfy the curve equation, or both reduce to zero (the identity). One would expect IsOnCurve to hold for every group element; it is false for the identity.", "quantifier": "all coordinates, curves without 2-torsion", "why_tests_cant": "All denominators and coordinates.", "anchors": ["pkg/core/curves/native/point.go: Equal, SetBigInt, ToAffine, IsOnCurve", "pkg/core/curves/native/k256/point.go: IsOnCurve, ToAffine", "pkg/core/curves/native/p256/point.go: IsOnCurve, ToAffine"]}
{"id": "C111", "title": "The hard-coded field and curve parameters are correct", "statement": "The moduli of the secp256k1 and P-256 fields are prime; R, R2, R3 and BiModulus match the modulus; the Montgomery limbs of the P-256 coefficients and generator are the published constants; neither curve has a point of order two; both generators are on the curve and have exactly the group order q.", "quantifier": "the constants in the source", "why_tests_cant": "Tests compare sample computations; primality and the order of the generator are not tested.", "anchors": ["pkg/core/curves/native/k256/point.go: k256PointParamsInit", "pkg/core/curves/native/p256/point.go: p256PointParamsInit", "pkg/core/curves/native/k256/fp/fp.go", "pkg/core/curves/native/k256/fq/fq.go", "pkg/core/curves/native/p256/fp/fp.go", "pkg/core/curves/native/p256/fq/fq.go"]}
{"id": "C112", "title": "Pasta field comparison and decoding are not exact at the modulus", "statement": "One would expect Pasta SetBytes to accept exactly the canonical encodings. Cmp compares limbs by the sign of a wrapped difference, so SetBytes rejects the canonical encodings of p-x for x from 2^63 to the low limb of p (so Bytes followed by SetBytes fails for them) and accepts every string far above the modulus, reducing it; SetBigInt silently leaves its target unchanged for the rejected values, and ScalarPallas.New(MinInt64) is zero. All other values behave as expected.", "quantifier": "all 32-byte strings, integers and 64-bit inputs", "why_tests_cant": "The affected values are a 2^-191 fraction; random tests never meet them.", "anchors": ["pkg/core/curves/native/pasta/fp/fp.go: Cmp, SetBytes, SetBigInt", "pkg/core/curves/native/pasta/fq/fq.go: Cmp, SetBytes, SetBigInt", "pkg/core/curves/pallas_curve.go: ScalarPallas.New"]}
{"id": "C113", "title": "Inversion and square roots in the native fields are correct", "statement": "Invert returns the inverse and true for every non-zero element and leaves its output and returns false for zero; Sqrt returns a root and true for every square and false (output untouched) for every non-square, in the base and scalar fields of secp256k1 and P-256, the scalar field of BLS12-381 and both Pasta fields.", "quantifier": "all field elements", "why_tests_cant": "2^256 elements; addition chains of hundreds of steps.", "anchors": ["pkg/core/curves/native/k256/fp/fp.go: Invert, Sqrt", "pkg/core/curves/native/k256/fq/fq.go: Invert, Sqrt", "pkg/core/curves/native/p256/fp/fp.go: Invert, Sqrt", "pkg/core/curves/native/p256/fq/fq.go: Invert, Sqrt", "pkg/core/curves/native/bls12381/fq.go: Invert, Sqrt", "pkg/core/curves/native/pasta/fp/fp.go: Invert, Sqrt", "pkg/core/curves/native/pasta/fq/fq.go: Invert, Sqrt"]}
{"id": "C114", "title": "What the range verifiers accept, on arbitrary proofs", "statement": "On every proof, commitment, bit length and transcript, not only those of the prover, Verify and VerifyBatched answer yes exactly if the equations of the Bulletproofs paper hold for the challenges derived from the transcript of the commitments and proof points, and the number of rounds fits the bit length. No proof is accepted for two bit lengths. One would expect an error for a proof of the wrong size; the verifier panics.", "quantifier": "all proofs, commitments, generators, bit lengths, transcripts and challenge functions", "why_tests_cant": "Adversarial proofs are not enumerable.", "anchors": ["pkg/bulletproof/range_verifier.go: RangeVerifier.Verify", "pkg/bulletproof/range_batch_verifier.go: VerifyBatched", "pkg/bulletproof/ipp_verifier.go: VerifyFromRangeProof"]}
{"id": "C115", "title": "Bulletproof serialization round-trips and is canonical", "statement": "UnmarshalBinary inverts MarshalBinary for inner-product and range proofs, and accepts only strings that MarshalBinary produces from its result. One would expect an error for truncated input; the decoder panics on input ending within a scalar and on trailing bytes fewer than a point.", "quantifier": "all proofs and byte strings", "why_tests_cant": "All lengths and byte strings.", "anchors": ["pkg/bulletproof/ipp_prover.go: MarshalBinary, UnmarshalBinary", "pkg/bulletproof/range_prover.go: MarshalBinary, UnmarshalBinary"]}
{"id": "C116", "title": "What a malicious seed-OT sender learns about the receiver's choice bits", "statement": "The receiver's round-2 message is independent of its choice bits whatever public key and proof the sender used: every choice string gives the same distribution of messages over the receiver's scalars. A sender may deviate in the later rounds; the exact condition under which the receiver's abort depends on its choice bit, and the exact dependence of its response, are as stated (one bit per slot can be tested at the price of a possible abort).", "quantifier": "all senders, choice strings, scalars, hash functions", "why_tests_cant": "Information-theoretic statement over all randomness and adversaries.", "anchors": ["pkg/ot/base/simplest/ot.go: Round2VerifySchnorrAndPadTransfer, Round4RespondToChallenge, Round6Verify"]}
{"id": "C117", "title": "Slots of a batch of seed OTs are separated only up to 256", "statement": "The hash inputs of two different slots of a batch never coincide. True for the first 256 slots; the slot number is a single byte, so in larger batches a receiver that repeats a point in slots i and i+256 obtains equal keys there.", "quantifier": "all batches, points and salts", "why_tests_cant": "The failure needs a malicious receiver and a batch above 256.", "anchors": ["pkg/ot/base/simplest/ot.go: Round2VerifySchnorrAndPadTransfer, Round3PadTransfer"]}
{"id": "C118", "title": "DKLs multiplication: the challenge binds the whole of Alice's message", "statement": "One would expect the challenges of Bob's consistency check to depend on all of Tau. They depend on rows 0 to 255 only (of 672): whenever Bob accepts a message, Alice can also change a row j >= 256 by (d, -d*chi0/chi1), which leaves the challenges and Bob's decision unchanged and moves Bob's output by omega_j * g_j * d.", "quantifier": "all messages accepted by Bob, all rows above 255, all shifts", "why_tests_cant": "Adversarial message; needs the exact transcript content.", "anchors": ["pkg/tecdsa/dkls/v1/sign/multiply.go: Round2Multiply, Round3Multiply"]}
{"id": "C119", "title": "A failed refresh round can be repeated without damage", "statement": "One would expect that after an error in round 3 of the key refresh the caller can feed another message (as the protocol stepper allows). Alice's share is already divided by the multiplier of the rejected message, and her transcript is extended: a repetition divides it again, so the shares stop matching the public key unless the product of both multipliers happens to be Bob's, and a message she would have accepted at first is rejected after one bad message.", "quantifier": "all shares, messages, seeds and hash functions", "why_tests_cant": "Error paths with adversarial messages.", "anchors": ["pkg/tecdsa/dkls/v1/refresh/refresh.go: Alice.Round3RefreshMultiplyRound2Ot", "pkg/tecdsa/dkls/v1/protocol.go: Next"]}
{"id": "C120", "title": "A repeated last signing round signs the same message", "statement": "One would expect that Bob's last signing round, run again by the stepper after a failed verification, still accepts only signatures on his message. The message is appended to the hash object on each attempt, so the second attempt accepts exactly signatures on message||message, and by choice of her last value Alice can make it accept every such signature with the nonce of the round.", "quantifier": "all states of Bob, messages and values sent by Alice", "why_tests_cant": "Error paths with adversarial messages.", "anchors": ["pkg/tecdsa/dkls/v1/sign/sign.go: Bob.Round4Final", "pkg/tecdsa/dkls/v1/protocol.go: Next"]}
{"id": "C121", "title": "Protocol messages can be decoded in a fresh process", "statement": "One would expect each party to be able to run in its own process. Types behind interfaces are registered with gob only by some of the encoders and decoders: Bob can run key generation, but Alice in a process of her own never gets past her first step, whatever she receives, and NewBobSign and NewBobRefresh fail on every stored key share in a process that did not register the types.", "quantifier": "all messages, round functions and sequences of calls", "why_tests_cant": "Tests run both parties in one process, where the registration by one serves both.", "anchors": ["pkg/tecdsa/dkls/v1/dkgserializers.go: registerTypes, decodeDkgRound4Input, DecodeBobDkgResult", "pkg/tecdsa/dkls/v1/boilerplate.go: NewAliceDkg, NewBobSign, NewBobRefresh"]}
{"id": "C126", "title": "GG20 proof of discrete logarithm: completeness, and the relation is not enforced", "statement": "Every honest PDL proof with a blinding value leaving room for e*x verifies. Verify accepts exactly if the three verification equations hold and s1 <= q^3, with s1 an arbitrary integer: for every ciphertext, whatever its plaintext m, and every point x*R an accepted proof is computed with the ordinary prover from a negative representative of (m mod N, x mod q). So acceptance does not tie the point to the plaintext.", "quantifier": "all keys, plaintexts, points, nonces and hash functions", "why_tests_cant": "Needs an adversarial prover outside the honest domain.", "anchors": ["pkg/tecdsa/gg20/proof/pdl.go: PdlProofParams.Prove, PdlProof.Verify"]}
{"id": "C127", "title": "GG20 MtA response proofs: completeness, and B is not tied to the ciphertext", "statement": "Verify of the second range proof accepts exactly if its verification equations hold, s1 <= q^3 and t1 <= q^7. Honest responses satisfy them. One would expect the variant with check to force the response to be computed with the logarithm of B; for every b used in the response and every unrelated point x*g an accepted proof exists (given gcd(N,q)=1), again because the bounds are one-sided.", "quantifier": "all keys, ciphertexts, factors, points and hash functions", "why_tests_cant": "Needs an adversarial prover outside the honest domain.", "anchors": ["pkg/tecdsa/gg20/proof/mta.go: genProof2, verify2Proof, ResponseProof.FinalizeWc"]}
{"id": "C122", "title": "GG20 signers check the signature they output", "statement": "One would expect SignOutput to return only signatures that verify under the public key (step 6 of the paper: abort if the signature is invalid). Signers made by NewSigner use a check that accepts everything: whatever the earlier rounds, the last cosigner to answer can force any value s up to q/2, SignOutput can be repeated, and the consistency check for the shares of k*x before releasing the partial signature does not exist (round 6 does not depend on them).", "quantifier": "all signer states, message sets, hashes and values", "why_tests_cant": "Tests compare honest outputs only.", "anchors": ["pkg/tecdsa/gg20/participant/participant.go: NewSigner", "pkg/tecdsa/gg20/participant/round6.go: SignOutput, SignRound6Full"]}
{"id": "C128", "title": "GG20 parity leak through an out-of-range nonce ciphertext", "statement": "An initiator that encrypts (N+1)/2 instead of a nonce below q (accepted because the range check is one-sided) obtains shares of b/2 if the responder's secret b is even and of (b+N)/2 otherwise, so continuing with k = 1/2 succeeds exactly if b is even.", "quantifier": "all Paillier keys of sufficient size, responder secrets and randomness", "why_tests_cant": "Needs an adversarial initiator.", "anchors": ["pkg/tecdsa/gg20/proof/mta.go: genResponseProof, ResponseProof.Finalize", "pkg/tecdsa/gg20/participant/round2.go: SignRound2"]}
{"id": "C123", "title": "GG20 DKG round 3: what is checked about received shares", "statement": "A successful round 3 has opened every commitment given to it and checked that every share lies on the committed polynomial; the public key is the sum of the committed constant terms. One would expect the share to be checked at the own identifier. It is checked at the identifier it carries: a dealer that sends participant i its share for another identifier m is accepted, and i ends with a signing share that is off by the difference of the two values and does not fit the others.", "quantifier": "all states, messages, identifiers and polynomials", "why_tests_cant": "Tests use honest dealers.", "anchors": ["pkg/tecdsa/gg20/participant/dkg_round3.go: DkgRound3", "pkg/sharing/v1/feldman.go: Verify"]}
{"id": "C124", "title": "GG20 DKG: a failed round 3 can be repeated", "statement": "One would expect that after an error in round 3 the call can be repeated with the right message. The own share is updated in place, so the shares which were added before the error are counted twice: the repeated call succeeds with the same public key and a wrong signing share.", "quantifier": "all participants, message orders and errors", "why_tests_cant": "Depends on map iteration order and an error path.", "anchors": ["pkg/tecdsa/gg20/participant/dkg_round3.go: DkgRound3"]}
{"id": "C125", "title": "GG20: the public shares published by the DKG can be used for signing", "statement": "One would expect that a signer set up with the public shares of DkgResult can sign. Because these are not x_j*g, an honest cosigner's response proof is rejected in round 3: a signer gets past round 3 only if the public share it holds for the sender is w_j*g (for the published shares: only for one exceptional key), or the challenge is zero modulo q, or a named pair of hash inputs collides.", "quantifier": "all keys, signer sets, nonces and hash functions", "why_tests_cant": "Signing tests use the trusted dealer or compute public shares themselves.", "anchors": ["pkg/tecdsa/gg20/participant/dkg_round3.go: DkgRound3", "pkg/tecdsa/gg20/participant/round3.go: SignRound3", "pkg/tecdsa/gg20/proof/mta.go: FinalizeWc"]}
{"id": "C129", "title": "GG20 DKG round 3 needs the messages of all participants", "statement": "One would expect round 3 to fail when the messages of a participant are missing. It processes whatever it is given: for every subset of participants (including the own) round 3 succeeds and computes the key and shares of that subset, so participants can end with different keys without an error.", "quantifier": "all subsets of participants", "why_tests_cant": "Adversarial delivery.", "anchors": ["pkg/tecdsa/gg20/participant/dkg_round3.go: DkgRound3"]}
{"id": "C130", "title": "GG20: the parameters returned by the DKG suffice for signing", "statement": "One would expect that the participant data of DkgResult can be used as proof parameters for signing. They contain no entry for the participant itself, and a signer without parameters for its own identifier panics in round 2 at the first message with a valid range proof.", "quantifier": "all signer states and messages", "why_tests_cant": "Tests add the own entry by hand.", "anchors": ["pkg/tecdsa/gg20/participant/dkg_round4.go: DkgRound4", "pkg/tecdsa/gg20/participant/round2.go: SignRound2"]}
{"id": "C131", "title": "GG20 DKG rounds 2 and 4: what is checked", "statement": "A successful round 2 has checked modulus size and both discrete log proofs of every other sender; round 3 refuses to run without any decommitment or share; round 4 succeeds exactly if every known participant sent a proof and every proof given verifies for its sender's key and identifier. Identifiers are not checked: a valid message under an identifier outside 1..n makes round 2 panic (index out of range), a proof under an unknown identifier makes round 4 panic (nil pointer).", "quantifier": "all states and message sets", "why_tests_cant": "Adversarial identifiers.", "anchors": ["pkg/tecdsa/gg20/participant/dkg_round2.go: DkgRound2", "pkg/tecdsa/gg20/participant/dkg_round4.go: DkgRound4"]}
{"id": "C132", "title": "Mina transaction signatures bind the transaction", "statement": "A signature accepted under one key for two transactions with memos of at most 32 bytes means that the transactions are equal, network included, or that the sponge has a collision on two named inputs. Memos of 32 and more bytes are bound only in their first 32 bytes and their length modulo 256.", "quantifier": "all keys, signatures and pairs of transactions", "why_tests_cant": "Adversarial transaction pairs.", "anchors": ["pkg/signatures/schnorr/mina/txn.go: Transaction.addRoInput", "pkg/signatures/schnorr/mina/keys.go: VerifyTransaction"]}
{"id": "C133", "title": "Mina transactions from JSON", "statement": "Transaction.UnmarshalJSON should decode transactions. It asserts struct types on values decoded into interface{}, so it returns an error for every input.", "quantifier": "all JSON inputs", "why_tests_cant": "All inputs.", "anchors": ["pkg/signatures/schnorr/mina/txn.go: Transaction.UnmarshalJSON"]}
{"id": "C134", "title": "Threshold signatures of Mina transactions", "statement": "A threshold signature (R, z) made with MinaTSchnorrHandler should be a valid Mina signature. The challenge is always that of the main network, whatever the transaction says; (x(R), z) is accepted for a main network transaction exactly when y(R) is even (and key, x(R) and z are nonzero), and for another network only if the two networks' sponges agree on the named input.", "quantifier": "all keys, commitments, transactions", "why_tests_cant": "Parity of R and network of the transaction.", "anchors": ["pkg/signatures/schnorr/mina/challenge_derive.go: DeriveChallenge", "pkg/signatures/schnorr/mina/keys.go: finishSchnorrVerify"]}
{"id": "C135", "title": "The Poseidon permutation is a permutation", "statement": "For each of the three parameter sets, the round function sequence over the Pallas field is a bijection on states (the S-box exponent is prime to p-1, the MDS matrix is invertible), and the three networks start from the documented states.", "quantifier": "all states", "why_tests_cant": "2^760 states; a wrong constant can make the map non-injective without failing a test vector of one input.", "anchors": ["pkg/signatures/schnorr/mina/poseidon_hash.go: permute", "pkg/signatures/schnorr/mina/poseidon_config.go"]}
{"id": "C136", "title": "Mina signatures: uniqueness and nonce reuse", "statement": "For a fixed key, input and first half R at most one second half S is accepted. A signature accepted for two inputs has the same challenge for both. Two accepted signatures with one R and different challenges determine the secret key.", "quantifier": "all keys, inputs, signatures", "why_tests_cant": "Adversarial signatures.", "anchors": ["pkg/signatures/schnorr/mina/keys.go: finishSchnorrVerify"]}
{"id": "C137", "title": "Mina nonces depend on key, message and network", "statement": "The bytes hashed to derive a nonce determine the secret key, the public key, the signed input and the last byte of the network identifier; different messages give different strings, so a nonce is repeated only by a hash collision.", "quantifier": "all keys and pairs of inputs", "why_tests_cant": "Adversarial pairs.", "anchors": ["pkg/signatures/schnorr/mina/keys.go: msgDerive", "pkg/signatures/schnorr/mina/roinput.go: Bytes"]}
{"id": "C138", "title": "Encodings of Mina signatures and secret keys", "statement": "UnmarshalBinary(MarshalBinary(x)) = x should hold for every signature and secret key and encodings should be unique. Both fail: values in a range just below the modulus are refused, and adding three times the order to the second half gives another accepted encoding of the same signature.", "quantifier": "all signatures, secret keys, byte strings", "why_tests_cant": "The failing values are a 2^-190 fraction.", "anchors": ["pkg/signatures/schnorr/mina/signature.go: MarshalBinary, UnmarshalBinary", "pkg/signatures/schnorr/mina/keys.go: SecretKey.UnmarshalBinary", "pkg/core/curves/native/pasta/fq/fq.go: SetBytes, Cmp"]}
{"id": "C139", "title": "Mina addresses", "statement": "ParseAddress(GenerateAddress(pk)) = pk for every encodable key. Parsing accepts only 40 bytes with the version prefix and a matching checksum and never returns the identity, but ignores all but the lowest bit of the parity byte, so a key has several addresses.", "quantifier": "all keys and strings", "why_tests_cant": "Adversarial strings.", "anchors": ["pkg/signatures/schnorr/mina/keys.go: GenerateAddress, ParseAddress"]}
{"id": "C140", "title": "NEM signatures: uniqueness and weak keys", "statement": "For a fixed public key, message and first half at most one second half is accepted. Verify accepts low order public keys: with the identity as public key, signatures can be made for every message without a secret; with a key of order k whenever k divides the challenge.", "quantifier": "all keys, messages, signatures", "why_tests_cant": "Adversarial keys and signatures.", "anchors": ["pkg/signatures/schnorr/nem/ed25519_keccak.go: Verify"]}
{"id": "C141", "title": "NEM signing trusts the public half of the private key", "statement": "Sign should not reveal the secret. It hashes the stored public half without checking it: two signatures of one message with the same seed and different halves share the nonce, and determine the secret scalar unless the challenges agree; a signature under a wrong half verifies for it exactly if the challenge annihilates the difference of the keys.", "quantifier": "all seeds, halves, messages", "why_tests_cant": "Needs modified private keys.", "anchors": ["pkg/signatures/schnorr/nem/ed25519_keccak.go: sign"]}
{"id": "C142", "title": "What the hashes of the DKLs oblivious transfers bind", "statement": "Equal pads of the seed OT come from equal salt, slot and point or a named hash collision; slots 256 apart share their pad; the weights of the extension's consistency check bind the row number and the digest of the receiver's message; both components of the first 256 rows of Tau enter the transcript; the receiver keeps the public key that was proved and one pad per slot.", "quantifier": "all states and messages", "why_tests_cant": "Collision and state properties.", "anchors": ["pkg/ot/base/simplest/ot.go: Round2VerifySchnorrAndPadTransfer", "pkg/ot/extension/kos/kos.go: Round1Initialize", "pkg/tecdsa/dkls/v1/sign/multiply.go: Round2Multiply"]}
{"id": "C143", "title": "BLS12-381 base field: the limb arithmetic computes modulo p", "statement": "On reduced six-limb Montgomery values, Mul, Square, Add, Sub, Double, Neg, MulBy3b, pow and Exp of fp.go return reduced limbs standing for the product, square, sum, difference, negation and power modulo p; conversion to and from Montgomery form is exact; reduced limbs and residues correspond one to one; the word primitives mac, adc, sbb lose no carry on the inputs that occur.", "quantifier": "all six-limb values", "why_tests_cant": "Carry chains and the final subtraction depend on values a random test hits with negligible probability.", "anchors": ["pkg/core/curves/native/bls12381/bls12381.go: mac, adc, sbb", "pkg/core/curves/native/bls12381/fp.go: Mul, Square, Add, Sub, Neg, montReduce, pow"]}
{"id": "C144", "title": "BLS12-381 base field: inversion and square root", "statement": "Invert succeeds exactly on non-zero elements and returns the inverse; Sqrt succeeds exactly on squares and returns a root, and otherwise leaves the receiver unchanged.", "quantifier": "all elements", "why_tests_cant": "Universally quantified over a 381-bit field.", "anchors": ["pkg/core/curves/native/bls12381/fp.go: Invert, Sqrt"]}
{"id": "C145", "title": "BLS12-381 base field: encodings", "statement": "SetBytes accepts exactly the 48-byte little-endian values below p and inverts Bytes; encodings are unique; SetBytesWide reduces any 768-bit value, SetBigInt any integer (also negative) modulo p; Hash reduces the expanded message as a big-endian number.", "quantifier": "all byte strings, integers, elements", "why_tests_cant": "Values at or above the modulus are a vanishing fraction.", "anchors": ["pkg/core/curves/native/bls12381/fp.go: SetBytes, Bytes, SetBytesWide, SetBigInt, BigInt, Hash"]}
{"id": "C146", "title": "BLS12-381 base field: predicates, order, selection", "statement": "IsZero, IsOne, Equal, Sgn0 and LexicographicallyLargest decide what they say. Cmp should order elements by value, but orders their Montgomery limbs, so 1 is reported greater than 2. CMove selects; CNeg with choice 0 keeps the old receiver instead of copying its argument.", "quantifier": "all elements, choices and receivers", "why_tests_cant": "Boundary of the half modulus; the receiver is not visible in ordinary calls.", "anchors": ["pkg/core/curves/native/bls12381/fp.go: Equal, Cmp, LexicographicallyLargest, Sgn0, CMove, CNeg"]}
{"id": "C147", "title": "BLS12-381 scalar field: the limb code, and the negation of zero", "statement": "Mul, Square, Add, Sub and the conversions of fq.go compute modulo q for all reduced limbs. Neg does for non-zero arguments; for zero it returns the modulus, which encodes like zero but is not IsZero, not equal to zero, compares greater, and is reported as inverted by Invert.", "quantifier": "all reduced limbs", "why_tests_cant": "Only zero triggers it, and only via identities of representation.", "anchors": ["pkg/core/curves/native/bls12381/fq.go: Mul, Square, Add, Sub, Neg, ToMontgomery, FromMontgomery, Invert"]}
{"id": "C148", "title": "BLS12-381 tower: structs form the field of p^12 elements", "statement": "-1 is no square mod p, u+1 no cube and v no square, so the tower of fp2, fp6, fp12 is a field; Add, Sub, Neg, Double, Mul, Square, Mul0, MulByNonResidue, MulByB, MulByAB and MulByABD (Karatsuba and sparse forms) compute in it; structs and field elements correspond one to one.", "quantifier": "all elements", "why_tests_cant": "An algebraic identity over twelve 381-bit coefficients; a wrong formula in a sparse product shows only for particular coefficients.", "anchors": ["pkg/core/curves/native/bls12381/fp2.go", "pkg/core/curves/native/bls12381/fp6.go", "pkg/core/curves/native/bls12381/fp12.go"]}
{"id": "C149", "title": "BLS12-381 tower: inversion and tests", "statement": "Invert of fp2, fp6 and fp12 succeeds exactly on non-zero elements, returns the inverse, and keeps the receiver for zero; IsZero and Equal decide. IsOne should too, but fp6.IsOne tests B twice and C never: exactly the elements 1 + c v^2 pass; on elements of norm one only 1 passes.", "quantifier": "all elements and receivers", "why_tests_cant": "Only elements with a particular shape are misjudged.", "anchors": ["pkg/core/curves/native/bls12381/fp6.go: Invert, IsOne", "pkg/core/curves/native/bls12381/fp12.go: Invert, IsOne", "pkg/core/curves/native/bls12381/fp2.go: Invert"]}
{"id": "C150", "title": "BLS12-381 fp2: square roots and signs", "statement": "Sqrt reports exactly whether a root exists and returns one, otherwise keeps its receiver; of x and -x exactly one is lexicographically largest and exactly one has Sgn0 one (x non-zero), by the documented comparison orders; a square together with either sign determines the root.", "quantifier": "all elements of fp2", "why_tests_cant": "Roots of -1 times a square, and elements with a zero coordinate, take special branches.", "anchors": ["pkg/core/curves/native/bls12381/fp2.go: Sqrt, LexicographicallyLargest, Sgn0"]}
{"id": "C151", "title": "BLS12-381 tower: Frobenius maps", "statement": "FrobeniusMap of fp2, fp6 and fp12 with their tabulated constants is the p-th power map; six applications conjugate, twelve are the identity.", "quantifier": "all elements", "why_tests_cant": "The constants are opaque limbs; a wrong one would leave most round-trip tests intact.", "anchors": ["pkg/core/curves/native/bls12381/fp6.go: FrobeniusMap", "pkg/core/curves/native/bls12381/fp12.go: FrobeniusMap"]}
{"id": "C152", "title": "BLS12-381 final exponentiation", "statement": "cyclotomicSquare, Conjugate and cyclotomicExp square, invert and raise to the curve parameter on the cyclotomic subgroup (and squaring fails outside); FinalExponentiation of a non-zero element is its power 3(p^12-1)/r, hence an r-th root of unity, multiplicative, and one exactly when the power (p^12-1)/r is one; of zero it keeps the receiver.", "quantifier": "all elements", "why_tests_cant": "The addition chain mixes seven temporaries; one wrong operand still gives plausible field elements.", "anchors": ["pkg/core/curves/native/bls12381/gt.go: FinalExponentiation, cyclotomicSquare, cyclotomicExp, fp4Square"]}
{"id": "C153", "title": "BLS12-381 target group: operations and encoding", "statement": "On the group of order r Add, Double, Square, Neg and Sub are the group operations; Bytes/SetBytes round trip, are injective and canonical. Mul should be the scalar multiple but always returns zero, because its accumulator starts at zero; SetBytes accepts elements outside the group, for which Neg, Sub and Square are wrong, and a refused input can change the receiver.", "quantifier": "all elements, scalars and inputs", "why_tests_cant": "Mul is untested; membership failures need adversarial encodings.", "anchors": ["pkg/core/curves/native/bls12381/gt.go: Add, Double, Sub, Neg, Mul, Square, Bytes, SetBytes"]}
{"id": "C154", "title": "BLS12-381 target group: the generator", "statement": "Gt.Generator has order exactly r.", "quantifier": "the constant", "why_tests_cant": "No test raises the generator to the group order, and Gt.Mul could not.", "anchors": ["pkg/core/curves/native/bls12381/gt.go: Generator"]}
{"id": "C155", "title": "BLS12-381 G1 and G2: the group law", "statement": "Add, Double, Neg and Sub of G1 and G2 on any projective coordinates of points of the two curves give coordinates of the sum, double, opposite and difference; Identity, IsIdentity, Equal and IsOnCurve decide what their names say on coordinates of points; ToAffine gives the affine coordinates of any point but the identity, of which it gives the zero value of the struct. The zero value passes IsIdentity, IsOnCurve and Equal with the identity, yet any sum with it is the zero value again. The generators are points.", "quantifier": "all projective coordinates of all points of both curves", "why_tests_cant": "The complete formulas have exceptional inputs (equal, opposite, identity, order three) that random tests do not reach.", "anchors": ["pkg/core/curves/native/bls12381/g1.go: Add, Sub, Double, Neg, ToAffine, Equal, IsOnCurve", "pkg/core/curves/native/bls12381/g2.go: Add, Sub, Double, Neg, ToAffine, Equal, IsOnCurve"]}
{"id": "C156", "title": "BLS12-381 G1 and G2: multiples, sums of products, subgroup test", "statement": "Mul multiplies by the scalar, SumOfProducts is the sum of the multiples (Pippenger windows included) and refuses lists of different lengths, MulByX multiplies by the parameter, G1.ClearCofactor by one minus it, and InCorrectSubgroup decides exactly whether r times the point is the identity.", "quantifier": "all points, all 32-byte scalars, lists of any length", "why_tests_cant": "Window boundaries and bucket collisions depend on scalar patterns; the subgroup test needs points outside the subgroup.", "anchors": ["pkg/core/curves/native/bls12381/g1.go: Mul, SumOfProducts, MulByX, ClearCofactor, InCorrectSubgroup", "pkg/core/curves/native/bls12381/g2.go: Mul, SumOfProducts, MulByX, InCorrectSubgroup"]}
{"id": "C157", "title": "BLS12-381 G1 and G2: point encodings", "statement": "ToCompressed and ToUncompressed depend only on the point, separate points, and have the documented big-endian layout with the flags in the top bits; decoding returns the point if it is in the r-torsion subgroup and refuses it otherwise; whatever is accepted is in the subgroup and, without the infinity flag, re-encodes to the same bytes up to ignored flag bits. With the infinity flag everything else is ignored, so the identity has many accepted encodings; uncompressed inputs ignore bits 7 and 5.", "quantifier": "all points of both curves and all byte strings", "why_tests_cant": "A test tries a few encodings; canonicity and subgroup membership are statements about all byte strings.", "anchors": ["pkg/core/curves/native/bls12381/g1.go: FromCompressed, ToCompressed, FromUncompressed, ToUncompressed", "pkg/core/curves/native/bls12381/g2.go: FromCompressed, ToCompressed, FromUncompressed, ToUncompressed"]}
{"id": "C158", "title": "BLS12-381 G1 and G2: conversion to integers", "statement": "SetBigInt(BigInt(P)) is P for G1, and what G1.SetBigInt accepts is the subgroup point with the reduced coordinates; G2.BigInt ignores its receiver and always gives the integers of the identity, while G2.SetBigInt of the two halves of an uncompressed encoding gives the point.", "quantifier": "all points and all pairs of integers", "why_tests_cant": "The G2 method returns well-formed integers for every input.", "anchors": ["pkg/core/curves/native/bls12381/g1.go: BigInt, SetBigInt", "pkg/core/curves/native/bls12381/g2.go: BigInt, SetBigInt"]}
{"id": "C170", "title": "GG20 signing: what a successful round has verified", "statement": "If SignRound2 succeeds then for every other sender the range proof was verified against that sender's Paillier key, the own dealer parameters and the ciphertext stored for later; if SignRound3 succeeds both responses of every sender were finalized, the second against its public share; if SignRound5 succeeds the stored commitment of every sender was opened; if SignRound6 succeeds the proof of every sender's point was verified against the stored ciphertext and the points sum to the generator; SignOutput returns only low-s signatures accepted by the configured check. A nil message in round 3 is an error, nil proof fields and missing private proofs panic.", "quantifier": "all states, all messages of all other signers, honest or not, in any order", "why_tests_cant": "Tests feed messages of honest signers; a check that is skipped goes unnoticed.", "anchors": ["pkg/tecdsa/gg20/participant/round2.go: SignRound2", "pkg/tecdsa/gg20/participant/round3.go: SignRound3", "pkg/tecdsa/gg20/participant/round5.go: SignRound5", "pkg/tecdsa/gg20/participant/round6.go: SignRound6Full", "pkg/tecdsa/gg20/participant/round6.go: SignOutput"]}
{"id": "C159", "title": "BLS12-381 G1 and G2: group orders and cofactors", "statement": "The curve of G1 has (1-x)^2/3 times r points and the curve of G2 its published cofactor times r; the generators have order r and InCorrectSubgroup accepts exactly their multiples; G1.ClearCofactor sends every point of the curve into that subgroup; G2.ClearCofactor is, for every point of the curve, the multiple by the effective cofactor of RFC 9380 and lands in the subgroup; psi and psi2 are an endomorphism satisfying the Frobenius equation and its square, and act on the subgroup as the curve parameter.", "quantifier": "all points of both curves", "why_tests_cant": "The group orders are statements about all points; the endomorphism identities only hold thanks to exact constants.", "anchors": ["pkg/core/curves/native/bls12381/g1.go: ClearCofactor, InCorrectSubgroup, Generator", "pkg/core/curves/native/bls12381/g2.go: ClearCofactor, psi, psi2, InCorrectSubgroup, Generator"]}
{"id": "C160", "title": "Hash to curve: the simplified SWU map on secp256k1 and P-256", "statement": "On every field element OptimizedSswu3Mod4 with the built-in constants gives the point that RFC 9380, 6.6.2 prescribes for the constants of sections 8.7 and 8.2: exceptional inputs included, the abscissa is the first candidate when it belongs to a point and the second otherwise, the point is on the curve and the ordinate has the sign of the input.", "quantifier": "all field elements", "why_tests_cant": "The exceptional inputs have probability zero; the choice of branch depends on quadratic residuosity computed from one exponentiation.", "anchors": ["pkg/core/curves/native/osswu.go: Osswu3mod4", "pkg/core/curves/native/k256/point.go: k256PointSswuParamsInit", "pkg/core/curves/native/p256/point.go: p256PointSswuParamsInit"]}
{"id": "C161", "title": "Hash to curve: the isogeny and Hash on secp256k1 and P-256", "statement": "The tabulated isogeny has the published coefficients, its denominators do not vanish on the isogenous curve and it maps that curve into secp256k1; Hash is, for all messages, tags and hash functions, the sum of the images of the two field elements read big-endian from 96 expanded bytes.", "quantifier": "all field elements, points, messages, tags and hash functions of the declared lengths", "why_tests_cant": "Whether a denominator can vanish is a statement about all points; the identity between the two curve equations has degree 15.", "anchors": ["pkg/core/curves/native/isogeny.go: Map", "pkg/core/curves/native/k256/point.go: k256PointIsogenyInit, Hash", "pkg/core/curves/native/p256/point.go: Hash"]}
{"id": "C162", "title": "Hash to curve: the expansion of messages", "statement": "ExpandMsgXmd is expand_message_xmd of RFC 9380 for every tag, long tags being hashed, returns as many bytes as asked for, and agrees with ExpandMessageXmd of pkg/core wherever that succeeds; ExpandMsgXof is expand_message_xof for tags of at most 255 bytes and for SHAKE256, but with SHAKE128 and a longer tag it hashes different bytes.", "quantifier": "all messages, tags, lengths and hash functions", "why_tests_cant": "Vectors cover short tags only.", "anchors": ["pkg/core/curves/native/hash2field.go: ExpandMsgXmd, ExpandMsgXof, getDomainXmd, getDomainXof"]}
{"id": "C163", "title": "Hash to curve: BLS12-381 G1", "statement": "On every field element osswu3mod4 gives the point that RFC 9380 prescribes for the curve of section 8.8.1; the isogeny table has the published coefficients and sends every point outside its kernel to the prescribed point of G1's curve; Hash is, for all messages and tags whose two field elements avoid the kernel, the sum of the two points times 1-x, and lies in the subgroup. For inputs in the kernel, which exist, the code yields (0,0,1), which is not on the curve, where the standard prescribes the identity.", "quantifier": "all field elements, messages, tags and hash functions", "why_tests_cant": "Kernel inputs are reached with negligible probability but exist; the curve identity has degree 33.", "anchors": ["pkg/core/curves/native/bls12381/g1.go: Hash, Random, osswu3mod4, isogenyMap"]}
{"id": "C164", "title": "Hash to curve: BLS12-381 G2", "statement": "On every non-zero element of Fp2 sswu gives the point that RFC 9380 prescribes for the curve of section 8.8.2; the isogeny's denominators do not vanish on that curve and its images are the prescribed points of G2's curve; Hash is, when both field elements are non-zero, the sum of the two points times the effective cofactor, and lies in the subgroup. For the element zero sswu yields (0,0,1), not a point of the curve, and its image is not on the curve of G2. Random fails unless 64 bytes were read.", "quantifier": "all elements of Fp2, messages, tags and hash functions", "why_tests_cant": "The exceptional element has negligible probability; residuosity in Fp2 decides the branch.", "anchors": ["pkg/core/curves/native/bls12381/g2.go: Hash, Random, sswu, isogenyMap"]}
{"id": "C165", "title": "The pairing engine computes the optimal ate pairing", "statement": "The doubling and addition steps of the Miller loop give the coefficients of the tangent and of the line through the two points, and the double and the sum; for any list of pairs whose second points lie in the subgroup, Result never panics and is the product of the textbook optimal ate pairings of the pairs (Miller's function of length |x| to the power -3(p^12-1)/r), pairs with a point at infinity contributing nothing; Check is true exactly if that product is one; a new engine and one after Reset give one. The engine makes no subgroup check: with a point of order 13 of the curve of G2 it returns zero, which is not in the target group.", "quantifier": "all lists of pairs of points", "why_tests_cant": "The line formulas, the table of coefficients and the loop must fit for all points; vectors exercise a few.", "anchors": ["pkg/core/curves/native/bls12381/pairings.go: Engine.AddPair, Check, Result, Reset, pairing, millerLoop, computeCoeffs, doublingStep, additionStep, ell"]}
{"id": "C166", "title": "The pairing is bilinear", "statement": "For points of the curve and of the subgroup of G2, the pairing of a sum computed by Add in either argument is the product computed by Gt.Add of the pairings; the pairing of multiples computed by Mul is the power with the product of the scalars; AddPairInvG1 and AddPairInvG2 both contribute the inverse.", "quantifier": "all points, scalars and representations", "why_tests_cant": "An algebraic law over all points; a wrong final exponent or line would still be bilinear on some samples.", "anchors": ["pkg/core/curves/native/bls12381/pairings.go: Engine.AddPair, AddPairInvG1, AddPairInvG2, Result, Check"]}
{"id": "C167", "title": "The pairing is non-degenerate and Check decides pairing equations", "statement": "The pairing of the two generators is the constant returned by Gt.Generator; for points of the subgroups Result is one exactly if one of them is the point at infinity; for multiples a_i G and b_i H Check is true exactly if r divides the sum of the a_i b_i. A point of the curve of G1 killed by 1-x, outside the subgroup, pairs to one with everything.", "quantifier": "all lists of points of the subgroups", "why_tests_cant": "Soundness of every pairing check, for all points.", "anchors": ["pkg/core/curves/native/bls12381/pairings.go: Engine.Check, Result", "pkg/core/curves/native/bls12381/gt.go: Generator"]}
{"id": "C168", "title": "The signature schemes run on the concrete pairing as on the abstract one", "statement": "On the subgroups of order r the pairing engine is a bilinear, non-degenerate map over the scalar field, as the models of the signature schemes, of BBS+ and of the accumulator assume; verifySignature and coreAggregateVerify of both variants, executed on coordinates with hashing to the curve, subgroup checks and the engine, equal the functions of the abstract model for all keys, messages and signatures in the subgroups, nil included (hashing excludes the exceptional messages of C163 and C164); they refuse signatures outside the subgroup, coreAggregateVerify also keys; verifySignature does not check the key, but a component of a G1 key outside the subgroup makes no difference. MultiPairing of alternating points is the sum of the pairings, its IsOne decides whether the sum vanishes, and every other list of points gives nil.", "quantifier": "all keys, messages, signatures, lists of points", "why_tests_cant": "A theorem on an abstract pairing says nothing about the code unless the code's pairing is one; that is a statement about all points.", "anchors": ["pkg/signatures/bls/bls_sig/usual_bls_sig.go: verifySignature, coreAggregateVerify", "pkg/signatures/bls/bls_sig/tiny_bls_sig.go: verifySignatureVt, coreAggregateVerify", "pkg/core/curves/bls12381_curve.go: multiPairing, PointBls12381G1.Pairing, PointBls12381G2.Pairing"]}
{"id": "C169", "title": "secp256k1, P-256 and Pallas are groups of prime order on which the scalars act", "statement": "Each of the three curves has exactly as many points as the modulus of its scalar field; every point is exactly one multiple of the generator; Mul by a scalar is a linear action of the scalar field, so multiplying by a sum or a product of scalars equals, as Equal decides it, the sum of the products and the repeated product.", "quantifier": "all points, representations and scalars", "why_tests_cant": "The number of points is a statement about the whole curve; the protocols rely on it for every scalar.", "anchors": ["pkg/core/curves/native/k256/point.go", "pkg/core/curves/native/p256/point.go", "pkg/core/curves/native/point.go: Mul, Equal", "pkg/core/curves/pallas_curve.go: Ep.Mul, Ep.Generator, Ep.Equal"]}
{"id": "C171", "title": "Pallas: the Jacobian formulas are the group law", "statement": "Add, Double, Neg, Sub, Mul and SumOfProducts on any Jacobian coordinates of points of Pallas give coordinates of the sum, double, opposite, difference, multiple and sum of products, equal, opposite and infinite points included; Equal, IsIdentity and IsOnCurve decide equality, infinity and membership; SumOfProducts of lists of different lengths gives nil.", "quantifier": "all points, representations and scalars", "why_tests_cant": "The exceptional cases have negligible probability under random testing.", "anchors": ["pkg/core/curves/pallas_curve.go: Ep.Add, Double, Neg, Sub, Mul, SumOfProducts, Equal, IsIdentity, IsOnCurve, toAffine"]}
{"id": "C172", "title": "Pallas: which encodings are accepted and which points survive them", "statement": "FromAffineCompressed and FromAffineUncompressed accept exactly the encodings of the right length of numbers the field reads and that satisfy the equation, and return the point so described. A finite point survives the compressed round trip exactly when its abscissa, and the uncompressed one when both coordinates, lie outside the range the field's SetBytes refuses; points that do not survive exist; the identity never does. One point has two accepted compressed encodings. Set(x,0) returns a point with a different ordinate. The scalar two is said to be odd.", "quantifier": "all byte strings, points and integers", "why_tests_cant": "The refused range has density about 2^-191; the identity and the ambiguous encodings are not in the vectors.", "anchors": ["pkg/core/curves/pallas_curve.go: PointPallas.ToAffineCompressed, ToAffineUncompressed, FromAffineCompressed, FromAffineUncompressed, Set, ScalarPallas.IsOdd"]}
{"id": "C173", "title": "Pallas: hash to curve", "statement": "On every field element mapSswu gives the point of the isogenous curve that RFC 9380 prescribes for the curve's constants, and isoMap sends every point of that curve to a finite point of Pallas; Hash is, for all messages, the sum of the images of the two field elements read little-endian from 128 expanded bytes, and is always on the curve.", "quantifier": "all field elements, messages and hash functions with 64 bytes of output", "why_tests_cant": "Exceptional inputs have negligible probability; the curve identity is one of high degree.", "anchors": ["pkg/core/curves/pallas_curve.go: Ep.Hash, mapSswu, isoMap"]}
{"id": "C174", "title": "Pallas behind elliptic.Curve", "statement": "Add, Double, ScalarMult and ScalarBaseMult of PallasCurve (the type that implements elliptic.Curve) compute, for integers the field reads as they are, the coordinates of the sum, the double and the multiple by the big-endian number, with (0,0) for infinity; IsOnCurve decides membership there. For integers or scalars in the ranges that SetBigInt refuses, which occur, IsOnCurve denies a point of the curve and ScalarMult and ScalarBaseMult return (0,0).", "quantifier": "all integers, byte strings and points", "why_tests_cant": "The refused ranges have density about 2^-191.", "anchors": ["pkg/core/curves/pallas_curve.go: PallasCurve.IsOnCurve, Add, Double, ScalarMult, ScalarBaseMult"]}
{"id": "C175", "title": "Mina signatures, addresses and transactions on the concrete Pallas curve", "statement": "Pallas satisfies everything the theorems about Mina signatures, keys and transactions assume of a group; signing and verification on Jacobian coordinates equal the functions of the abstract model for all keys, messages and networks, so every signature that is produced verifies; compressing and decompressing on coordinates are the functions of the abstract model, so every transaction whose keys can be encoded is read back.", "quantifier": "all keys, coordinates, messages, networks, byte strings and hash functions", "why_tests_cant": "A theorem on an abstract group says nothing about the code unless the code's group is one.", "anchors": ["pkg/signatures/schnorr/mina/keys.go: finishSchnorrSign, finishSchnorrVerify", "pkg/signatures/schnorr/mina/txn.go", "pkg/core/curves/pallas_curve.go"]}
{"id": "C176", "title": "Serialization of scalars and points", "statement": "MarshalBinary/UnmarshalBinary and MarshalText/UnmarshalText are inverse on every scalar whose Bytes/SetBytes round-trips (proved for every scalar of secp256k1, P-256 and both BLS12-381 groups; refuted for a Pallas scalar), keep the group, and different scalars have different encodings. A receiver accepts exactly the encodings named after a curve of its own scalar or point type, with two more names for the G1 groups. UnmarshalBinary, UnmarshalJSON and the three decoders of points never panic. UnmarshalText of scalars panics exactly on 66 or more hexadecimal digits after a known name, and accepts fewer than 64 digits, filling in zero bytes at the end. UnmarshalJSON of a BLS scalar into a new object leaves it without group, so that its next Marshal or Point panics. Target-group elements cannot be read back, panic in MarshalText and are cut to 32 bytes by MarshalBinary.", "quantifier": "all inputs, scalars, points and curves", "why_tests_cant": "Tests unmarshal what was just marshalled; the panicking, short and ambiguous inputs are never produced by the library.", "anchors": ["pkg/core/curves/curve.go: GetCurveByName, unmarshalScalar, scalarMarshalBinary, scalarUnmarshalBinary, scalarMarshalText, scalarUnmarshalText, scalarMarshalJson, scalarUnmarshalJson, pointMarshal*, pointUnmarshal*", "pkg/core/curves/{k256,p256,bls12381,bls12377,ed25519,pallas}_curve.go: Marshal*, Unmarshal*"]}
{"id": "C177", "title": "Scalars of secp256k1, P-256 and BLS12-381", "statement": "Every method of the Scalar interface is the operation of the integers modulo the order: Zero, One, Add, Sub, Mul, MulAdd, Square, Double, Cube, Div, Invert (refused exactly for zero), Sqrt (exactly for non-squares), New for every machine integer, Cmp, the predicates, SetBigInt/BigInt, Bytes/SetBytes (exactly the canonical big-endian encodings) and Hash. SetBytesWide reads little-endian, so it does not extend SetBytes. A foreign first factor makes MulAdd panic where the other methods return nil. On BLS12-381 Neg is right except at zero, where it returns a value that IsZero and Cmp tell apart from zero and that can be inverted.", "quantifier": "all field elements, integers and byte strings", "why_tests_cant": "Zero under Neg, byte order of wide inputs and foreign arguments are not in the vectors; the rest is a statement for all elements.", "anchors": ["pkg/core/curves/k256_curve.go: ScalarK256", "pkg/core/curves/p256_curve.go: ScalarP256", "pkg/core/curves/bls12381_curve.go: ScalarBls12381"]}
{"id": "C178", "title": "Scalars of Ed25519", "statement": "The methods of ScalarEd25519 are the operations modulo the group order, with these exceptions, each characterised: New keeps the low 32 bits of the absolute value, so it is right exactly below 2^32; Invert and Div by zero return zero without an error; Cmp is 0 or -2 and never orders; Sqrt of a non-square returns the element itself without an error; SetBytesClamping reduces the clamped number modulo the order, after which it may be odd. SetBytes accepts exactly the canonical little-endian encodings and SetBytesWide extends it; Hash is never nil.", "quantifier": "all field elements, integers and byte strings", "why_tests_cant": "Integers of more than 32 bits, non-squares and zero divisors are not tried.", "anchors": ["pkg/core/curves/ed25519_curve.go: ScalarEd25519"]}
{"id": "C179", "title": "The group of edwards25519", "statement": "The complete twisted Edwards addition law makes the points of the curve a commutative group with exactly 8l points; it is cyclic, the base point has order l, its multiples are exactly the points killed by l, and 8 times any point is one of them. Add, Sub, Neg, Double, Equal and IsIdentity of PointEd25519 are those of the group. Mul by scalars modulo l respects sums of scalars exactly for the points of the prime-order subgroup, and products of scalars exactly for the same points; there it is the action of the scalar field that the protocol models assume.", "quantifier": "all points and scalars", "why_tests_cant": "That the law is associative and complete, the number of points, and what happens to scalar arithmetic on points with a torsion component are not observable on samples from the subgroup.", "anchors": ["pkg/core/curves/ed25519_curve.go: PointEd25519.Identity, Generator, Add, Sub, Neg, Double, Mul, Equal, IsIdentity"]}
{"id": "C180", "title": "Encodings of edwards25519 points", "statement": "Compressed and uncompressed encodings of every point read back, are injective and have 32 and 64 bytes; IsOnCurve is true of every value. FromAffineCompressed accepts exactly 32 bytes whose low 255 bits, reduced modulo the prime, are the ordinate of a point, with a free sign when the abscissa is zero: an accepted string is the one that is written, or has an unreduced ordinate, or is minus zero; the identity has such encodings. FromAffineUncompressed also accepts unreduced coordinates, and 64 zero bytes as the identity. No decoder checks the order. Set returns the identity whenever one coordinate is zero, whatever the other is, also for the coordinates of the point of order two. sqrtRatio decides whether a ratio is a square and returns its even root; its constant is the other root of -1 than in the draft it cites, so the value for non-squares differs from the draft.", "quantifier": "all byte strings, integers and points", "why_tests_cant": "Non-canonical encodings and points of small order are not in the tests.", "anchors": ["pkg/core/curves/ed25519_curve.go: ToAffineCompressed, ToAffineUncompressed, FromAffineCompressed, FromAffineUncompressed, Set, IsOnCurve, sqrtRatio"]}
{"id": "C181", "title": "Hashing to edwards25519", "statement": "elligatorEncode is the Elligator 2 map of curve25519 for every field element; its value is always the abscissa of a point of the Montgomery curve and never -1, so toEdwards and Hash never return nil and always land in the prime-order subgroup: the result is 8P for the point P with ordinate (u-1)/(u+1) and the sign taken from bit 255 of the digest. Opposite field elements hash to the same point, and the field element zero to the identity.", "quantifier": "all messages, hash functions with at least 32 bytes of output, field elements and signs", "why_tests_cant": "The nil returns are on branches that would have to be reached by a digest; that no digest reaches them is a statement on all field elements.", "anchors": ["pkg/core/curves/ed25519_curve.go: PointEd25519.Hash, Random, toEdwards, elligatorEncode, sqrtRatio, cselect"]}
{"id": "C182", "title": "Sums of products and mangled keys on edwards25519", "statement": "SumOfProducts is the sum of the products for points and scalars of the curve, over the scalar field for points of the subgroup; it panics exactly when the lengths differ; a nil or foreign point or non-canonical bytes give nil; a scalar of another curve is read by its bytes in little-endian order without an error. VarTimeDoubleScalarBaseMult is a*A + b*B. MangleScalarBitsAndMulByBasepointToProducePublicKey is the multiple of the base point by the clamped bytes, and differs from s*B unless the clamped number agrees with s modulo the order.", "quantifier": "all lists of points and scalars and all byte strings", "why_tests_cant": "Foreign scalars and different lengths are not tested.", "anchors": ["pkg/core/curves/ed25519_curve.go: SumOfProducts, VarTimeDoubleScalarBaseMult, MangleScalarBitsAndMulByBasepointToProducePublicKey"]}
{"id": "C183", "title": "Ed25519, threshold Ed25519 and NEM signatures on the concrete curve", "statement": "The curve with its encodings meets everything the models of NEM signatures (whole curve) and of threshold Ed25519 (prime-order subgroup) assume. For keys in the subgroup the verifier on the curve and the verifier of the threshold model accept the same signatures. So every signature of Sign with a key from NewKeyFromSeed, every NEM signature with a key from a seed, and every aggregate of the partial signatures of a threshold of signers is accepted by the verifier on the curve.", "quantifier": "all seeds, messages, thresholds, sets of signers, nonces and hash functions with 64 bytes of output", "why_tests_cant": "Theorems about an abstract group say nothing about the code unless the group of the code is one.", "anchors": ["pkg/ted25519/ted25519/ed25519.go: Verify", "pkg/signatures/schnorr/nem/ed25519_keccak.go: Verify", "pkg/core/curves/ed25519_curve.go"]}
{"id": "C184", "title": "What ted25519.Verify accepts on the whole curve", "statement": "Verify accepts exactly the 64-byte strings R||s with s below the order, R the canonical encoding of a point and s*B = R + h*A on the whole curve, where A is any point the public key decodes to and h is the digest reduced modulo the order: the cofactor is not cleared. For one key, message and R at most one s is accepted. For a key a*B + T an honest signature for a is accepted exactly when h kills T: with the point of order two, exactly when h is even. A key that decodes to the identity accepts a signature of every message made without a secret.", "quantifier": "all byte strings and hash functions with 64 bytes of output", "why_tests_cant": "Keys with a torsion component are not produced by key generation.", "anchors": ["pkg/ted25519/ted25519/ed25519.go: Verify"]}
{"id": "C185", "title": "Scalars of the target group of BLS12-381", "statement": "The methods of ScalarBls12381Gt compute, on the elements whose power r is one, in a single multiplicative group: Add and Mul are the product, Sub and Div the quotient, Neg and Invert the inverse, Double and Square the square. They are not those of a field: Zero absorbs under Add, a - a is One, and Mul distributes over Add for the factor One alone. Bytes and SetBytes, BigInt and SetBigInt are inverse on values, but SetBytes accepts every length, padding or cutting, and negative numbers are read without their sign. New does not make small integers: no value of it is One and New(27) is nil. IsOdd reads the most significant byte of a coefficient. Random and Hash give elements of the field and not of the group.", "quantifier": "all elements, byte strings, integers, readers and hash functions", "why_tests_cant": "The tests of the wrapper use fixed values of Random and never compare with another definition of the operations.", "anchors": ["pkg/core/curves/bls12381_curve.go: ScalarBls12381Gt"]}
{"id": "C186", "title": "The older curves of secp256k1 and P-256", "statement": "The elliptic.Curve values K256Curve and NistP256Curve compute in the groups of secp256k1 and P-256 on coordinates in integers, with (0,0) for the point at infinity: Add, Double, ScalarMult and ScalarBaseMult are the group operations and the base points of the parameters are the generators. IsOnCurve reduces, so it accepts negative and unreduced coordinates and (0,0). Scalars that are not reduced give nil and long strings are cut. EcPoint.Neg of the point at infinity is (0,P), which is accepted and is neither IsIdentity nor equal to any point.", "quantifier": "all points, integers and byte strings", "why_tests_cant": "The tests use generators and small multiples, and no coordinate outside the range.", "anchors": ["pkg/core/curves/k256_curve.go: Koblitz256", "pkg/core/curves/p256_curve.go: NistP256"]}
{"id": "C187", "title": "The older curves of BLS12-381", "statement": "Bls12381G1Curve computes sums, doubles and multiples of the base point in the subgroup of order r for all integers. Its ScalarMult reads the scalar in the other byte order, so EcPoint.ScalarMult is the multiple exactly when the bytes of the integer are those of the same number in both orders, gives 256*P = P and panics where the number so read is not below the order. The base point of its parameters is not on the curve. Bls12381G2 returns the encoding of the neutral element from every operation that does not fail, whatever the points and the scalar.", "quantifier": "all points of the subgroup, integers and byte strings", "why_tests_cant": "A test that multiplies by a number of one byte, or by a palindrome, passes.", "anchors": ["pkg/core/curves/bls12381_curve.go: BlsG1 and BlsG2 elliptic.Curve methods", "pkg/core/curves/ec_point.go: ScalarMult"]}
{"id": "C188", "title": "The older curve of Ed25519", "statement": "On points of prime order EcPoint sums and multiples on the Ed25519Curve are right for all integers and equality decides. The neutral element of the curve is never IsIdentity, and nothing of the subgroup is; (0,0) is the neutral element for Add and a point of order four for ScalarMult; EcPoint.Neg never gives the opposite of any point; IsOnCurve looks neither at the abscissa nor at the sign of the ordinate and panics from 2^256 on; scalars keep the low 256 bits when these are below the order; Hash returns the bytes of the point in the wrong order.", "quantifier": "all points of the curve, integers and byte strings", "why_tests_cant": "The encoding of a point in one coordinate makes tests of the other coordinate vacuous.", "anchors": ["pkg/core/curves/ed25519_curve.go: elliptic.Curve methods of Ed25519", "pkg/core/curves/ec_point.go"]}
{"id": "C189", "title": "EcPoint on any curve that computes in a group", "statement": "For every elliptic.Curve that computes in a group, Equals decides equality, Add is the sum (nil points and parameters at another address are refused), ScalarMult and NewScalarBaseMult are the multiple by the integer whatever its sign and size, Neg is the opposite of every point but the neutral one, Bytes have a fixed length, are injective and read back, and what PointFromBytesUncompressed accepts with reduced coordinates is a point of the group. MarshalBinary and MarshalJSON are read back for curves of five names and coordinates of 256 bits; the curve of BLS12-381 loses bytes; UnmarshalBinary and UnmarshalJSON check neither the curve equation nor the sign, and short data panics.", "quantifier": "all curves, points, integers and data", "why_tests_cant": "The unmarshallers are tested on data of the marshallers.", "anchors": ["pkg/core/curves/ec_point.go"]}
{"id": "C190", "title": "EcScalar", "statement": "The arithmetic of K256Scalar, P256Scalar, PallasScalar and Bls12381Scalar is that of the prime field for all integers; a division by zero panics, except on BLS12-381 where it returns the dividend. IsValid of Pallas and Ed25519 accepts every negative integer. Ed25519Scalar is right on reduced integers, drops the sign and the bits above 256, and panics otherwise. Bytes are 32 bytes that read back except on Pallas, whose encoding has no fixed length; Random of secp256k1 and P-256 may be zero, that of Ed25519 never.", "quantifier": "all integers and byte strings", "why_tests_cant": "The tests use reduced integers.", "anchors": ["pkg/core/curves/ec_scalar.go"]}
{"id": "C191", "title": "The older Feldman and Pedersen sharing on the points of the code", "statement": "On every curve that computes in a group, Split and Verify of the older Feldman and Pedersen schemes on EcPoints are those over the group. So on secp256k1 dealt shares verify, and with the commitments of a dealer a share verifies exactly when its value is that of the polynomial; dealt shares verify on Ed25519. On BLS12-381 G1, for a threshold of two, an honest share is accepted exactly when the polynomial is constant or the bytes of its identifier read the same in both orders: never for the identifier 256. NewPedersen accepts every point of the curve but the neutral one.", "quantifier": "all thresholds, secrets, random coefficients and identifiers", "why_tests_cant": "The tests use fewer than 256 participants.", "anchors": ["pkg/sharing/v1/feldman.go", "pkg/sharing/v1/pedersen.go", "pkg/core/curves/ec_point.go"]}
{"id": "C192", "title": "Encodings on secp256k1 and P-256 as the protocols use them", "statement": "The bytes of scalars are 32 bytes in big-endian order and only those below the order are read; ToAffineCompressed depends on the point alone, not on its coordinates, and FromAffineCompressed gives a point of the curve or an error. On secp256k1 the bytes of all points are read back, so they are injective; on P-256 those of the neutral element are those of a point of abscissa zero, and all others are read back. The scalars act freely on the generators.", "quantifier": "all scalars and points", "why_tests_cant": "Only some points can be encoded in a test; the collision on P-256 needs the neutral element.", "anchors": ["pkg/core/curves/k256_curve.go: ToAffineCompressed, FromAffineCompressed", "pkg/core/curves/p256_curve.go: ToAffineCompressed, FromAffineCompressed"]}
{"id": "C193", "title": "Two-party ECDSA on secp256k1 and P-256", "statement": "The concrete curves with their encodings are what the models of DKLs assume. A run of the key generation by honest parties on either curve ends with the same key skA*skB*G, and whenever the first two rounds of a signature are completed the last gives a valid ECDSA signature for the hash of the message, but for the zeros that ECDSA excludes. A nonce point with abscissa above the order makes the signing fail with an error: it is not reduced.", "quantifier": "all secrets, random values, messages, hash functions and both curves", "why_tests_cant": "The tests run a few random executions; abscissas above the order are too rare to meet.", "anchors": ["pkg/tecdsa/dkls/v1/dkg/dkg.go", "pkg/tecdsa/dkls/v1/sign/sign.go"]}
{"id": "C194", "title": "GG20 on the older curves", "statement": "On every elliptic.Curve that computes in a group the bytes of points have the fixed length and are read back, coordinates determine the point, and a point and its negative have the same abscissa and ordinates of different parity. So the assumptions of the theorems on GG20 hold on secp256k1 and P-256.", "quantifier": "all curves and points", "why_tests_cant": "Theorems about an abstract group say nothing about the code unless the group of the code is one.", "anchors": ["pkg/tecdsa/gg20/participant/participant.go", "pkg/core/curves/ec_point.go"]}
{"id": "C195", "title": "FROST on Ed25519 makes Ed25519 signatures", "statement": "Verify of FROST with the challenge of Ed25519 accepts (z,c) exactly when the message is not empty, c is the challenge for R = z*B - c*A and (R,z) is a signature that the Ed25519 verifier on the curve accepts. Honest signers all end with the same (R,z), which is an Ed25519 signature under the joint key; the same for a run of the key generation followed by signing with any t of the participants.", "quantifier": "all thresholds, participants, sets of signers, nonces, messages and hash functions with 64 bytes of output", "why_tests_cant": "The test compares one signature with the standard library.", "anchors": ["pkg/ted25519/frost/round1.go", "pkg/ted25519/frost/round2.go", "pkg/ted25519/frost/round3.go", "pkg/dkg/frost/dkg_round2.go"]}
{"id": "C196", "title": "Schnorr proofs on the curves of the library", "statement": "The encodings of secp256k1 and of the prime-order subgroup of Ed25519 are fixed-length and injective, as binding of a proof to its statement needs; no length makes that of P-256 so. There is a nonzero secret x for which, with every hash function, session and nonce, the proofs for x and for zero on P-256 have the same challenge though the statements differ.", "quantifier": "all points, hash functions, sessions and nonces", "why_tests_cant": "The point of P-256 with the encoding of the neutral element is not met at random.", "anchors": ["pkg/zkp/schnorr/schnorr.go: Prove, Verify", "pkg/core/curves/p256_curve.go: ToAffineCompressed"]}
{"id": "C197", "title": "BBS+ and the accumulator on the pairing of BLS12-381", "statement": "The groups, pairing and encodings of the code are what the theorems on BBS+ and the accumulator assume: the subgroups are cyclic of order r, the pairing with the generator is injective, points have encodings of fixed length that are injective and read back, as do scalars. For all coordinates of the points the MultiPairing checks of Verify, VerifySigPok and MembershipWitness.Verify give one exactly when (x+e)A = B, Abar = xA', (y+alpha)C = V. So signing and verification, proofs of knowledge with extraction, serialization and the membership proofs have their properties on the curve. A serialized witness has one accepted encoding, except with the identity.", "quantifier": "all keys, signatures, messages, proofs, coordinates and hash functions", "why_tests_cant": "Theorems about an abstract pairing say nothing about the code unless the pairing of the code is one.", "anchors": ["pkg/signatures/bbs/public_key.go: Verify", "pkg/signatures/bbs/pok_signature_proof.go: VerifySigPok", "pkg/accumulator/witness.go: Verify", "pkg/core/curves/bls12381_curve.go: MultiPairing"]}
{"id": "C198", "title": "The generated field arithmetic computes the field operations", "statement": "The functions generated by fiat-crypto for the fields of secp256k1, P-256 and Pasta, taken statement by statement on 64-bit words, compute Montgomery multiplication, squaring, addition, subtraction, negation and the conversions modulo the prime, with reduced result. Multiplication needs only a*b < m*2^256, so the calls with unreduced halves in SetBytesWide are correct; the conversions are correct for arbitrary limbs, as SetRaw needs; without the bound the result need not be reduced. Every carry handed to bits.Add64 and bits.Sub64 is 0 or 1. ToBytes, FromBytes, Nonzero, Selectznz and SetOne do what their names say.", "quantifier": "all limbs, all bytes, all six fields", "why_tests_cant": "A wrong carry in generated code shows for a fraction of 2^-64 of the inputs.", "anchors": ["pkg/core/curves/native/k256/fp/secp256k1_fp.go", "pkg/core/curves/native/k256/fq/secp256k1_fq.go", "pkg/core/curves/native/p256/fp/p256_fp.go", "pkg/core/curves/native/p256/fq/p256_fq.go", "pkg/core/curves/native/pasta/fp/pasta_fp.go", "pkg/core/curves/native/pasta/fq/pasta_fq.go"]}
{"id": "C199", "title": "Older DKLs: the Schnorr proofs and the joint key", "statement": "Verify accepts (C,S) for P exactly when C fits 32 bytes and is the hash of P and S*G - C*P; a longer C makes it panic. Every honest proof is accepted; two accepted proofs with one commitment and different challenges give the secret. The commitment to C and S binds P too, or there is a collision. Honest parties end with the same key, the product of the secrets; against any message the key is the secret times the point proved. The neutral element is accepted as the other's public key and gives the neutral element as joint key. A proof with a nil challenge panics; a proof on another curve is refused.", "quantifier": "all proofs, secrets, nonces, commitments and hash functions", "why_tests_cant": "Tests run the honest protocol once.", "anchors": ["pkg/tecdsa/dkls/v0/schnorr.go: Prove, Verify, ProveCommit, DecommitVerify", "pkg/tecdsa/dkls/v0/dkg.go"]}
{"id": "C200", "title": "Older DKLs: the seed OT", "statement": "Honest parties accept each other, the receiver has the chosen one of the two pads of the sender in all 256 slots, and the other pad is the hash of another point. The message of the receiver is the same for other choices and suitable scalars. The sender accepts exactly the responses H(H(rho0)); the receiver accepts exactly openings of its pad that give the challenge. A sender can test choice bits: with a wrong challenge in some slots both checks pass if the choices there are zero, and otherwise the response shows it.", "quantifier": "all secrets, choices, scalars, messages and hash functions", "why_tests_cant": "A leak of choice bits is a statement about all choices.", "anchors": ["pkg/tecdsa/dkls/v0/ot.go: seedOTSender, seedOTReceiver"]}
{"id": "C201", "title": "Older DKLs: the correlated OT extension", "statement": "Honest parties with a new receiver pass the check and get additive shares of choice bit times input in all slots. The check compares bit by bit, since the code takes AND for multiplication in GF(2^256), and so is vacuous: for any rows there are two values with which it passes for every secret of the sender, though the receiver used another choice vector in every row. A message with a short row makes the sender panic. The matrix of a receiver that is used again is ORed with the old one.", "quantifier": "all multiplicities up to 126, seeds, choices, inputs, messages and hash functions", "why_tests_cant": "The test does not cheat; that a check never fails cannot be seen from runs in which it passes.", "anchors": ["pkg/tecdsa/dkls/v0/ot.go: cOTReceiver.init, cOTSender.transfer, cOTReceiver.transfer"]}
{"id": "C202", "title": "Older DKLs: multiplication", "statement": "The choice bits that encode makes have inner product with the gadget vector equal to the input, whatever the random bits; the last 80 of the 160 bits shared by all inputs are always zero, though 160 random bits are meant. Honest parties end with additive shares of each product. An input of more than 32 bytes makes the receiver panic.", "quantifier": "all inputs, randomness, seeds and multiplicities up to 126", "why_tests_cant": "The constant bits of the encoding have no effect on the result.", "anchors": ["pkg/tecdsa/dkls/v0/multiply.go: encode, MultiplyInit, Multiply, MultiplyTransfer", "pkg/tecdsa/dkls/v0/params.go: NewParams"]}
{"id": "C203", "title": "Older DKLs: signing", "statement": "Whatever Alice sends, a signature that Bob returns is a valid ECDSA signature under the joint key on the first 32 bytes of the digest. Honest parties compute s = (m + r*sk)/k up to sign, where m is the integer of the whole digest and r is not reduced, with the recovery bit of the normalized s; so for digests of at most 32 bytes and an abscissa below the order the signature is returned and is valid. A message without the point R' makes Bob panic after he finished the multiplication.", "quantifier": "all keys, nonces, digests, messages, seeds and hash functions", "why_tests_cant": "A valid signature for one key and one digest says nothing about the checks against Alice.", "anchors": ["pkg/tecdsa/dkls/v0/sign.go: signInit, signFinal"]}
{"id": "C204", "title": "Older DKLs: the iterators", "statement": "Next runs the steps in order and a failed step leaves the party as it was, so Bob tries any number of answers with one nonce. Result gives an error until all steps are done, and for AliceSign always. For every sequence of messages and randomness: a signature from BobSign.Result was verified for the message and key it was created with; a result of AliceDkg or BobDkg holds a key made from a point whose proof was checked (for Bob: committed to in the first message), and pads whose openings were checked. Honest key generation, encoding, decoding and signing, end to end, gives a valid signature under the joint key.", "quantifier": "all sequences of messages, randomness, codecs and digests", "why_tests_cant": "The tests drive the iterators with honest messages in order.", "anchors": ["pkg/tecdsa/dkls/v0/proto.go"]}
{"id": "C205", "title": "OT streams", "statement": "Over a connection that delivers one gob value per read, the order in which the two parties act does not matter: all executions of the seed OT, of the extension, and of one after the other end, within a fixed number of actions, in success at both ends with correct outputs. For a single run this remains true however much the gob decoders read ahead. Whatever the peer does, a receiver that returns nil has verified the sender's proof, and in every slot the opening of its own pad and the consistency of the challenge; a sender that returns nil has got the double hash of its first key in every slot. One stream after the other on one connection is safe even if the decoders read ahead (refuted: the last message of the seed OT and the first of the extension go in the same direction, the new decoder never sees what the old one has buffered, and both parties wait for ever). If gob refuses the proof, because its types are not registered, the sender never succeeds.", "quantifier": "all interleavings, reads, peers, messages, randomness, codecs and hash functions", "why_tests_cant": "A test runs one interleaving over net.Pipe, which never lets a decoder read ahead.", "anchors": ["pkg/ot/base/simplest/stream.go: ReceiverStreamOTRun, SenderStreamOTRun", "pkg/ot/extension/kos/stream.go: ReceiverStreamCOtRun, SenderStreamCOtRun"]}
{"id": "C206", "title": "DKLs: results of the older key generation are usable in the newer protocol", "statement": "An honest run of the older key generation on secp256k1 or P-256, the conversion of the saved states of both parties, and the decoding of the converted messages give outputs with the same joint key, the shares reduced modulo the order, and correct seeds, so the newer signing returns valid signatures under the old key whenever its rounds end. The curve is chosen by the name in the parameters only; other names and bytes that do not decode give an error, coordinates that are not on that curve are refused, and a saved state without public key makes the conversion panic.", "quantifier": "all secrets, randomness, hash functions, codecs, messages and nonces", "why_tests_cant": "The tests convert one run per curve and compare bytes.", "anchors": ["pkg/tecdsa/dkls/v1/dkgserializers.go: ConvertAliceDkgOutputToV1, ConvertBobDkgOutputToV1"]}
{"id": "C207", "title": "BLS12-377 scalars are a prime field", "statement": "The modulus is prime, and the methods of the scalars are the arithmetic of the field. Every scalar a method returns without an error can be used (refuted: Invert of zero and Sqrt of a non-square return a scalar without value and a nil error, on which every method panics; Div by zero panics). Bytes are 32, big-endian, and are read back; SetBytes accepts every length and rejects exactly the numbers not below the order, so leading zeros are accepted; SetBytesWide reduces 32 to 128 bytes; SetBigInt accepts exactly the reduced integers. Hash is expand_message_xmd reduced; the expansion never returns its error for long domains, as the length is compared after it was cut to a byte; Random ignores the errors of its reader.", "quantifier": "all scalars, integers, byte strings, hash functions and readers", "why_tests_cant": "Tests compute a few values and never invert zero.", "anchors": ["pkg/core/curves/bls12377_curve.go: ScalarBls12377", "pkg/core/curves/curve.go: expandMsgXmd"]}
{"id": "C208", "title": "BLS12-377 points and pairing", "statement": "Given a library that computes a bilinear map on the subgroups of prime order: the points are a group, SumOfProducts is the linear combination, MultiPairing gives a result exactly for a non-empty sequence of pairs from the two subgroups in order, and it is the product. Pairing is bilinear (refuted: with an identity it returns zero, which is not in the target group and absorbs products, whereas MultiPairing returns one). Comparing two values of Pairing is nevertheless right for a non-degenerate map. Set uses absolute values, panics on coordinates that do not fit, and takes a first coordinate with the highest bit set for a compressed encoding, ignoring the second; FromAffineUncompressed accepts a compressed encoding followed by anything.", "quantifier": "all points, scalars, sequences and byte strings", "why_tests_cant": "Tests use points different from the identity and canonical encodings.", "anchors": ["pkg/core/curves/bls12377_curve.go: PointBls12377G1, PointBls12377G2, multiPairingBls12377"]}
{"id": "C209", "title": "BLS12-377 target group", "statement": "The methods are those of the field of degree twelve; an encoding is 576 bytes, read back, and not unique as coordinates are reduced. Invert and Div by zero give zero, Sqrt nil, without an error. New(n) is the constant n (refuted: it writes its bytes in reverse at the front of the encoding, so no argument gives one). Random draws from the whole field (refuted: its coordinates are below the order of the groups). SetBigInt takes absolute values, panics on numbers that do not fit, and inverts BigInt; SetBytesWide adds its halves.", "quantifier": "all elements, integers and byte strings", "why_tests_cant": "Tests check One and Zero but not New(1).", "anchors": ["pkg/core/curves/bls12377_curve.go: ScalarBls12377Gt"]}
{"id": "C210", "title": "Safe primes and pairs of safe primes", "statement": "Given random primes with the promised length and a correct primality test, GenerateSafePrime returns only safe primes of exactly the requested length, in the upper half, skipping the draws that do not give one, and refuses fewer than three bits; the product of two has exactly twice as many bits. The loop that draws two primes until they differ makes sure that they differ (refuted: it compares pointers, so it ends in its first turn with whatever two allocated numbers were drawn). Given two primes by the caller, it returns both in some order as soon as its goroutines did not race for the shared index, and never ends if the caller passes one pointer twice. An error of either goroutine is returned.", "quantifier": "all sizes, draws, schedules of the goroutines and pointers", "why_tests_cant": "Equal primes have negligible probability and the race depends on the scheduler.", "anchors": ["pkg/core/primes.go: GenerateSafePrime", "pkg/paillier/paillier.go: keyGenerator", "pkg/verenc/camshoup/paillier_group.go: groupGenerator", "pkg/tecdsa/gg20/dealer/dealer.go: genProofParams, NewProofParamsWithPrimes", "pkg/tecdsa/gg20/participant/dkg_round1.go"]}
{"id": "C211", "title": "GG20: messages and keys survive JSON", "statement": "Proofs, witnesses, the broadcasts and responses of the signing rounds, Paillier keys, shares and the data a participant keeps come back from their JSON form as they were, nil fields included. The share that a participant of the key generation sends to another survives (refuted: the field is not exported, so the document is empty and every document decodes to a message without share). No document makes a decoder panic (refuted: null panics in the decoders of the Cdl proof, the second range proof and the Pdl proof, which is the message of the fifth round; a share without point or with a value that is not reduced panics; all others never panic). Decoded Paillier keys have the square of their modulus and are not checked otherwise. A dealer without parameters comes back as a distributed key generation.", "quantifier": "all proofs, messages, keys and documents", "why_tests_cant": "Tests encode a few values; they decode no foreign documents and never send the message of the second round of the key generation.", "anchors": ["pkg/tecdsa/gg20/proof: MarshalJSON, UnmarshalJSON", "pkg/tecdsa/gg20/participant: P2PSend, Round1Bcast, Round3Bcast, Round5Bcast, Round6FullBcast, DkgRound2P2PSend", "pkg/tecdsa/gg20/dealer/dealer.go: Share, ParticipantData, PreparePublicShares", "pkg/paillier/paillier.go: PublicKey, SecretKey", "pkg/core/commit.go: Witness"]}
{"id": "C212", "title": "Random elements of the Ed25519 field", "statement": "RandomElement for the order of Ed25519 fails exactly on a failed or short read. It reaches every scalar (refuted: it clamps a hash to 2^254 + 8k with k < 2^251 and reduces, so exactly 2^251 scalars, fewer than half, can be drawn, and each of them is). Fewer than t shares of a secret split over this field say nothing about it (refuted: t-1 shares exclude more than half of all secrets; with threshold two the secret is never the share, nor the share minus 2^255 times its identifier). The nonce of a ted25519 dealer is one of these scalars, so the discrete logarithm of the published nonce point is known to lie in a set of fewer than half of the scalars.", "quantifier": "all hash functions, all bytes read, all thresholds, identifiers and share values", "why_tests_cant": "The bias is invisible in single runs; tests only check that shares combine.", "anchors": ["pkg/core/curves/field.go: RandomElement", "pkg/core/curves/ec_scalar.go: Ed25519Scalar.RandomWithReader", "pkg/sharing/v1/polynomial.go: newPoly", "pkg/sharing/v1/shamir.go: GetSharesAndPolynomial", "pkg/ted25519/ted25519/noncegen.go: generateSharableNonce"]}
{"id": "C213", "title": "ted25519 helpers", "statement": "The input of the nonce derivation determines the share, the random bytes and, for public keys of one length, the public key and the message (for keys of other lengths, which are not refused, it does not). CommitmentsFromBytes succeeds exactly on lists of 32-byte encodings that decode, inverts CommitmentsToBytes and never panics. NewKeyShare agrees with KeyShareFromBytes and panics exactly for values not below the order; NonceShare.Add is the addition of shares; GenerateKey, Public, Seed and PrivateKey.Sign fit together: signatures verify under the returned public key.", "quantifier": "all shares, keys, messages and byte strings", "why_tests_cant": "Tests use one key and well-formed inputs.", "anchors": ["pkg/ted25519/ted25519/noncegen.go: generateRandomHkdf, NonceShare", "pkg/ted25519/ted25519/keygen.go: CommitmentsToBytes, CommitmentsFromBytes, NewKeyShare, PublicKeyFromBytes", "pkg/ted25519/ted25519/partialsig.go: PartialSignature", "pkg/ted25519/ted25519/ed25519.go: GenerateKey, PrivateKey"]}
{"id": "C214", "title": "Accumulator: serialization of keys, accumulators, witnesses and proofs", "statement": "Accumulators, secret keys, witnesses, deltas, proof parameters and proofs whose parts belong to one curve come back from their bytes; nil parts are errors. A public key that can be marshalled can be read back (refuted: the reader knows only the names of the two BLS12-381 groups, so a key of BLS12-377 is packed and refused). What is read belongs to the accumulator scheme (refuted: a point of any of the eight curves is accepted as an accumulator, and a point of the first group as a public key). Verify of a decoded witness never panics (refuted: its equation is reached exactly for a key in the second group and a witness and accumulator in the first; a key in the first group panics).", "quantifier": "all points, scalars and curves", "why_tests_cant": "Tests only round-trip values made by the package on one curve.", "anchors": ["pkg/accumulator/accumulator.go: MarshalBinary, UnmarshalBinary", "pkg/accumulator/key.go: SecretKey, PublicKey", "pkg/accumulator/witness.go: MembershipWitness, Delta", "pkg/accumulator/proof.go: ProofParams, MembershipProof", "pkg/core/curves/curve.go: GetPairingCurveByName"]}
{"id": "C215", "title": "Pallas behind the Scalar and Point interfaces", "statement": "ScalarPallas is the prime field and PointPallas the group of the curve: Add, Sub, Mul, Div, Invert, Sqrt, Square, Cube, MulAdd, Neg, Equal and SumOfProducts compute what their names say, with nil for foreign arguments. Refuted: IsOdd and IsEven are the parity of the residue (they look at the Montgomery form: two is odd); Cmp is the order of residues; SetBigInt accepts every integer (it gives zero for the residues that SetBytes refuses, for instance -2^63, and panics for nil); no foreign argument panics (MulAdd does); SumOfProducts returns a usable value or nil (with a foreign scalar or lists of different lengths it returns a point that panics when used); the old curve has a name (its initialisation writes the name of the other one).", "quantifier": "all scalars, points, byte strings and integers", "why_tests_cant": "The wrong residues are a 2^-191 fraction of all; tests compare parities of the same implementation.", "anchors": ["pkg/core/curves/pallas_curve.go: ScalarPallas, PointPallas, oldPallasInitAll"]}
{"id": "C216", "title": "Points of secp256k1, P-256 and BLS12-381 behind the Point interface", "statement": "On all four types the methods are the operations of the group of the curve; nil and foreign arguments give nil and are equal to nothing; SumOfProducts is nil exactly for lists of different lengths or with nil or foreign elements, ScalarBaseMult multiplies the generator. ScalarG1BaseMult and ScalarG2BaseMult treat foreign scalars alike (refuted: they panic). IsNegative is true for exactly one of a point and its negative, other than the identity, and is the sign that the compressed encoding carries (refuted for secp256k1 and P-256: it is the parity of the Montgomery form). Points of BLS12-381 decode from exactly one length (refuted: missing bytes are read as zeros and further bytes are ignored, so one byte 0xC0 is an encoding of the identity). Set of X and Y gives the point back. ToEllipticCurve converts exactly secp256k1 and P-256.", "quantifier": "all points, scalars, lists and byte strings", "why_tests_cant": "Tests use values of one curve and encodings of the right length, and the sign agrees on half of the points.", "anchors": ["pkg/core/curves/k256_curve.go: PointK256", "pkg/core/curves/p256_curve.go: PointP256", "pkg/core/curves/bls12381_curve.go: PointBls12381G1, PointBls12381G2", "pkg/core/curves/curve.go: Curve, PairingCurve"]}
{"id": "C217", "title": "BLS keys, signatures and proofs of possession, from coordinates to bytes", "statement": "Of either group, UnmarshalBinary accepts exactly the encodings of the points of order r: of each one byte string, and none of the identity or of a point outside the subgroup, which MarshalBinary does write. Every non-zero secret has a public key and different secrets have different keys. A key and a signature that are produced, written and read again verify, with keys in either group, if the hash of the message is a point other than the identity; so does a proof of possession. A message has one signature per key as bytes: no other byte string is accepted and verifies. GetPublicKey, createSignature, the aggregations, partialSign and combineSigs on coordinates are the functions on abstract groups to which C73 to C76 apply, and a point outside the subgroup makes aggregation fail.", "quantifier": "all secrets, messages, byte strings, lists of keys, signatures and partial signatures", "why_tests_cant": "That no second encoding of a signature verifies cannot be sampled.", "anchors": ["pkg/signatures/bls/bls_sig/usual_bls_sig.go", "pkg/signatures/bls/bls_sig/tiny_bls_sig.go"]}
{"id": "C218", "title": "BBS+ keys on BLS12-381, from bytes to verification", "statement": "A secret key has one encoding, every 32-byte residue below the order is accepted (zero included) and nothing else. A secret key that is written and read back has the same public key (refuted: the group of the public key is that of the curve given to Init; with the curves called BLS12831 and BLS12381G1 it is the first group). Public keys survive being written and read; further bytes are ignored. Verify on coordinates is the verification of C67 with the subgroups and the pairing of BLS12-381; Sign succeeds exactly for one to length messages, a secret other than zero and a nonce other than its negative, and what it returns verifies unless the commitment is the identity. Verify returns a decision for every public key (refuted: with a public key in the first group it panics, and never accepts).", "quantifier": "all seeds, curves, byte strings, keys, generators and messages", "why_tests_cant": "Tests restore keys with the curve of the second group only.", "anchors": ["pkg/signatures/bbs/secret_key.go: SecretKey, computeB", "pkg/signatures/bbs/public_key.go: PublicKey", "pkg/core/curves/curve.go: GetPairingCurveByName, PairingCurve"]}
{"id": "C219", "title": "DKLs through messages", "statement": "Handing the messages of one party to the other through Next runs the rounds of key generation, signing and refresh: the exchange fails exactly when a round fails and with its failure; otherwise both parties are complete, with the states that the rounds give. NewAliceSign and NewAliceRefresh accept a result of key generation exactly if it has version 200 and decodes, NewBobSign and NewBobRefresh only in a process in which the types are registered. In signing no other version gets past the first call. The refresh works with any two versions from 200 on. Result of a complete refresh works for the versions in which the refresh works (refuted: it is encoded as a result of key generation, which exists for version 200 only); its message starts new parties. Bob's result is the signature in his state.", "quantifier": "all rounds, codecs, versions and results of key generation", "why_tests_cant": "Tests run the protocols with one version and correct rounds in one process.", "anchors": ["pkg/tecdsa/dkls/v1/boilerplate.go: NewAliceSign, NewBobSign, NewAliceRefresh, NewBobRefresh, Result", "pkg/tecdsa/dkls/v1/protocol.go: Next"]}
{"id": "C220", "title": "JSON of field elements", "statement": "Every field element comes back from its JSON document. UnmarshalJSON accepts exactly the documents whose two strings are decimal integers, with a sign or without, and never panics. What it accepts is an element of a prime field (refuted: any integer modulus and any integer value are accepted; the ring operations reduce the value, but IsEqual takes it for different from the element it stands for, Clone panics for a large value and drops the sign of a negative one; with modulus zero the operations panic). An element has one document (refuted: signs and zeros). A failed call leaves the receiver as it was (refuted: the modulus is replaced and the value becomes nil, so that every use panics).", "quantifier": "all elements, moduli and documents", "why_tests_cant": "Tests round-trip elements of one field.", "anchors": ["pkg/core/curves/field.go: MarshalJSON, UnmarshalJSON, IsEqual, Clone"]}
{"id": "C221", "title": "Generators of bulletproofs", "statement": "The generators for maximal length n are the first 2n points of the domain's stream, no point twice unless the hash collides; length zero is refused, a negative one panics. A prover and a verifier made with the same maximal length and range domain agree on every value in range, one or several, whatever their inner product domains. A verifier for vectors of length at most its maximum accepts proofs of any prover for the same domain (refuted: a proof of length one made with another maximal length is accepted exactly if the second vector is zero or two points of the domain collide; a range proof within both lengths is refused).", "quantifier": "all domains, lengths, vectors, values and randomness", "why_tests_cant": "Tests use the same maximal length on both sides.", "anchors": ["pkg/bulletproof/generators.go: getGeneratorPoints", "pkg/bulletproof/ipp_prover.go: NewInnerProductProver", "pkg/bulletproof/ipp_verifier.go: NewInnerProductVerifier", "pkg/bulletproof/range_prover.go: NewRangeProver", "pkg/bulletproof/range_verifier.go: NewRangeVerifier"]}
{"id": "C222", "title": "VerifyEcdsa decides the ECDSA equation", "statement": "For every public key on the curve, every digest and all integers R and S, VerifyEcdsa ends without a panic and returns true exactly if R and S lie between 1 and the order and satisfy the ECDSA equation for the leftmost bits of the digest, as many as the order has. So textbook signatures are accepted, and V and further digest bits play no part. It returns false for parameters that are not sane, as its documentation says (refuted: the identity is accepted as a public key, under which anybody signs every digest not zero modulo the order; on secp256k1 a key off the curve panics once R and S are in range, as do nil keys, signatures and integers; unreduced coordinates verify what the key verifies). A digest has one signature per nonce (refuted: (R, N - S) is accepted exactly if (R, S) is). On secp256k1 and P-256 it is the check that both versions of DKLs signing assume.", "quantifier": "all curves that compute in a group of prime order; all keys, digests and integers", "why_tests_cant": "That the verdict is the equation for every key and digest, and that S and N - S always agree, cannot be sampled; tests never pass the identity or points off the curve.", "anchors": ["pkg/core/curves/ecdsa.go: VerifyEcdsa", "pkg/tecdsa/dkls/v1/sign/sign.go: Round4Final", "pkg/core/curves/k256_curve.go: ScalarMult, Add"]}
{"id": "C223", "title": "Range proofs on the curves of the library", "statement": "On every curve of the library, a range prover and a range verifier made with the same maximal length and domain agree: for every value of at most 2^k bits, every blinding factor and randomness, the prover returns a proof and the verifier accepts it. It holds on Ed25519 up to 256 bits (refuted on secp256k1, P-256 and both groups of BLS12-381: for every value in range up to 128 bits the prover returns a proof without an error and the verifier refuses it, unless the value is zero).", "quantifier": "all values, blinding factors, generators, domains and randomness; range lengths of powers of two up to 128 or 256", "why_tests_cant": "Tests of the package run on Ed25519 only; no test covers all values.", "anchors": ["pkg/bulletproof/range_prover.go: Prove, getaL", "pkg/bulletproof/range_verifier.go: Verify", "pkg/core/curves/k256_curve.go: Bytes", "pkg/core/curves/p256_curve.go: Bytes", "pkg/core/curves/bls12381_curve.go: Bytes", "pkg/core/curves/ed25519_curve.go: Bytes"]}
{"id": "C224", "title": "The BLS schemes as objects", "statement": "For every scheme, standard or with own tags, in either group: Sign of a message with a key accepts under Verify, and another scheme accepts the signature for some message exactly if the hashes of what the two sign under their tags agree; so between standard schemes of different kinds, and between proofs of possession and signatures, an accepted signature is a hash collision under two tags. The standard tags are distinct. ThresholdKeygenWithSeed succeeds exactly if KeygenWithSeed does and 2 <= threshold <= total <= 255, with the same public key, and any threshold of its shares signs as that key does. Schemes with distinct own tags are separate (refuted: a tag longer than 255 bytes is interchangeable with its digest; the augmented scheme and the basic scheme with one tag accept each other's signatures with the key moved into the message, and a proof of possession is such a signature). Both forms refuse to sign the empty message in the augmented scheme (refuted: the one with signatures in G1 signs it).", "quantifier": "all schemes, tags, keys, seeds, messages, thresholds and sets of shares", "why_tests_cant": "Tests verify with the scheme that signed; no test covers all pairs of tags and messages or all sets of shares.", "anchors": ["pkg/signatures/bls/bls_sig/usual_bls.go: SigBasic, SigAug, SigPop, NewSigPopWithDst, thresholdGenerateKeysWithSeed", "pkg/signatures/bls/bls_sig/tiny_bls.go: SigBasicVt, SigAugVt, SigPopVt", "pkg/core/curves/native/hash2field.go: getDomainXmd"]}
{"id": "C225", "title": "Verifiable sharing on the curves of the library", "statement": "On secp256k1, P-256, Ed25519 and both groups of BLS12-381, for every generator other than the identity: a share passes the check of Feldman exactly if it is the non-zero value of the dealer's polynomial at its identifier, encoded as the curve does; as many distinct such shares as the threshold combine to the secret, and in the exponent to its multiple of the generator; two openings of one Pedersen share reveal the logarithm of the second generator; and one share fewer than the threshold together with the Pedersen commitments fits every secret.", "quantifier": "all generators, thresholds, secrets, randomness, shares and sets of shares", "why_tests_cant": "Tests take one curve and a few values; hiding and binding speak about all secrets and all openings.", "anchors": ["pkg/sharing/feldman.go: Split, Verify", "pkg/sharing/pedersen.go: Split, Verify", "pkg/sharing/shamir.go: Combine, CombinePoints", "pkg/core/curves/k256_curve.go: SetBytes", "pkg/core/curves/ed25519_curve.go: SetBytes", "pkg/core/curves/bls12381_curve.go: SetBytes"]}
{"id": "C226", "title": "Shamir sharing with the scalars of Pallas", "statement": "With the scalars of Pallas, Split returns the encoded values of the polynomial, and any distinct shares of the dealer, as many as the threshold, combine to the secret unless a value is zero (refuted: a value within the gap of about 2^60 residues that SetBytes refuses is written by the dealer, is not zero, and is refused by Validate and Combine; for every threshold, limit and secret some polynomial gives the first party such a share. Outside the gap the claim holds). A share has one encoding (refuted: numbers above the order are accepted).", "quantifier": "all secrets, polynomials, thresholds and sets of shares", "why_tests_cant": "The gap is hit with probability about 2^-194, so no sampling finds it.", "anchors": ["pkg/sharing/shamir.go: Split, Combine, Validate", "pkg/sharing/polynomial.go: Evaluate", "pkg/core/curves/pallas_curve.go: SetBytes, New", "pkg/core/curves/native/pasta/fq/fq.go: SetBytes, Cmp"]}
{"id": "C227", "title": "Commitments bind if the hash has no collisions", "statement": "Two different witnesses that Open accepts for one commitment contain two different inputs of SHA-256 with one digest, computed on the way; more generally, ComputeHMAC gives one code to two pairs of message and key with keys of one length that fits in a block only through a collision of the hash itself. It fails exactly without a hash function. Different keys give different codes (refuted for keys of different lengths: trailing zeros within a block do not count, and a key longer than a block is interchangeable with its digest).", "quantifier": "all hashes, block sizes, messages, keys and witnesses", "why_tests_cant": "That every double opening contains a collision is a statement about all pairs of witnesses.", "anchors": ["pkg/core/commit.go: Commit, Open, ComputeHMAC"]}
{"id": "C228", "title": "The generator of Pedersen sharing from hashed bytes", "statement": "For every byte string, K256GeneratorFromHashedBytes returns the affine coordinates of hash_to_curve of RFC 9380 for secp256k1 with SHA-256: the sum of the images of the two field elements read from the expanded bytes, reduced and on the curve. It returns a point or an error (refuted: if the two images cancel it returns (0, 0), which is not on the curve, and no error; it does so in no other case).", "quantifier": "all byte strings; all hashes", "why_tests_cant": "Tests check one string.", "anchors": ["pkg/sharing/v1/pedersen.go: K256GeneratorFromHashedBytes", "pkg/core/curves/k256_curve.go: Hash, X, Y", "pkg/core/curves/native/point.go: GetX, GetY"]}
{"id": "C229", "title": "The connection of two parties in one process", "statement": "With the two ends that NewPipeWrappers returns, in every execution each party reads the bytes that the other one wrote, in order and without loss, and has read all of them unless a Write of the other is in progress; once no Write is in progress, both counters of exchanged bytes are the number of bytes written by both parties. While one party writes, a Read of the other returns as many of the bytes to come as fit in its buffer. Exchanges do not block (refuted: if both parties write, be it nothing at all, no call ever returns; in no other state are both stuck).", "quantifier": "all executions: all orders of calls, bytes and buffer lengths", "why_tests_cant": "Tests run a few schedules of one protocol, in which the parties take turns.", "anchors": ["pkg/tecdsa/dkls/v0/conn.go: NewPipeWrappers, Write, Read", "pkg/ot/base/simplest/util.go: NewPipeWrappers, Write, Read"]}
{"id": "C230", "title": "The blinding generator of two-party key generation", "statement": "NewParticipant of the two-party key generation succeeds exactly if the identifiers are 1 and 2 and a generator is given or can be drawn, and keeps a generator that is given. A generator it draws is secure (refuted: it is a multiple of the base point whose factor the participant has seen, so its broadcast of the first round binds it to nothing: for every other secret and polynomial it knows blinding values with the same broadcast). Both participants may leave the choice to NewParticipant (refuted: then a party accepts the honest message of the other exactly if both generators have the same multiple with the blinding share).", "quantifier": "all identifiers, generators, secrets, polynomials and randomness", "why_tests_cant": "Tests give both participants one generator; binding speaks about all pairs of openings.", "anchors": ["pkg/dkg/gennaro2p/genarro2p.go: NewParticipant, newBlind, Round1, Round2"]}
