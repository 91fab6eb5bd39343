import Verif.Bls.SchemeModel
import Verif.Bls.ThresholdProps
import Verif.Bls381.SigModel

/-!
# C224: the BLS schemes as objects

What a scheme signs is a text under a tag: the message, or the encoded key followed by the message.
-/

set_option linter.unusedSectionVars false

namespace Verif.Bls

variable {F : Type} [Field F] [DecidableEq F]
variable {G H GT : Type} [AddCommGroup G] [Module F G] [DecidableEq G]
  [AddCommGroup H] [Module F H] [DecidableEq H] [AddCommGroup GT] [Module F GT] [DecidableEq GT]

/-- the tag under which a scheme signs -/
def Scheme.tag : Scheme → Bytes
  | .basic d => d
  | .aug d => d
  | .pop d _ => d

/-- the text a scheme signs -/
def Scheme.text (encP : G → Bytes) (pk : G) (m : Bytes) : Scheme → Bytes
  | .aug _ => encP pk ++ m
  | _ => m

/-- C224: the eight standard tags are distinct and equally long, so short that none is hashed; the standard scheme with proofs of possession is what the
constructor with its tags makes, which refuses equal tags only -/
theorem C224_tags :
    [basicDst, augDst, popSigDst, popProofDst, basicVtDst, augVtDst, popSigVtDst, popProofVtDst].Nodup ∧
    (∀ d ∈ [basicDst, augDst, popSigDst, popProofDst, basicVtDst, augVtDst, popSigVtDst, popProofVtDst], d.length = 43) ∧
    newPopWithDst popSigDst popProofDst = .ok newPop ∧ newPopWithDst popSigVtDst popProofVtDst = .ok newPopVt ∧
    ∀ a b s, newPopWithDst a b = .ok s ↔ a ≠ b ∧ s = .pop a b := by
  refine ⟨by decide +kernel, by decide +kernel, by decide +kernel, by decide +kernel, fun a b s => ?_⟩
  unfold newPopWithDst
  rw [Go.guard_bind_eq_ok]
  exact and_congr_right fun _ => ⟨fun h => (Except.ok.inj h).symm, fun h => congrArg _ h.symm⟩

/-- C224: `Sign` of each scheme is the multiple of the hash of its text under its tag; only the augmented scheme refuses the empty message -/
theorem C224_sign {g : G} (hg : ∀ r : F, r • g = 0 → r = 0) (encP : G → Bytes) (hash : Bytes → Bytes → H) (s : Scheme) (sk : F)
    (hsk : sk ≠ 0) (m : Bytes) (hm : m ≠ []) :
    s.sign g encP hash sk (some m) = .ok (sk • hash (s.text encP (sk • g) m) s.tag) := by
  have hc : ∀ t d, createSignature hash sk (some t) d = .ok (sk • hash t d) := fun t d => by
    unfold createSignature
    rw [Go.ofOption_eq_ok.2 rfl, Go.ok_bind, Go.guard_true hsk, Go.ok_bind]
  cases s with
  | basic d => exact hc m d
  | pop d p => exact hc m d
  | aug d =>
    show augSign g encP hash sk (some m) d = _
    unfold augSign getPublicKey
    simp only [Option.getD_some]
    rw [Go.guard_true hm, Go.ok_bind, Go.guard_true (show sk • g ≠ 0 from fun h => hsk (hg _ h)), Go.ok_bind, Go.ok_bind]
    exact hc _ d

/-- C224: `Verify` of each scheme is the check of its text under its tag -/
theorem verify_text (g : G) (encP : G → Bytes) (e : G →ₗ[F] H →ₗ[F] GT) (hash : Bytes → Bytes → H) (s : Scheme) (pk : G) (m : Bytes)
    (sig : Option H) :
    s.verify g encP e hash pk (some m) sig = verifySignature g e hash pk (some (s.text encP pk m)) sig s.tag := by
  cases s <;> rfl

/-- C224: a signature made with one scheme is accepted by a second scheme, for any message, exactly if the hashes of what the two sign agree; in
particular every scheme accepts its own -/
theorem C224_cross {g : G} {e : G →ₗ[F] H →ₗ[F] GT} (he : ∀ S, e g S = 0 → S = 0) (hg : ∀ r : F, r • g = 0 → r = 0) (encP : G → Bytes)
    (hash : Bytes → Bytes → H) (s s' : Scheme) (sk : F) (hsk : sk ≠ 0) (m m' : Bytes) (hm : m ≠ [])
    (hh : hash (s.text encP (sk • g) m) s.tag ≠ 0) :
    ∃ σ, s.sign g encP hash sk (some m) = .ok σ ∧
      s'.verify g encP e hash (sk • g) (some m') (some σ) =
        .ok (decide (hash (s.text encP (sk • g) m) s.tag = hash (s'.text encP (sk • g) m') s'.tag)) := by
  refine ⟨_, C224_sign hg encP hash s sk hsk m hm, ?_⟩
  rw [verify_text, C73_decision he]
  refine ⟨_, _, rfl, rfl, fun h => hsk (hg _ h), smul_ne_zero hsk hh, ?_⟩
  rw [decide_eq_true_iff]
  exact ⟨fun h => by rw [h], fun h => smul_right_injective H hsk h⟩

/-- C224: between two standard schemes of different kinds an accepted signature is a collision of the hash under two tags; likewise between
a proof of possession and a signature of any standard scheme -/
theorem C224_separate {g : G} {e : G →ₗ[F] H →ₗ[F] GT} (he : ∀ S, e g S = 0 → S = 0) (hg : ∀ r : F, r • g = 0 → r = 0) (encP : G → Bytes)
    (hash : Bytes → Bytes → H) (hcol : ∀ a b d d', d ∈ [basicDst, augDst, popSigDst, popProofDst] →
      d' ∈ [basicDst, augDst, popSigDst, popProofDst] → d ≠ d' → hash a d ≠ hash b d')
    (sk : F) (hsk : sk ≠ 0) (m m' : Bytes) (hm : m ≠ []) (σ : H) :
    (∀ s s', s ∈ [newBasic, newAug, newPop] → s' ∈ [newBasic, newAug, newPop] → s ≠ s' → s.sign g encP hash sk (some m) = .ok σ →
      s'.verify g encP e hash (sk • g) (some m') (some σ) ≠ .ok true) ∧
    (∀ s ∈ [newBasic, newAug, newPop], s.sign g encP hash sk (some m) = .ok σ →
      popVerify g encP e hash popProofDst (sk • g) σ ≠ .ok true) ∧
    ∀ s ∈ [newBasic, newAug, newPop], popProve g encP hash popProofDst sk = .ok σ →
      s.verify g encP e hash (sk • g) (some m') (some σ) ≠ .ok true := by
  have key : ∀ t d t' d', d ∈ [basicDst, augDst, popSigDst, popProofDst] → d' ∈ [basicDst, augDst, popSigDst, popProofDst] → d ≠ d' →
      σ = sk • hash t d → verifySignature g e hash (sk • g) (some t') (some σ) d' ≠ .ok true := by
    intro t d t' d' h1 h2 hne hσ hv
    rw [C73_decision he] at hv
    obtain ⟨_, _, a, b, -, -, c⟩ := hv
    cases a; cases b
    exact hcol t t' d d' h1 h2 hne (smul_right_injective H hsk (hσ.symm.trans (c.1 rfl)))
  have hmem : ∀ s ∈ [newBasic, newAug, newPop], s.tag ∈ [basicDst, augDst, popSigDst, popProofDst] ∧ s.tag ≠ popProofDst := by
    decide +kernel
  have hdist : ∀ s ∈ [newBasic, newAug, newPop], ∀ s' ∈ [newBasic, newAug, newPop], s ≠ s' → s.tag ≠ s'.tag := by decide +kernel
  have hp : popProofDst ∈ [basicDst, augDst, popSigDst, popProofDst] := by simp
  refine ⟨fun s s' h1 h2 hne hs => ?_, fun s h1 hs => ?_, fun s h1 hs => ?_⟩
  · rw [C224_sign hg encP hash s sk hsk m hm] at hs
    rw [verify_text]
    exact key _ _ _ _ (hmem s h1).1 (hmem s' h2).1 (hdist s h1 s' h2 hne) (Except.ok.inj hs).symm
  · rw [C224_sign hg encP hash s sk hsk m hm] at hs
    exact key _ _ _ _ (hmem s h1).1 hp (hmem s h1).2 (Except.ok.inj hs).symm
  · rw [verify_text]
    refine key (encP (sk • g)) popProofDst _ _ hp (hmem s h1).1 (hmem s h1).2.symm ?_
    unfold popProve createPop getPublicKey createSignature at hs
    simp only at hs
    rw [Go.guard_true (show sk • g ≠ 0 from fun h => hsk (hg _ h)), Go.ok_bind, Go.ok_bind, Go.ofOption_eq_ok.2 rfl, Go.ok_bind,
      Go.guard_true hsk, Go.ok_bind] at hs
    exact (Except.ok.inj hs).symm

/-- C224: own tags separate nothing by themselves: the augmented scheme signs what the basic scheme with its tag signs for the key followed by
the message, and a proof of possession is the signature of the basic scheme with its tag on the key -/
theorem C224_custom (g : G) (encP : G → Bytes) (e : G →ₗ[F] H →ₗ[F] GT) (hash : Bytes → Bytes → H) (pk : G) (m d d' : Bytes) (σ : H) :
    (newAugWithDst d).verify g encP e hash pk (some m) (some σ) =
      (newBasicWithDst d).verify g encP e hash pk (some (encP pk ++ m)) (some σ) ∧
    popVerify g encP e hash d pk σ = (newBasicWithDst d).verify g encP e hash pk (some (encP pk)) (some σ) ∧
    popVerify g encP e hash d pk σ = (Scheme.pop d d').verify g encP e hash pk (some (encP pk)) (some σ) ∧
    popVerify g encP e hash d pk σ = (newAugWithDst d).verify g encP e hash pk none (some σ) := by
  refine ⟨rfl, rfl, rfl, ?_⟩
  show verifySignature g e hash pk (some (encP pk)) (some σ) d = verifySignature g e hash pk (some (encP pk ++ [])) (some σ) d
  rw [List.append_nil]

/-- C224: shares come from a seed exactly if the seed gives a key pair and 2 ≤ threshold ≤ total ≤ 255; the public key is that of the pair,
whatever the threshold and the coefficients; random generation is generation from the random bytes -/
theorem C224_keygen (g : G) (kdf : Bytes → F) (cd : ScalarCodec F) (ikm : Bytes) (t n : ℕ) (rnd : ℕ → F) :
    (∀ pk shares, thresholdKeygenWithSeed g kdf cd ikm t n rnd = .ok (pk, shares) ↔ ∃ sk, generateKeys g kdf ikm = .ok (pk, sk) ∧
      2 ≤ t ∧ t ≤ n ∧ n ≤ 255 ∧ shares = (List.range n).map fun i : ℕ => (⟨UInt8.ofNat (i + 1),
        cd.enc (evalL (sk :: (List.range (t - 1)).map rnd) ((i + 1 : ℕ) : F))⟩ : KeyShare)) ∧
    thresholdKeygen g kdf cd (some ikm) t n rnd = thresholdKeygenWithSeed g kdf cd ikm t n rnd ∧
    keygen g kdf (some ikm) = generateKeys g kdf ikm ∧ keygen g kdf none = Go.err ∧ thresholdKeygen g kdf cd none t n rnd = Go.err := by
  refine ⟨fun pk shares => ?_, rfl, rfl, rfl, rfl⟩
  unfold thresholdKeygenWithSeed
  rw [Go.bind_eq_ok]
  constructor
  · rintro ⟨⟨pk', sk⟩, h1, h⟩
    obtain ⟨sh, h2, h⟩ := Go.bind_eq_ok.1 h
    cases h
    obtain ⟨s, hs, -, a, b, c, d⟩ := (C75_thresholdize cd _ t n rnd _).1 h2
    cases hs
    exact ⟨sk, h1, a, b, c, d⟩
  · rintro ⟨sk, h1, a, b, c, d⟩
    obtain ⟨-, -, h2, h0⟩ := (C76_generate g kdf ikm pk sk).1 h1
    have hsk : sk ≠ 0 := fun h => h0 (by rw [h2, h, zero_smul])
    refine ⟨(pk, sk), h1, ?_⟩
    show (thresholdize cd (some sk) t n rnd >>= fun shares => .ok (pk, shares)) = _
    rw [(C75_thresholdize cd (some sk) t n rnd shares).2 ⟨sk, rfl, hsk, a, b, c, d⟩, Go.ok_bind]

/-- C224: in each scheme any threshold of the shares made from a seed signs as the key made from the seed does, and the result is accepted -/
theorem C224_threshold (hF : ByteInj F) {g : G} {e : G →ₗ[F] H →ₗ[F] GT} (he : ∀ S, e g S = 0 → S = 0) (hg : ∀ r : F, r • g = 0 → r = 0)
    (encP : G → Bytes) (kdf : Bytes → F) (cd : ScalarCodec F) (hash : Bytes → Bytes → H) (s : Scheme) (ikm : Bytes) (t n : ℕ) (rnd : ℕ → F)
    (pk : G) (shares : List KeyShare) (h : thresholdKeygenWithSeed g kdf cd ikm t n rnd = .ok (pk, shares)) (L : List KeyShare)
    (hsub : ∀ x ∈ L, x ∈ shares) (hnd : L.Nodup) (ht : t ≤ L.length) (m : Bytes) (hm : m ≠ []) :
    ∃ sk ps σ, generateKeys g kdf ikm = .ok (pk, sk) ∧ L.mapM (fun x => s.partialSign encP cd hash x pk (some m)) = .ok ps ∧
      combineSigs F (ps.map some) = .ok σ ∧ s.sign g encP hash sk (some m) = .ok σ ∧
      (hash (s.text encP pk m) s.tag ≠ 0 → s.verify g encP e hash pk (some m) (some σ) = .ok true) := by
  unfold thresholdKeygenWithSeed at h
  obtain ⟨⟨pk', sk⟩, h1, h⟩ := Go.bind_eq_ok.1 h
  obtain ⟨sh, h2, h⟩ := Go.bind_eq_ok.1 h
  cases h
  obtain ⟨-, -, rfl, h0⟩ := (C76_generate g kdf ikm pk sk).1 h1
  have hsk : sk ≠ 0 := fun h => h0 (by rw [h, zero_smul])
  have hv : ∀ σ, s.sign g encP hash sk (some m) = .ok σ → (hash (s.text encP (sk • g) m) s.tag ≠ 0 →
      s.verify g encP e hash (sk • g) (some m) (some σ) = .ok true) := fun σ hσ hh => by
    obtain ⟨σ', a, b⟩ := C224_cross he hg encP hash s s sk hsk m m hm hh
    rw [hσ] at a
    cases a
    rw [b, decide_eq_true rfl]
  cases s with
  | basic d =>
    obtain ⟨ps, σ, a, b, c, -⟩ := C75_any_threshold hF he hg cd hash sk t n rnd shares h2 L hsub hnd ht m d hm
    exact ⟨sk, ps, σ, h1, a, b, c, hv σ c⟩
  | pop d p =>
    obtain ⟨ps, σ, a, b, c, -⟩ := C75_any_threshold hF he hg cd hash sk t n rnd shares h2 L hsub hnd ht m d hm
    exact ⟨sk, ps, σ, h1, a, b, c, hv σ c⟩
  | aug d =>
    obtain ⟨ps, σ, a, b, c⟩ := C75_aug_threshold hF hg encP cd hash sk t n rnd shares h2 L hsub hnd ht m d hm
    exact ⟨sk, ps, σ, h1, a, b, c, hv σ c⟩

/-- C224: the schemes with signatures in G1 are the same with the pairing turned round, but for the augmented scheme, which signs the empty message -/
theorem C224_tiny (g : G) (encP : G → Bytes) (e : H →ₗ[F] G →ₗ[F] GT) (hash : Bytes → Bytes → H) (s : Scheme) (pk : G) (sk : F)
    (msg : Option Bytes) (sig : Option H) :
    s.verifyVt g encP e hash pk msg sig = s.verify g encP e.flip hash pk msg sig ∧
    (msg.getD [] ≠ [] → s.signVt g encP hash sk msg = s.sign g encP hash sk msg) ∧
    ((Scheme.aug []).sign g encP hash sk none = Go.err ∧
      (sk • g ≠ 0 → (Scheme.aug []).signVt g encP hash sk none = .ok (sk • hash (encP (sk • g)) []))) := by
  refine ⟨?_, fun hm => ?_, rfl, fun h0 => ?_⟩
  · cases s <;> exact C73_tiny _ _ _ _ _ _ _
  · cases s with
    | basic d => rfl
    | pop d p => rfl
    | aug d =>
      show augSignVt g encP hash sk msg d = augSign g encP hash sk msg d
      unfold augSignVt augSign
      rw [Go.guard_true hm, Go.ok_bind]
  · show augSignVt g encP hash sk none [] = _
    unfold augSignVt getPublicKey createSignature
    simp only [Option.getD_none, List.append_nil]
    rw [Go.guard_true h0, Go.ok_bind, Go.ok_bind, Go.ofOption_eq_ok.2 rfl, Go.ok_bind,
      Go.guard_true (show sk ≠ 0 from fun h => h0 (by rw [h, zero_smul])), Go.ok_bind]

/-- C224: a tag longer than 255 bytes is interchangeable with its digest as a tag: what verifies under one verifies under the other -/
theorem C224_long_tag (H : Bytes → Bytes) (hH : ∀ x, (H x).length = 32) (d : Bytes) (hd : 255 < d.length) :
    H ("H2C-OVERSIZE-DST-".toUTF8.toList ++ d) ≠ d ∧
    (∀ pk msg sig, Bls381.usualVerify (.xmd H 32 64) pk msg sig d =
      Bls381.usualVerify (.xmd H 32 64) pk msg sig (H ("H2C-OVERSIZE-DST-".toUTF8.toList ++ d))) ∧
    ∀ pk msg sig, Bls381.tinyVerify (.xmd H 32 64) pk msg sig d =
      Bls381.tinyVerify (.xmd H 32 64) pk msg sig (H ("H2C-OVERSIZE-DST-".toUTF8.toList ++ d)) := by
  have hx : ∀ m n, Native.expandMsgXmd H 32 64 m d n = Native.expandMsgXmd H 32 64 m (H ("H2C-OVERSIZE-DST-".toUTF8.toList ++ d)) n := by
    intro m n
    unfold Native.expandMsgXmd
    have h1 : Native.getDomainXmd H d = H ("H2C-OVERSIZE-DST-".toUTF8.toList ++ d) := if_pos hd
    have h2 : Native.getDomainXmd H (H ("H2C-OVERSIZE-DST-".toUTF8.toList ++ d)) = H ("H2C-OVERSIZE-DST-".toUTF8.toList ++ d) :=
      if_neg (by rw [hH]; decide)
    rw [h1, h2]
  refine ⟨fun h => ?_, fun pk msg sig => ?_, fun pk msg sig => ?_⟩
  · rw [← h, hH] at hd
    omega
  · unfold Bls381.usualVerify Bls381.g2Hash Native.Hasher.expand
    simp only [hx]
  · unfold Bls381.tinyVerify Bls381.g1Hash Native.Hasher.expand
    simp only [hx]

/-- a toy group: shares 3 and 1 of the seed sign for the augmented scheme as the key does, and the basic scheme refuses the signature -/
example : thresholdKeygenWithSeed (1 : Toy.K) (fun b => (b.length : Toy.K)) Toy.codec (List.replicate 32 7) 2 3 (fun _ => 3) =
      .ok (33, [⟨1, [0, 36]⟩, ⟨2, [0, 39]⟩, ⟨3, [0, 42]⟩]) ∧
    (do let ps ← [(⟨3, [0, 42]⟩ : KeyShare), ⟨1, [0, 36]⟩].mapM fun s =>
          newAug.partialSign (fun _ : Toy.K => [8]) Toy.codec (fun m d => ((m ++ d).length : Toy.K)) s 33 (some [1, 2])
        combineSigs Toy.K (ps.map some)) =
      newAug.sign (1 : Toy.K) (fun _ => [8]) (fun m d => ((m ++ d).length : Toy.K)) (33 : Toy.K) (some [1, 2]) ∧
    (do let s ← newAug.sign (1 : Toy.K) (fun _ => [8]) (fun m d => ((m ++ d).length : Toy.K)) (33 : Toy.K) (some [1, 2])
        newBasic.verify (1 : Toy.K) (fun _ => [8]) (LinearMap.mul Toy.K Toy.K) (fun m d => ((m ++ d).length : Toy.K)) 33 (some [1, 2]) (some s)) =
      .ok false := by
  refine ⟨?_, ?_, ?_⟩ <;> decide +kernel

/-- a hash that separates the tags: the position of the tag -/
example : ∀ (a b d d' : Bytes), d ∈ [basicDst, augDst, popSigDst, popProofDst] → d' ∈ [basicDst, augDst, popSigDst, popProofDst] → d ≠ d' →
    (fun (_ d : Bytes) => (([basicDst, augDst, popSigDst].idxOf d : ℕ) : Toy.K)) a d ≠
      (fun (_ d : Bytes) => (([basicDst, augDst, popSigDst].idxOf d : ℕ) : Toy.K)) b d' := by
  intro a b d d' h1 h2
  have : ∀ d ∈ [basicDst, augDst, popSigDst, popProofDst], ∀ d' ∈ [basicDst, augDst, popSigDst, popProofDst], d ≠ d' →
    (([basicDst, augDst, popSigDst].idxOf d : ℕ) : Toy.K) ≠ (([basicDst, augDst, popSigDst].idxOf d' : ℕ) : Toy.K) := by decide +kernel
  exact this d h1 d' h2

example : 255 < (List.replicate 256 (5 : UInt8)).length ∧ ∀ x : Bytes, ((fun _ => List.replicate 32 0 : Bytes → Bytes) x).length = 32 := by
  exact ⟨by rw [List.length_replicate]; omega, fun x => List.length_replicate⟩

end Verif.Bls
