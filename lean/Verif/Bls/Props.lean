import Verif.Bls.Lemmas
import Verif.Common.Toy
import Mathlib.Algebra.Algebra.Bilinear
import Mathlib.Tactic.Module
import Mathlib.Tactic.Abel

/-!
# Properties of the BLS signatures (C73, C74, C76, C101-C104)

The pairing is any bilinear map with `e g S = 0 → S = 0` for the generator `g` of the keys.
The specification of a valid signature of `m` under the key `sk • g` is the point `sk • hash m dst`.
-/

set_option linter.unusedSectionVars false

namespace Verif.Bls

variable {F : Type} [Field F] [DecidableEq F]
variable {G H GT : Type} [AddCommGroup G] [Module F G] [DecidableEq G]
  [AddCommGroup H] [Module F H] [DecidableEq H] [AddCommGroup GT] [Module F GT] [DecidableEq GT]

/-- the pairing equation for a key `sk • g` -/
theorem pairing_eq {g : G} {e : G →ₗ[F] H →ₗ[F] GT} (he : ∀ S, e g S = 0 → S = 0) (sk : F) (h s : H) :
    e (sk • g) h + e (-g) s = 0 ↔ s = sk • h := by
  have : e (sk • g) h + e (-g) s = -e g (s - sk • h) := by
    simp only [map_smul, map_neg, LinearMap.smul_apply, LinearMap.neg_apply, map_sub]
    abel
  rw [this, neg_eq_zero]
  constructor
  · intro h0; exact sub_eq_zero.1 (he _ h0)
  · rintro rfl; simp

/-! ## C73: single signatures -/

/-- C73: `Verify` returns a boolean exactly for non-nil, non-identity inputs, and the boolean is true
exactly for the signature `sk • hash m`. -/
theorem C73_decision {g : G} {e : G →ₗ[F] H →ₗ[F] GT} (he : ∀ S, e g S = 0 → S = 0)
    (hash : Bytes → Bytes → H) (sk : F) (msg : Option Bytes) (sig : Option H) (dst : Bytes) (b : Bool) :
    verifySignature g e hash (sk • g) msg sig dst = .ok b ↔ ∃ s m, sig = some s ∧ msg = some m ∧
      sk • g ≠ 0 ∧ s ≠ 0 ∧ (b = true ↔ s = sk • hash m dst) := by
  unfold verifySignature
  rw [Go.bind_eq_ok]
  refine exists_congr fun s => ?_
  rw [Go.ofOption_eq_ok, Go.bind_eq_ok]
  constructor
  · rintro ⟨h1, m, h2, h⟩
    rw [Go.ofOption_eq_ok] at h2
    rw [Go.guard_bind_eq_ok, Go.guard_bind_eq_ok] at h
    obtain ⟨h3, h4, h⟩ := h
    cases h
    exact ⟨m, h1, h2, h3, h4, by rw [decide_eq_true_iff, pairing_eq he]⟩
  · rintro ⟨m, h1, h2, h3, h4, h⟩
    refine ⟨h1, m, Go.ofOption_eq_ok.2 h2, ?_⟩
    rw [Go.guard_bind_eq_ok, Go.guard_bind_eq_ok]
    refine ⟨h3, h4, ?_⟩
    congr 1
    rw [Bool.eq_iff_iff, h, decide_eq_true_iff, pairing_eq he]

/-- C73: `Verify` never panics. -/
theorem C73_no_panic (g : G) (e : G →ₗ[F] H →ₗ[F] GT) (hash : Bytes → Bytes → H) (pk : G)
    (msg : Option Bytes) (sig : Option H) (dst : Bytes) :
    verifySignature g e hash pk msg sig dst ≠ Go.crash := by
  unfold verifySignature Go.guard Go.ofOption
  cases sig with
  | none => intro h; cases h
  | some s =>
    cases msg with
    | none => intro h; cases h
    | some m =>
      simp only [Go.ok_bind]
      by_cases h1 : pk ≠ 0
      · by_cases h2 : s ≠ 0
        · rw [if_pos h1, if_pos h2]; intro h; cases h
        · rw [if_pos h1, if_neg h2]; intro h; cases h
      · rw [if_neg h1]; intro h; cases h

/-- C73: the signature made with a generated key verifies under the generated public key, for every
message (the empty one included) whose hash is not the identity. -/
theorem C73_sign_verifies {g : G} {e : G →ₗ[F] H →ₗ[F] GT} (he : ∀ S, e g S = 0 → S = 0)
    (hash : Bytes → Bytes → H) (kdf : Bytes → F) (ikm : Bytes) (pk : G) (sk : F)
    (hk : generateKeys g kdf ikm = .ok (pk, sk)) (m dst : Bytes) (hm : hash m dst ≠ 0) :
    ∃ s, createSignature hash sk (some m) dst = .ok s ∧
      verifySignature g e hash pk (some m) (some s) dst = .ok true := by
  unfold generateKeys at hk
  rw [Go.bind_eq_ok] at hk
  obtain ⟨sk', -, hk⟩ := hk
  rw [Go.bind_eq_ok] at hk
  obtain ⟨pk', hp, hk⟩ := hk
  cases hk
  unfold getPublicKey at hp
  simp only at hp
  rw [Go.guard_bind_eq_ok] at hp
  obtain ⟨h0, hp⟩ := hp
  cases hp
  have hsk : sk ≠ 0 := fun h => h0 (by rw [h, zero_smul])
  refine ⟨sk • hash m dst, ?_, ?_⟩
  · unfold createSignature
    rw [Go.ofOption_eq_ok.2 rfl, Go.ok_bind, Go.guard_true hsk, Go.ok_bind]
  · rw [C73_decision he]
    exact ⟨_, m, rfl, rfl, h0, smul_ne_zero hsk hm, by simp⟩

/-- C73: two signatures accepted for the same key and message are equal. -/
theorem C73_unique {g : G} {e : G →ₗ[F] H →ₗ[F] GT} (he : ∀ S, e g S = 0 → S = 0)
    (hash : Bytes → Bytes → H) (sk : F) (msg : Option Bytes) (s s' : H) (dst : Bytes)
    (h : verifySignature g e hash (sk • g) msg (some s) dst = .ok true)
    (h' : verifySignature g e hash (sk • g) msg (some s') dst = .ok true) : s = s' := by
  rw [C73_decision he] at h h'
  obtain ⟨_, m, h1, rfl, -, -, h⟩ := h
  obtain ⟨_, m', h1', h2', -, -, h'⟩ := h'
  cases h1; cases h1'; cases h2'
  rw [h.1 rfl, h'.1 rfl]

/-- C73: a signature of `m` is accepted for another message exactly when the hashes collide. -/
theorem C73_other_message {g : G} {e : G →ₗ[F] H →ₗ[F] GT} (he : ∀ S, e g S = 0 → S = 0)
    (hash : Bytes → Bytes → H) (sk : F) (m m' : Bytes) (s : H) (dst dst' : Bytes)
    (h : verifySignature g e hash (sk • g) (some m) (some s) dst = .ok true) :
    verifySignature g e hash (sk • g) (some m') (some s) dst' = .ok true ↔
      hash m dst = hash m' dst' := by
  rw [C73_decision he] at h
  obtain ⟨_, _, h1, h2, h3, h4, h⟩ := h
  cases h1; cases h2
  have hs := h.1 rfl
  have hsk : sk ≠ 0 := fun h0 => h3 (by rw [h0, zero_smul])
  rw [C73_decision he]
  constructor
  · rintro ⟨_, _, a, b, -, -, c⟩
    cases a; cases b
    have := hs.symm.trans (c.1 rfl)
    exact (smul_right_injective H hsk) this
  · intro hh
    exact ⟨s, m', rfl, rfl, h3, h4, by simp [hs, hh]⟩

/-- C73: a signature of `m` accepted under one key is accepted under another key exactly when the keys
are equal. -/
theorem C73_other_key {g : G} {e : G →ₗ[F] H →ₗ[F] GT} (he : ∀ S, e g S = 0 → S = 0)
    (hash : Bytes → Bytes → H) (sk sk' : F) (m : Bytes) (s : H) (dst : Bytes)
    (h : verifySignature g e hash (sk • g) (some m) (some s) dst = .ok true) :
    verifySignature g e hash (sk' • g) (some m) (some s) dst = .ok true ↔ sk' = sk := by
  constructor
  · intro h'
    rw [C73_decision he] at h h'
    obtain ⟨_, _, h1, h2, h3, h4, h⟩ := h
    obtain ⟨_, _, h1', h2', h3', h4', h'⟩ := h'
    cases h1; cases h2; cases h1'; cases h2'
    have hh : (sk' - sk) • hash m dst = 0 := by
      rw [sub_smul, ← h.1 rfl, ← h'.1 rfl, sub_self]
    rcases smul_eq_zero.1 hh with h0 | h0
    · exact sub_eq_zero.1 h0
    · exact absurd (h.1 rfl) (by rw [h0, smul_zero]; exact h4)
  · rintro rfl; exact h

/-- C73: the tiny scheme (signatures in G1) is the usual one for the flipped pairing. -/
theorem C73_tiny (g : G) (e : H →ₗ[F] G →ₗ[F] GT) (hash : Bytes → Bytes → H) (pk : G)
    (msg : Option Bytes) (sig : Option H) (dst : Bytes) :
    verifySignatureVt g e hash pk msg sig dst = verifySignature g e.flip hash pk msg sig dst := by
  unfold verifySignatureVt verifySignature
  have : ∀ (s h : H), (e (-h) pk + e s g = 0) = (e.flip pk h + e.flip (-g) s = 0) := by
    intro s h
    have : e.flip pk h + e.flip (-g) s = -(e (-h) pk + e s g) := by
      simp only [LinearMap.flip_apply, map_neg, LinearMap.neg_apply]
      abel
    rw [this, neg_eq_zero]
  simp only [this]

example : (∀ S : Toy.K, LinearMap.mul Toy.K Toy.K 1 S = 0 → S = 0) ∧
    generateKeys (1 : Toy.K) (fun b => (b.length : Toy.K)) (List.replicate 32 7) = .ok (33, 33) ∧
    verifySignature (1 : Toy.K) (LinearMap.mul Toy.K Toy.K) (fun m d => ((m ++ d).length : Toy.K)) 33
      (some [1, 2]) (some (99 : Toy.K)) [9] = .ok true ∧
    verifySignature (1 : Toy.K) (LinearMap.mul Toy.K Toy.K) (fun m d => ((m ++ d).length : Toy.K)) 33
      (some [1, 2]) (some (98 : Toy.K)) [9] = .ok false := by
  refine ⟨fun S h => by simpa using h, ?_, ?_, ?_⟩ <;> decide +kernel

/-! ## C74: aggregation -/

/-- the sum of the individually valid signatures -/
def validSum (hash : Bytes → Bytes → H) (dst : Bytes) (l : List (F × Bytes)) : H :=
  (l.map fun p => p.1 • hash p.2 dst).sum

theorem pairing_sum {g : G} {e : G →ₗ[F] H →ₗ[F] GT} (he : ∀ S, e g S = 0 → S = 0)
    (hash : Bytes → Bytes → H) (dst : Bytes) (l : List (F × Bytes)) (s : H) :
    (l.map fun p => e (p.1 • g) (hash p.2 dst)).sum + e (-g) s = 0 ↔ s = validSum hash dst l := by
  have h1 : (l.map fun p => e (p.1 • g) (hash p.2 dst)).sum = e g (validSum hash dst l) := by
    unfold validSum
    induction l with
    | nil => simp
    | cons p l ih =>
      rw [List.map_cons, List.sum_cons, ih, List.map_cons, List.sum_cons, map_add]
      simp
  rw [h1, map_neg, LinearMap.neg_apply, ← sub_eq_add_neg, ← map_sub]
  constructor
  · intro h; exact (sub_eq_zero.1 (he _ h)).symm
  · rintro rfl; simp

theorem core_iff {g : G} {e : G →ₗ[F] H →ₗ[F] GT} (he : ∀ S, e g S = 0 → S = 0)
    (hash : Bytes → Bytes → H) (sks : List F) (msgs : List Bytes) (s : H) (dst : Bytes) :
    coreAggregateVerify g e hash s (sks.map fun sk => some (sk • g)) msgs dst = .ok true ↔
      sks ≠ [] ∧ sks.length = msgs.length ∧ (∀ sk ∈ sks, sk • g ≠ 0) ∧
        s = validSum hash dst (sks.zip msgs) := by
  unfold coreAggregateVerify
  rw [Go.guard_bind_eq_ok, Go.guard_bind_eq_ok, Go.guard_bind_eq_ok, Go.bind_eq_ok]
  have hz : (sks.map fun sk => some (sk • g)).zip msgs =
      (sks.zip msgs).map fun p => (some (p.1 • g), p.2) := by
    rw [List.zip_map_left]; rfl
  rw [hz]
  simp only [pairLoop_iff, List.length_map]
  constructor
  · rintro ⟨h1, h2, h3, t, ⟨r, hr, hr0, rfl⟩, h⟩
    have hr' : r = (sks.zip msgs).map fun p => (p.1 • g, p.2) := by
      have := congrArg (List.map fun p : Option G × Bytes => (p.1.getD 0, p.2)) hr
      simpa [Function.comp_def] using this.symm
    subst hr'
    have h' : _ = true := Except.ok.inj h
    rw [decide_eq_true_iff, List.map_map] at h'
    refine ⟨by rintro rfl; simp at h1, h3, ?_, (pairing_sum he hash dst _ s).1 h'⟩
    intro sk hsk
    have hm : sk ∈ (sks.zip msgs).map Prod.fst := by
      rw [List.map_fst_zip (le_of_eq h3)]; exact hsk
    obtain ⟨p, hp, rfl⟩ := List.mem_map.1 hm
    exact hr0 _ (List.mem_map.2 ⟨p, hp, rfl⟩)
  · rintro ⟨h1, h2, h3, rfl⟩
    have hl : sks.length ≠ 0 := by simpa using h1
    refine ⟨by omega, by omega, h2, _, ⟨(sks.zip msgs).map fun p => (p.1 • g, p.2), by simp, ?_, rfl⟩,
      ?_⟩
    · intro p hp
      obtain ⟨q, hq, rfl⟩ := List.mem_map.1 hp
      exact h3 _ (List.of_mem_zip hq).1
    · rw [List.map_map]
      exact congrArg _ (decide_eq_true ((pairing_sum he hash dst _ _).2 rfl))

/-- C74: `AggregateVerify` of the basic and the proof-of-possession schemes accepts exactly: distinct
messages, at least one signature, none nil, as many keys as messages, no identity key, and the sum of
the supplied signatures equal to the sum of the valid ones. -/
theorem C74_aggregate_verify {g : G} {e : G →ₗ[F] H →ₗ[F] GT} (he : ∀ S, e g S = 0 → S = 0)
    (hash : Bytes → Bytes → H) (sks : List F) (msgs : List Bytes) (sigs : List (Option H))
    (dst : Bytes) :
    aggregateVerify g e hash (sks.map fun sk => some (sk • g)) msgs sigs dst = .ok true ↔
      msgs.Nodup ∧ sks ≠ [] ∧ sks.length = msgs.length ∧ (∀ sk ∈ sks, sk • g ≠ 0) ∧
        ∃ l : List H, l ≠ [] ∧ sigs = l.map some ∧ l.sum = validSum hash dst (sks.zip msgs) := by
  unfold aggregateVerify
  rw [Go.guard_bind_eq_ok, allRowsUnique_iff, Go.bind_eq_ok]
  simp only [aggregate_eq_ok, core_iff he]
  constructor
  · rintro ⟨h1, _, ⟨h2, l, rfl, rfl⟩, h3, h4, h5, h6⟩
    exact ⟨h1, h3, h4, h5, l, by simpa using h2, rfl, h6⟩
  · rintro ⟨h1, h3, h4, h5, l, h2, rfl, h6⟩
    exact ⟨h1, _, ⟨by simpa using h2, l, rfl, rfl⟩, h3, h4, h5, h6⟩

/-- C74: honest signatures over distinct messages aggregate. -/
theorem C74_honest {g : G} {e : G →ₗ[F] H →ₗ[F] GT} (he : ∀ S, e g S = 0 → S = 0)
    (hg : ∀ r : F, r • g = 0 → r = 0)
    (hash : Bytes → Bytes → H) (l : List (F × Bytes)) (hl : l ≠ []) (hn : (l.map Prod.snd).Nodup)
    (hk : ∀ p ∈ l, p.1 ≠ 0) (sigs : List H) (dst : Bytes)
    (hs : l.mapM (fun p => createSignature hash p.1 (some p.2) dst) = .ok sigs) :
    aggregateVerify g e hash (l.map fun p => some (p.1 • g)) (l.map Prod.snd) (sigs.map some) dst =
      .ok true := by
  have hsig : sigs = l.map fun p => p.1 • hash p.2 dst := by
    rw [Go.mapM_eq_ok] at hs
    clear hl hn
    induction hs with
    | nil => rfl
    | @cons p s l sigs h _ ih =>
      rw [List.map_cons, ← ih fun q hq => hk q (by simp [hq])]
      unfold createSignature at h
      rw [Go.ofOption_eq_ok.2 rfl, Go.ok_bind, Go.guard_bind_eq_ok] at h
      cases h.2
      rfl
  have : (l.map fun p => some (p.1 • g)) = (l.map Prod.fst).map fun sk => some (sk • g) := by simp
  rw [this, C74_aggregate_verify he]
  refine ⟨hn, by simpa using hl, by simp, ?_, sigs, ?_, rfl, ?_⟩
  · intro sk hsk h0
    obtain ⟨p, hp, rfl⟩ := List.mem_map.1 hsk
    exact hk p hp (hg _ h0)
  · rw [hsig]; simpa using hl
  · rw [hsig, validSum, List.zip_map', List.map_map]
    rfl

/-- C74: the public key augmented `AggregateVerify`: the same without the distinctness of the messages,
over the messages prefixed by the keys. -/
theorem C74_aug_aggregate_verify {g : G} {e : G →ₗ[F] H →ₗ[F] GT} (he : ∀ S, e g S = 0 → S = 0)
    (encP : G → Bytes) (hash : Bytes → Bytes → H) (sks : List F) (msgs : List Bytes)
    (sigs : List (Option H)) (dst : Bytes) :
    augAggregateVerify g encP e hash (sks.map fun sk => some (sk • g)) msgs sigs dst = .ok true ↔
      sks ≠ [] ∧ sks.length = msgs.length ∧ (∀ sk ∈ sks, sk • g ≠ 0) ∧
        ∃ l : List H, l ≠ [] ∧ sigs = l.map some ∧
          l.sum = validSum hash dst ((sks.zip msgs).map fun p => (p.1, encP (p.1 • g) ++ p.2)) := by
  have hd : ∀ (l : List (F × Bytes)), augData encP (l.map fun p => (some (p.1 • g), p.2)) =
      .ok (l.map fun p => encP (p.1 • g) ++ p.2) := by
    intro l
    induction l with
    | nil => rfl
    | cons p l ih => rw [List.map_cons, augData, ih]; rfl
  have hz : (sks.map fun sk => some (sk • g)).zip msgs =
      (sks.zip msgs).map fun p => (some (p.1 • g), p.2) := by
    rw [List.zip_map_left]; rfl
  have hzz : ∀ (_ : sks.length = msgs.length),
      sks.zip ((sks.zip msgs).map fun p => encP (p.1 • g) ++ p.2) =
      (sks.zip msgs).map fun p => (p.1, encP (p.1 • g) ++ p.2) := by
    intro h
    conv_lhs => rw [← List.map_fst_zip (l₁ := sks) (l₂ := msgs) (le_of_eq h)]
    conv_lhs => arg 2; rw [List.map_fst_zip (l₁ := sks) (l₂ := msgs) (le_of_eq h)]
    rw [List.zip_map']
  unfold augAggregateVerify
  rw [Go.guard_bind_eq_ok, List.length_map, hz, hd, Go.ok_bind, Go.bind_eq_ok]
  simp only [aggregate_eq_ok, core_iff he]
  constructor
  · rintro ⟨h1, _, ⟨h2, l, rfl, rfl⟩, h3, h4, h5, h6⟩
    exact ⟨h3, h1, h5, l, by simpa using h2, rfl, by rw [h6, hzz h1]⟩
  · rintro ⟨h3, h1, h5, l, h2, rfl, h6⟩
    exact ⟨h1, _, ⟨by simpa using h2, l, rfl, rfl⟩, h3, by simp [h1], h5, by rw [h6, hzz h1]⟩

/-- C74: `FastAggregateVerify` is verification under the sum of the keys, for at least one key and no
nil key. -/
theorem C74_fast_aggregate (g : G) (e : G →ₗ[F] H →ₗ[F] GT) (hash : Bytes → Bytes → H)
    (pks : List (Option G)) (msg : Option Bytes) (sig : Option H) (dst : Bytes) (b : Bool) :
    fastAggregateVerify g e hash pks msg sig dst = .ok b ↔
      ∃ l : List G, l ≠ [] ∧ pks = l.map some ∧ verifySignature g e hash l.sum msg sig dst = .ok b := by
  unfold fastAggregateVerify
  rw [Go.bind_eq_ok]
  simp only [aggregate_eq_ok]
  constructor
  · rintro ⟨_, ⟨h, l, rfl, rfl⟩, h'⟩
    exact ⟨l, by simpa using h, rfl, h'⟩
  · rintro ⟨l, h, rfl, h'⟩
    exact ⟨_, ⟨by simpa using h, l, rfl, rfl⟩, h'⟩

/-- C74: the constituent and the multi-signature verifications accept exactly when the sum of the
signatures is the valid signature under the sum of the keys. -/
theorem C74_multi {g : G} {e : G →ₗ[F] H →ₗ[F] GT} (he : ∀ S, e g S = 0 → S = 0)
    (hash : Bytes → Bytes → H) (sks : List F) (m : Bytes) (sigs : List H) (dst : Bytes) :
    (fastAggregateVerifyConstituent g e hash (sks.map fun sk => some (sk • g)) (some m) (sigs.map some)
        dst = .ok true ↔
      sks ≠ [] ∧ sigs ≠ [] ∧ sks.sum • g ≠ 0 ∧ sigs.sum ≠ 0 ∧ sigs.sum = sks.sum • hash m dst) ∧
    verifyMulti g e hash (sks.map fun sk => some (sk • g)) (some m) (sigs.map some) dst =
      fastAggregateVerifyConstituent g e hash (sks.map fun sk => some (sk • g)) (some m)
        (sigs.map some) dst := by
  have hsum : (sks.map (· • g)).sum = sks.sum • g := by
    rw [List.sum_smul]
  constructor
  · unfold fastAggregateVerifyConstituent
    rw [Go.bind_eq_ok]
    simp only [aggregate_eq_ok, C74_fast_aggregate]
    constructor
    · rintro ⟨_, ⟨h1, l, hl, rfl⟩, l', h2, hl', h⟩
      have e1 : l = sigs := (List.map_injective_iff.2 (Option.some_injective _) hl).symm
      have e2 : l' = sks.map (· • g) := by
        have : (sks.map (· • g)).map some = l'.map some := by rw [← hl']; simp
        exact (List.map_injective_iff.2 (Option.some_injective _) this).symm
      subst e1 e2
      rw [hsum, C73_decision he] at h
      obtain ⟨_, _, a, b, c, d, f⟩ := h
      cases a; cases b
      exact ⟨by simpa using h2, by simpa using h1, c, d, f.1 rfl⟩
    · rintro ⟨h1, h2, h3, h4, h5⟩
      refine ⟨_, ⟨by simpa using h2, sigs, rfl, rfl⟩, sks.map (· • g), by simpa using h1, by simp, ?_⟩
      rw [hsum, C73_decision he]
      exact ⟨_, _, rfl, rfl, h3, h4, by simp [h5]⟩
  · unfold verifyMulti fastAggregateVerifyConstituent fastAggregateVerify
    cases hA : aggregate (sks.map fun sk => some (sk • g)) with
    | ok a =>
      cases hB : aggregate (sigs.map some) with
      | ok b => rfl
      | error f => rfl
    | error f =>
      have hf : f = .error := by
        cases f with
        | error => rfl
        | panic => exact absurd hA (aggregate_ne_panic _)
      subst hf
      cases hB : aggregate (sigs.map some) with
      | ok b => rfl
      | error f' =>
        cases f' with
        | error => rfl
        | panic => exact absurd hB (aggregate_ne_panic _)

/-- C74: the tiny scheme is the usual one for the flipped pairing. -/
theorem C74_tiny (g : G) (e : H →ₗ[F] G →ₗ[F] GT) (hash : Bytes → Bytes → H) (s : H)
    (pks : List (Option G)) (msgs : List Bytes) (dst : Bytes) :
    coreAggregateVerifyVt g e hash s pks msgs dst = coreAggregateVerify g e.flip hash s pks msgs dst := by
  have h1 : ∀ l, pairLoopVt e hash dst l = pairLoop e.flip hash dst l := by
    intro l
    induction l with
    | nil => rfl
    | cons p l ih =>
      obtain ⟨pk, m⟩ := p
      cases pk with
      | none => rfl
      | some pk => simp only [pairLoopVt, pairLoop, ih, LinearMap.flip_apply]
  unfold coreAggregateVerifyVt coreAggregateVerify
  simp only [h1, LinearMap.flip_apply]
  rfl

example : aggregateVerify (1 : Toy.K) (LinearMap.mul Toy.K Toy.K)
      (fun m d => ((m ++ d).length : Toy.K)) [some (5 : Toy.K), some (7 : Toy.K)] [[1], [1, 2]]
      [some (10 : Toy.K), some (21 : Toy.K)] [9] = .ok true ∧
    aggregateVerify (1 : Toy.K) (LinearMap.mul Toy.K Toy.K)
      (fun m d => ((m ++ d).length : Toy.K)) [some (5 : Toy.K), some (7 : Toy.K)] [[1], [1]]
      [some (10 : Toy.K), some (14 : Toy.K)] [9] = Go.err ∧
    augAggregateVerify (1 : Toy.K) (fun _ => [1]) (LinearMap.mul Toy.K Toy.K)
      (fun m d => ((m ++ d).length : Toy.K)) [some (5 : Toy.K), some (7 : Toy.K)] [[1], [1]]
      [some (15 : Toy.K), some (21 : Toy.K)] [9] = .ok true ∧
    fastAggregateVerifyConstituent (1 : Toy.K) (LinearMap.mul Toy.K Toy.K)
      (fun m d => ((m ++ d).length : Toy.K)) [some (5 : Toy.K), some (7 : Toy.K)] (some [1])
      [some (10 : Toy.K), some (14 : Toy.K)] [9] = .ok true := by
  refine ⟨?_, ?_, ?_, ?_⟩ <;> decide +kernel

/-! ## C101: what aggregation does not check -/

/-- C101: the rogue key attack.  Without proofs of possession, an attacker who knows only the public key
of the victim publishes `x • g − pk`; their own signature of any message is accepted as a signature
of both. -/
theorem C101_rogue_key {g : G} {e : G →ₗ[F] H →ₗ[F] GT} (he : ∀ S, e g S = 0 → S = 0)
    (hg : ∀ r : F, r • g = 0 → r = 0) (hash : Bytes → Bytes → H) (victim : G) (x : F) (hx : x ≠ 0)
    (m dst : Bytes) (hm : hash m dst ≠ 0) :
    fastAggregateVerify g e hash [some victim, some (x • g - victim)] (some m)
      (some (x • hash m dst)) dst = .ok true := by
  rw [C74_fast_aggregate]
  refine ⟨[victim, x • g - victim], by simp, rfl, ?_⟩
  have : [victim, x • g - victim].sum = x • g := by simp
  rw [this, C73_decision he]
  exact ⟨_, _, rfl, rfl, fun h => hx (hg _ h), smul_ne_zero hx hm, by simp⟩

/-- C101: the proof of possession which would be needed for the rogue key is the one for the secret
key `x − sk`: `PopVerify` accepts no other. -/
theorem C101_rogue_pop {g : G} {e : G →ₗ[F] H →ₗ[F] GT} (he : ∀ S, e g S = 0 → S = 0)
    (encP : G → Bytes) (hash : Bytes → Bytes → H) (sk x : F) (pop : H) (popDst : Bytes)
    (h : verifyPop g encP e hash (some (x • g - sk • g)) pop popDst = .ok true) :
    pop = (x - sk) • hash (encP ((x - sk) • g)) popDst := by
  unfold verifyPop at h
  rw [Go.ofOption_eq_ok.2 rfl, Go.ok_bind, ← sub_smul, C73_decision he] at h
  obtain ⟨_, _, a, b, -, -, c⟩ := h
  cases a; cases b
  exact c.1 rfl

/-- C101: an accepted aggregate does not make the parts valid: shifting two of the signatures by
opposite amounts (or replacing them by a single one) keeps the verdict. -/
theorem C101_parts_not_checked (g : G) (e : G →ₗ[F] H →ₗ[F] GT)
    (hash : Bytes → Bytes → H) (pks : List (Option G)) (msgs : List Bytes) (s s' d : H)
    (rest : List (Option H)) (dst : Bytes) :
    aggregateVerify g e hash pks msgs (some (s + d) :: some (s' - d) :: rest) dst =
      aggregateVerify g e hash pks msgs (some s :: some s' :: rest) dst ∧
    aggregateVerify g e hash pks msgs (some (s + s') :: rest) dst =
      aggregateVerify g e hash pks msgs (some s :: some s' :: rest) dst := by
  have h1 : aggregate (some (s + d) :: some (s' - d) :: rest) = aggregate (some s :: some s' :: rest) := by
    unfold aggregate Go.guard
    simp only [List.length_cons, List.foldlM_cons, addStep, Go.ok_bind]
    have : 0 + (s + d) + (s' - d) = 0 + s + s' := by abel
    rw [this]
  have h2 : aggregate (some (s + s') :: rest) = aggregate (some s :: some s' :: rest) := by
    unfold aggregate Go.guard
    simp only [List.length_cons, List.foldlM_cons, addStep, Go.ok_bind]
    have : 0 + (s + s') = 0 + s + s' := by abel
    rw [this, if_pos (by omega), if_pos (by omega)]
  unfold aggregateVerify
  rw [h1, h2]
  exact ⟨rfl, rfl⟩

/-- C101: an identity key is refused by `AggregateVerify` but goes unnoticed in
`FastAggregateVerify`: adding it to the keys never changes the verdict. -/
theorem C101_identity_key (g : G) (e : G →ₗ[F] H →ₗ[F] GT) (hash : Bytes → Bytes → H)
    (pk : G) (rest : List (Option G)) (msg : Option Bytes) (sig : Option H) (dst : Bytes)
    (msgs : List Bytes) (sigs : List (Option H)) :
    fastAggregateVerify g e hash (some 0 :: some pk :: rest) msg sig dst =
      fastAggregateVerify g e hash (some pk :: rest) msg sig dst ∧
    aggregateVerify g e hash (some 0 :: some pk :: rest) msgs sigs dst = Go.err := by
  constructor
  · unfold fastAggregateVerify aggregate Go.guard
    simp only [List.length_cons, List.foldlM_cons, addStep, Go.ok_bind, add_zero, zero_add]
    rw [if_pos (by omega), if_pos (by omega)]
  · unfold aggregateVerify Go.guard
    by_cases hu : allRowsUnique msgs = true
    · rw [if_pos hu, Go.ok_bind]
      cases ha : aggregate sigs with
      | error f =>
        cases f with
        | error => rfl
        | panic => exact absurd ha (aggregate_ne_panic _)
      | ok a =>
        rw [Go.ok_bind]
        unfold coreAggregateVerify Go.guard
        cases msgs with
        | nil => rfl
        | cons m ms =>
          rw [if_pos (by simp), Go.ok_bind, if_pos (by simp), Go.ok_bind]
          split
          · rw [Go.ok_bind, List.zip_cons_cons, pairLoop, Go.guard_false (by simp)]
            rfl
          · rfl
    · rw [if_neg hu]; rfl

example : fastAggregateVerify (1 : Toy.K) (LinearMap.mul Toy.K Toy.K)
      (fun m d => ((m ++ d).length : Toy.K)) [some (5 : Toy.K), some (3 - 5 : Toy.K)] (some [1])
      (some (6 : Toy.K)) [9] = .ok true ∧
    verifyPop (1 : Toy.K) (fun _ => [1]) (LinearMap.mul Toy.K Toy.K)
      (fun m d => ((m ++ d).length : Toy.K)) (some (3 • (1 : Toy.K) - 5 • (1 : Toy.K)))
      (-4) [9] = .ok true ∧
    aggregateVerify (1 : Toy.K) (LinearMap.mul Toy.K Toy.K)
      (fun m d => ((m ++ d).length : Toy.K)) [some (5 : Toy.K), some (7 : Toy.K)] [[1], [1, 2]]
      [some (31 : Toy.K)] [9] = .ok true := by
  refine ⟨?_, ?_, ?_⟩ <;> decide +kernel

/-! ## C102: proofs of possession -/

/-- C102: for every key that `GetPublicKey` accepts, `PopProve` succeeds and `PopVerify` accepts exactly its
result. -/
theorem C102_pop {g : G} {e : G →ₗ[F] H →ₗ[F] GT} (he : ∀ S, e g S = 0 → S = 0)
    (encP : G → Bytes) (hash : Bytes → Bytes → H) (sk : F) (hsk : sk • g ≠ 0) (popDst : Bytes)
    (hh : hash (encP (sk • g)) popDst ≠ 0) :
    ∃ p, createPop g encP hash sk popDst = .ok p ∧
      ∀ pop, verifyPop g encP e hash (some (sk • g)) pop popDst = .ok true ↔ pop = p := by
  have h0 : sk ≠ 0 := fun h => hsk (by rw [h, zero_smul])
  refine ⟨sk • hash (encP (sk • g)) popDst, ?_, ?_⟩
  · unfold createPop getPublicKey createSignature
    simp only
    rw [Go.guard_true hsk, Go.ok_bind, Go.ok_bind, Go.ofOption_eq_ok.2 rfl, Go.ok_bind,
      Go.guard_true h0, Go.ok_bind]
  · intro pop
    unfold verifyPop
    rw [Go.ofOption_eq_ok.2 rfl, Go.ok_bind, C73_decision he]
    constructor
    · rintro ⟨_, _, a, b, -, -, c⟩
      cases a; cases b
      exact c.1 rfl
    · rintro rfl
      exact ⟨_, _, rfl, rfl, hsk, smul_ne_zero h0 hh, by simp⟩

/-- C102: a proof of possession serves as a signature of the encoded key exactly when the hashes under the
two tags agree; `NewSigPopWithDst` refuses exactly equal tags. -/
theorem C102_tags {g : G} {e : G →ₗ[F] H →ₗ[F] GT} (he : ∀ S, e g S = 0 → S = 0)
    (encP : G → Bytes) (hash : Bytes → Bytes → H) (sk : F) (pop : H) (signDst popDst : Bytes)
    (h : verifyPop g encP e hash (some (sk • g)) pop popDst = .ok true) :
    (verifySignature g e hash (sk • g) (some (encP (sk • g))) (some pop) signDst = .ok true ↔
      hash (encP (sk • g)) popDst = hash (encP (sk • g)) signDst) ∧
    (newSigPop signDst popDst = .ok (signDst, popDst) ↔ signDst ≠ popDst) := by
  constructor
  · unfold verifyPop at h
    rw [Go.ofOption_eq_ok.2 rfl, Go.ok_bind] at h
    exact C73_other_message he hash sk _ _ pop popDst signDst h
  · unfold newSigPop
    rw [Go.guard_bind_eq_ok]
    simp

/-- C102: `PopVerify` of a nil key is an error, not a panic. -/
theorem C102_nil (g : G) (encP : G → Bytes) (e : G →ₗ[F] H →ₗ[F] GT) (hash : Bytes → Bytes → H)
    (pop : H) (popDst : Bytes) : verifyPop g encP e hash none pop popDst = Go.err := rfl

example : createPop (1 : Toy.K) (fun p => [UInt8.ofNat p.val])
      (fun m d => ((m ++ d).length : Toy.K)) (5 : Toy.K) [9, 9] = .ok 15 ∧
    verifyPop (1 : Toy.K) (fun p => [UInt8.ofNat p.val]) (LinearMap.mul Toy.K Toy.K)
      (fun m d => ((m ++ d).length : Toy.K)) (some 5) 15 [9, 9] = .ok true := by
  constructor <;> decide +kernel

/-! ## C103: the augmented scheme -/

/-- C103: a signature of the augmented scheme verifies, and `Verify` accepts exactly
`sk • hash (pk ‖ m)`. -/
theorem C103_aug_verify {g : G} {e : G →ₗ[F] H →ₗ[F] GT} (he : ∀ S, e g S = 0 → S = 0)
    (encP : G → Bytes) (hash : Bytes → Bytes → H) (sk : F) (hsk : sk • g ≠ 0) (m dst : Bytes) (s : H) :
    (augVerify g encP e hash (some (sk • g)) (some m) (some s) dst = .ok true ↔
      s ≠ 0 ∧ s = sk • hash (encP (sk • g) ++ m) dst) ∧
    (m ≠ [] → augSign g encP hash sk (some m) dst = .ok (sk • hash (encP (sk • g) ++ m) dst)) := by
  have h0 : sk ≠ 0 := fun h => hsk (by rw [h, zero_smul])
  constructor
  · unfold augVerify
    simp only [Option.getD_some]
    rw [C73_decision he]
    constructor
    · rintro ⟨_, _, a, b, -, c, d⟩
      cases a; cases b
      exact ⟨c, d.1 rfl⟩
    · rintro ⟨a, b⟩
      exact ⟨_, _, rfl, rfl, hsk, a, by simp [b]⟩
  · intro hm
    unfold augSign getPublicKey createSignature
    simp only [Option.getD_some]
    rw [Go.guard_true hm, Go.ok_bind, Go.guard_true hsk, Go.ok_bind, Go.ok_bind,
      Go.ofOption_eq_ok.2 rfl, Go.ok_bind, Go.guard_true h0, Go.ok_bind]

/-- C103: the empty message: the usual scheme refuses to sign it while the tiny one signs it, and
`Verify` accepts such a signature, also for the nil message. -/
theorem C103_empty_message {g : G} {e : G →ₗ[F] H →ₗ[F] GT} (he : ∀ S, e g S = 0 → S = 0)
    (encP : G → Bytes) (hash : Bytes → Bytes → H) (sk : F) (hsk : sk • g ≠ 0) (dst : Bytes)
    (hh : hash (encP (sk • g)) dst ≠ 0) (msg : Option Bytes) (hm : msg = none ∨ msg = some []) :
    augSign g encP hash sk msg dst = Go.err ∧
    ∃ s, augSignVt g encP hash sk msg dst = .ok s ∧
      augVerify g encP e hash (some (sk • g)) msg (some s) dst = .ok true := by
  have h0 : sk ≠ 0 := fun h => hsk (by rw [h, zero_smul])
  have hmd : msg.getD [] = [] := by rcases hm with rfl | rfl <;> rfl
  refine ⟨?_, sk • hash (encP (sk • g)) dst, ?_, ?_⟩
  · unfold augSign
    rw [Go.guard_false (by simp [hmd])]
    rfl
  · unfold augSignVt getPublicKey createSignature
    simp only [hmd, List.append_nil]
    rw [Go.guard_true hsk, Go.ok_bind, Go.ok_bind, Go.ofOption_eq_ok.2 rfl, Go.ok_bind,
      Go.guard_true h0, Go.ok_bind]
  · unfold augVerify
    simp only [hmd, List.append_nil]
    rw [C73_decision he]
    exact ⟨_, _, rfl, rfl, hsk, smul_ne_zero h0 hh, by simp⟩

/-- C103: a nil key makes the augmented `Verify` and `PartialSign` panic; `AggregateVerify` panics at the
first nil key before looking at the signatures.  `AggregateVerify` of the basic scheme never panics. -/
theorem C103_nil_key (g : G) (encP : G → Bytes) (cd : ScalarCodec F) (e : G →ₗ[F] H →ₗ[F] GT)
    (hash : Bytes → Bytes → H) (sks : KeyShare) (msg : Option Bytes) (sig : Option H) (dst : Bytes)
    (pks : List (Option G)) (msgs : List Bytes) (sigs : List (Option H)) :
    augVerify g encP e hash none msg sig dst = Go.crash ∧
    (msg.getD [] ≠ [] → augPartialSign encP cd hash sks none msg dst = Go.crash) ∧
    (pks.length = msgs.length → none ∈ pks →
      augAggregateVerify g encP e hash pks msgs sigs dst = Go.crash) ∧
    aggregateVerify g e hash pks msgs sigs dst ≠ Go.crash := by
  refine ⟨rfl, ?_, ?_, ?_⟩
  · intro h
    unfold augPartialSign
    rw [Go.guard_true h]
    rfl
  · intro hl hn
    have key : ∀ (pks : List (Option G)) (msgs : List Bytes), pks.length = msgs.length → none ∈ pks →
        augData encP (pks.zip msgs) = Go.crash := by
      intro pks
      induction pks with
      | nil => intro msgs _ h; simp at h
      | cons p pks ih =>
        intro msgs hl hn
        cases msgs with
        | nil => simp at hl
        | cons m msgs =>
          cases p with
          | none => rfl
          | some p =>
            rw [List.zip_cons_cons, augData, ih msgs (by simpa using hl) (by simpa using hn)]
            rfl
    unfold augAggregateVerify
    rw [Go.guard_true hl, Go.ok_bind, key pks msgs hl hn]
    rfl
  · have hp : ∀ l, pairLoop e hash dst l ≠ Go.crash := by
      intro l
      induction l with
      | nil => intro h; cases h
      | cons p l ih =>
        obtain ⟨pk, m⟩ := p
        cases pk with
        | none => intro h; cases h
        | some pk =>
          rw [pairLoop]
          unfold Go.guard
          split
          · rw [Go.ok_bind]
            cases hx : pairLoop e hash dst l with
            | ok a => intro h; cases h
            | error f =>
              cases f with
              | error => intro h; cases h
              | panic => exact absurd hx ih
          · intro h; cases h
    unfold aggregateVerify Go.guard
    split
    · rw [Go.ok_bind]
      cases ha : aggregate sigs with
      | error f =>
        cases f with
        | error => intro h; cases h
        | panic => exact absurd ha (aggregate_ne_panic _)
      | ok a =>
        rw [Go.ok_bind]
        unfold coreAggregateVerify Go.guard
        split
        · rw [Go.ok_bind]
          split
          · rw [Go.ok_bind]
            split
            · rw [Go.ok_bind]
              cases hx : pairLoop e hash dst (pks.zip msgs) with
              | ok a => intro h; cases h
              | error f =>
                cases f with
                | error => intro h; cases h
                | panic => exact absurd hx (hp _)
            · intro h; cases h
          · intro h; cases h
        · intro h; cases h
    · intro h; cases h

/-- C103: a signature accepted for two pairs of a key and a message forces this equation between the two
hash values. -/
theorem C103_binds_key {g : G} {e : G →ₗ[F] H →ₗ[F] GT} (he : ∀ S, e g S = 0 → S = 0)
    (encP : G → Bytes) (hash : Bytes → Bytes → H) (sk sk' : F) (m m' dst : Bytes) (s : H)
    (h : augVerify g encP e hash (some (sk • g)) (some m) (some s) dst = .ok true)
    (h' : augVerify g encP e hash (some (sk' • g)) (some m') (some s) dst = .ok true) :
    sk • hash (encP (sk • g) ++ m) dst = sk' • hash (encP (sk' • g) ++ m') dst := by
  unfold augVerify at h h'
  simp only [Option.getD_some] at h h'
  rw [C73_decision he] at h h'
  obtain ⟨_, _, a, b, -, -, c⟩ := h
  obtain ⟨_, _, a', b', -, -, c'⟩ := h'
  cases a; cases b; cases a'; cases b'
  rw [← c.1 rfl, ← c'.1 rfl]

example : augSignVt (1 : Toy.K) (fun p => [UInt8.ofNat p.val])
      (fun m d => ((m ++ d).length : Toy.K)) (5 : Toy.K) none [9] = .ok 10 ∧
    augVerify (1 : Toy.K) (fun p => [UInt8.ofNat p.val]) (LinearMap.mul Toy.K Toy.K)
      (fun m d => ((m ++ d).length : Toy.K)) (some 5) (some []) (some 10) [9] = .ok true ∧
    augSign (1 : Toy.K) (fun p => [UInt8.ofNat p.val])
      (fun m d => ((m ++ d).length : Toy.K)) (5 : Toy.K) (some [7]) [9] = .ok 15 := by
  refine ⟨?_, ?_, ?_⟩ <;> decide +kernel

/-! ## C76: encodings -/

/-- C76: the encoding of a share of 32 bytes, not entirely zero, decodes to the share. -/
theorem C76_share_roundtrip (s : KeyShare) (hl : s.value.length = 32)
    (h0 : ¬ (s.identifier = 0 ∧ s.value = List.replicate 32 0)) :
    ∃ b, s.marshal = .ok b ∧ KeyShare.unmarshal b = .ok s := by
  refine ⟨s.value ++ [s.identifier], ?_, ?_⟩
  · unfold KeyShare.marshal
    rw [if_neg (by omega), hl]
    simp
  · unfold KeyShare.unmarshal
    rw [Go.guard_true (by simp [hl]), Go.ok_bind, Go.guard_true, Go.ok_bind]
    · have : (s.value ++ [s.identifier]).take 32 = s.value := by
        rw [← hl, List.take_left]
      rw [this]
      simp
    · intro h
      apply h0
      have hr : List.replicate (s.value ++ [s.identifier]).length (0 : UInt8) =
          List.replicate 32 0 ++ [0] := by
        simp [hl, List.replicate_succ']
      rw [hr] at h
      have := List.append_inj h (by simp [hl])
      exact ⟨by simpa using this.2, this.1⟩

/-- C76: `UnmarshalBinary` accepts exactly the 33-byte strings which are not entirely zero, and marshalling the
result gives the input back. -/
theorem C76_share_canonical (b : Bytes) :
    (∀ s, KeyShare.unmarshal b = .ok s → s.marshal = .ok b) ∧
    ((∃ s, KeyShare.unmarshal b = .ok s) ↔ b.length = 33 ∧ b ≠ List.replicate 33 0) := by
  constructor
  · intro s h
    unfold KeyShare.unmarshal at h
    rw [Go.guard_bind_eq_ok, Go.guard_bind_eq_ok] at h
    obtain ⟨hl, -, h⟩ := h
    cases h
    unfold KeyShare.marshal
    have ht : (b.take 32).length = 32 := by simp [hl]
    rw [if_neg (by simp only; omega)]
    simp only [ht, Nat.sub_self, List.replicate_zero, List.append_nil]
    have hb : b ≠ [] := by rintro rfl; simp at hl
    have : b.take 32 = b.dropLast := by rw [List.dropLast_eq_take, hl]
    have hld : b.getLastD 0 = b.getLast hb := by
      rw [List.getLastD_eq_getLast?, List.getLast?_eq_some_getLast hb]; rfl
    rw [this, hld, List.dropLast_append_getLast hb]
  · unfold KeyShare.unmarshal
    simp only [Go.guard_bind_eq_ok]
    constructor
    · rintro ⟨s, hl, h0, -⟩
      exact ⟨hl, by rwa [hl] at h0⟩
    · rintro ⟨hl, h0⟩
      exact ⟨_, hl, by rwa [hl], rfl⟩

/-- C76: values of other lengths: above 32 bytes `MarshalBinary` panics, below 32 bytes the decoded share is
a different one. -/
theorem C76_share_other_lengths (s : KeyShare) (hl : s.value.length ≠ 32) :
    (32 < s.value.length → s.marshal = Go.crash) ∧
    (∀ b, s.marshal = .ok b → KeyShare.unmarshal b ≠ .ok s) := by
  constructor
  · intro h
    unfold KeyShare.marshal
    rw [if_pos (by omega)]
  · intro b _ h
    unfold KeyShare.unmarshal at h
    rw [Go.guard_bind_eq_ok, Go.guard_bind_eq_ok] at h
    obtain ⟨hb, -, h⟩ := h
    apply hl
    have := congrArg (fun x : Go KeyShare => match x with
      | .ok s => s.value.length
      | .error _ => 0) h
    simp only at this
    rw [← this]
    simp [hb]

/-- C76: keys are made from a seed exactly when it has at least 32 bytes and the derived scalar does not give the
identity; the seed enters followed by a zero byte. -/
theorem C76_generate (g : G) (kdf : Bytes → F) (ikm : Bytes) (pk : G) (sk : F) :
    generateKeys g kdf ikm = .ok (pk, sk) ↔
      32 ≤ ikm.length ∧ sk = kdf (ikm ++ [0]) ∧ pk = sk • g ∧ pk ≠ 0 := by
  unfold generateKeys generate getPublicKey
  constructor
  · intro h
    obtain ⟨s, hs, h⟩ := Go.bind_eq_ok.1 h
    obtain ⟨hl, hs⟩ := Go.guard_bind_eq_ok.1 hs
    cases hs
    obtain ⟨q, hq, h⟩ := Go.bind_eq_ok.1 h
    obtain ⟨h0, hq⟩ := Go.guard_bind_eq_ok.1 hq
    cases hq
    cases h
    exact ⟨by omega, rfl, rfl, h0⟩
  · rintro ⟨hl, rfl, rfl, h0⟩
    rw [Go.guard_true (by omega), Go.ok_bind, Go.ok_bind]
    simp only
    rw [Go.guard_true h0, Go.ok_bind, Go.ok_bind]

/-- a seed of 32 bytes works, one of 31 does not -/
example : generateKeys (1 : Toy.K) (fun b => ((b.length : ℕ) : Toy.K)) (List.replicate 32 7) = .ok (33, 33) ∧
    generateKeys (1 : Toy.K) (fun b => ((b.length : ℕ) : Toy.K)) (List.replicate 31 7) = .error .error := by
  decide +kernel

/-- C76: secret keys: every non-zero key round-trips, and the accepted encodings are exactly those of the
non-zero scalars. -/
theorem C76_key_roundtrip (cd : ScalarCodec F) (hlen : ∀ x, (cd.enc x).length = 32)
    (hz : cd.enc 0 = List.replicate 32 0) (b : Bytes) (sk : F) :
    unmarshalKey cd b = .ok sk ↔ sk ≠ 0 ∧ b = marshalKey cd sk := by
  unfold unmarshalKey marshalKey
  rw [Go.guard_bind_eq_ok, Go.guard_bind_eq_ok, Go.ofOption_eq_ok]
  constructor
  · rintro ⟨hl, h0, h⟩
    have hb := cd.enc_dec b sk h
    refine ⟨?_, hb.symm⟩
    rintro rfl
    rw [hl] at h0
    exact h0 (by rw [← hb, hz])
  · rintro ⟨h0, rfl⟩
    refine ⟨hlen _, ?_, cd.dec_enc sk⟩
    rw [hlen]
    intro h
    have h1 := cd.dec_enc sk
    rw [h, ← hz, cd.dec_enc] at h1
    exact h0 (Option.some.inj h1).symm

example : (⟨7, List.replicate 31 0 ++ [5]⟩ : KeyShare).marshal = .ok (List.replicate 31 0 ++ [5, 7]) ∧
    KeyShare.unmarshal (List.replicate 31 0 ++ [5, 7]) = .ok ⟨7, List.replicate 31 0 ++ [5]⟩ ∧
    (⟨7, [5]⟩ : KeyShare).marshal = .ok ([5, 7] ++ List.replicate 31 0) ∧
    KeyShare.unmarshal ([5, 7] ++ List.replicate 31 0) = .ok ⟨0, [5, 7] ++ List.replicate 30 0⟩ := by
  refine ⟨?_, ?_, ?_, ?_⟩ <;> decide +kernel

end Verif.Bls
