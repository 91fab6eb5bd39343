import Verif.Gg20.CheckProps
import Verif.Gg20.DkgExamples

/-! # Concrete cases: signing after the GG20 key generation -/

set_option linter.unusedSectionVars false
set_option exponentiation.threshold 2000

namespace Verif.Gg20

/-- The result of a call that succeeds. -/
def okOr {α : Type} (x : Go α) (d : α) : α :=
  match x with
  | .ok a => a
  | .error _ => d

theorem okOr_spec {α : Type} {x : Go α} (d : α) (h : x.isOk = true) : x = .ok (okOr x d) := by
  cases x with
  | ok a => rfl
  | error e => cases h

/-! ## Key generation, then signing by 1 and 3 -/

example : ∃ (res : UInt32 → DkgResult (ZMod 257)) (s0 : ℕ → Signer (ZMod 257))
    (τ : Run toyDkgEnv.toEnv {1, 3} s0 toyRnd (fun _ _ => (toyRndM, toyRndM))
      (fun _ _ => ⟨-2 ^ 265, 7, 12, 3⟩) [200] (fun _ => toyOrd)) (σ : Sig),
    (res 1).y = 108 ∧ τ.sig 1 = σ ∧ τ.sig 3 = σ ∧ 0 ≤ σ.s ∧ σ.s ≤ 128 := by
  have hv : ∀ i ∈ parts 3, Visits (parts 3) i [3, 1, 2] := fun i _ =>
    toyDkg_visits _ (by decide) mem_321
  obtain ⟨_, _, _, _, _, _, _, res, _, _, _, _, h⟩ := C49_honest_run toyDkg_setup
    (fun _ => [3, 1, 2]) (fun _ => [3, 1, 2]) (fun _ => [3, 1, 2]) (fun _ => [3, 1, 2]) hv hv hv hv
  have hS : ∀ j ∈ ({1, 3} : Finset ℕ), j = 1 ∨ j = 3 := by simp
  have hrnd : ∀ i : UInt32, (((toyDkgRnd i).p : ℕ) : ℤ) = (1060009 : ℕ) ∧
      (((toyDkgRnd i).q : ℕ) : ℤ) = (1060019 : ℕ) := fun _ => ⟨rfl, rfl⟩
  obtain ⟨s0, τ, σ, -, h1, h2, -⟩ := C49_then_sign (q := 257) (by norm_num) toyDkg_env
    (by decide +kernel) (by decide +kernel) (by intro m; simp [toyDkgEnv]) (t := 2) (n := 3)
    (by decide) (rndK := toyDkgRnd) (res := res) (fun i hi => toyDkg_good hi)
    (fun i hi => ⟨(h i hi).1, (h i hi).2.1, (h i hi).2.2.2.1⟩) (S := {1, 3})
    (by intro j hj; rcases hS j hj with rfl | rfl <;> decide) (by decide)
    (by intro i _; rw [(hrnd i).1, (hrnd i).2]; norm_num)
    (fun _ => .dkg [(1, dkgParams (toyDkgRnd 1)), (3, dkgParams (toyDkgRnd 3))])
    (fun _ _ => ⟨rfl, fun j hj => by rcases hS j hj with rfl | rfl <;> rfl⟩)
    (fun _ => [(1, ((res 1).xi : ZMod 257) • toyDkgEnv.gen),
      (3, ((res 3).xi : ZMod 257) • toyDkgEnv.gen)])
    (fun _ => [(1, (res 1).sk.pk), (3, (res 3).sk.pk)])
    (by intro _ _ j hj; rcases hS j hj with rfl | rfl <;> rfl)
    (by intro _ _ j hj _; rcases hS j hj with rfl | rfl <;> rfl)
    (fun _ => [3, 1, 3]) (by intro _ _ j; simp; tauto) toyRnd (fun _ _ => (toyRndM, toyRndM))
    (fun _ _ => ⟨-2 ^ 265, 7, 12, 3⟩) [200] (fun _ => toyOrd)
    (by
      intro i hi
      rw [(hrnd _).1, (hrnd _).2]
      rcases hS i hi with rfl | rfl <;>
      exact ⟨by norm_num [toyRnd], by norm_num [toyRnd], by norm_num [toyRnd],
        by rw [Int.isCoprime_iff_gcd_eq_one]; decide +kernel,
        fun _ => by norm_num [toyRnd]⟩)
    (by
      intro i hi j hj
      rw [(hrnd _).1, (hrnd _).2]
      have : GoodRndM 257 ((1060009 : ℕ) * (1060019 : ℕ) : ℤ) toyRndM :=
        ⟨by norm_num [toyRndM], by norm_num [toyRndM],
          by rw [Int.isCoprime_iff_gcd_eq_one]; decide +kernel, by norm_num [toyRndM],
          by norm_num [toyRndM]⟩
      exact ⟨this, this⟩)
    (by intro _ _ _; norm_num)
    (by intro _ i hi; rcases hS i hi with rfl | rfl <;> simp [toyOrd] <;> omega)
    (by decide +kernel) (by decide +kernel) (by decide +kernel)
  refine ⟨res, s0, τ, σ, ?_, h1 1 (by simp), h1 3 (by simp), h2.1, ?_⟩
  · rw [(h 1 (mem_parts3.2 (.inl rfl))).1]
    decide +kernel
  · exact h2.2

/-! ## Round 3 accepts a share for another identifier, and is sound nevertheless -/

example {sk : Paillier.SecretKey}
    (h : Paillier.newSecretKey (some 1060009) (some 1060019) = .ok sk) :
    ∃ (s' : Dkg 257 (ZMod 257)) (r : List (List (ZMod 257) × ZMod 257)), r.length = 2 ∧
      s'.xi = ((18 + 1 + (r.map (·.2)).sum).cast : ℤ) ∧ s'.xi = 81 := by
  obtain ⟨s', proof, h1, h2⟩ := C123_share_of_other_id_accepted (q := 257) (fuel := 14) (t := 2)
    (n := 3) (rnd := toyDkgRnd) toyDkg_env (by decide) (by decide) (by decide) (i := 1) (m := 2)
    (mem_parts3.2 (.inl rfl)) (mem_parts3.2 (.inr (.inl rfl))) (by decide) 3 (by decide)
    (fun j hj => toyDkg_good hj) toyDkg_setup.key (toyDkg_psf (mem_parts3.2 (.inl rfl)) _)
    (toyAt3_at h) (toyAt3_own sk) visits_23 visits_23
  obtain ⟨_, _, own, r, ho, hr, hx, _⟩ := C123_round3_sound h1
  have hown : own = ⟨1, polyAt 2 (toyDkgRnd 1) ((1 : UInt32).toNat : ZMod 257)⟩ :=
    Option.some.inj (ho.symm.trans (toyAt3_own sk))
  have hid : (toyAt3 sk).id = 1 := rfl
  refine ⟨s', r, ?_, ?_, ?_⟩
  · rw [← hr.length_eq, hid]
    simp only [List.map_cons, List.map_nil, List.filter_cons, List.filter_nil]
    decide
  · have hp : polyAt 2 (toyDkgRnd 1) ((1 : UInt32).toNat : ZMod 257) = 18 + 1 := by decide +kernel
    rw [hx, hown, hp]
  · rw [h2.xi]
    decide +kernel

/-! ## The published shares

The environment has a constant hash, so that there is a collision and the wrong share passes. -/

/-- A hash whose value is always 1. -/
def collEnv : DkgEnv 257 (ZMod 257) :=
  { toyDkgEnv with kdf := fun _ => List.replicate 31 0 ++ [1] }

theorem collEnv_good : GoodEnv collEnv where
  gen := toyDkg_env.gen
  sizePos := toyDkg_env.sizePos
  encLen := toyDkg_env.encLen
  decEnc := toyDkg_env.decEnc
  hmacLen := toyDkg_env.hmacLen

/-- The public shares which the key generation publishes. -/
def collShares : List (ℕ × ZMod 257) :=
  [(1, published 2 (parts 3) toyDkgRnd 1 * 3), (3, published 2 (parts 3) toyDkgRnd 3 * 3)]

/-- Parameters for both signers. -/
def collKg : KeyGen := .dkg [(1, toyD), (3, toyD)]

/-- Randomness of round 1. -/
def collRnd : Rnd1 := ⟨20, 30, [1, 2], 5, fun _ => ⟨5, 7, 12, 3⟩⟩

/-- Randomness of round 2. -/
def collRndM : RndM := ⟨100, 7, ⟨5, 7, 11, 12, 3, 5, 6⟩⟩

/-- The signer `i`. -/
def collSigner (kg : KeyGen) (i : ℕ) : Signer (ZMod 257) :=
  okOr (newSigner i (jointAt 2 (parts 3) toyDkgRnd (i : ZMod 257)) toySk 108 kg collShares
    [(1, toySk.pk), (3, toySk.pk)] [1, 3]) (toySigner 0)

/-- The signer `i` after round 1, with its messages. -/
def coll1 (kg : KeyGen) (i : ℕ) : Signer (ZMod 257) × Bcast1 × List (ℕ × Proof1) :=
  okOr (round1 collEnv.toEnv (collSigner kg i) collRnd) (toySigner 0, ⟨[], none, none⟩, [])

/-- What `i` gets from the other signer `j` in round 2. -/
def coll2in (kg : KeyGen) (i j : ℕ) : List (ℕ × Option Bcast1) × List (ℕ × Option Proof1) :=
  ([(j, some (coll1 kg j).2.1)], [(j, (coll1 kg j).2.2.lookup i)])

/-- The signer `i` after round 2. -/
def coll2 (i j : ℕ) : Signer (ZMod 257) × List (ℕ × P2P) :=
  okOr (round2 collEnv.toEnv (coll1 collKg i).1 (coll2in collKg i j).1 (coll2in collKg i j).2
    fun _ => (collRndM, collRndM)) (toySigner 0, [])

/-- The message from 3 to 1. -/
def collMsg : P2P := ((coll2 3 1).2.lookup 1).getD ⟨none, none⟩

/-- The signer 1 after round 3. -/
def coll3 : Signer (ZMod 257) × ℤ :=
  okOr (round3 collEnv.toEnv (coll2 1 3).1 [(3, some collMsg)]) (toySigner 0, 0)

theorem collSigner_ok : newSigner 1 (jointAt 2 (parts 3) toyDkgRnd ((1 : ℕ) : ZMod 257)) toySk 108
      collKg collShares [(1, toySk.pk), (3, toySk.pk)] [1, 3] = .ok (collSigner collKg 1) ∧
    newSigner 3 (jointAt 2 (parts 3) toyDkgRnd ((3 : ℕ) : ZMod 257)) toySk 108
      collKg collShares [(1, toySk.pk), (3, toySk.pk)] [1, 3] = .ok (collSigner collKg 3) := by
  unfold collSigner
  exact ⟨okOr_spec _ (by decide +kernel), okOr_spec _ (by decide +kernel)⟩

theorem coll1_ok : round1 collEnv.toEnv (collSigner collKg 1) collRnd = .ok (coll1 collKg 1) ∧
    round1 collEnv.toEnv (collSigner collKg 3) collRnd = .ok (coll1 collKg 3) := by
  unfold coll1
  exact ⟨okOr_spec _ (by decide +kernel), okOr_spec _ (by decide +kernel)⟩

theorem coll2_ok : round2 collEnv.toEnv (coll1 collKg 1).1 (coll2in collKg 1 3).1
      (coll2in collKg 1 3).2 (fun _ => (collRndM, collRndM)) = .ok (coll2 1 3) ∧
    round2 collEnv.toEnv (coll1 collKg 3).1 (coll2in collKg 3 1).1 (coll2in collKg 3 1).2
      (fun _ => (collRndM, collRndM)) = .ok (coll2 3 1) := by
  unfold coll2
  exact ⟨okOr_spec _ (by decide +kernel), okOr_spec _ (by decide +kernel)⟩

theorem coll3_ok : round3 collEnv.toEnv (coll2 1 3).1 [(3, some collMsg)] = .ok coll3 := by
  unfold coll3
  exact okOr_spec _ (by decide +kernel)

theorem collMsg_mem : (1, collMsg) ∈ (coll2 3 1).2 := by
  have h : ((coll2 3 1).2.lookup 1).isSome = true := by decide +kernel
  unfold collMsg
  generalize (coll2 3 1).2 = l at *
  induction l with
  | nil => simp at h
  | cons e l ih =>
    obtain ⟨k, v⟩ := e
    rw [List.lookup_cons] at h ⊢
    by_cases hk : (1 == k) = true
    · rw [hk] at h ⊢
      obtain rfl : 1 = k := by simpa using hk
      simp
    · rw [Bool.not_eq_true] at hk
      rw [hk] at h ⊢
      exact List.mem_cons_of_mem _ (ih h)

section
attribute [local irreducible] coll1 coll2 coll3 collSigner collMsg coll2in

/-- Signer 1 gets through round 3 although the published share of 3 is wrong: the constant hash
collides on the inputs named by the theorem. -/
example : ∃ B pf, collMsg.proof3 = some pf ∧ Unnoticed collEnv.toCurve pf.proof B 5 := by
  have hS : ∀ j ∈ ({1, 3} : Finset ℕ), j = 1 ∨ j = 3 := by simp
  have hne : published 2 (parts 3) toyDkgRnd 3 ≠
      jointAt 2 (parts 3) toyDkgRnd ((3 : ℕ) : ZMod 257) := by decide +kernel
  have hlook : ∀ k ∈ ({1, 3} : Finset ℕ), collShares.lookup k =
      some (published 2 (parts 3) toyDkgRnd k • collEnv.gen) := by
    intro k hk; rcases hS k hk with rfl | rfl <;> rfl
  refine (C125_published_shares_break_signing (q := 257) (by norm_num) collEnv_good
    (by decide +kernel : Function.Injective collEnv.xy) (t := 2) (A := parts 3) (rndK := toyDkgRnd)
    (S := {1, 3}) (by intro j hj; rcases hS j hj with rfl | rfl <;> norm_num) (by decide)
    (i := 1) (j := 3) (by simp) (by simp) (by norm_num) (y := 108) (kgi := collKg) (kgj := collKg)
    (ski := toySk) (skj := toySk) (pksi := [(1, toySk.pk), (3, toySk.pk)])
    (pksj := [(1, toySk.pk), (3, toySk.pk)]) (cosi := [1, 3]) (cosj := [1, 3])
    (by intro k; simp) (by intro k; simp) hlook hlook
    (by intro k hk _; rcases hS k hk with rfl | rfl <;> rfl)
    (by intro k hk _; rcases hS k hk with rfl | rfl <;> rfl)
    (N := 323) (by norm_num) (by rfl)
    (by
      intro D hD
      obtain rfl : toyD = D := Option.some.inj hD
      decide)
    collSigner_ok.1 collSigner_ok.2
    (ri := collRnd) (rj := collRnd) (bi := (coll1 collKg 1).2.1) (bj := (coll1 collKg 3).2.1)
    (pi := (coll1 collKg 1).2.2) (pj := (coll1 collKg 3).2.2) (si1 := (coll1 collKg 1).1)
    (sj1 := (coll1 collKg 3).1) (si2 := (coll2 1 3).1) (sj2 := (coll2 3 1).1)
    (oi := (coll2 1 3).2) (oj := (coll2 3 1).2) (si3 := coll3.1) (delta := coll3.2)
    coll1_ok.1 coll1_ok.2 coll2_ok.1 coll2_ok.2
    (msg := collMsg) collMsg_mem (inp := [(3, some collMsg)]) (by simp) coll3_ok).resolve_left hne

end

/-! ## The parameters as the key generation returns them -/

example : ∃ (s : Signer (ZMod 257)) (b : Bcast1) (pi : Proof1),
    s.keygen.params s.id = none ∧
    round2 collEnv.toEnv s [(3, some b)] [(3, some pi)] (fun _ => (collRndM, collRndM)) =
      Go.crash := by
  have hpi : ((coll1 collKg 3).2.2.lookup 1).isSome = true := by decide +kernel
  obtain ⟨pi, hpi⟩ := Option.isSome_iff_exists.1 hpi
  refine ⟨(coll1 (.dkg [(3, toyD)]) 1).1, (coll1 collKg 3).2.1, pi, ?_, ?_⟩
  · decide +kernel
  · refine C130_own_params_missing_panics (B := ((coll1 (.dkg [(3, toyD)]) 1).1.pub.lookup 1).getD 0)
      ?_ ?_ ?_ ?_ ?_ rfl ?_ (pk := toySk.pk) ?_ (pi := pi) rfl (D := toyD) ?_
    · decide +kernel
    · show verifyP2PMap _ 2 [3] = _
      decide +kernel
    · decide +kernel
    · decide +kernel
    · decide +kernel
    · decide +kernel
    · decide +kernel
    · have h : ∀ p, (coll1 collKg 3).2.2.lookup 1 = some p →
          verify1 collEnv.toCurve toySk.pk toyD (coll1 collKg 3).2.1.Ctxt p = .ok () := by
        have h2 : (((coll1 collKg 3).2.2.lookup 1).all fun p =>
            (verify1 collEnv.toCurve toySk.pk toyD (coll1 collKg 3).2.1.Ctxt p).isOk) = true := by
          decide +kernel
        intro p hp
        rw [hp] at h2
        exact okOr_spec () h2
      exact h pi hpi

/-- What the key generation of participant 1 returns has no entry for 1. -/
example (res : DkgResult (ZMod 257)) (pk : UInt32 → Paillier.PublicKey) (D : UInt32 → Dealer)
    (h : ∀ j, res.data.lookup j = dataOf 3 1 pk D j) :
    (KeyGen.dkg (res.data.map fun e => (e.1.toNat, e.2.2))).params 1 = none :=
  C130_result_lacks_own h

end Verif.Gg20
