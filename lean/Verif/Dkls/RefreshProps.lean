import Verif.Dkls.RefreshModel
import Verif.Dkls.DkgProps

set_option linter.unusedSectionVars false

/-!
# Key refresh: the key is preserved (C39), but a failed round cannot be repeated (C119)
-/

namespace Verif.Dkls

open Verif.Ot

variable {F G : Type} [Field F] [DecidableEq F] [AddCommGroup G] [Module F G] [DecidableEq G]

/-- everything sampled in a run of the refresh -/
structure RefRnd (F : Type) where
  aliceSeed : F
  bobSeed : F
  bits : ℕ → UInt8
  b : F
  kOt : F
  a : ℕ → F

/-- all rounds between honest parties -/
def refRun (env : Env F G) (oa : AliceOutput F G) (ob : BobOutput F G) (rnd : RefRnd F) :
    Go (AliceOutput F G × BobOutput F G) := do
  let a := (newRefAlice oa).round1 env rnd.aliceSeed
  let r2 := (newRefBob ob).round2 env rnd.aliceSeed rnd.bobSeed rnd.b rnd.kOt
  let m2 ← r2.2
  let r3 := a.round3 env m2 rnd.bits rnd.a
  let masked ← r3.2
  let (challenge, b) ← r2.1.round4 env masked
  let (responses, a) ← r3.1.round5 env challenge
  let openings ← b.round6 env responses
  a.round7 env openings
  let oa' ← a.output
  let ob' ← b.output
  .ok (oa', ob')

/-- the transcript from which the multiplier is extracted -/
def refTranscript (env : Env F G) (rnd : RefRnd F) : Merlin :=
  (((Merlin.new "Coinbase_DKLs_Refresh").append "alice refresh seed" (env.cd.enc rnd.aliceSeed)).append
    "bob refresh seed" (env.cd.enc rnd.bobSeed)).extract "secret key share multiplier"

/-- session identifier of the new seed OT -/
def refSid (env : Env F G) (rnd : RefRnd F) : Digest :=
  env.ext ((refTranscript env rnd).extract "salt for simplest OT")

/-- In a run of honest parties Bob's share is multiplied and Alice's divided by the scalar `k` extracted from the
transcript of both seeds; the product of the shares and the public keys stay the same, and the new seed OT is
correct. -/
theorem C39_honest (env : Env F G) (hp : PointsOk env) (oa : AliceOutput F G) (ob : BobOutput F G) (rnd : RefRnd F)
    (k : F) (hk : env.cd.enc k = (env.ext (refTranscript env rnd)).toList) (hk0 : k ≠ 0)
    (hO : ProofOk env (proofSid env (refSid env rnd)) rnd.b rnd.kOt) (hM : MaskedOk env rnd.bits rnd.b rnd.a) :
    ∃ a b, refRun env oa ob rnd = .ok (a, b) ∧
      a.secretKeyShare = oa.secretKeyShare / k ∧ b.secretKeyShare = ob.secretKeyShare * k ∧
      a.secretKeyShare * b.secretKeyShare = oa.secretKeyShare * ob.secretKeyShare ∧
      a.publicKey = oa.publicKey ∧ b.publicKey = ob.publicKey ∧
      SeedOk b.keys a.seed (Vector.ofFn fun i => rnd.bits i.val) := by
  obtain ⟨pO, hpO⟩ := prove_ok env _ _ _ hO
  obtain ⟨s, r, hrun, hok⟩ := C35_from_seed env hp _ rnd.bits rnd.b rnd.kOt rnd.a pO hpO hM
  unfold honestRun at hrun
  obtain ⟨s0, hs0, hrun⟩ := Go.bind_eq_ok.1 hrun
  obtain ⟨r0, hr0, hrun⟩ := Go.bind_eq_ok.1 hrun
  obtain ⟨⟨pf, s1⟩, hs1, hrun⟩ := Go.bind_eq_ok.1 hrun
  obtain ⟨⟨masked, r1⟩, hr1, hrun⟩ := Go.bind_eq_ok.1 hrun
  obtain ⟨⟨challenge, s2⟩, hs2, hrun⟩ := Go.bind_eq_ok.1 hrun
  obtain ⟨⟨responses, r2⟩, hr2, hrun⟩ := Go.bind_eq_ok.1 hrun
  obtain ⟨openings, hs3, hrun⟩ := Go.bind_eq_ok.1 hrun
  obtain ⟨u, hr3, hrun⟩ := Go.bind_eq_ok.1 hrun
  obtain ⟨rfl, rfl⟩ := Prod.mk.inj (Except.ok.inj hrun)
  have hdec : env.cd.dec (env.ext (refTranscript env rnd)).toList = some k := by rw [← hk, env.cd.dec_enc]
  have e2 : (newRefBob ob).round2 env rnd.aliceSeed rnd.bobSeed rnd.b rnd.kOt =
      (⟨some s1, ob.secretKeyShare * k, ob.publicKey, (refTranscript env rnd).extract "salt for simplest OT"⟩,
        .ok ⟨some pf, rnd.bobSeed⟩) := by
    unfold RefBob.round2 newRefBob
    simp only
    unfold refTranscript at hdec
    unfold refSid refTranscript at hs0
    rw [hdec]
    simp only
    change newSender kappa _ = _ at hs0
    rw [hs0]
    simp only
    rw [hs1]
    rfl
  have e3 : ((newRefAlice oa).round1 env rnd.aliceSeed).round3 env ⟨some pf, rnd.bobSeed⟩ rnd.bits rnd.a =
      (⟨some r1, oa.secretKeyShare * k⁻¹, oa.publicKey, (refTranscript env rnd).extract "salt for simplest OT"⟩,
        .ok masked) := by
    unfold RefAlice.round3 RefAlice.round1 newRefAlice
    simp only
    unfold refTranscript at hdec
    unfold refSid refTranscript at hr0
    rw [hdec]
    simp only
    rw [if_neg hk0]
    change newReceiver _ kappa _ = _ at hr0
    rw [hr0]
    simp only
    rw [hr1]
    rfl
  refine ⟨⟨oa.publicKey, oa.secretKeyShare * k⁻¹, ⟨r2.packed, r2.choices, r2.pads⟩⟩,
    ⟨ob.publicKey, ob.secretKeyShare * k, s2.keys⟩, ?_, (div_eq_mul_inv _ _).symm, rfl, ?_, rfl, rfl, hok⟩
  · unfold refRun
    simp only
    rw [e2]
    refine Go.bind_eq_ok.2 ⟨_, rfl, ?_⟩
    rw [e3]
    refine Go.bind_eq_ok.2 ⟨_, rfl, ?_⟩
    refine Go.bind_eq_ok.2 ⟨(challenge, ⟨some s2, _, _, _⟩),
      Go.bind_eq_ok.2 ⟨s1, rfl, Go.bind_eq_ok.2 ⟨_, hs2, rfl⟩⟩, ?_⟩
    refine Go.bind_eq_ok.2 ⟨(responses, ⟨some r2, _, _, _⟩),
      Go.bind_eq_ok.2 ⟨r1, rfl, Go.bind_eq_ok.2 ⟨_, hr2, rfl⟩⟩, ?_⟩
    refine Go.bind_eq_ok.2 ⟨openings, Go.bind_eq_ok.2 ⟨s2, rfl, hs3⟩, ?_⟩
    exact Go.bind_eq_ok.2 ⟨u, Go.bind_eq_ok.2 ⟨r2, rfl, hr3⟩, rfl⟩
  · show oa.secretKeyShare * k⁻¹ * (ob.secretKeyShare * k) = _
    field_simp

/-- If the extracted multiplier is zero, Alice gets an error and Bob's share becomes zero. -/
theorem C39_zero_multiplier (env : Env F G) (oa : AliceOutput F G) (ob : BobOutput F G) (rnd : RefRnd F)
    (hk : env.cd.enc 0 = (env.ext (refTranscript env rnd)).toList) (pf : Option (Schnorr.Proof F G)) :
    (((newRefAlice oa).round1 env rnd.aliceSeed).round3 env ⟨pf, rnd.bobSeed⟩ rnd.bits rnd.a).2 = Go.err ∧
    (((newRefAlice oa).round1 env rnd.aliceSeed).round3 env ⟨pf, rnd.bobSeed⟩ rnd.bits rnd.a).1.secretKeyShare =
      oa.secretKeyShare ∧
    ((newRefBob ob).round2 env rnd.aliceSeed rnd.bobSeed rnd.b rnd.kOt).1.secretKeyShare = 0 := by
  have hdec : env.cd.dec (env.ext (refTranscript env rnd)).toList = some 0 := by rw [← hk, env.cd.dec_enc]
  unfold refTranscript at hdec
  have e3 : ((newRefAlice oa).round1 env rnd.aliceSeed).round3 env ⟨pf, rnd.bobSeed⟩ rnd.bits rnd.a =
      (⟨none, oa.secretKeyShare, oa.publicKey, refTranscript env rnd⟩, Go.err) := by
    unfold RefAlice.round3 RefAlice.round1 newRefAlice
    simp only
    rw [hdec]
    simp only
    rw [if_pos trivial]
    rfl
  refine ⟨by rw [e3], by rw [e3], ?_⟩
  unfold RefBob.round2 newRefBob
  simp only
  rw [hdec]
  simp only
  cases newSender (F := F) (G := G) kappa _ with
  | error e => exact mul_zero _
  | ok s =>
    simp only
    cases Sender.round1 env s rnd.b rnd.kOt with
    | error e => exact mul_zero _
    | ok p => exact mul_zero _

/-! ## Repeating a failed round -/

theorem newReceiver_ok (rnd : ℕ → UInt8) (sid : Digest) :
    ∃ r : Receiver G, newReceiver rnd kappa sid = .ok r ∧ r.batchSize = kappa ∧ r.transcript = seedTranscript sid ∧
      r.choices = (List.range kappa).map fun i => (choice rnd i).toNat := by
  have h8 : 8 ∣ kappa := ⟨32, rfl⟩
  refine ⟨_, Go.bind_eq_ok.2 ⟨_, Go.guard_true ((batch_and kappa).2 h8),
      Go.bind_eq_ok.2 ⟨_, initChoice_ok kappa h8 rnd, rfl⟩⟩, rfl, rfl, rfl⟩

/-- the transcript of Alice after the extraction of the multiplier -/
def multTranscript (env : Env F G) (a : RefAlice F G) (m : RefRound2 F G) : Merlin :=
  (a.transcript.append "bob refresh seed" (env.cd.enc m.bobMultiplier)).extract "secret key share multiplier"

/-- Alice's third round once a nonzero multiplier `k` was extracted: whether it succeeds or not, her share is
divided by `k` and her transcript is extended; it succeeds exactly if the proof is valid for the seed OT. -/
theorem C119_share (env : Env F G) (hlen : ∀ P Q, (env.penc P).length = (env.penc Q).length) (a : RefAlice F G) (m : RefRound2 F G) (rnd : ℕ → UInt8) (x : ℕ → F) (k : F)
    (hk : env.cd.enc k = (env.ext (multTranscript env a m)).toList) (hk0 : k ≠ 0) :
    (a.round3 env m rnd x).1.secretKeyShare = a.secretKeyShare / k ∧
    (a.round3 env m rnd x).1.transcript = (multTranscript env a m).extract "salt for simplest OT" ∧
    ((a.round3 env m rnd x).2.isOk ↔ ∃ pf, m.proof = some pf ∧
      Schnorr.Valid env.shaL env.penc env.cd env.gen
        (proofSid env (env.ext ((multTranscript env a m).extract "salt for simplest OT"))).toList pf) := by
  have hdec : env.cd.dec (env.ext (multTranscript env a m)).toList = some k := by rw [← hk, env.cd.dec_enc]
  obtain ⟨r, hr, hrn, hrt, hrc⟩ := newReceiver_ok (G := G) rnd (env.ext ((multTranscript env a m).extract "salt for simplest OT"))
  have e : a.round3 env m rnd x =
      (match r.round2 env x m.proof with
        | .error e => ({ a with secretKeyShare := a.secretKeyShare * k⁻¹, transcript :=
            (multTranscript env a m).extract "salt for simplest OT", receiver := some r }, .error e)
        | .ok (out, receiver) => ({ a with secretKeyShare := a.secretKeyShare * k⁻¹, transcript :=
            (multTranscript env a m).extract "salt for simplest OT", receiver := some receiver }, .ok out)) := by
    unfold RefAlice.round3
    simp only
    unfold multTranscript at hdec hr
    rw [hdec]
    simp only
    rw [if_neg hk0, hr]
    rfl
  rw [e]
  have key : (∃ p, r.round2 env x m.proof = .ok p) ↔ ∃ pf, m.proof = some pf ∧
      Schnorr.Valid env.shaL env.penc env.cd env.gen
        (proofSid env (env.ext ((multTranscript env a m).extract "salt for simplest OT"))).toList pf := by
    constructor
    · rintro ⟨p, h⟩
      unfold Receiver.round2 at h
      obtain ⟨pf, hpf, h⟩ := Go.bind_eq_ok.1 h
      obtain ⟨u, hu, -⟩ := Go.bind_eq_ok.1 h
      have hpf : m.proof = some pf := by
        cases hm : m.proof with
        | none => rw [hm] at hpf; cases hpf
        | some q => rw [hm] at hpf; rw [Except.ok.inj hpf]
      refine ⟨pf, hpf, ?_⟩
      rw [hpf, hrt] at hu
      exact (Schnorr.C20_verify_iff _ _ _ _ _ none _).1.1 hu
    · rintro ⟨pf, hpf, hv⟩
      have hv := (Schnorr.C20_verify_iff _ _ _ env.gen _ none _).1.2 hv
      unfold Receiver.round2
      rw [hpf, hrt, hrn, hrc]
      refine ⟨_, Go.bind_eq_ok.2 ⟨pf, rfl, Go.bind_eq_ok.2 ⟨(), hv, Go.bind_eq_ok.2 ⟨_, mapM_range_ok
        (fun i => (if choice rnd i then env.penc (x i • env.gen + pf.statement) else env.penc (x i • env.gen),
          padOf env (saltOf env (env.ext ((multTranscript env a m).extract "salt for simplest OT"))) i
            (x i • pf.statement))) ?_, rfl⟩⟩⟩⟩
      intro i hi
      unfold Receiver.transferOne
      exact Go.bind_eq_ok.2 ⟨_, index_map_range _ hi,
        Go.bind_eq_ok.2 ⟨_, constantTimeCopy_bool _ _ _ (hlen _ _), rfl⟩⟩
  rw [← key]
  cases h : r.round2 env x m.proof with
  | error e => exact ⟨(div_eq_mul_inv _ _).symm, rfl, ⟨fun h => absurd h (by simp [Except.isOk, Except.toBool]),
      fun ⟨p, hp⟩ => by cases hp⟩⟩
  | ok p => exact ⟨(div_eq_mul_inv _ _).symm, rfl, fun _ => ⟨p, rfl⟩, fun _ => rfl⟩

/-- If Alice's third round fails in the seed OT and is repeated with another message, her share is divided by
both multipliers, the second of which is extracted from a different transcript than Bob's.  With Bob's share
multiplied by `k`, the shares belong to the old key exactly if `k = k₁·k₂`. -/
theorem C119_retry (env : Env F G) (hlen : ∀ P Q, (env.penc P).length = (env.penc Q).length) (a : RefAlice F G) (m1 m2 : RefRound2 F G) (rnd rnd' : ℕ → UInt8) (x x' : ℕ → F)
    (k1 k2 k skB : F) (h1 : env.cd.enc k1 = (env.ext (multTranscript env a m1)).toList) (h10 : k1 ≠ 0)
    (h2 : env.cd.enc k2 = (env.ext (multTranscript env (a.round3 env m1 rnd x).1 m2)).toList) (h20 : k2 ≠ 0)
    (hA : a.secretKeyShare ≠ 0) (hB : skB ≠ 0) :
    let a2 := (a.round3 env m1 rnd x).1.round3 env m2 rnd' x'
    a2.1.secretKeyShare = a.secretKeyShare / (k1 * k2) ∧
      (a2.1.secretKeyShare * (skB * k) = a.secretKeyShare * skB ↔ k = k1 * k2) := by
  intro a2
  have e1 := (C119_share env hlen a m1 rnd x k1 h1 h10).1
  have e2 := (C119_share env hlen _ m2 rnd' x' k2 h2 h20).1
  have e : a2.1.secretKeyShare = a.secretKeyShare / (k1 * k2) := by
    show ((a.round3 env m1 rnd x).1.round3 env m2 rnd' x').1.secretKeyShare = _
    rw [e2, e1, div_div]
  refine ⟨e, ?_⟩
  rw [e]
  constructor
  · intro h
    field_simp at h
    exact h
  · rintro rfl
    field_simp

/-- A message which Alice accepts in her first attempt is not accepted when she repeats the round after a failed
attempt, unless there is a collision of the transcripts or the hash.  So one bad message ends the protocol. -/
theorem C119_resend_rejected (env : Env F G) {L : ℕ} (hp : Schnorr.GoodPoints env.penc L) (a : RefAlice F G)
    (m1 m : RefRound2 F G)
    (rnd rnd' rnd'' : ℕ → UInt8) (x x' x'' : ℕ → F) (k1 k k2 : F)
    (h1 : env.cd.enc k1 = (env.ext (multTranscript env a m1)).toList) (h10 : k1 ≠ 0)
    (h : env.cd.enc k = (env.ext (multTranscript env a m)).toList) (h0 : k ≠ 0)
    (h2 : env.cd.enc k2 = (env.ext (multTranscript env (a.round3 env m1 rnd x).1 m)).toList) (h20 : k2 ≠ 0)
    (hok : (a.round3 env m rnd' x').2.isOk)
    (hok2 : ((a.round3 env m1 rnd x).1.round3 env m rnd'' x'').2.isOk) :
    let T := (multTranscript env a m).extract "salt for simplest OT"
    let T' := (multTranscript env (a.round3 env m1 rnd x).1 m).extract "salt for simplest OT"
    (T ≠ T' ∧ env.ext T = env.ext T') ∨
    (env.ext T ≠ env.ext T' ∧ proofSid env (env.ext T) = proofSid env (env.ext T')) ∨
    ∃ pf R, m.proof = some pf ∧ Schnorr.OpensTo env.gen pf R ∧
      Schnorr.Collide env.shaL
        ((proofSid env (env.ext T)).toList ++ env.penc env.gen ++ env.penc pf.statement ++ env.penc R)
        ((proofSid env (env.ext T')).toList ++ env.penc env.gen ++ env.penc pf.statement ++ env.penc R) := by
  intro T T'
  have hlen : ∀ P Q, (env.penc P).length = (env.penc Q).length := fun P Q => by rw [hp.len, hp.len]
  obtain ⟨-, ht1, -⟩ := C119_share env hlen a m1 rnd x k1 h1 h10
  obtain ⟨pf, hm, R, hR, hv⟩ := (C119_share env hlen a m rnd' x' k h h0).2.2.1 hok
  obtain ⟨pf', hm', R', hR', hv'⟩ := (C119_share env hlen _ m rnd'' x'' k2 h2 h20).2.2.1 hok2
  obtain rfl : pf = pf' := Option.some.inj (hm.symm.trans hm')
  have hv : Schnorr.verify env.shaL env.penc env.cd env.gen (some pf) none _ = .ok () :=
    (Schnorr.C20_verify_iff _ _ _ _ _ none _).1.2 ⟨R, hR, hv⟩
  have hv' : Schnorr.verify env.shaL env.penc env.cd env.gen (some pf) none _ = .ok () :=
    (Schnorr.C20_verify_iff _ _ _ _ _ none _).1.2 ⟨R', hR', hv'⟩
  rcases Schnorr.C20_transcript_binding env.shaL env.penc hp env.cd env.gen none none _ _ pf pf R R' hv hv' hR hR' rfl
    with ⟨hs, -⟩ | hc
  · have hs : proofSid env (env.ext T) = proofSid env (env.ext T') := Vector.toList_inj.1 hs
    by_cases he : env.ext T = env.ext T'
    · refine Or.inl ⟨fun hc => ?_, he⟩
      have : T.length = T'.length := congrArg List.length hc
      unfold T T' multTranscript at this
      rw [ht1] at this
      unfold multTranscript Merlin.extract Merlin.append at this
      simp only [List.length_append, List.length_cons, List.length_nil] at this
      omega
    · exact Or.inr (Or.inl ⟨he, hs⟩)
  · refine Or.inr (Or.inr ⟨pf, R, hm, hR, ?_⟩)
    have : R = R' := (Schnorr.opensTo_iff.1 hR).trans (Schnorr.opensTo_iff.1 hR').symm
    rw [← this] at hc
    exact hc

/-! ## The hypotheses can be met -/

/-- a toy run -/
def toyRef : RefRnd Toy.K where
  aliceSeed := 3
  bobSeed := 4
  bits := toyRnd
  b := 5
  kOt := 22
  a _ := 1

theorem toyS_ext_ne (t : Merlin) : ∃ k, toySEnv.cd.enc k = (toySEnv.toEnv.ext t).toList ∧ k ≠ 0 := by
  refine ⟨if t.length % 2 = 0 then 7 else 11, ?_, by split <;> decide⟩
  show toySEnv.toMEnv.cd.enc _ = (toySEnv.toMEnv.ext t).toList
  rw [toyS_env]
  show toyKEnv.cd.enc _ = (toyMEnv.ext t).toList
  unfold toyMEnv
  simp only
  rw [getD_ofFn _ (toyK_len _)]

/-- `C39_honest`: the refresh of toy outputs succeeds -/
example (oa : AliceOutput Toy.K Toy.K) (ob : BobOutput Toy.K Toy.K) : ∃ a b,
    refRun toySEnv.toEnv oa ob toyRef = .ok (a, b) ∧
      a.secretKeyShare * b.secretKeyShare = oa.secretKeyShare * ob.secretKeyShare := by
  obtain ⟨k, hk, hk0⟩ := toyS_ext_ne (refTranscript toySEnv.toEnv toyRef)
  obtain ⟨a, b, h, -, -, h2, -⟩ := C39_honest toySEnv.toEnv toyS_points oa ob toyRef k hk hk0 (toyTotal.proofOk _ _ _) (toy_masked _)
  exact ⟨a, b, h, h2⟩

theorem toyS_good : Schnorr.GoodPoints toySEnv.toEnv.penc 33 where
  inj P Q h := by
    by_cases hP : P = 0
    · by_cases hQ : Q = 0
      · rw [hP, hQ]
      · subst hP
        revert Q
        show ∀ Q : Toy.K, ¬ Q = 0 → toySEnv.penc 0 = toySEnv.penc Q → 0 = Q
        decide +kernel
    · by_cases hQ : Q = 0
      · subst hQ
        revert P
        show ∀ P : Toy.K, ¬ P = 0 → toySEnv.penc P = toySEnv.penc 0 → P = 0
        decide +kernel
      · exact Option.some.inj ((toyS_points.dec P hP).symm.trans ((congrArg _ h).trans (toyS_points.dec Q hQ)))
  len P := by
    show ((Accum.padCodec 30).enc _).length + 1 = 33
    rw [show ((Accum.padCodec 30).enc _).length = 32 from toyK_len _]

/-- `C119_share`, `C119_retry`: the multipliers exist -/
example (a : RefAlice Toy.K Toy.K) (m1 m2 : RefRound2 Toy.K Toy.K) (rnd : ℕ → UInt8) (x : ℕ → Toy.K) : ∃ k1 k2,
    toySEnv.toEnv.cd.enc k1 = (toySEnv.toEnv.ext (multTranscript toySEnv.toEnv a m1)).toList ∧ k1 ≠ 0 ∧
    toySEnv.toEnv.cd.enc k2 =
      (toySEnv.toEnv.ext (multTranscript toySEnv.toEnv (a.round3 toySEnv.toEnv m1 rnd x).1 m2)).toList ∧ k2 ≠ 0 := by
  obtain ⟨k1, h1, h1'⟩ := toyS_ext_ne (multTranscript toySEnv.toEnv a m1)
  obtain ⟨k2, h2, h2'⟩ := toyS_ext_ne (multTranscript toySEnv.toEnv (a.round3 toySEnv.toEnv m1 rnd x).1 m2)
  exact ⟨k1, k2, h1, h1', h2, h2'⟩

theorem toyS_proofSid (s s' : Digest) : proofSid toySEnv.toEnv s = proofSid toySEnv.toEnv s' := by
  have : ∀ t t' : Merlin, t.length = t'.length → toySEnv.toMEnv.ext t = toySEnv.toMEnv.ext t' := by
    rw [toyS_env]
    unfold toyMEnv
    intro t t' h
    simp only
    rw [h]
  exact this _ _ rfl

/-- `C119_resend_rejected`: with the colliding toy functions a resent message is accepted -/
example (a : RefAlice Toy.K Toy.K) (m1 : RefRound2 Toy.K Toy.K) (rnd : ℕ → UInt8) (x : ℕ → Toy.K) :
    ∃ m : RefRound2 Toy.K Toy.K, (a.round3 toySEnv.toEnv m rnd x).2.isOk ∧
      ((a.round3 toySEnv.toEnv m1 rnd x).1.round3 toySEnv.toEnv m rnd x).2.isOk := by
  obtain ⟨pf, hpf⟩ := prove_ok toySEnv.toEnv (proofSid toySEnv.toEnv (Vector.replicate 32 0)) 5 22
    (toyTotal.proofOk _ _ _)
  have hv := (Schnorr.C20_verify_iff _ _ _ _ _ none _).1.1 (Schnorr.C19_complete _ _ _ _ _ _ _ _ _ hpf).1
  refine ⟨⟨some pf, 4⟩, ?_, ?_⟩
  · obtain ⟨k, h, h'⟩ := toyS_ext_ne (multTranscript toySEnv.toEnv a ⟨some pf, 4⟩)
    refine (C119_share toySEnv.toEnv toyS_points.len a ⟨some pf, 4⟩ rnd x k h h').2.2.2 ⟨pf, rfl, ?_⟩
    rw [toyS_proofSid _ (Vector.replicate 32 0)]
    exact hv
  · obtain ⟨k, h, h'⟩ := toyS_ext_ne (multTranscript toySEnv.toEnv (a.round3 toySEnv.toEnv m1 rnd x).1 ⟨some pf, 4⟩)
    refine (C119_share toySEnv.toEnv toyS_points.len _ ⟨some pf, 4⟩ rnd x k h h').2.2.2 ⟨pf, rfl, ?_⟩
    rw [toyS_proofSid _ (Vector.replicate 32 0)]
    exact hv

end Verif.Dkls
