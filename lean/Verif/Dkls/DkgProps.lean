import Verif.Dkls.DkgModel
import Verif.Dkls.SignProps

set_option linter.unusedSectionVars false

/-!
# Key generation: both parties get the same key, and the output is good for signing (C40)
-/

namespace Verif.Dkls

open Verif.Ot

variable {F G : Type} [Field F] [DecidableEq F] [AddCommGroup G] [Module F G] [DecidableEq G]

/-- everything sampled in a run of the key generation -/
structure DkgRnd (F : Type) where
  bobSeed : Digest
  aliceSeed : Digest
  /-- choice bits of the seed OT -/
  bits : ℕ → UInt8
  skA : F
  /-- nonces of the Schnorr proofs of the parties and of the seed OT -/
  kA : F
  skB : F
  kB : F
  b : F
  kOt : F
  /-- scalars of the receiver of the seed OT -/
  a : ℕ → F

/-- all rounds of key generation between honest parties -/
def dkgRun (env : Env F G) (rnd : DkgRnd F) : Go (AliceOutput F G × BobOutput F G) := do
  let tB := dkgRound1 rnd.bobSeed
  let (m2, a) ← dkgRound2 env rnd.bobSeed rnd.aliceSeed rnd.bits rnd.skA rnd.kA
  let (pB, b) ← dkgRound3 env tB m2 rnd.skB rnd.kB
  let (pA, a) ← a.round4 env (some pB)
  let (pO, b) ← b.round5 env (some pA) rnd.b rnd.kOt
  let (masked, a) ← a.round6 env rnd.a (some pO)
  let (challenge, b) ← b.round7 env masked
  let (responses, a) ← a.round8 env challenge
  let openings ← b.round9 env responses
  a.round10 env openings
  .ok (a.output, b.output)

/-- the common transcript after the seeds were exchanged -/
def dkgTranscript (rnd : DkgRnd F) : Merlin :=
  ((Merlin.new "Coinbase_DKLs_DKG").append "session_id_bob" rnd.bobSeed.toList).append "session_id_alice"
    rnd.aliceSeed.toList

/-- session identifiers of the seed OT and of the proofs of Alice and Bob -/
def dkgSid (env : Env F G) (rnd : DkgRnd F) : Digest × Digest × Digest :=
  let t0 := (dkgTranscript rnd).extract "salt for simplest OT"
  let t1 := t0.extract "salt for alice schnorr"
  let t2 := t1.extract "salt for bob schnorr"
  (env.ext t0, env.ext t1, env.ext t2)

/-- the digest of a Schnorr proof of `x` with nonce `k` encodes a scalar -/
def ProofOk (env : Env F G) (sid : Digest) (x k : F) : Prop :=
  ∃ c, env.cd.enc c = env.shaL (sid.toList ++ env.penc env.gen ++ env.penc (x • env.gen) ++ env.penc (k • env.gen))

/-- no masked choice is the point at infinity -/
def MaskedOk (env : Env F G) (bits : ℕ → UInt8) (b : F) (a : ℕ → F) : Prop :=
  ∀ i < 256, a i • env.gen + (if choice bits i then b • env.gen else 0) ≠ 0

theorem prove_ok (env : Env F G) (sid : Digest) (x k : F) (h : ProofOk env sid x k) :
    ∃ pf, (Schnorr.newProver env.gen none sid.toList).prove env.shaL env.penc env.cd x k = .ok pf :=
  (Schnorr.C19_prove_decision _ _ _ _ _ _ _ _).1.2 h

/-- In a run of honest parties both output the public key `skA·skB·G` and their shares, and the seed OT is
correct: Alice has the key chosen by each of her bits. -/
theorem C40_honest (env : Env F G) (hp : PointsOk env) (rnd : DkgRnd F)
    (hA : ProofOk env (dkgSid env rnd).2.1 rnd.skA rnd.kA) (hB : ProofOk env (dkgSid env rnd).2.2 rnd.skB rnd.kB)
    (hO : ProofOk env (proofSid env (dkgSid env rnd).1) rnd.b rnd.kOt) (hM : MaskedOk env rnd.bits rnd.b rnd.a) :
    ∃ a b, dkgRun env rnd = .ok (a, b) ∧
      a.publicKey = some ((rnd.skA * rnd.skB) • env.gen) ∧ b.publicKey = some ((rnd.skA * rnd.skB) • env.gen) ∧
      a.secretKeyShare = rnd.skA ∧ b.secretKeyShare = rnd.skB ∧
      SeedOk b.keys a.seed (Vector.ofFn fun i => rnd.bits i.val) := by
  obtain ⟨pA, hpA⟩ := prove_ok env _ _ _ hA
  obtain ⟨pB, hpB⟩ := prove_ok env _ _ _ hB
  obtain ⟨pO, hpO⟩ := prove_ok env _ _ _ hO
  obtain ⟨s, r, hrun, hok⟩ := C35_from_seed env hp _ rnd.bits rnd.b rnd.kOt rnd.a pO hpO hM
  obtain ⟨hvA, hsA⟩ := Schnorr.C19_complete _ _ _ _ _ _ _ _ _ hpA
  obtain ⟨hvB, hsB⟩ := Schnorr.C19_complete _ _ _ _ _ _ _ _ _ hpB
  unfold dkgSid at hpA hpB hvA hvB hrun
  unfold dkgTranscript at hpA hpB hvA hvB hrun
  simp only at hpA hpB hvA hvB hrun
  unfold honestRun at hrun
  obtain ⟨s0, hs0, hrun⟩ := Go.bind_eq_ok.1 hrun
  obtain ⟨r0, hr0, hrun⟩ := Go.bind_eq_ok.1 hrun
  obtain ⟨⟨pf, s1⟩, hs1, hrun⟩ := Go.bind_eq_ok.1 hrun
  obtain ⟨⟨masked, r1⟩, hr1, hrun⟩ := Go.bind_eq_ok.1 hrun
  obtain ⟨⟨challenge, s2⟩, hs2, hrun⟩ := Go.bind_eq_ok.1 hrun
  obtain ⟨⟨responses, r2⟩, hr2, hrun⟩ := Go.bind_eq_ok.1 hrun
  obtain ⟨openings, hs3, hrun⟩ := Go.bind_eq_ok.1 hrun
  obtain ⟨u, hr3, hrun⟩ := Go.bind_eq_ok.1 hrun
  obtain ⟨rfl, rfl⟩ := Prod.mk.inj (Except.ok.inj hrun)
  have hcom : (Schnorr.newProver env.gen none (env.ext ((((((Merlin.new "Coinbase_DKLs_DKG").append "session_id_bob"
      rnd.bobSeed.toList).append "session_id_alice" rnd.aliceSeed.toList).extract "salt for simplest OT").extract
      "salt for alice schnorr"))).toList).proveCommit env.shaL env.penc env.cd rnd.skA rnd.kA =
        .ok (pA, Schnorr.commitment env.shaL env.cd pA) := by
    unfold Schnorr.Prover.proveCommit
    exact Go.bind_eq_ok.2 ⟨_, hpA, rfl⟩
  have hdec := Schnorr.C21_complete _ _ _ _ _ _ _ _ _ _ hcom
  refine ⟨⟨some (rnd.skA • pB.statement), rnd.skA, ⟨r2.packed, r2.choices, r2.pads⟩⟩,
    ⟨some (rnd.skB • pA.statement), rnd.skB, s2.keys⟩, ?_, ?_, ?_, rfl, rfl, hok⟩
  · unfold dkgRun
    refine Go.bind_eq_ok.2 ⟨(⟨rnd.aliceSeed, Schnorr.commitment env.shaL env.cd pA⟩,
      ⟨r0, rnd.skA, pA, none, _⟩), Go.bind_eq_ok.2 ⟨r0, hr0, Go.bind_eq_ok.2 ⟨_, hcom, rfl⟩⟩, ?_⟩
    refine Go.bind_eq_ok.2 ⟨(pB, ⟨s0, rnd.skB, none, Schnorr.commitment env.shaL env.cd pA, _, _⟩),
      Go.bind_eq_ok.2 ⟨s0, hs0, Go.bind_eq_ok.2 ⟨_, hpB, rfl⟩⟩, ?_⟩
    refine Go.bind_eq_ok.2 ⟨(pA, ⟨r0, rnd.skA, pA, some (rnd.skA • pB.statement), _⟩),
      Go.bind_eq_ok.2 ⟨_, hvB, Go.bind_eq_ok.2 ⟨pB, rfl, rfl⟩⟩, ?_⟩
    refine Go.bind_eq_ok.2 ⟨(pf, ⟨s1, rnd.skB, some (rnd.skB • pA.statement), _, _, _⟩),
      Go.bind_eq_ok.2 ⟨_, hdec, Go.bind_eq_ok.2 ⟨pA, rfl, Go.bind_eq_ok.2 ⟨_, hs1, rfl⟩⟩⟩, ?_⟩
    refine Go.bind_eq_ok.2 ⟨(masked, ⟨r1, _, _, _, _⟩), Go.bind_eq_ok.2 ⟨_, hr1, rfl⟩, ?_⟩
    refine Go.bind_eq_ok.2 ⟨(challenge, ⟨s2, _, _, _, _, _⟩), Go.bind_eq_ok.2 ⟨_, hs2, rfl⟩, ?_⟩
    refine Go.bind_eq_ok.2 ⟨(responses, ⟨r2, _, _, _, _⟩), Go.bind_eq_ok.2 ⟨_, hr2, rfl⟩, ?_⟩
    refine Go.bind_eq_ok.2 ⟨openings, hs3, ?_⟩
    exact Go.bind_eq_ok.2 ⟨u, hr3, rfl⟩
  · show some (rnd.skA • pB.statement) = _
    rw [hsB, Option.getD_none, smul_smul]
  · show some (rnd.skB • pA.statement) = _
    rw [hsA, Option.getD_none, smul_smul, mul_comm]

/-- Alice accepts Bob's proof exactly if it is valid for the session; her key is then her share times Bob's
statement. -/
theorem C40_alice_accepts (env : Env F G) (a : DkgAlice F G) (pf pA : Schnorr.Proof F G) (a' : DkgAlice F G) :
    a.round4 env (some pf) = .ok (pA, a') ↔
      Schnorr.Valid env.shaL env.penc env.cd env.gen
        (env.ext (a.transcript.extract "salt for bob schnorr")).toList pf ∧
      pA = a.proof ∧ a' = { a with publicKey := some (a.secretKeyShare • pf.statement),
                                   transcript := a.transcript.extract "salt for bob schnorr" } := by
  unfold DkgAlice.round4
  rw [Go.bind_eq_ok]
  constructor
  · rintro ⟨u, hu, h⟩
    obtain ⟨rfl, rfl⟩ := Prod.mk.inj (Except.ok.inj h)
    exact ⟨(Schnorr.C20_verify_iff _ _ _ _ _ none _).1.1 hu, rfl, rfl⟩
  · rintro ⟨h, rfl, rfl⟩
    exact ⟨(), (Schnorr.C20_verify_iff _ _ _ _ _ none _).1.2 h, rfl⟩

/-- Bob goes on only if Alice's proof matches the commitment of her first message and is valid for the session;
his key is then his share times Alice's statement. -/
theorem C40_bob_accepts (env : Env F G) (s : DkgBob F G) (pf pO : Schnorr.Proof F G) (b k : F) (s' : DkgBob F G)
    (h : s.round5 env (some pf) b k = .ok (pO, s')) :
    s.aliceCommitment = env.shaL (env.cd.enc pf.C ++ env.cd.enc pf.S) ∧
      Schnorr.Valid env.shaL env.penc env.cd env.gen s.aliceSalt.toList pf ∧
      s'.publicKey = some (s.secretKeyShare • pf.statement) ∧ s'.secretKeyShare = s.secretKeyShare := by
  unfold DkgBob.round5 at h
  obtain ⟨u, hu, h⟩ := Go.bind_eq_ok.1 h
  obtain ⟨pf', hp, h⟩ := Go.bind_eq_ok.1 h
  obtain ⟨⟨o, x⟩, hx, h⟩ := Go.bind_eq_ok.1 h
  obtain ⟨rfl, rfl⟩ := Prod.mk.inj (Except.ok.inj h)
  obtain rfl := Except.ok.inj hp
  obtain ⟨h1, h2⟩ := (Schnorr.C21_decommit_iff _ _ _ _ _ _ none _).1.1 hu
  exact ⟨h1, h2, rfl, rfl⟩

/-- Neither party checks that the other's statement is not the point at infinity: if Bob uses the share zero,
Alice accepts his proof and her public key is the point at infinity for every share of hers. -/
theorem C40_zero_share (env : Env F G) (a : DkgAlice F G) (k : F) (pf : Schnorr.Proof F G)
    (h : (Schnorr.newProver env.gen none (env.ext (a.transcript.extract "salt for bob schnorr")).toList).prove
      env.shaL env.penc env.cd 0 k = .ok pf) :
    ∃ a', a.round4 env (some pf) = .ok (a.proof, a') ∧ a'.publicKey = some 0 := by
  obtain ⟨h1, h2⟩ := Schnorr.C19_complete _ _ _ _ _ _ _ _ _ h
  refine ⟨_, (C40_alice_accepts env a pf _ _).2 ⟨(Schnorr.C20_verify_iff _ _ _ _ _ none _).1.1 h1, rfl, rfl⟩, ?_⟩
  show some _ = _
  rw [h2, zero_smul, smul_zero]

/-- The dealer's outputs are as those of the key generation. -/
theorem C40_dealer (gen : G) (skA skB : F) (rnd : ℕ → UInt8) (k : ℕ → Digest × Digest) :
    ∃ a b, generateAndDeal gen skA skB rnd k = .ok (a, b) ∧
      a.publicKey = some ((skA * skB) • gen) ∧ b.publicKey = some ((skA * skB) • gen) ∧
      a.secretKeyShare = skA ∧ b.secretKeyShare = skB ∧
      SeedOk b.keys a.seed (Vector.ofFn fun i => rnd i.val) := by
  have h8 : 8 ∣ kappa := ⟨32, rfl⟩
  have hb : ∀ i < 256, bitAt (Vector.ofFn (fun i : Fin 32 => rnd i.val)) i = choice rnd i := by
    intro i hi
    rw [bitAt_eq _ _ (by omega), Vector.getElem_ofFn]
    rfl
  refine ⟨⟨some ((skA * skB) • gen), skA, ⟨(List.range (kappa >>> 3)).map rnd,
    (List.range kappa).map fun i => (choice rnd i).toNat, (List.range kappa).map fun i => pick (choice rnd i) (k i)⟩⟩,
    ⟨some ((skA * skB) • gen), skB, (List.range kappa).map k⟩, ?_, rfl, rfl, rfl, rfl, ?_, ?_, ?_⟩
  · unfold generateAndDeal newReceiver
    refine Go.bind_eq_ok.2 ⟨_, Go.bind_eq_ok.2 ⟨_, Go.guard_true ((batch_and kappa).2 h8),
      Go.bind_eq_ok.2 ⟨_, initChoice_ok kappa h8 rnd, rfl⟩⟩, Go.bind_eq_ok.2 ⟨_, ?_, rfl⟩⟩
    refine mapM_range_ok _ fun i hi => Go.bind_eq_ok.2 ⟨_, index_map_range _ hi, ?_⟩
    cases choice rnd i <;> rfl
  · show (List.range (kappa >>> 3)).map rnd = _
    refine List.ext_getElem (by simp [kappa]) fun i h1 h2 => ?_
    simp
  · intro i hi
    simp only
    rw [hb i hi, List.getElem?_map, List.getElem?_range (by exact hi)]
    rfl
  · intro i hi
    refine ⟨k i, ?_, ?_⟩
    · show ((List.range kappa).map k)[i]? = _
      rw [List.getElem?_map, List.getElem?_range (by exact hi)]
      rfl
    · simp only
      rw [hb i hi, List.getElem?_map, List.getElem?_range (by exact hi)]
      rfl

theorem Total.proofOk {env : SEnv F G} (ht : Total env) (sid : Digest) (x k : F) : ProofOk env.toEnv sid x k := by
  obtain ⟨c, hc⟩ := ht.sha (sid.toList ++ env.penc env.gen ++ env.penc (x • env.gen) ++ env.penc (k • env.gen))
  exact ⟨c, env.cd.enc_dec _ _ hc⟩

/-- Key generation followed by signing: with honest parties and digests which encode scalars, Bob obtains a
valid signature of the message under the public key both parties got from the key generation (or an error in
the case `r = 0` or `s = 0`). -/
theorem C40_then_sign (env : SEnv F G) (hc : OrderCodec env.cd env.q) (ha : AffineOk env) (ht : Total env)
    (hp : PointsOk env.toEnv) (rnd : DkgRnd F) (hM : MaskedOk env.toEnv rnd.bits rnd.b rnd.a)
    (pre message : List UInt8) (aliceSeed bobSeed : Digest) (kB : F) (hkB : kB ≠ 0) (rndB : MulRnd)
    (rndA : AliceRnd F) (hnonce : AliceNonceOk env rndA kB) :
    ∃ a b pk, dkgRun env.toEnv rnd = .ok (a, b) ∧ a.publicKey = some pk ∧ b.publicKey = some pk ∧
      pk = (rnd.skA * rnd.skB) • env.gen ∧
      ∃ m2 b2 m3, (newBob b.keys b.secretKeyShare pk pre).round2 env aliceSeed bobSeed kB rndB = .ok (m2, b2) ∧
        ((newAlice a.seed a.secretKeyShare pk pre).round1 aliceSeed).round3 env message m2 rndA = .ok m3 ∧
        ∃ kA r h : F, kA ≠ 0 ∧ env.cd.dec ((env.penc ((kA * kB) • env.gen)).drop 1) = some r ∧
          env.cd.dec (env.hash (pre ++ message)) = some h ∧
          (r ≠ 0 → h + r * (rnd.skA * rnd.skB) ≠ 0 → ∃ sig, b2.round4 env message m3 = .ok sig ∧
            EcdsaValid F env.q env.gen pk env.xcoord (beNat (env.hash (pre ++ message))) sig.R sig.S) := by
  have hpr := ht.proofOk
  obtain ⟨a, b, hrun, hpa, hpb, hska, hskb, hok⟩ := C40_honest env.toEnv hp rnd (hpr _ _ _) (hpr _ _ _) (hpr _ _ _) hM
  refine ⟨a, b, (rnd.skA * rnd.skB) • env.gen, hrun, hpa, hpb, rfl, ?_⟩
  rw [hska, hskb]
  obtain ⟨m2, b2, h2, h3⟩ := C37_rounds_succeed env hc ha ht _ _ _ hok rnd.skA rnd.skB pre message aliceSeed bobSeed kB
    hkB rndB
  obtain ⟨m3, h3⟩ := h3 rndA hnonce
  refine ⟨m2, b2, m3, h2, h3, ?_⟩
  obtain ⟨kA, r, h, h4, h5, h6, h7, -, sig, -, -, -, -, hv⟩ := C37_honest env hc ha _ _ _ hok rnd.skA rnd.skB pre message
    aliceSeed bobSeed kB rndB rndA m2 b2 m3 h2 h3
  exact ⟨kA, r, h, h4, h6, h7, fun hr hs =>
    ⟨sig, (hv hr (div_ne_zero hs (mul_ne_zero h4 h5))).1, (hv hr (div_ne_zero hs (mul_ne_zero h4 h5))).2.1⟩⟩

/-! ## The hypotheses can be met -/

theorem toyS_points : PointsOk toySEnv.toEnv where
  dec P _ := by
    show toySEnv.pdec (toySEnv.penc P) = some P
    unfold toySEnv
    simp only [List.drop_succ_cons, List.drop_zero, List.headD_cons]
    rw [(Accum.padCodec 30).dec_enc]
    revert P
    decide +kernel
  len P Q := by
    show ((Accum.padCodec 30).enc _).length + 1 = ((Accum.padCodec 30).enc _).length + 1
    rw [show ((Accum.padCodec 30).enc _).length = 32 from toyK_len _,
      show ((Accum.padCodec 30).enc _).length = 32 from toyK_len _]

/-- a toy run -/
def toyDkg : DkgRnd Toy.K where
  bobSeed := Vector.replicate 32 1
  aliceSeed := Vector.replicate 32 2
  bits := toyRnd
  skA := 6
  kA := 20
  skB := 7
  kB := 21
  b := 5
  kOt := 22
  a _ := 1

theorem toy_masked (bits : ℕ → UInt8) : MaskedOk toySEnv.toEnv bits 5 (fun _ => 1) := by
  have h : ∀ w : Bool, (1 : Toy.K) • toySEnv.toEnv.gen + (if w then (5 : Toy.K) • toySEnv.toEnv.gen else 0) ≠ 0 := by
    decide +kernel
  exact fun i _ => h _

/-- `C40_then_sign`, `C40_honest` -/
example (pre message : List UInt8) (aliceSeed bobSeed : Digest) (rndB : MulRnd) :
    ∃ a b pk, dkgRun toySEnv.toEnv toyDkg = .ok (a, b) ∧ a.publicKey = some pk ∧ b.publicKey = some pk ∧
      ∃ m2 b2 m3, (newBob b.keys b.secretKeyShare pk pre).round2 toySEnv aliceSeed bobSeed 3 rndB = .ok (m2, b2) ∧
        ((newAlice a.seed a.secretKeyShare pk pre).round1 aliceSeed).round3 toySEnv message m2 ⟨1, 10, 11, 12, 13⟩ =
          .ok m3 := by
  obtain ⟨a, b, pk, h1, h2, h3, -, m2, b2, m3, h4, h5, -⟩ := C40_then_sign toySEnv toyOrder toyAffine toyTotal
    toyS_points toyDkg (toy_masked _) pre message aliceSeed bobSeed 3 (by decide) rndB _ toy_R
  exact ⟨a, b, pk, h1, h2, h3, m2, b2, m3, h4, h5⟩

/-- `C40_zero_share`: a proof for the share zero exists -/
example : ∃ pf, (Schnorr.newProver toyEnv.gen none (toyEnv.ext (Merlin.extract [] "salt for bob schnorr")).toList).prove
    toyEnv.shaL toyEnv.penc toyEnv.cd (0 : Toy.K) 7 = .ok pf ∧ pf.statement = 0 := by
  have : ∃ c, (Schnorr.newProver toyEnv.gen none (toyEnv.ext (Merlin.extract [] "salt for bob schnorr")).toList).prove
      toyEnv.shaL toyEnv.penc toyEnv.cd (0 : Toy.K) 7 = .ok ⟨c, 7, 0⟩ := by
    decide +kernel
  obtain ⟨c, h⟩ := this
  exact ⟨_, h, rfl⟩

end Verif.Dkls
