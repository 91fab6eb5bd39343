import Verif.Ot.SimplestModel
import Verif.Ot.FieldProps
import Verif.Schnorr.Props
import Verif.Common.GoList
import Verif.Common.Toy
import Verif.Accum.ProofProps
import Mathlib.Tactic.Module

/-!
# Properties of the seed OT (C32, C116, C117)

Specification vocabulary: the choice of slot `i` is bit `i` of the receiver's random bytes
(`choice`), `pick w p` is the chosen component of a pair.
-/

set_option linter.unusedSectionVars false

namespace Verif.Ot

variable {F : Type} [Field F] [DecidableEq F]
variable {G : Type} [AddCommGroup G] [Module F G] [DecidableEq G]

/-! ## Specification -/

/-- choice bit of slot `i` -/
def choice (rnd : ℕ → UInt8) (i : ℕ) : Bool := (rnd (i / 8)).toNat.testBit (i % 8)

/-- component chosen by a bit -/
def pick {α : Type} (w : Bool) (p : α × α) : α := if w then p.2 else p.1

/-- all rounds of the protocol between honest parties: `b`, `k` are the scalars sampled by the sender,
`a` those of the receiver, `rnd` its random bytes -/
def honestRun (env : Env F G) (n : ℕ) (sid : Digest) (rnd : ℕ → UInt8) (b k : F) (a : ℕ → F) :
    Go (Sender F G × Receiver G) := do
  let s ← newSender n sid
  let r ← newReceiver rnd n sid
  let (pf, s) ← s.round1 env b k
  let (masked, r) ← r.round2 env a (some pf)
  let (challenge, s) ← s.round3 env masked
  let (responses, r) ← r.round4 env challenge
  let openings ← s.round5 env responses
  r.round6 env openings
  .ok (s, r)

/-- Point encodings decode (except possibly the identity) and have the same length. -/
structure PointsOk (env : Env F G) : Prop where
  dec : ∀ P, P ≠ 0 → env.pdec (env.penc P) = some P
  len : ∀ P Q, (env.penc P).length = (env.penc Q).length

/-! ## Auxiliary facts -/

theorem mapM_range_ok {β : Type} {n : ℕ} {f : ℕ → Go β} (v : ℕ → β)
    (h : ∀ i < n, f i = .ok (v i)) : (List.range n).mapM f = .ok ((List.range n).map v) := by
  rw [Go.mapM_eq_ok, List.forall₂_map_right_iff, List.forall₂_same]
  exact fun i hi => h i (List.mem_range.1 hi)

theorem mapM_range_eq_ok {β : Type} {n : ℕ} {f : ℕ → Go β} {r : List β} :
    (List.range n).mapM f = .ok r ↔
      r.length = n ∧ ∀ i < n, ∃ y, r[i]? = some y ∧ f i = .ok y := by
  rw [Go.mapM_eq_ok, List.forall₂_iff_get]
  simp only [List.length_range, List.get_eq_getElem, List.getElem_range]
  constructor
  · rintro ⟨h1, h2⟩
    exact ⟨h1.symm, fun i hi => ⟨r[i], List.getElem?_eq_getElem (by omega), h2 i hi (by omega)⟩⟩
  · rintro ⟨h1, h2⟩
    refine ⟨h1.symm, fun i hi hi' => ?_⟩
    obtain ⟨y, hy, hf⟩ := h2 i hi
    rw [List.getElem?_eq_getElem hi', Option.some.injEq] at hy
    rw [hf, hy]

theorem forM_range_eq_ok {n : ℕ} {f : ℕ → Go Unit} :
    (List.range n).forM f = .ok () ↔ ∀ i < n, f i = .ok () := by
  rw [Go.forM_eq_ok]
  simp only [List.mem_range]

theorem index_eq_ok {α : Type} {l : List α} {i : ℕ} {a : α} : index l i = .ok a ↔ l[i]? = some a := by
  unfold index
  cases l[i]? <;> simp

theorem index_map_range {α : Type} {n i : ℕ} (f : ℕ → α) (hi : i < n) :
    index ((List.range n).map f) i = .ok (f i) := by
  rw [index_eq_ok]
  simp [hi]

theorem index_crash {α : Type} {l : List α} {i : ℕ} (h : l.length ≤ i) : index l i = Go.crash := by
  unfold index
  rw [List.getElem?_eq_none h]

theorem constantTimeCopy_zero (x y : List UInt8) (h : x.length = y.length) :
    constantTimeCopy 0 x y = .ok x := by
  unfold constantTimeCopy
  rw [if_neg (by simpa using h)]
  simp only
  congr 1
  refine List.ext_getElem (by simp [h]) fun i h1 h2 => ?_
  rw [List.getElem_zipWith]
  have : ∀ a b : UInt8, (a &&& (UInt8.ofNat 0 - 1)) ||| (b &&& ~~~(UInt8.ofNat 0 - 1)) = a := by
    intro a b
    have e1 : (UInt8.ofNat 0 - 1 : UInt8) = -1 := by decide
    rw [e1]; simp
  exact this _ _

theorem constantTimeCopy_one (x y : List UInt8) (h : x.length = y.length) :
    constantTimeCopy 1 x y = .ok y := by
  unfold constantTimeCopy
  rw [if_neg (by simpa using h)]
  simp only
  congr 1
  refine List.ext_getElem (by simp [h]) fun i h1 h2 => ?_
  rw [List.getElem_zipWith]
  have : ∀ a b : UInt8, (a &&& (UInt8.ofNat 1 - 1)) ||| (b &&& ~~~(UInt8.ofNat 1 - 1)) = b := by
    intro a b
    have e1 : (UInt8.ofNat 1 - 1 : UInt8) = 0 := by decide
    rw [e1]; simp
  exact this _ _

theorem constantTimeCopy_bool (w : Bool) (x y : List UInt8) (h : x.length = y.length) :
    constantTimeCopy w.toNat x y = .ok (if w then y else x) := by
  cases w
  · exact constantTimeCopy_zero x y h
  · exact constantTimeCopy_one x y h

theorem extractBit_eq (v : List UInt8) (i : ℕ) :
    (extractBit v i).toNat = ((v.getD (i / 8) 0).toNat.testBit (i % 8)).toNat := by
  unfold extractBit
  have e7 : i &&& 0x07 = i % 8 := by
    rw [show (0x07 : ℕ) = 2 ^ 3 - 1 from rfl, Nat.and_two_pow_sub_one_eq_mod]
  have e3 : i >>> 3 = i / 8 := by rw [Nat.shiftRight_eq_div_pow]
  rw [e7, e3]
  have h := byte_shr_bit (v.getD (i / 8) 0) (i % 8) (by omega)
  refine Nat.eq_of_testBit_eq fun p => ?_
  rw [h p]
  cases hb : (v.getD (i / 8) 0).toNat.testBit (i % 8)
  · simp
  · simp only [Bool.toNat_true, Bool.and_true]
    rw [show 1 = 2 ^ 0 from rfl, Nat.testBit_two_pow]
    simp [eq_comm]

theorem batch_and (n : ℕ) : n &&& 0x07 = 0 ↔ 8 ∣ n := by
  rw [show (0x07 : ℕ) = 2 ^ 3 - 1 from rfl, Nat.and_two_pow_sub_one_eq_mod, Nat.dvd_iff_mod_eq_zero]

theorem initChoice_ok (n : ℕ) (hn : 8 ∣ n) (rnd : ℕ → UInt8) :
    initChoice n ((List.range (n >>> 3)).map rnd) =
      .ok ((List.range n).map fun i => (choice rnd i).toNat) := by
  have e3 : ∀ i : ℕ, i >>> 3 = i / 8 := fun i => by rw [Nat.shiftRight_eq_div_pow]
  unfold initChoice
  refine mapM_range_ok _ fun i hi => ?_
  have h : i / 8 < n / 8 := by omega
  rw [if_pos (by rw [e3, e3, List.length_map, List.length_range]; exact h), extractBit_eq, e3]
  congr 2
  unfold choice
  rw [List.getD_eq_getElem?_getD, List.getElem?_map, List.getElem?_range h]
  rfl

theorem ctVec_bool (w : Bool) (x y : Digest) :
    Vector.zipWith (fun a b => (a &&& (UInt8.ofNat w.toNat - 1)) |||
      (b &&& ~~~(UInt8.ofNat w.toNat - 1))) x y = if w then y else x := by
  refine Vector.ext fun i hi => ?_
  rw [Vector.getElem_zipWith]
  cases w
  · simp
  · simp

theorem xor_cancel {n : ℕ} (a b : Vector UInt8 n) : xorBytes (xorBytes a b) b = a := by
  refine vec_ext fun i hi => ?_
  rw [bitAt_xor _ _ i hi, bitAt_xor _ _ i hi]
  cases bitAt a i <;> cases bitAt b i <;> rfl

theorem xor_comm {n : ℕ} (a b : Vector UInt8 n) : xorBytes a b = xorBytes b a := by
  refine vec_ext fun i hi => ?_
  rw [bitAt_xor _ _ i hi, bitAt_xor _ _ i hi, Bool.xor_comm]

theorem xor_cancel_left {n : ℕ} (a b : Vector UInt8 n) : xorBytes a (xorBytes a b) = b := by
  rw [xor_comm a (xorBytes a b), xor_comm a b, xor_cancel]

/-! ## C32 -/

/-- salt of the random oracle calls in a session -/
def saltOf (env : Env F G) (sid : Digest) : Digest :=
  env.ext (((seedTranscript sid).extract "sender schnorr proof").extract "random oracle salts")

/-- session identifier of the Schnorr proof in a session -/
def proofSid (env : Env F G) (sid : Digest) : Digest :=
  env.ext ((seedTranscript sid).extract "sender schnorr proof")

/-- What the honest run computes: every slot's pads from the Diffie-Hellman points. -/
theorem honestRun_eq (env : Env F G) (hp : PointsOk env) (n : ℕ) (hn : 8 ∣ n) (sid : Digest)
    (rnd : ℕ → UInt8) (b k : F) (a : ℕ → F) (pf : Schnorr.Proof F G)
    (hpf : (Schnorr.newProver env.gen none (proofSid env sid).toList).prove env.shaL env.penc env.cd
      b k = .ok pf)
    (hA : ∀ i < n, a i • env.gen + (if choice rnd i then b • env.gen else 0) ≠ 0) :
    ∃ s r, honestRun env n sid rnd b k a = .ok (s, r) ∧
      r.choices = (List.range n).map (fun i => (choice rnd i).toNat) ∧
      r.packed = (List.range (n / 8)).map rnd ∧
      r.pads = (List.range n).map (fun i => padOf env (saltOf env sid) i ((a i * b) • env.gen)) ∧
      s.keys = (List.range n).map (fun i =>
        (padOf env (saltOf env sid) i (b • (a i • env.gen + if choice rnd i then b • env.gen else 0)),
         padOf env (saltOf env sid) i
          (b • (a i • env.gen + (if choice rnd i then b • env.gen else 0) - b • env.gen)))) := by
  obtain ⟨hver, hst⟩ := Schnorr.C19_complete env.shaL env.penc env.cd env.gen none _ b k pf hpf
  unfold honestRun newSender newReceiver
  rw [Go.guard_true ((batch_and n).2 hn)]
  simp only [Go.ok_bind]
  rw [initChoice_ok n hn rnd]
  simp only [Go.ok_bind]
  unfold Sender.round1
  simp only
  unfold proofSid at hpf hver
  rw [hpf]
  simp only [Go.ok_bind]
  -- round 2
  unfold Receiver.round2 deref
  simp only [Go.ok_bind]
  rw [hver]
  simp only [Go.ok_bind]
  have hst' : pf.statement = b • env.gen := hst
  rw [hst', mapM_range_ok (fun i => (env.penc (a i • env.gen + if choice rnd i then b • env.gen else 0),
    padOf env (saltOf env sid) i (a i • b • env.gen)))]
  swap
  · intro i hi
    unfold Receiver.transferOne
    simp only
    rw [index_map_range _ hi]
    simp only [Go.ok_bind]
    rw [constantTimeCopy_bool _ _ _ (hp.len _ _)]
    simp only [Go.ok_bind]
    congr 2
    cases choice rnd i <;> simp
  simp only [Go.ok_bind, List.map_map]
  -- round 3
  unfold Sender.round3 deref
  simp only [Go.ok_bind]
  have hpts : ((List.range n).map (Prod.fst ∘ fun i => (env.penc (a i • env.gen +
      if choice rnd i then b • env.gen else 0), padOf env (saltOf env sid) i (a i • b • env.gen)))).mapM
        (fun c => Go.ofOption (env.pdec c)) = .ok ((List.range n).map fun i =>
          a i • env.gen + if choice rnd i then b • env.gen else 0) := by
    rw [Go.mapM_eq_ok, List.forall₂_map_left_iff, List.forall₂_map_right_iff, List.forall₂_same]
    intro i hi
    rw [Go.ofOption_eq_ok]
    exact hp.dec _ (hA i (List.mem_range.1 hi))
  rw [hpts]
  simp only [Go.ok_bind]
  rw [mapM_range_ok (fun i =>
    let A := a i • env.gen + if choice rnd i then b • env.gen else 0
    let k0 := padOf env (saltOf env sid) i (b • A)
    let k1 := padOf env (saltOf env sid) i (b • (A + -(b • env.gen)))
    ((k0, k1), xorBytes (env.sha (env.sha k0.toList).toList) (env.sha (env.sha k1.toList).toList)))]
  swap
  · intro i hi
    unfold Sender.transferOne
    rw [index_map_range _ hi]
    rfl
  simp only [Go.ok_bind, List.map_map]
  -- the pads agree
  have hpad : ∀ i, padOf env (saltOf env sid) i (a i • b • env.gen) =
      if choice rnd i then
        padOf env (saltOf env sid) i (b • (a i • env.gen + (if choice rnd i then b • env.gen else 0) +
          -(b • env.gen)))
      else padOf env (saltOf env sid) i (b • (a i • env.gen + if choice rnd i then b • env.gen else 0)) := by
    intro i
    cases choice rnd i
    · simp only [Bool.false_eq_true, if_false, add_zero]
      rw [smul_comm]
    · simp only [if_true]
      rw [add_neg_cancel_right, smul_comm]
  -- round 4
  unfold Receiver.round4
  simp only
  rw [mapM_range_ok (fun i => env.sha (env.sha (padOf env (saltOf env sid) i
    (b • (a i • env.gen + if choice rnd i then b • env.gen else 0))).toList).toList)]
  swap
  · intro i hi
    unfold Receiver.respondOne
    simp only
    rw [index_map_range _ hi]
    simp only [Go.ok_bind]
    rw [index_map_range _ hi]
    simp only [Go.ok_bind]
    rw [index_map_range _ hi]
    simp only [Go.ok_bind, Function.comp_apply]
    rw [ctVec_bool, hpad i]
    cases choice rnd i
    · simp
    · simp only [if_true]
      rw [xor_cancel]
  simp only [Go.ok_bind]
  -- round 5
  unfold Sender.round5
  simp only
  rw [mapM_range_ok (fun i =>
    (env.sha (padOf env (saltOf env sid) i
      (b • (a i • env.gen + if choice rnd i then b • env.gen else 0))).toList,
     env.sha (padOf env (saltOf env sid) i (b • (a i • env.gen +
      (if choice rnd i then b • env.gen else 0) + -(b • env.gen)))).toList))]
  swap
  · intro i hi
    unfold Sender.openOne
    simp only
    rw [index_map_range _ hi]
    simp only [Go.ok_bind]
    rw [index_map_range _ hi]
    simp only [Go.ok_bind, Function.comp_apply]
    rw [Go.guard_true trivial]
    rfl
  simp only [Go.ok_bind]
  -- round 6
  have h6 : ∀ r : Receiver G, r.batchSize = n →
      r.choices = (List.range n).map (fun i => (choice rnd i).toNat) →
      r.pads = (List.range n).map (Prod.snd ∘ fun i => (env.penc (a i • env.gen +
        if choice rnd i then b • env.gen else 0), padOf env (saltOf env sid) i (a i • b • env.gen))) →
      r.senderChallenge = (List.range n).map (Prod.snd ∘ fun i =>
        ((padOf env (saltOf env sid) i (b • (a i • env.gen + if choice rnd i then b • env.gen else 0)),
          padOf env (saltOf env sid) i (b • (a i • env.gen +
            (if choice rnd i then b • env.gen else 0) + -(b • env.gen)))),
         xorBytes (env.sha (env.sha (padOf env (saltOf env sid) i
            (b • (a i • env.gen + if choice rnd i then b • env.gen else 0))).toList).toList)
          (env.sha (env.sha (padOf env (saltOf env sid) i (b • (a i • env.gen +
            (if choice rnd i then b • env.gen else 0) + -(b • env.gen)))).toList).toList))) →
      r.round6 env ((List.range n).map fun i =>
        (env.sha (padOf env (saltOf env sid) i
          (b • (a i • env.gen + if choice rnd i then b • env.gen else 0))).toList,
         env.sha (padOf env (saltOf env sid) i (b • (a i • env.gen +
          (if choice rnd i then b • env.gen else 0) + -(b • env.gen)))).toList)) = .ok () := by
    intro r h1 h2 h3 h4
    unfold Receiver.round6
    rw [h1, forM_range_eq_ok]
    intro i hi
    unfold Receiver.checkOne
    rw [h2, h3, h4, index_map_range _ hi]
    simp only [Go.ok_bind]
    rw [index_map_range _ hi]
    simp only [Go.ok_bind]
    rw [index_map_range _ hi]
    simp only [Go.ok_bind]
    have hw : pairIndex (env.sha (padOf env (saltOf env sid) i
          (b • (a i • env.gen + if choice rnd i then b • env.gen else 0))).toList,
         env.sha (padOf env (saltOf env sid) i (b • (a i • env.gen +
          (if choice rnd i then b • env.gen else 0) + -(b • env.gen)))).toList) (choice rnd i).toNat =
        .ok (env.sha (padOf env (saltOf env sid) i (a i • b • env.gen)).toList) := by
      rw [hpad i]
      cases choice rnd i <;> rfl
    rw [hw]
    simp only [Go.ok_bind, Function.comp_apply]
    rw [Go.guard_true trivial]
    simp only [Go.ok_bind]
    rw [index_map_range _ hi]
    simp only [Go.ok_bind, Function.comp_apply]
    rw [Go.guard_true trivial]
  rw [h6 _ rfl rfl rfl rfl]
  simp only [Go.ok_bind]
  refine ⟨_, _, rfl, rfl, ?_, ?_, ?_⟩
  · simp [Nat.shiftRight_eq_div_pow]
  · refine List.map_congr_left fun i _ => ?_
    simp only [Function.comp_apply]
    rw [smul_smul]
  · refine List.map_congr_left fun i _ => ?_
    simp only [Function.comp_apply]
    rw [sub_eq_add_neg]

/-- The honest run succeeds, all verification messages are accepted, and the receiver's pad in every
slot is the chosen one of the sender's two pads.  The receiver obtains exactly the chosen messages. -/
theorem C32_honest (env : Env F G) (hp : PointsOk env) (n : ℕ) (hn : 8 ∣ n) (sid : Digest)
    (rnd : ℕ → UInt8) (b k : F) (a : ℕ → F) (pf : Schnorr.Proof F G)
    (hpf : (Schnorr.newProver env.gen none (proofSid env sid).toList).prove env.shaL env.penc env.cd
      b k = .ok pf)
    (hA : ∀ i < n, a i • env.gen + (if choice rnd i then b • env.gen else 0) ≠ 0) :
    ∃ s r, honestRun env n sid rnd b k a = .ok (s, r) ∧ s.keys.length = n ∧ r.pads.length = n ∧
      (∀ i < n, ∃ ks, s.keys[i]? = some ks ∧ r.pads[i]? = some (pick (choice rnd i) ks)) ∧
      ∀ msgs : List (Digest × Digest), msgs.length = n →
        ∃ ct pt, s.encrypt msgs = .ok ct ∧ r.decrypt ct = .ok pt ∧ pt.length = n ∧
          ∀ i < n, ∀ m, msgs[i]? = some m → pt[i]? = some (pick (choice rnd i) m) := by
  obtain ⟨s, r, hrun, hch, -, hpads, hkeys⟩ := honestRun_eq env hp n hn sid rnd b k a pf hpf hA
  have hlk : s.keys.length = n := by rw [hkeys]; simp
  have hlp : r.pads.length = n := by rw [hpads]; simp
  have hslot : ∀ i < n, ∃ ks, s.keys[i]? = some ks ∧ r.pads[i]? = some (pick (choice rnd i) ks) := by
    intro i hi
    refine ⟨_, by rw [hkeys, List.getElem?_map, List.getElem?_range hi]; rfl, ?_⟩
    rw [hpads, List.getElem?_map, List.getElem?_range hi]
    simp only [Option.map_some, pick]
    congr 1
    cases choice rnd i
    · simp [smul_smul, mul_comm]
    · simp [smul_smul, mul_comm]
  refine ⟨s, r, hrun, hlk, hlp, hslot, ?_⟩
  intro msgs hm
  have hct : (List.zipWith (fun (k m : Digest × Digest) => (xorBytes k.1 m.1, xorBytes k.2 m.2)) s.keys msgs).length = n := by
    simp [hlk, hm]
  have hdec : ∀ i < n, ∃ y, (do
      let w ← index r.choices i
      let c ← index (List.zipWith (fun (k m : Digest × Digest) => (xorBytes k.1 m.1, xorBytes k.2 m.2)) s.keys msgs) i
      let cw ← pairIndex c w
      let pad ← index r.pads i
      (.ok (xorBytes pad cw) : Go Digest)) = .ok y ∧
      ∀ m, msgs[i]? = some m → y = pick (choice rnd i) m := by
    intro i hi
    obtain ⟨ks, h1, h2⟩ := hslot i hi
    obtain ⟨m, hmi⟩ : ∃ m, msgs[i]? = some m := ⟨_, List.getElem?_eq_getElem (by omega)⟩
    rw [hch, index_map_range _ hi]
    simp only [Go.ok_bind]
    rw [index_eq_ok.2 (by rw [List.getElem?_zipWith, h1, hmi])]
    simp only [Go.ok_bind]
    rw [index_eq_ok.2 h2]
    refine ⟨pick (choice rnd i) m, ?_, fun m' hm' => ?_⟩
    · cases choice rnd i
      · simp only [Bool.toNat_false, pairIndex, pick, Go.ok_bind]
        exact congrArg Except.ok (xor_cancel_left ks.1 m.1)
      · simp only [Bool.toNat_true, pairIndex, pick, Go.ok_bind, if_true]
        exact congrArg Except.ok (xor_cancel_left ks.2 m.2)
    · rw [hmi] at hm'
      rw [Option.some.inj hm']
  have hE : s.encrypt msgs = .ok (List.zipWith (fun (k m : Digest × Digest) => (xorBytes k.1 m.1, xorBytes k.2 m.2))
      s.keys msgs) := by
    unfold Sender.encrypt
    rw [Go.guard_true (by omega)]
    rfl
  choose! y hy using hdec
  refine ⟨_, (List.range n).map y, hE, ?_, by simp, ?_⟩
  · unfold Receiver.decrypt
    rw [Go.guard_true (by omega)]
    simp only [Go.ok_bind]
    rw [hct]
    exact mapM_range_ok y fun i hi => (hy i hi).1
  · intro i hi m hmi
    rw [List.getElem?_map, List.getElem?_range hi, Option.map_some, (hy i hi).2 m hmi]

/-! ## The verification messages, against arbitrary peers -/

/-- The sender accepts a response list iff it gives `H(H(key 0))` in every slot, and then opens the
hashes of both keys.  (Further entries of the list are ignored.) -/
theorem C32_round5_iff (env : Env F G) (s : Sender F G) (hk : s.keys.length = s.batchSize)
    (responses : List Digest) (op : List (Digest × Digest)) :
    s.round5 env responses = .ok op ↔
      op = s.keys.map (fun k => (env.sha k.1.toList, env.sha k.2.toList)) ∧
      ∀ (i : ℕ) (k : Digest × Digest), s.keys[i]? = some k → responses[i]? = some (env.sha (env.sha k.1.toList).toList) := by
  unfold Sender.round5
  rw [mapM_range_eq_ok]
  have one : ∀ (i : ℕ) (k y : Digest × Digest), s.keys[i]? = some k → (Sender.openOne env s responses i = .ok y ↔
      y = (env.sha k.1.toList, env.sha k.2.toList) ∧
        responses[i]? = some (env.sha (env.sha k.1.toList).toList)) := by
    intro i k y hki
    unfold Sender.openOne
    rw [index_eq_ok.2 hki]
    simp only [Go.ok_bind, Go.bind_eq_ok, index_eq_ok]
    constructor
    · rintro ⟨resp, hr, u, hu, h⟩
      rw [Go.guard_eq_ok.1 hu]
      exact ⟨(Except.ok.inj h).symm, hr⟩
    · rintro ⟨rfl, hr⟩
      exact ⟨_, hr, (), Go.guard_true rfl, rfl⟩
  constructor
  · rintro ⟨hl, h⟩
    constructor
    · refine List.ext_getElem? fun i => ?_
      by_cases hi : i < s.batchSize
      · obtain ⟨y, hy, hf⟩ := h i hi
        have hki : s.keys[i]? = some s.keys[i] := List.getElem?_eq_getElem (by omega)
        rw [hy, List.getElem?_map, hki, ((one i _ y hki).1 hf).1]
        rfl
      · rw [List.getElem?_eq_none (by omega), List.getElem?_eq_none (by rw [List.length_map]; omega)]
    · intro i k hki
      have hi : i < s.batchSize := by
        have := (List.getElem?_eq_some_iff.1 hki).1
        omega
      obtain ⟨y, hy, hf⟩ := h i hi
      exact ((one i _ y hki).1 hf).2
  · rintro ⟨rfl, h⟩
    refine ⟨by simp [hk], fun i hi => ?_⟩
    have hki : s.keys[i]? = some s.keys[i] := List.getElem?_eq_getElem (by omega)
    exact ⟨_, by rw [List.getElem?_map, hki]; rfl, (one i _ _ hki).2 ⟨rfl, h i _ hki⟩⟩

/-- The receiver accepts the openings iff in every slot the chosen one is the hash of its own pad and
the two open the challenge. -/
theorem C32_round6_iff (env : Env F G) (r : Receiver G) (w : ℕ → Bool)
    (hw : r.choices = (List.range r.batchSize).map fun i => (w i).toNat)
    (hp : r.pads.length = r.batchSize) (op : List (Digest × Digest)) :
    r.round6 env op = .ok () ↔
      ∀ (i : ℕ) (pad : Digest), r.pads[i]? = some pad → ∃ o, op[i]? = some o ∧ pick (w i) o = env.sha pad.toList ∧
        r.senderChallenge[i]? = some (xorBytes (env.sha o.1.toList) (env.sha o.2.toList)) := by
  unfold Receiver.round6
  rw [forM_range_eq_ok]
  have one : ∀ (i : ℕ) (pad : Digest), i < r.batchSize → r.pads[i]? = some pad →
      (Receiver.checkOne env r op i = .ok () ↔ ∃ o, op[i]? = some o ∧
        pick (w i) o = env.sha pad.toList ∧
        r.senderChallenge[i]? = some (xorBytes (env.sha o.1.toList) (env.sha o.2.toList))) := by
    intro i pad hi hpi
    have hpk : ∀ o : Digest × Digest, pairIndex o (w i).toNat = .ok (pick (w i) o) := by
      intro o; cases w i <;> rfl
    unfold Receiver.checkOne
    rw [index_eq_ok.2 hpi, hw, index_map_range _ hi]
    simp only [Go.ok_bind]
    rw [Go.bind_eq_ok]
    simp only [index_eq_ok, hpk, Go.ok_bind]
    constructor
    · rintro ⟨o, ho, h⟩
      obtain ⟨u, hu, h⟩ := Go.bind_eq_ok.1 h
      obtain ⟨xi, hxi, h⟩ := Go.bind_eq_ok.1 h
      rw [index_eq_ok] at hxi
      refine ⟨o, ho, (Go.guard_eq_ok.1 hu).symm, ?_⟩
      rw [hxi, Go.guard_eq_ok.1 h]
    · rintro ⟨o, ho, h1, h2⟩
      refine ⟨o, ho, ?_⟩
      rw [Go.guard_true h1.symm]
      simp only [Go.ok_bind]
      rw [index_eq_ok.2 h2]
      simp only [Go.ok_bind]
      exact Go.guard_true trivial
  constructor
  · intro h i pad hpi
    have hi : i < r.batchSize := by
      have := (List.getElem?_eq_some_iff.1 hpi).1
      omega
    exact (one i pad hi hpi).1 (h i hi)
  · intro h i hi
    have hpi : r.pads[i]? = some r.pads[i] := List.getElem?_eq_getElem (by omega)
    exact (one i _ hi hpi).2 (h i _ hpi)

/-- Messages with too few entries are not refused with an error: with no entries at all, every round
which indexes them panics. -/
theorem C32_short_messages_panic (env : Env F G) (n : ℕ) :
    (∀ (t : Merlin) (b : Option F) (B : G) (ks : List (Digest × Digest)),
      (⟨n + 1, t, some (b.getD 0), some B, ks⟩ : Sender F G).round3 env [] = Go.crash) ∧
    (∀ (s : Sender F G) (k : Digest × Digest), s.batchSize = n + 1 → s.keys[0]? = some k →
      s.round5 env [] = Go.crash) ∧
    (∀ (r : Receiver G) (p : Digest), r.batchSize = n + 1 → r.pads[0]? = some p →
      r.round4 env [] = Go.crash) ∧
    (∀ (r : Receiver G) (p : Digest) (w : ℕ), r.batchSize = n + 1 → r.pads[0]? = some p →
      r.choices[0]? = some w → r.round6 env [] = Go.crash) := by
  have e : List.range (n + 1) = 0 :: (List.range n).map Nat.succ := List.range_succ_eq_map
  refine ⟨?_, ?_, ?_, ?_⟩
  · intro t b B ks
    unfold Sender.round3
    simp only [e, List.mapM_cons, List.mapM_nil]
    rfl
  · intro s k hs hk
    unfold Sender.round5
    rw [hs, e, List.mapM_cons]
    unfold Sender.openOne
    rw [index_eq_ok.2 hk]
    rfl
  · intro r p hs hk
    unfold Receiver.round4
    simp only
    rw [hs, e, List.mapM_cons]
    unfold Receiver.respondOne
    simp only
    rw [index_eq_ok.2 hk]
    rfl
  · intro r p w hs hk hw
    unfold Receiver.round6
    rw [hs, e]
    have h0 : Receiver.checkOne env r [] 0 = Go.crash := by
      unfold Receiver.checkOne
      rw [index_eq_ok.2 hk, index_eq_ok.2 hw]
      rfl
    show (Receiver.checkOne env r [] 0 >>= fun _ => _) = _
    rw [h0]
    rfl

/-! ## C116: the receiver's choice -/

/-- what the receiver sends in round 2 of a fresh session -/
def round2Message (env : Env F G) (n : ℕ) (sid : Digest) (rnd : ℕ → UInt8) (a : ℕ → F)
    (pf : Option (Schnorr.Proof F G)) : Go (List (List UInt8)) := do
  let r ← newReceiver rnd n sid
  let out ← r.round2 env a pf
  .ok out.1

/-- Whatever public key and proof the sender sends, the round-2 message is independent of the choice
bits: shifting the receiver's scalars by a bijection turns the message for one choice string into the
message for any other one. -/
theorem C116_choice_hidden (env : Env F G) (hl : ∀ P Q, (env.penc P).length = (env.penc Q).length)
    (n : ℕ) (sid : Digest) (rnd rnd' : ℕ → UInt8) (pf : Schnorr.Proof F G)
    (hgen : ∃ b : F, pf.statement = b • env.gen) :
    ∃ φ : (ℕ → F) ≃ (ℕ → F), ∀ a,
      round2Message env n sid rnd a (some pf) = round2Message env n sid rnd' (φ a) (some pf) := by
  obtain ⟨b, hb⟩ := hgen
  let d : ℕ → F := fun i => (if choice rnd i then b else 0) - (if choice rnd' i then b else 0)
  refine ⟨Equiv.addRight d, fun a => ?_⟩
  unfold round2Message newReceiver
  by_cases hn : n &&& 0x07 = 0
  swap
  · rw [Go.guard_false hn]
    rfl
  have hn8 := (batch_and n).1 hn
  rw [Go.guard_true hn]
  simp only [Go.ok_bind]
  rw [initChoice_ok n hn8, initChoice_ok n hn8]
  simp only [Go.ok_bind]
  unfold Receiver.round2 deref
  simp only [Go.ok_bind]
  cases Schnorr.verify env.shaL env.penc env.cd env.gen (some pf) none
    (env.ext ((seedTranscript sid).extract "sender schnorr proof")).toList with
  | error e => rfl
  | ok u =>
    simp only [Go.ok_bind]
    have key : ∀ (rnd : ℕ → UInt8) (a : ℕ → F), (List.range n).mapM (fun i => Receiver.transferOne env
        ((List.range n).map fun i => (choice rnd i).toNat) pf.statement (env.ext
          (((seedTranscript sid).extract "sender schnorr proof").extract "random oracle salts")) (a i) i) =
        .ok ((List.range n).map fun i => (env.penc ((a i + if choice rnd i then b else 0) • env.gen),
          padOf env (env.ext (((seedTranscript sid).extract "sender schnorr proof").extract
            "random oracle salts")) i (a i • pf.statement))) := by
      intro rnd a
      refine mapM_range_ok _ fun i hi => ?_
      unfold Receiver.transferOne
      simp only
      rw [index_map_range _ hi]
      simp only [Go.ok_bind]
      rw [constantTimeCopy_bool _ _ _ (hl _ _)]
      simp only [Go.ok_bind]
      congr 2
      cases choice rnd i
      · simp
      · simp [hb, add_smul]
    rw [key, key]
    simp only [Go.ok_bind, List.map_map]
    congr 1
    refine List.map_congr_left fun i _ => ?_
    simp only [Function.comp_apply, Equiv.coe_addRight, Pi.add_apply, d]
    congr 2
    ring

/-- A sender can test a guess of a choice bit: it opens slot `i` to the hash of key 0 and an arbitrary
second value `o`.  The check of slot `i` then passes iff the choice is 0, or `o` is the hash of key 1
as the protocol prescribes. -/
theorem C116_selective_failure (env : Env F G) (r : Receiver G) (w : ℕ → Bool)
    (hw : r.choices = (List.range r.batchSize).map fun i => (w i).toNat) (i : ℕ) (hi : i < r.batchSize)
    (ks : Digest × Digest) (hp : r.pads[i]? = some (pick (w i) ks)) (o : Digest)
    (op : List (Digest × Digest)) (hop : op[i]? = some (env.sha ks.1.toList, o))
    (hxi : r.senderChallenge[i]? = some (xorBytes (env.sha (env.sha ks.1.toList).toList) (env.sha o.toList))) :
    r.checkOne env op i = .ok () ↔ w i = false ∨ o = env.sha ks.2.toList := by
  unfold Receiver.checkOne
  rw [index_eq_ok.2 hp, hw, index_map_range _ hi, index_eq_ok.2 hop]
  simp only [Go.ok_bind]
  rw [index_eq_ok.2 hxi]
  simp only [Go.ok_bind]
  cases w i
  · simp only [Bool.toNat_false, pairIndex, Go.ok_bind, pick, Bool.false_eq_true, if_false]
    rw [Go.guard_true trivial]
    simp
  · simp only [Bool.toNat_true, pairIndex, Go.ok_bind, pick, if_true]
    rw [Go.guard_bind_eq_ok]
    simp only [Bool.true_eq_false, false_or]
    exact ⟨fun h => h.1.symm, fun h => ⟨h.symm, Go.guard_true trivial⟩⟩

/-- The response of round 4 tells a sender which deviates from the challenge formula the choice bit: for
two possible choices the responses differ by `challenge ⊕ H(H(key 0)) ⊕ H(H(key 1))`. -/
theorem C116_response (env : Env F G) (r : Receiver G) (w : ℕ → Bool)
    (hw : r.choices = (List.range r.batchSize).map fun i => (w i).toNat) (i : ℕ) (hi : i < r.batchSize)
    (ks : Digest × Digest) (hp : r.pads[i]? = some (pick (w i) ks)) (xi : Digest)
    (hxi : r.senderChallenge[i]? = some xi) :
    r.respondOne env i = .ok (if w i then xorBytes xi (env.sha (env.sha ks.2.toList).toList)
      else env.sha (env.sha ks.1.toList).toList) := by
  unfold Receiver.respondOne
  rw [index_eq_ok.2 hp, hw, index_map_range _ hi, index_eq_ok.2 hxi]
  simp only [Go.ok_bind]
  rw [ctVec_bool]
  cases w i <;> rfl

/-! ## C117: separation of the slots -/

/-- The hash inputs of two slots below 256 differ whatever the points are. -/
theorem C117_slots_separated (salt : Digest) (i j : ℕ) (hi : i < 256) (hj : j < 256) (x y : List UInt8)
    (h : salt.toList ++ [UInt8.ofNat i] ++ x = salt.toList ++ [UInt8.ofNat j] ++ y) : i = j := by
  rw [List.append_assoc, List.append_assoc] at h
  have h := List.append_cancel_left h
  simp only [List.singleton_append, List.cons.injEq] at h
  have := congrArg UInt8.toNat h.1
  rwa [UInt8.toNat_ofNat', UInt8.toNat_ofNat', Nat.mod_eq_of_lt hi, Nat.mod_eq_of_lt hj] at this

/-- In a batch of more than 256 transfers the slot number wraps: a receiver which sends the same point
in the slots `i` and `i + 256` makes the sender use the same two keys in both. -/
theorem C117_slots_wrap (env : Env F G) (s s' : Sender F G) (masked : List (List UInt8))
    (ch : List Digest) (h : s.round3 env masked = .ok (ch, s')) (i : ℕ) (hi : i + 256 < s.batchSize)
    (hm : masked[i]? = masked[i + 256]?) : s'.keys[i]? = s'.keys[i + 256]? ∧
      ∃ ks, s'.keys[i]? = some ks := by
  unfold Sender.round3 at h
  obtain ⟨B, hB, h⟩ := Go.bind_eq_ok.1 h
  obtain ⟨pts, hpts, h⟩ := Go.bind_eq_ok.1 h
  obtain ⟨out, hout, h⟩ := Go.bind_eq_ok.1 h
  obtain ⟨rfl, rfl⟩ := Prod.mk.inj (Except.ok.inj h)
  rw [mapM_range_eq_ok] at hout
  rw [Go.mapM_eq_ok] at hpts
  have hpt : pts[i]? = pts[i + 256]? := by
    have hlen := hpts.length_eq
    have key : ∀ (j : ℕ) (c : List UInt8), masked[j]? = some c → pts[j]? = env.pdec c := by
      intro j c hc
      obtain ⟨hj, rfl⟩ := List.getElem?_eq_some_iff.1 hc
      have := (List.forall₂_iff_get.1 hpts).2 j hj (by omega)
      rw [Go.ofOption_eq_ok] at this
      rw [List.getElem?_eq_getElem (by omega)]
      exact this.symm
    cases hc : masked[i]? with
    | some c => rw [key i c hc, key (i + 256) c (by rw [← hm, hc])]
    | none =>
      have h1 := List.getElem?_eq_none_iff.1 hc
      rw [List.getElem?_eq_none (by omega), List.getElem?_eq_none (by omega)]
  obtain ⟨y, hy, hf⟩ := hout.2 i (by omega)
  obtain ⟨y', hy', hf'⟩ := hout.2 (i + 256) (by omega)
  have e : y = y' := by
    obtain ⟨b, hb, hf⟩ := Go.bind_eq_ok.1 hf
    obtain ⟨b', hb', hf'⟩ := Go.bind_eq_ok.1 hf'
    rw [hb] at hb'
    obtain rfl := Except.ok.inj hb'
    unfold Sender.transferOne at hf hf'
    obtain ⟨A, hA, hf⟩ := Go.bind_eq_ok.1 hf
    obtain ⟨A', hA', hf'⟩ := Go.bind_eq_ok.1 hf'
    rw [index_eq_ok] at hA hA'
    rw [hpt, hA', Option.some.injEq] at hA
    subst hA
    have hwrap : UInt8.ofNat (i + 256) = UInt8.ofNat i := by
      rw [← UInt8.toNat_inj, UInt8.toNat_ofNat', UInt8.toNat_ofNat']
      omega
    have hpad : ∀ P, padOf env (env.ext (s.transcript.extract "random oracle salts")) (i + 256) P =
        padOf env (env.ext (s.transcript.extract "random oracle salts")) i P := by
      intro P; unfold padOf; rw [hwrap]
    simp only [hpad] at hf'
    rw [hf'] at hf
    exact (Except.ok.inj hf).symm
  simp only [List.getElem?_map, hy, hy', e, Option.map_some, true_and]
  exact ⟨_, rfl⟩

/-! ## The hypotheses can be met -/

/-- toy environment: `ZMod 257` as group, a checksum as hash -/
def toyEnv : Env Toy.K Toy.K where
  gen := 1
  penc := Toy.codec.enc
  pdec := Toy.codec.dec
  sha l := Vector.ofFn fun i => if i = 31 then l.foldl (fun a b => 3 * a + b) 1 else 0
  cd := Accum.padCodec 30
  ext t := Vector.ofFn fun i => if i = 31 then UInt8.ofNat t.length else 7

theorem toyPoints : PointsOk toyEnv := ⟨fun P _ => Toy.codec.dec_enc P, fun _ _ => rfl⟩

/-- toy random bytes -/
def toyRnd : ℕ → UInt8 := fun i => UInt8.ofNat (0xA5 + i)

/-- toy session -/
def toySid : Digest := Vector.replicate 32 9

/-- `C32_honest`, `C32_round5_iff`, `C32_round6_iff`, `C116_*` -/
theorem toyProve : (Schnorr.newProver toyEnv.gen none (proofSid toyEnv toySid).toList).prove toyEnv.shaL
    toyEnv.penc toyEnv.cd (5 : Toy.K) 7 = .ok ⟨58, 40, 5⟩ := by
  decide +kernel

example : (∀ i < 8, ((i + 2 : ℕ) : Toy.K) • toyEnv.gen +
    (if choice toyRnd i then (5 : Toy.K) • toyEnv.gen else 0) ≠ 0) ∧
    (choice toyRnd 0 = true ∧ choice toyRnd 1 = false) := by
  decide +kernel

/-- the honest run on eight slots -/
theorem toyRun : ∃ s r, honestRun toyEnv 8 toySid toyRnd (5 : Toy.K) 7 (fun i => ((i + 2 : ℕ) : Toy.K)) =
    .ok (s, r) ∧ s.keys.length = 8 ∧ r.pads.length = 8 ∧
    ∀ i < 8, ∃ ks, s.keys[i]? = some ks ∧ r.pads[i]? = some (pick (choice toyRnd i) ks) := by
  obtain ⟨s, r, h1, h2, h3, h4, -⟩ := C32_honest toyEnv toyPoints 8 (by norm_num) toySid toyRnd (5 : Toy.K) 7
    (fun i => ((i + 2 : ℕ) : Toy.K)) _ toyProve (by decide +kernel)
  exact ⟨s, r, h1, h2, h3, h4⟩

/-- the third round of a sender which gets the same point in every slot -/
theorem round3_replicate (n : ℕ) : ∃ ch s', (⟨n, [], some 5, some 5, []⟩ : Sender Toy.K Toy.K).round3 toyEnv
    (List.replicate n (toyEnv.penc 3)) = .ok (ch, s') := by
  have h : (List.replicate n (toyEnv.penc 3)).mapM (fun c => Go.ofOption (toyEnv.pdec c)) =
      (.ok (List.replicate n 3) : Go (List Toy.K)) := by
    rw [Go.mapM_eq_ok, List.forall₂_iff_get]
    refine ⟨by simp, fun i h1 h2 => ?_⟩
    simp only [List.get_eq_getElem, List.getElem_replicate]
    rw [Go.ofOption_eq_ok]
    exact toyPoints.dec 3 (by decide)
  unfold Sender.round3 deref
  simp only [Go.ok_bind]
  rw [h]
  simp only [Go.ok_bind]
  rw [mapM_range_ok (fun i =>
    let k0 := padOf toyEnv (toyEnv.ext (Merlin.extract [] "random oracle salts")) i ((5 : Toy.K) • (3 : Toy.K))
    let k1 := padOf toyEnv (toyEnv.ext (Merlin.extract [] "random oracle salts")) i
      ((5 : Toy.K) • ((3 : Toy.K) + -5))
    ((k0, k1), xorBytes (toyEnv.sha (toyEnv.sha k0.toList).toList) (toyEnv.sha (toyEnv.sha k1.toList).toList)))]
  · exact ⟨_, _, rfl⟩
  · intro i hi
    unfold Sender.transferOne
    have h3 : index (List.replicate n (3 : Toy.K)) i = .ok 3 := by rw [index_eq_ok]; simp [hi]
    rw [h3]
    rfl

/-- `C117_slots_wrap` -/
example : ∃ ch s', (⟨264, [], some 5, some 5, []⟩ : Sender Toy.K Toy.K).round3 toyEnv
    (List.replicate 264 (toyEnv.penc 3)) = .ok (ch, s') := round3_replicate 264

end Verif.Ot
