import Verif.Bbs.Props
import Verif.Dkg.GennaroLemmas

/-!
# Properties of BBS+ proofs of knowledge and of misuse of the blind signing API (C70, C96, C98)
-/

set_option linter.unusedSectionVars false

namespace Verif.Bbs

open SigCommon

variable {F : Type} [Field F] [DecidableEq F]
variable {G1 G2 GT : Type} [AddCommGroup G1] [Module F G1] [DecidableEq G1]
  [AddCommGroup G2] [Module F G2] [DecidableEq G2] [AddCommGroup GT] [Module F GT] [DecidableEq GT]

/-- revealed messages with their positions, the map a verifier is given -/
def revealedFrom : ℤ → List (ProofMsg F) → List (ℤ × F)
  | _, [] => []
  | i, .revealed m :: rest => (i, m) :: revealedFrom (i + 1) rest
  | i, .hidden _ _ :: rest => revealedFrom (i + 1) rest

theorem revealedFrom_ge (msgs : List (ProofMsg F)) (k : ℤ) : ∀ m ∈ revealedFrom k msgs, k ≤ m.1 := by
  induction msgs generalizing k with
  | nil => simp [revealedFrom]
  | cons m ms ih =>
    cases m with
    | revealed m =>
      rw [revealedFrom]
      intro e he
      rcases List.mem_cons.1 he with rfl | he
      · exact le_refl _
      · exact (by omega : k ≤ k + 1).trans (ih _ e he)
    | hidden m b =>
      rw [revealedFrom]
      exact fun e he => (by omega : k ≤ k + 1).trans (ih _ e he)

theorem revealedFrom_lt (msgs : List (ProofMsg F)) (k : ℤ) :
    ∀ m ∈ revealedFrom k msgs, m.1 < k + msgs.length := by
  induction msgs generalizing k with
  | nil => simp [revealedFrom]
  | cons m ms ih =>
    intro e he
    rw [List.length_cons]
    cases m with
    | revealed m =>
      rw [revealedFrom] at he
      rcases List.mem_cons.1 he with rfl | he
      · simp only; push_cast; omega
      · have := ih _ e he; push_cast; omega
    | hidden m b =>
      rw [revealedFrom] at he
      have := ih _ e he; push_cast; omega

theorem hidden_filter (msgs : List (ProofMsg F)) (k : ℕ) :
    ((List.range' k msgs.length).filter fun i : ℕ => ¬ (i : ℤ) ∈ (revealedFrom k msgs).map Prod.fst) =
      (hiddenFrom k msgs).map fun m => m.1.toNat := by
  induction msgs generalizing k with
  | nil => rfl
  | cons m ms ih =>
    rw [List.length_cons, List.range'_succ]
    have hk : ((k : ℤ) + 1) = ((k + 1 : ℕ) : ℤ) := by push_cast; ring
    have ih' := ih (k + 1)
    cases m with
    | revealed m =>
      rw [revealedFrom, hiddenFrom, hk, ← ih', List.map_cons, List.filter_cons_of_neg (by simp)]
      refine List.filter_congr fun i hi => ?_
      have : k + 1 ≤ i := (List.mem_range'_1.1 hi).1
      have hne : (i : ℤ) ≠ k := by omega
      simp [hne]
    | hidden m b =>
      rw [revealedFrom, hiddenFrom, hk, List.map_cons, ← ih', List.filter_cons_of_pos]
      · simp
      · simp only [List.mem_map, decide_eq_true_eq, not_exists, not_and]
        intro e he heq
        have := revealedFrom_ge ms _ e he
        push_cast at this
        omega

theorem msgs_sum (msgs : List (ProofMsg F)) (k : ℤ) : (msgs.map ProofMsg.msg).sum =
    ((revealedFrom k msgs).map Prod.snd).sum + ((hiddenFrom k msgs).map fun m => m.2.1).sum := by
  induction msgs generalizing k with
  | nil => simp [revealedFrom, hiddenFrom]
  | cons m ms ih =>
    cases m with
    | revealed m =>
      simp only [revealedFrom, hiddenFrom, List.map_cons, List.sum_cons, ProofMsg.msg, ih (k + 1)]
      ring
    | hidden m b =>
      simp only [revealedFrom, hiddenFrom, List.map_cons, List.sum_cons, ProofMsg.msg, ih (k + 1)]
      ring

theorem hiddenFrom_idx (msgs : List (ProofMsg F)) (k : ℤ) :
    ∀ m ∈ hiddenFrom k msgs, k ≤ m.1 ∧ m.1 < k + msgs.length := by
  induction msgs generalizing k with
  | nil => simp [hiddenFrom]
  | cons m ms ih =>
    intro e he
    rw [List.length_cons]
    cases m with
    | revealed m =>
      rw [hiddenFrom] at he
      have := ih _ e he; push_cast; omega
    | hidden m b =>
      rw [hiddenFrom] at he
      rcases List.mem_cons.1 he with rfl | he
      · simp only; push_cast; omega
      · have := ih _ e he; push_cast; omega

theorem hiddenFrom_length_le (msgs : List (ProofMsg F)) (k : ℤ) :
    (hiddenFrom k msgs).length ≤ msgs.length := by
  induction msgs generalizing k with
  | nil => simp [hiddenFrom]
  | cons m ms ih =>
    have := ih (k + 1)
    cases m with
    | revealed m => rw [hiddenFrom, List.length_cons]; omega
    | hidden m b => rw [hiddenFrom, List.length_cons, List.length_cons]; omega

/-- sums over fixed points followed by a block of message generators -/
theorem sop_block' {α : Type} (l' : List G1) (ss' : List F) (hl' : l'.length = ss'.length)
    (l : List α) (f : α → Option G1) (H : G1) (hf : ∀ a ∈ l, f a = some H)
    (ss : List F) (hl : ss.length = l.length) :
    sumOfProducts (l'.map some ++ l.map f) (ss' ++ ss) =
      some ((List.zipWith (fun p s => s • p) l' ss').sum + ss.sum • H) := by
  have h1 : l.map f = (List.replicate l.length H).map some := by
    rw [List.map_replicate, List.eq_replicate_iff]
    refine ⟨by simp, fun b hb => ?_⟩
    obtain ⟨a, ha, rfl⟩ := List.mem_map.1 hb
    exact hf a ha
  rw [h1, ← List.map_append, sumOfProducts_some _ _ (by simp [hl, hl']),
    List.zipWith_append hl', List.sum_append, zipWith_replicate_sum _ _ _ hl.le]

/-! ## C70 -/

theorem commit_ok (b : Builder F G1) (p : Option G1) (s : F) (h : b.points.length ≤ 65535) :
    b.commit p s = .ok ⟨b.points ++ [p], b.scalars ++ [s]⟩ := by
  unfold Builder.commit
  rw [Go.guard_bind_eq_ok]
  exact ⟨by omega, rfl⟩

/-- value of the verifier's contribution -/
theorem contribution_eq {hash : List UInt8 → G1} {enc1 : G1 → List UInt8} {g1 : G1}
    {p : PokProof F G1} {gens : Gens G1} {revealed : List (ℤ × F)} {challenge e0 e1 r3 s : F}
    {ms rest1 extra : List F} {t : Transcript} (hp1 : p.proof1 = e0 :: e1 :: rest1)
    (hrev : ∀ m ∈ revealed, 0 ≤ m.1 ∧ m.1 < gens.length)
    (hms : ms.length = ((List.range gens.length.toNat).filter
      fun i : ℕ => ¬ (i : ℤ) ∈ revealed.map Prod.fst).length)
    (hp2 : p.proof2 = r3 :: s :: ms ++ extra) :
    p.contribution hash enc1 g1 gens revealed challenge t = .ok (t ++
      [("A'", enc1 p.aPrime), ("Abar", enc1 p.aBar), ("D", enc1 p.d),
        ("Proof1", enc1 (challenge • (p.aBar - p.d) + e0 • p.aPrime + e1 • gens.h0)),
        ("Proof2", enc1 (challenge • (g1 + (revealed.map Prod.snd).sum • hash gens.state) -
          r3 • p.d + s • gens.h0 + ms.sum • hash gens.state))]) := by
  unfold PokProof.contribution
  rw [hp1]
  simp only
  have h1 := sop_block' [g1] [(1 : F)] rfl revealed (fun m => gens.get hash (m.1 + 1))
    (hash gens.state) (fun m hm => get_pos (hrev m hm).1 (hrev m hm).2) (revealed.map Prod.snd)
    (by simp)
  simp only [List.map_cons, List.map_nil, List.zipWith_cons_cons, List.zipWith_nil_left,
    List.sum_cons, List.sum_nil, add_zero, List.singleton_append, one_smul] at h1
  rw [h1]
  simp only
  set hidden := (List.range gens.length.toNat).filter
      fun i : ℕ => ¬ (i : ℤ) ∈ revealed.map Prod.fst with hhid
  set r := g1 + (revealed.map Prod.snd).sum • hash gens.state with hr
  have htake : p.proof2.take (2 + hidden.length) = r3 :: s :: ms := by
    rw [hp2, ← hms]
    have : 2 + ms.length = (r3 :: s :: ms).length := by simp; omega
    rw [this, List.take_left']
    rfl
  rw [if_neg (by rw [hp2, ← hms]; simp; omega), htake]
  have h2 := sop_block' [r, -p.d, gens.h0] [challenge, r3, s] rfl hidden
    (fun i : ℕ => gens.get hash ((i : ℤ) + 1)) (hash gens.state) (fun i hi => by
      have : i < gens.length.toNat := List.mem_range.1 (List.mem_of_mem_filter hi)
      exact get_pos (by omega) (by omega)) ms hms
  simp only [List.map_cons, List.map_nil, List.zipWith_cons_cons, List.zipWith_nil_left,
    List.sum_cons, List.sum_nil, add_zero, List.cons_append, List.nil_append] at h2
  rw [h2]
  simp only
  have h3 : challenge • r + (r3 • -p.d + s • gens.h0) + ms.sum • hash gens.state =
      challenge • r - r3 • p.d + s • gens.h0 + ms.sum • hash gens.state := by module
  rw [h3]

/-- Selective disclosure: for every signature with `(x+e)·A = B` and non-identity `A`, every choice of
revealed messages, all randomness, nonce and caller transcript, the proof is created and accepted for
the challenge derived from the prover's transcript.  The verifier's map of revealed messages may be
iterated in any order. -/
theorem C70_proof_verifies (hash : List UInt8 → G1) (enc1 : G1 → List UInt8) (cd : ScalarCodec F)
    (chal : Transcript → F) (g1 : G1) (g2 : G2) (e : G1 →ₗ[F] G2 →ₗ[F] GT)
    (hg2 : ∀ r : F, r • g2 = 0 → r = 0) (x nonce : F) (hx : x ≠ 0) (sig : Signature F G1)
    (ha : sig.a ≠ 0) (gens : Gens G1) (msgs : List (ProofMsg F)) (hne : msgs ≠ [])
    (hlen : (msgs.length : ℤ) = gens.length) (hlim : msgs.length ≤ 65534) (hs : List G1)
    (hgens : GensAre hash gens msgs.length hs)
    (hsig : (x + sig.e) • sig.a = specB g1 gens.h0 hs sig.s (msgs.map ProofMsg.msg))
    (rnd : PokRand F) (hr1 : rnd.r1 ≠ 0) (revealed : List (ℤ × F))
    (hrev : revealed.Perm (revealedFrom 0 msgs)) (t : Transcript) :
    ∃ pok, newPok hash g1 sig gens msgs rnd = .ok pok ∧
      ∃ pf, pok.generateProof (pokChallenge cd chal (pok.contribution enc1 t) nonce) = .ok pf ∧
        pf.verify hash enc1 cd chal g1 g2 e revealed (publicKey g2 x) gens nonce
          (pokChallenge cd chal (pok.contribution enc1 t) nonce) t = .ok true := by
  have hne' : msgs.map ProofMsg.msg ≠ [] := by simpa using hne
  -- the value B
  have hB : specB g1 gens.h0 hs sig.s (msgs.map ProofMsg.msg) =
      g1 + sig.s • gens.h0 + (msgs.map ProofMsg.msg).sum • hash gens.state := by
    have h1 := computeB_spec hne' (by rwa [List.length_map]) g1 sig.s
    rw [computeB_eq hne' (by rw [List.length_map]; omega)] at h1
    exact (Except.ok.inj h1).symm
  set B := g1 + sig.s • gens.h0 + (msgs.map ProofMsg.msg).sum • hash gens.state with hBdef
  rw [hB] at hsig
  set hid := hiddenFrom 0 msgs with hhid
  have hidx : ∀ m ∈ hid, 0 ≤ m.1 ∧ m.1 < gens.length := fun m hm => by
    have := hiddenFrom_idx msgs 0 m hm
    omega
  have hhl : hid.length ≤ msgs.length := hiddenFrom_length_le msgs 0
  set aP := rnd.r1 • sig.a with haP
  set aB := rnd.r1 • B - sig.e • aP with haB
  set d := rnd.r1 • B + rnd.r2 • gens.h0 with hd
  set p1 : Builder F G1 := ⟨[some aP, some gens.h0], [rnd.b1, rnd.b2]⟩ with hp1
  set p2 : Builder F G1 := ⟨[some (-d), some gens.h0] ++ hid.map fun m => gens.get hash (m.1 + 1),
    [rnd.b3, rnd.b4] ++ hid.map fun m => m.2.2⟩ with hp2
  have hcommit : (hid.map fun m => (gens.get hash (m.1 + 1), m.2.2)).foldlM
      (fun (b : Builder F G1) c => b.commit c.1 c.2)
      ⟨[some (-d), some gens.h0], [rnd.b3, rnd.b4]⟩ = .ok p2 := by
    have := (commitAll_from p2 (hid.map fun m => (gens.get hash (m.1 + 1), m.2.2))
      ⟨[some (-d), some gens.h0], [rnd.b3, rnd.b4]⟩).2 ⟨Or.inr (by simp; omega), by
        simp [hp2, List.map_map, Function.comp_def]⟩
    exact this
  have hpok : newPok hash g1 sig gens msgs rnd = .ok ⟨aP, aB, d, p1, p2, [sig.e, rnd.r2],
      rnd.r1⁻¹ :: (sig.s + rnd.r2 * rnd.r1⁻¹) :: hid.map fun m => m.2.1⟩ := by
    unfold newPok
    rw [Go.guard_true hlen, Go.guard_true hr1]
    simp only [Go.ok_bind]
    rw [computeB_eq hne' (by rw [List.length_map]; omega)]
    simp only [Go.ok_bind]
    simp only [← hBdef, ← haP, ← haB, ← hd, ← hhid]
    simp only [Builder.new]
    rw [commit_ok _ _ _ (by simp), Go.ok_bind, commit_ok _ _ _ (by simp), Go.ok_bind,
      commit_ok _ _ _ (by simp), Go.ok_bind, commit_ok _ _ _ (by simp), Go.ok_bind]
    simp only [List.nil_append, List.singleton_append]
    rw [hcommit]
    rfl
  refine ⟨_, hpok, ?_⟩
  -- prover's commitments
  have hc1 : p1.contribution enc1 = enc1 (rnd.b1 • aP + rnd.b2 • gens.h0) := by
    unfold Builder.contribution Builder.commitment
    have := sumOfProducts_some (F := F) [aP, gens.h0] [rnd.b1, rnd.b2] rfl
    simp only [List.map_cons, List.map_nil] at this
    rw [hp1]
    simp only [this]
    simp
  have hc2 : p2.contribution enc1 = enc1 (rnd.b4 • gens.h0 - rnd.b3 • d +
      (hid.map fun m => m.2.2).sum • hash gens.state) := by
    unfold Builder.contribution Builder.commitment
    have := sop_block' [-d, gens.h0] [rnd.b3, rnd.b4] rfl hid
      (fun m => gens.get hash (m.1 + 1)) (hash gens.state)
      (fun m hm => get_pos (hidx m hm).1 (hidx m hm).2) (hid.map fun m => m.2.2) (by simp)
    simp only [List.map_cons, List.map_nil] at this
    rw [hp2]
    simp only
    rw [this]
    simp only [List.zipWith_cons_cons, List.zipWith_nil_left, List.sum_cons, List.sum_nil, add_zero]
    congr 1
    module
  set pok : Pok F G1 := ⟨aP, aB, d, p1, p2, [sig.e, rnd.r2],
      rnd.r1⁻¹ :: (sig.s + rnd.r2 * rnd.r1⁻¹) :: hid.map fun m => m.2.1⟩ with hpokdef
  set c := pokChallenge cd chal (pok.contribution enc1 t) nonce with hc
  refine ⟨⟨aP, aB, d, [sig.e * c + rnd.b1, rnd.r2 * c + rnd.b2],
    (rnd.r1⁻¹ * c + rnd.b3) :: ((sig.s + rnd.r2 * rnd.r1⁻¹) * c + rnd.b4) ::
      hid.map fun m => m.2.1 * c + m.2.2⟩, ?_, ?_⟩
  · unfold Pok.generateProof Builder.generateProof
    rw [hpokdef, hp1, hp2]
    simp only
    rw [Go.guard_true (by simp)]
    simp only [Go.ok_bind]
    rw [Go.guard_true (by simp)]
    simp only [Go.ok_bind, List.cons_append, List.nil_append, List.zipWith_cons_cons,
      List.zipWith_nil_left, zipWith_maps]
  · unfold PokProof.verify
    have hfil : ((List.range gens.length.toNat).filter
        fun i : ℕ => ¬ (i : ℤ) ∈ revealed.map Prod.fst) = hid.map fun m => m.1.toNat := by
      have h1 := hidden_filter msgs 0
      rw [← List.range_eq_range'] at h1
      have h2 : gens.length.toNat = msgs.length := by omega
      rw [h2]
      refine Eq.trans (List.filter_congr fun i _ => ?_) h1
      rw [decide_eq_decide, (hrev.map Prod.fst).mem_iff]
      simp
    rw [contribution_eq (extra := []) rfl (fun m hm => by
        have h1 := revealedFrom_ge msgs 0 m (hrev.mem_iff.1 hm)
        have h2 := revealedFrom_lt msgs 0 m (hrev.mem_iff.1 hm)
        omega) (ms := hid.map fun m => m.2.1 * c + m.2.2) (by rw [hfil]; simp)
        (List.append_nil _).symm]
    simp only [Go.ok_bind, Except.ok.injEq, Bool.and_eq_true, decide_eq_true_eq]
    constructor
    · unfold PokProof.verifySigPok publicKey
      have hab : aB = x • aP := by
        rw [haB, haP, ← hsig]; module
      have hap0 : aP ≠ 0 := fun h => by
        rcases smul_eq_zero.1 h with h | h
        · exact hr1 h
        · exact ha h
      simp only [decide_eq_true_eq]
      refine ⟨fun h => hx (hg2 x h), hap0, ?_, ?_⟩
      · rw [hab]
        intro h
        rcases smul_eq_zero.1 h with h | h
        · exact hx h
        · exact hap0 h
      · rw [hab]
        simp only [map_smul, map_neg, LinearMap.smul_apply, add_neg_cancel]
    · have e1 : c • (aB - d) + (sig.e * c + rnd.b1) • aP + (rnd.r2 * c + rnd.b2) • gens.h0 =
          rnd.b1 • aP + rnd.b2 • gens.h0 := by
        rw [haB, hd]; module
      have hsplit := msgs_sum msgs 0
      have hrs : (revealed.map Prod.snd).sum = ((revealedFrom 0 msgs).map Prod.snd).sum :=
        (hrev.map Prod.snd).sum_eq
      have hrd : rnd.r1⁻¹ • d = B + (rnd.r2 * rnd.r1⁻¹) • gens.h0 := by
        rw [hd, smul_add, smul_smul, inv_mul_cancel₀ hr1, one_smul, smul_smul, mul_comm]
      have e2 : c • (g1 + (revealed.map Prod.snd).sum • hash gens.state) -
          (rnd.r1⁻¹ * c + rnd.b3) • d +
          ((sig.s + rnd.r2 * rnd.r1⁻¹) * c + rnd.b4) • gens.h0 +
          (hid.map fun m => m.2.1 * c + m.2.2).sum • hash gens.state =
          rnd.b4 • gens.h0 - rnd.b3 • d + (hid.map fun m => m.2.2).sum • hash gens.state := by
        rw [List.sum_map_add, List.sum_map_mul_right, add_smul (rnd.r1⁻¹ * c), mul_comm rnd.r1⁻¹ c,
          mul_smul c, hrd, hBdef, hsplit, hrs]
        module
      rw [e1, e2]
      refine hc.trans ?_
      unfold Pok.contribution
      simp only [hpokdef]
      rw [hc1, hc2]

/-! ## C98: extraction -/

theorem take_two {l : List F} {n : ℕ} (h : 2 + n ≤ l.length) :
    ∃ r s ms extra, l = r :: s :: ms ++ extra ∧ ms.length = n := by
  match l with
  | [] => simp at h
  | [_] => simp at h; omega
  | r :: s :: rest =>
    refine ⟨r, s, rest.take n, rest.drop n, by simp, ?_⟩
    simp only [List.length_cons] at h
    rw [List.length_take]; omega

theorem contribution_shape {hash : List UInt8 → G1} {enc1 : G1 → List UInt8} {g1 : G1}
    {p : PokProof F G1} {gens : Gens G1} {revealed : List (ℤ × F)} {challenge : F}
    {t T : Transcript} (h : p.contribution hash enc1 g1 gens revealed challenge t = .ok T) :
    (∃ e0 e1 rest1, p.proof1 = e0 :: e1 :: rest1) ∧
    ∃ r3 s ms extra, p.proof2 = r3 :: s :: ms ++ extra ∧
      ms.length = ((List.range gens.length.toNat).filter
        fun i : ℕ => ¬ (i : ℤ) ∈ revealed.map Prod.fst).length := by
  unfold PokProof.contribution at h
  split at h
  case h_2 => cases h
  rename_i e0 e1 rest1 hp1
  simp only at h
  split at h
  · cases h
  split_ifs at h with hl
  exact ⟨⟨e0, e1, rest1, hp1⟩, take_two (not_lt.1 hl)⟩

theorem lookup_mem_int {V : Type} {l : List (ℤ × V)} (hl : (l.map Prod.fst).Nodup)
    {k : ℤ} {v : V} (h : (k, v) ∈ l) : l.lookup k = some v := by
  induction l with
  | nil => simp at h
  | cons e l ih =>
    rw [List.map_cons, List.nodup_cons] at hl
    rw [List.lookup_cons]
    rcases List.mem_cons.1 h with rfl | h
    · simp
    · have : (k == e.1) = false := by
        rw [beq_eq_false_iff_ne]
        rintro rfl
        exact hl.1 (List.mem_map.2 ⟨_, h, rfl⟩)
      rw [this]
      exact ih hl.2 h

/-- what is computed from two proofs with the same commitments and different challenges -/
structure Extracted (F G1 : Type) where
  /-- the responses for the inverse of `r1`: a signature is found if it is not zero -/
  scale : F
  sig : Signature F G1
  msgs : List F
  /-- the coefficients of a relation between the generators otherwise -/
  relS : F
  relM : F

/-- the extractor: quotients of the differences of the responses by that of the challenges -/
def extract (gens : Gens G1) (revealed : List (ℤ × F)) (c c' : F) (p p' : PokProof F G1) : Extracted F G1 :=
  let q := fun a b : F => (c - c')⁻¹ * (a - b)
  let e := q (p.proof1.getD 0 0) (p'.proof1.getD 0 0)
  let r2 := q (p.proof1.getD 1 0) (p'.proof1.getD 1 0)
  let r3 := q (p.proof2.getD 0 0) (p'.proof2.getD 0 0)
  let s := q (p.proof2.getD 1 0) (p'.proof2.getD 1 0)
  let idx := (List.range gens.length.toNat).filter fun i : ℕ => ¬ (i : ℤ) ∈ revealed.map Prod.fst
  let hid := List.zipWith q ((p.proof2.drop 2).take idx.length) ((p'.proof2.drop 2).take idx.length)
  let all := revealed ++ (idx.map fun i : ℕ => (i : ℤ)).zip hid
  ⟨r3, ⟨r3 • p.aPrime, e, s - r2 * r3⟩,
    (List.range gens.length.toNat).map fun i : ℕ => (all.lookup (i : ℤ)).getD 0, s, (revealed.map Prod.snd).sum + hid.sum⟩

/-- Knowledge soundness of the proof of knowledge: from two proofs with the same commitments, accepted
for the same revealed messages under different challenges, the extractor computes a signature under the
public key that verifies for a message vector containing every revealed message; or, if its scale is zero, a relation
`g1 + s·h0 + m·H = 0` between the signature generators. -/
theorem C98_extract (hash : List UInt8 → G1) (enc1 : G1 → List UInt8)
    (henc : Function.Injective enc1) (g1 : G1) (g2 : G2) (e : G1 →ₗ[F] G2 →ₗ[F] GT)
    (he : ∀ P, e P g2 = 0 → P = 0) (x : F) (p p' : PokProof F G1)
    (gens : Gens G1) (hpos : 0 < gens.length) (revealed : List (ℤ × F))
    (hrev : ∀ m ∈ revealed, 0 ≤ m.1 ∧ m.1 < gens.length) (hnd : (revealed.map Prod.fst).Nodup)
    (c c' : F) (hc : c ≠ c') (t T : Transcript)
    (h : p.contribution hash enc1 g1 gens revealed c t = .ok T)
    (h' : p'.contribution hash enc1 g1 gens revealed c' t = .ok T)
    (hpair : p.verifySigPok g2 e (publicKey g2 x) = true) :
    let X := extract gens revealed c c' p p'
    (X.scale ≠ 0 → verify hash g1 g2 e (publicKey g2 x) X.sig gens X.msgs = .ok () ∧
      (X.msgs.length : ℤ) = gens.length ∧ ∀ m ∈ revealed, X.msgs[m.1.toNat]? = some m.2) ∧
    (X.scale = 0 → g1 + X.relS • gens.h0 + X.relM • hash gens.state = 0) := by
  obtain ⟨⟨e0, e1, rest1, hp1⟩, r3, s, ms, extra, hp2, hms⟩ := contribution_shape h
  obtain ⟨⟨e0', e1', rest1', hp1'⟩, r3', s', ms', extra', hp2', hms'⟩ := contribution_shape h'
  rw [contribution_eq hp1 hrev hms hp2] at h
  rw [contribution_eq hp1' hrev hms' hp2', ← h] at h'
  have h0 := List.append_cancel_left (Except.ok.inj h')
  simp only [List.cons.injEq, Prod.mk.injEq, true_and, and_true] at h0
  obtain ⟨k1, k2, k3, k4, k5⟩ := h0
  have k1 := henc k1
  have k2 := henc k2
  have k3 := henc k3
  have k4 := henc k4
  have k5 := henc k5
  rw [k1, k2, k3] at k4
  rw [k3] at k5
  set H := hash gens.state
  set R := g1 + (revealed.map Prod.snd).sum • H with hR
  have hcc : c - c' ≠ 0 := sub_ne_zero.2 hc
  set u := (c - c')⁻¹ with hu
  have hu1 : u * (c - c') = 1 := inv_mul_cancel₀ hcc
  -- the two relations
  have q1 : p.d - p.aBar = (u * (e0 - e0')) • p.aPrime + (u * (e1 - e1')) • gens.h0 := by
    have : (c - c') • (p.d - p.aBar) = (e0 - e0') • p.aPrime + (e1 - e1') • gens.h0 := by
      have hz := sub_eq_zero.2 k4
      rw [← sub_eq_zero, ← hz]
      module
    calc p.d - p.aBar = (u * (c - c')) • (p.d - p.aBar) := by rw [hu1, one_smul]
      _ = _ := by rw [mul_smul, this, smul_add, smul_smul, smul_smul]
  have q2 : R = (u * (r3 - r3')) • p.d - (u * (s - s')) • gens.h0 - (u * (ms.sum - ms'.sum)) • H := by
    have : (c - c') • R = (r3 - r3') • p.d - (s - s') • gens.h0 - (ms.sum - ms'.sum) • H := by
      have hz := sub_eq_zero.2 k5
      rw [← sub_eq_zero, ← neg_eq_zero, ← hz]
      module
    calc R = (u * (c - c')) • R := by rw [hu1, one_smul]
      _ = _ := by rw [mul_smul, this, smul_sub, smul_sub, smul_smul, smul_smul, smul_smul]
  set ee := u * (e0 - e0')
  set r2 := u * (e1 - e1')
  set rr := u * (r3 - r3')
  set ss := u * (s - s')
  set hm : F := u * (ms.sum - ms'.sum)
  -- pairing
  unfold PokProof.verifySigPok publicKey at hpair
  simp only [decide_eq_true_eq] at hpair
  obtain ⟨w1, w2, w3, w4⟩ := hpair
  have hab : p.aBar = x • p.aPrime := by
    rw [← sub_eq_zero]
    refine he _ ?_
    rw [map_sub, LinearMap.sub_apply, map_smul, LinearMap.smul_apply]
    rw [map_smul, map_neg] at w4
    rw [← neg_eq_zero, ← w4]
    abel
  -- complete message vector
  set hidden := (List.range gens.length.toNat).filter
    fun i : ℕ => ¬ (i : ℤ) ∈ revealed.map Prod.fst with hhid
  set hz : List F := List.zipWith (fun a b => u * (a - b)) ms ms' with hhz
  have hzl : hz.length = hidden.length := by simp [hhz, hms, hms']
  have hzs : hz.sum = hm := by
    have gen : ∀ (a b : List F), a.length = b.length →
        (List.zipWith (fun a b => u * (a - b)) a b).sum = u * (a.sum - b.sum) := by
      intro a
      induction a with
      | nil => intro b hb; cases b with
        | nil => simp
        | cons b bs => simp at hb
      | cons a as ih => intro b hb; cases b with
        | nil => simp at hb
        | cons b bs =>
          rw [List.zipWith_cons_cons, List.sum_cons, List.sum_cons, List.sum_cons, ih bs (by simpa using hb)]
          ring
    exact gen ms ms' (by rw [hms, hms'])
  have hX : extract gens revealed c c' p p' = ⟨rr, ⟨rr • p.aPrime, ee, ss - r2 * rr⟩,
      (List.range gens.length.toNat).map fun i : ℕ =>
        ((revealed ++ (hidden.map fun i : ℕ => (i : ℤ)).zip hz).lookup (i : ℤ)).getD 0, ss, (revealed.map Prod.snd).sum + hm⟩ := by
    rw [← hzs]
    simp only [extract]
    rw [hp1, hp1', hp2, hp2', ← hhid]
    simp only [List.cons_append, List.getD_cons_zero, List.getD_cons_succ, List.drop_succ_cons, List.drop_zero]
    rw [List.take_left' hms, List.take_left' hms']
  rw [hX]
  refine ⟨fun hr => ?_, fun hr => ?_⟩
  swap
  · change g1 + ss • gens.h0 + ((revealed.map Prod.snd).sum + hm) • H = 0
    replace hr : rr = 0 := hr
    rw [hr, zero_smul, hR] at q2
    have hz := sub_eq_zero.2 q2
    rw [← hz]
    module
  replace hr : rr ≠ 0 := hr
  set all : List (ℤ × F) := revealed ++ (hidden.map fun i : ℕ => (i : ℤ)).zip hz with hall
  have hkeys : all.map Prod.fst = revealed.map Prod.fst ++ hidden.map fun i : ℕ => (i : ℤ) := by
    rw [hall, List.map_append, List.map_fst_zip (by simp [hzl])]
  have hvals : (all.map Prod.snd).sum = (revealed.map Prod.snd).sum + hm := by
    rw [hall, List.map_append, List.sum_append, List.map_snd_zip (by simp [hzl]), hzs]
  have hnodup : (all.map Prod.fst).Nodup := by
    rw [hkeys, List.nodup_append]
    refine ⟨hnd, ?_, ?_⟩
    · rw [List.nodup_map_iff (fun a b h => by simpa using h)]
      exact List.nodup_range.filter _
    · rintro a ha b hb rfl
      obtain ⟨i, hi, rfl⟩ := List.mem_map.1 hb
      have := (List.mem_filter.1 hi).2
      simp only [decide_eq_true_eq] at this
      exact this ha
  have hperm : (all.map Prod.fst).Perm ((List.range gens.length.toNat).map fun i : ℕ => (i : ℤ)) := by
    rw [List.perm_ext_iff_of_nodup hnodup
      (by rw [List.nodup_map_iff (fun a b h => by simpa using h)]; exact List.nodup_range)]
    intro i
    rw [hkeys, List.mem_append]
    constructor
    · rintro (hi | hi)
      · obtain ⟨m, hm, rfl⟩ := List.mem_map.1 hi
        have := hrev m hm
        exact List.mem_map.2 ⟨m.1.toNat, List.mem_range.2 (by omega), by omega⟩
      · obtain ⟨j, hj, rfl⟩ := List.mem_map.1 hi
        exact List.mem_map_of_mem (List.mem_of_mem_filter hj)
    · intro hi
      obtain ⟨j, hj, rfl⟩ := List.mem_map.1 hi
      by_cases hjr : (j : ℤ) ∈ revealed.map Prod.fst
      · exact Or.inl hjr
      · right
        refine List.mem_map_of_mem (f := fun i : ℕ => (i : ℤ)) (List.mem_filter.2 ⟨hj, ?_⟩)
        simpa using hjr
  set msgs : List F := (List.range gens.length.toNat).map fun i : ℕ => (all.lookup (i : ℤ)).getD 0
    with hmsgs
  have hml : (msgs.length : ℤ) = gens.length := by
    rw [hmsgs, List.length_map, List.length_range]; omega
  have hsum : msgs.sum = (revealed.map Prod.snd).sum + hm := by
    rw [← hvals]
    have h1 := (hperm.map fun i => (all.lookup i).getD 0).sum_eq
    rw [List.map_map, List.map_map] at h1
    have h2 : (all.map Prod.snd) = all.map ((fun i => (all.lookup i).getD 0) ∘ Prod.fst) := by
      refine List.map_congr_left fun m hm => ?_
      simp only [Function.comp]
      rw [lookup_mem_int hnodup (k := m.1) (v := m.2) hm]
      rfl
    rw [h2, h1]
    rfl
  refine ⟨?_, hml, ?_⟩
  · have hne : msgs ≠ [] := by
      rintro h
      rw [h] at hml
      simp at hml
      omega
    unfold verify publicKey
    rw [Go.guard_bind_eq_ok, Go.guard_bind_eq_ok, Go.guard_bind_eq_ok, Go.guard_bind_eq_ok,
      computeB_eq hne hml.le]
    simp only [Go.ok_bind, Go.guard_eq_ok]
    refine ⟨by omega, ?_, w1, ?_, ?_⟩
    · rw [Nat.lt_one_iff, List.length_eq_zero_iff]; exact hne
    · intro h
      rcases smul_eq_zero.1 h with h | h
      · exact hr h
      · exact w2 h
    · have hB : g1 + (ss - r2 * rr) • gens.h0 + msgs.sum • hash gens.state =
          (ee + x) • (rr • p.aPrime) := by
        have hd : p.d = x • p.aPrime + ee • p.aPrime + r2 • gens.h0 := by
          rw [← hab, add_assoc, ← q1]; abel
        rw [hd, hR] at q2
        rw [hsum]
        have hz := sub_eq_zero.2 q2
        rw [← sub_eq_zero, ← hz]
        module
      rw [hB, ← add_smul, map_neg, LinearMap.neg_apply, map_smul (e _), map_smul e (ee + x),
        LinearMap.smul_apply, add_neg_cancel]
  · intro m hm
    have h1 := hrev m hm
    rw [hmsgs, List.getElem?_map, List.getElem?_range (by omega)]
    simp only [Option.map_some]
    rw [Int.toNat_of_nonneg h1.1,
      lookup_mem_int hnodup (k := m.1) (v := m.2) (by rw [hall]; exact List.mem_append_left _ hm)]
    rfl

/-! ## The premises can be met -/

section Example
open Toy

/-- a signature of the messages 7 and 9 with the secret key 5 -/
def exSig : Signature K K := ⟨71 * 11⁻¹, 6, 2⟩

def exGens : Gens K := ⟨3, 2, []⟩

/-- the proof that reveals the first message -/
def exPok : Go (Pok K K) := newPok (fun _ => 4) 1 exSig exGens [.revealed 7, .hidden 9 50] ⟨10, 20, 30, 40, 60, 70⟩

def exProof (c : K) : Go (PokProof K K) := exPok >>= fun p => p.generateProof c

/-- the premises of `C98_extract` for two proofs, and what it extracts -/
def exCheck (p p' : PokProof K K) : Bool :=
  (match p.contribution (fun _ => 4) codec.enc 1 exGens [(0, 7)] 1 [],
      p'.contribution (fun _ => 4) codec.enc 1 exGens [(0, 7)] 2 [] with
    | .ok t, .ok t' => decide (t = t')
    | _, _ => false) &&
  p.verifySigPok 1 (LinearMap.mul K K) (publicKey (1 : K) (5 : K)) &&
  decide ((extract exGens [(0, 7)] 1 2 p p').scale ≠ 0) && decide ((extract exGens [(0, 7)] 1 2 p p').msgs = [7, 9]) &&
  decide ((extract exGens [(0, 7)] 1 2 p p').sig = exSig)

/-- two proofs from the same random values under the challenges 1 and 2: the premises of `C98_extract` hold and it finds the signature
and the hidden message -/
example : (match exProof 1, exProof 2 with
    | .ok p, .ok p' => exCheck p p'
    | _, _ => false) = true := by decide +kernel

/-- and those of `C70_proof_verifies` -/
example : exSig.a ≠ 0 ∧ ((5 : K) + exSig.e) • exSig.a = specB 1 exGens.h0 [4, 4] exSig.s [7, 9] ∧
    GensAre (fun _ => (4 : K)) exGens 2 [4, 4] ∧ ([(0, 7)] : List (ℤ × K)).Perm (revealedFrom 0 [.revealed 7, .hidden 9 50]) := by
  refine ⟨by decide +kernel, by decide +kernel, ⟨rfl, fun i hi => ?_⟩, List.Perm.refl _⟩
  have : i = 0 ∨ i = 1 := by omega
  rcases this with rfl | rfl <;> decide +kernel

end Example

end Verif.Bbs
