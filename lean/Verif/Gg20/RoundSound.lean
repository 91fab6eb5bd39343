import Verif.Gg20.DkgSignProps
import Verif.Gg20.CheckProps
import Verif.Gg20.SetupProps

/-!
# What the rounds of GG20 signing have checked when they succeed (C170)
-/

set_option linter.unusedSectionVars false

namespace Verif.Gg20

variable {q : ℕ} {G : Type} [AddCommGroup G] [Module (ZMod q) G]

/-- the proof the receiver `s` has for the message of `j`: the broadcast one with a trusted dealer, else the
private one -/
def ProofOf (s : Signer G) (bcast : Option Proof1) (p2p : List (ℕ × Option Proof1)) (j : ℕ) (pi : Proof1) : Prop :=
  (s.keygen.trusted = true ∧ bcast = some pi) ∨ (s.keygen.trusted = false ∧ p2p.lookup j = some (some pi))

theorem pickProof_eq_ok {s : Signer G} {bcast : Option Proof1} {p2p : List (ℕ × Option Proof1)} {j : ℕ}
    {pi : Proof1} : pickProof s bcast p2p j = .ok pi ↔ ProofOf s bcast p2p j pi := by
  unfold pickProof ProofOf
  cases h : s.keygen.trusted
  · simp [deref_eq_ok, Option.join_eq_some_iff]
  · simp [deref_eq_ok]

theorem mapM_ok_all {α β : Type} {f : α → Go β} {l : List α} {r : List β} (h : l.mapM f = .ok r)
    {a : α} (ha : a ∈ l) : ∃ b ∈ r, f a = .ok b := by
  have hF := Go.mapM_eq_ok.1 h
  clear h
  induction hF with
  | nil => simp at ha
  | cons h1 _ ih =>
    rcases List.mem_cons.1 ha with rfl | ha
    · exact ⟨_, List.mem_cons_self, h1⟩
    · obtain ⟨b, hb, e⟩ := ih ha
      exact ⟨b, List.mem_cons_of_mem _ hb, e⟩

/-- a round 2 that succeeds has verified, for every other sender, the range proof of its ciphertext under the
sender's Paillier key and the own parameters, and stores that ciphertext and that commitment -/
theorem C170_round2 {E : Env q G} {s s' : Signer G} {params : List (ℕ × Option Bcast1)}
    {p2p : List (ℕ × Option Proof1)} {rnd : ℕ → RndM × RndM} {outs : List (ℕ × P2P)}
    (h : round2 E s params p2p rnd = .ok (s', outs)) {j : ℕ} {b : Bcast1} (hj : j ≠ s.id)
    (hb : (j, some b) ∈ params) :
    ∃ pk D c pi, s.pks.lookup j = some pk ∧ s.keygen.params s.id = some D ∧ b.Ctxt = some c ∧
      ProofOf s b.proof p2p j pi ∧ verify1 E.toCurve pk D (some c) pi = .ok () ∧
      (j, some c) ∈ s'.cj ∧ (j, b.C) ∈ s'.Cj := by
  unfold round2 at h
  simp only [Go.bind_eq_ok] at h
  obtain ⟨_, _, _, _, B, hB, os, hos, h⟩ := h
  obtain ⟨rfl, rfl⟩ := Prod.mk.inj (Except.ok.inj h)
  have hmem : (j, b) ∈ params.filterMap fun jp => if jp.1 = s.id then none else jp.2.map fun m => (jp.1, m) := by
    rw [List.mem_filterMap]
    exact ⟨_, hb, by simp [hj]⟩
  obtain ⟨o, ho, hstep⟩ := mapM_ok_all hos hmem
  unfold step2 at hstep
  simp only [Go.bind_eq_ok, deref_eq_ok, Go.ofOption_eq_ok, pickProof_eq_ok] at hstep
  obtain ⟨pk, hpk, pi, hpi, _, hv, c, hc, pg, hpg, pw, hpw, hstep⟩ := hstep
  obtain rfl := Except.ok.inj hstep
  rcases hD : s.keygen.params s.id with _ | D
  · rw [hD] at hv
    simp only [verify1N, Go.bind_eq_ok] at hv
    obtain ⟨_, _, _, _, hv⟩ := hv
    cases hv
  · rw [hD, hc] at hv
    refine ⟨pk, D, c, pi, hpk, rfl, hc, hpi, hv, ?_, ?_⟩
    · exact List.mem_map.2 ⟨_, ho, by simp [hc]⟩
    · exact List.mem_map.2 ⟨_, ho, rfl⟩

/-- a round 3 that succeeds has accepted, for every other sender, both responses, the second one against the
sender's public share -/
theorem C170_round3 {E : Env q G} {s s' : Signer G} {inp : List (ℕ × Option P2P)} {d : ℤ}
    (h : round3 E s inp = .ok (s', d)) {j : ℕ} {v : Option P2P} (hj : j ≠ s.id) (hv : (j, v) ∈ inp) :
    ∃ m p2 p3 W D alpha mu, v = some m ∧ m.proof2 = some p2 ∧ m.proof3 = some p3 ∧ s.pub.lookup j = some W ∧
      s.keygen.params s.id = some D ∧ finalize E.toCurve s.sk D none s.ci p2 = .ok alpha ∧
      finalize E.toCurve s.sk D (some W) s.ci p3 = .ok mu := by
  unfold round3 at h
  simp only [Go.bind_eq_ok] at h
  obtain ⟨_, _, di, hdi, si, hsi, ds, hds, h⟩ := h
  obtain ⟨acc, r, hstep⟩ := foldlM_mem_ok hds (a := (j, v)) (by simp [hv, hj])
  unfold step3 at hstep
  simp only [Go.bind_eq_ok, deref_eq_ok, Go.ofOption_eq_ok] at hstep
  obtain ⟨m, hm, p2, hp2, al, hal, W, hW, p3, hp3, mu, hmu, _⟩ := hstep
  rcases hD : s.keygen.params s.id with _ | D
  · rw [hD] at hal
    simp only [finalizeN, Go.bind_eq_ok] at hal
    obtain ⟨_, _, _, _, hal⟩ := hal
    cases hal
  · rw [hD] at hal hmu
    exact ⟨m, p2, p3, W, D, al, mu, hm, hp2, hp3, hW, rfl, hal, hmu⟩

/-- a nil message in round 3 is an error, wherever the map yields it first -/
theorem C170_round3_nil {E : Env q G} {s : Signer G} {inp rest : List (ℕ × Option P2P)} {j : ℕ} (hj : j ≠ s.id)
    (hinp : inp = (j, none) :: rest) (hq : 0 < q) : round3 E s inp = Go.err := by
  unfold round3
  have hm : ∀ a b : ℤ, ∃ c, Core.mul (some a) (some b) (some (q : ℤ)) = .ok c := by
    intro a b
    exact ⟨_, core_mul_q hq _ _⟩
  obtain ⟨c, hc⟩ := hm s.ki s.gammai
  obtain ⟨c', hc'⟩ := hm s.ki s.w
  have hck := C48_check s 3 (inp.map (·.1))
  by_cases hs : s.round = 3 ∧ Senders s (inp.map (·.1))
  · rw [hck.1 hs, Go.ok_bind, hc, Go.ok_bind, hc', Go.ok_bind, hinp]
    simp only [List.filter_cons, ne_eq, hj, not_false_eq_true, decide_true, if_true, List.foldlM_cons, step3]
    rfl
  · rw [hck.2 hs]; rfl

/-- a round 5 that succeeds has opened, for every other sender, the commitment of round 2 and decoded the
point in it -/
theorem C170_round5 {E : Env q G} {s s' : Signer G} {ws : List (ℕ × Option (Option Core.Witness))}
    {rp : ℕ → Rand1} {out : Bcast5 G × List (ℕ × Proof1)}
    (h : round5 E s ws rp = .ok (s', out)) {j : ℕ} {w : Option (Option Core.Witness)} (hj : j ≠ s.id)
    (hw : (j, w) ∈ ws) :
    ∃ wit P, w = some (some wit) ∧ Core.openC E.hmac ((s.Cj.lookup j).getD []) wit = .ok true ∧
      E.dec wit.msg = some P := by
  unfold round5 at h
  rw [Go.bind_eq_ok] at h
  obtain ⟨_, _, h⟩ := h
  rw [Go.bind_eq_ok] at h
  obtain ⟨R0, hR, _⟩ := h
  obtain ⟨acc, r, hstep⟩ := foldlM_mem_ok hR (a := (j, w)) hw
  unfold step5 at hstep
  simp only [Go.bind_eq_ok, Go.ofOption_eq_ok, if_neg hj, deref_eq_ok, Go.guard_eq_ok] at hstep
  obtain ⟨d, hd, wit, hwit, ok, hok, _, hokt, P, hP, _⟩ := hstep
  rw [hokt] at hok
  exact ⟨wit, P, by rw [hd, hwit], hok, hP⟩

theorem fold6_checked {E : Env q G} {s : Signer G} {p2p : List (ℕ × Option Proof1)}
    {l : List (ℕ × Option (Bcast5 G))} {v r : G} (h : l.foldlM (step6 E s p2p) v = .ok r) :
    ∃ X : ℕ × Option (Bcast5 G) → G, r = v + (l.map X).sum ∧ ∀ jv ∈ l, ∃ b pi pk D, jv.2 = some b ∧
      b.Rbar = some (X jv) ∧ ProofOf s b.proof p2p jv.1 pi ∧ s.pks.lookup jv.1 = some pk ∧
      s.keygen.params s.id = some D ∧
      pdlVerify E.toCurve pk D s.R (X jv) (s.cj.lookup jv.1).join pi = .ok () := by
  classical
  refine ⟨fun jv => (jv.2.bind (·.Rbar)).getD 0, ?_⟩
  induction l generalizing v with
  | nil =>
    rw [List.foldlM_nil] at h
    obtain rfl := Except.ok.inj h
    simp
  | cons jv l ih =>
    rw [List.foldlM_cons, Go.bind_eq_ok] at h
    obtain ⟨v1, h1, h2⟩ := h
    obtain ⟨e, hall⟩ := ih h2
    unfold step6 at h1
    simp only [Go.bind_eq_ok, deref_eq_ok, pickProof_eq_ok] at h1
    obtain ⟨b, hb, pi, hpi, h1⟩ := h1
    split at h1
    · rename_i pk D Rb e1 e2 e3
      simp only [Go.bind_eq_ok, Go.ok_bind] at h1
      obtain ⟨_, hver, h1⟩ := h1
      have h1 := Except.ok.inj h1
      have hval : (jv.2.bind (·.Rbar)).getD 0 = Rb := by rw [hb]; simp [e3]
      refine ⟨?_, fun kv hk => ?_⟩
      · rw [e, ← h1, List.map_cons, List.sum_cons, hval]; abel
      · rcases List.mem_cons.1 hk with rfl | hk
        · exact ⟨b, pi, pk, D, hb, by beta_reduce; rw [hval]; exact e3, hpi, e1, e2, by beta_reduce; rw [hval]; exact hver⟩
        · exact hall kv hk
    · cases h1

/-- a round 6 that succeeds has verified, for every other sender, the proof that its point is its nonce share
times `R`, and that all the points sum to the generator -/
theorem C170_round6 [DecidableEq G] {E : Env q G} {s : Signer G} {hash : List UInt8}
    {inp : List (ℕ × Option (Bcast5 G))} {p2p : List (ℕ × Option Proof1)} {r : Signer G × ℤ}
    (h : round6 E s hash inp p2p = .ok r) :
    ∃ X : ℕ × Option (Bcast5 G) → G,
      s.Rbari + ((inp.filter fun jv => jv.1 ≠ s.id).map X).sum = E.gen ∧
      ∀ jv ∈ inp, jv.1 ≠ s.id → ∃ b pi pk D, jv.2 = some b ∧ b.Rbar = some (X jv) ∧
        ProofOf s b.proof p2p jv.1 pi ∧ s.pks.lookup jv.1 = some pk ∧ s.keygen.params s.id = some D ∧
        pdlVerify E.toCurve pk D s.R (X jv) (s.cj.lookup jv.1).join pi = .ok () := by
  unfold round6 round6Offline at h
  simp only [Go.bind_eq_ok, Go.guard_eq_ok] at h
  obtain ⟨_, _, _, _, _, ⟨v, hv, hg⟩, _⟩ := h
  obtain ⟨X, e, hall⟩ := fold6_checked hv
  exact ⟨X, by rw [← e, hg], fun jv h1 h2 => hall jv (by simp [h1, h2])⟩

/-- `SignOutput` returns only signatures the configured check accepts -/
theorem C170_output {E : Env q G} {s : Signer G} {inp : List (ℕ × Option (Option ℤ))} {σ : Sig}
    (h : signOutput E s inp = .ok σ) : s.verify s.y s.msgHash σ = true ∧ σ.r = s.r ∧ σ.s ≤ (q : ℤ) / 2 := by
  unfold signOutput at h
  simp only [Go.bind_eq_ok, Go.guard_eq_ok] at h
  obtain ⟨_, _, sum, hsum, _, hv, h⟩ := h
  obtain rfl := Except.ok.inj h
  refine ⟨hv, rfl, ?_⟩
  show normalizeS q sum ≤ _
  unfold normalizeS
  split
  · omega
  · omega

/-- nil proofs panic: a range proof without `s1`, and a nil private proof without a trusted dealer -/
theorem C170_nil_panics {E : Env q G} {s : Signer G} (pk : Paillier.PublicKey) (D : Option Dealer) (c : Option ℤ)
    {pi : Proof1} (hpi : pi.s1 = none) (bcast : Option Proof1) (j : ℕ) :
    verify1N E.toCurve pk D c pi = Go.crash ∧
      (s.keygen.trusted = false → pickProof s bcast [] j = Go.crash) := by
  constructor
  · cases D with
    | none => simp only [verify1N, hpi, cmpLe]; rfl
    | some D => simp only [verify1N, verify1, hpi, cmpLe]; rfl
  · intro h
    simp [pickProof, h, deref]

/-- in the run of two signers each theorem applies -/
example : ∃ (s0 : ℕ → Signer (ZMod 257)) (t : Run toyEnv {1, 3} s0 toyRnd
    (fun _ _ => (toyRndM, toyRndM)) (fun _ _ => ⟨-2 ^ 265, 7, 12, 3⟩) [200] (fun _ => toyOrd)),
    (∃ X : ℕ × Option (Bcast5 (ZMod 257)) → ZMod 257, (t.s5 1).Rbari +
      ((((toyOrd 1).map fun j => (j, some (t.b5 j))).filter fun jv => jv.1 ≠ (t.s5 1).id).map X).sum = toyEnv.gen) ∧
    (t.s6 3).verify (t.s6 3).y (t.s6 3).msgHash (t.sig 3) = true ∧
    (3 ≠ (t.s1 1).id → ∃ pk D c pi, (t.s1 1).pks.lookup 3 = some pk ∧ (t.s1 1).keygen.params (t.s1 1).id = some D ∧
      (t.b1 3).Ctxt = some c ∧ verify1 toyEnv.toCurve pk D (some c) pi = .ok ()) := by
  obtain ⟨s0, t, -⟩ := toy_run
  refine ⟨s0, t, ?_, (C170_output (t.output 3 (by simp))).1, fun h => ?_⟩
  · obtain ⟨X, h, -⟩ := C170_round6 (t.round6 1 (by simp))
    exact ⟨X, h⟩
  · obtain ⟨pk, D, c, pi, h1, h2, h3, -, h5, -⟩ := C170_round2 (t.round2 1 (by simp)) (j := 3) (b := t.b1 3) h
      (by simp [toyOrd])
    exact ⟨pk, D, c, pi, h1, h2, h3, h5⟩

/-- a witness that does not open the commitment stops round 5 -/
example {s : Signer (ZMod 257)} {ws : List (ℕ × Option (Option Core.Witness))} {rp : ℕ → Rand1} (hj : 3 ≠ s.id)
    (hw : (3, some none) ∈ ws) : ∀ r, round5 toyEnv s ws rp ≠ .ok r := by
  intro r h
  obtain ⟨wit, P, e, -⟩ := C170_round5 (s' := r.1) (out := r.2) h hj hw
  cases e

example {s : Signer (ZMod 257)} (hj : 3 ≠ s.id) : round3 toyEnv s [(3, none)] = Go.err :=
  C170_round3_nil hj rfl (by norm_num)

end Verif.Gg20
