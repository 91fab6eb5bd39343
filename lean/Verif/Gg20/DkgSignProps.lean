import Verif.Gg20.DkgCheckProps

/-! # From the GG20 key generation to signing (C125, C130) -/

set_option linter.unusedSectionVars false
set_option exponentiation.threshold 2000

namespace Verif.Gg20

section
variable {q : ℕ} {G : Type} [AddCommGroup G] [Module (ZMod q) G]

/-! ## The proof of consistency with a public share -/

/-- The values hashed by the second range proof with check (specification, mta.go:626-632,
752-757). -/
def wcInput (E : Curve q G) (N : ℤ) (D : Dealer) (X : G) (c1 c2 : ℤ) (u : G) (z z' t v w : ℤ) :
    List ℤ :=
  [(E.xy E.gen).1, (E.xy E.gen).2, q, N, D.N, D.H1, D.H2, (E.xy X).1, (E.xy X).2, c1, c2,
    (E.xy u).1, (E.xy u).2, z, z', t, v, w]

theorem wcInput_inj {E : Curve q G} (hxy : Function.Injective E.xy) {N N' : ℤ} {D D' : Dealer}
    {X X' : G} {c1 c1' c2 c2' : ℤ} {u u' : G} {z z' t v w a z'' b v' w' : ℤ}
    (h : wcInput E N D X c1 c2 u z z' t v w = wcInput E N' D' X' c1' c2' u' a z'' b v' w') :
    u = u' := by
  unfold wcInput at h
  simp only [List.cons.injEq] at h
  obtain ⟨_, _, _, _, _, _, _, _, _, _, _, h1, h2, _⟩ := h
  exact hxy (Prod.ext h1 h2)

theorem genProof2Core_wc {E : Curve q G} {pk : Paillier.PublicKey} {D : Dealer} {X : G}
    {x y r c1 c2 : ℤ} {rp : Rand2} {pi : Proof2}
    (h : genProof2Core E pk D (some X) x y r c1 c2 rp = .ok pi) :
    ∃ e z z' t v w, pi.e = some e ∧ pi.s1 = some (e * x + rp.alpha) ∧
      e = fsHash E.kdf (wcInput E pk.N D X c1 c2 ((rp.alpha : ZMod q) • E.gen) z z' t v w) := by
  unfold genProof2Core at h
  simp only [Go.bind_eq_ok] at h
  obtain ⟨z, _, z', _, t, _, _, _, _, _, v, _, w, _, e, he, s, _, s1, hs1, s2, _, t1, _, t2, _, h⟩ := h
  rw [Option.map_some, range2Input_wc] at he
  rw [schnorr_eq] at hs1
  rw [← Except.ok.inj h]
  refine ⟨e, z, z', t, v, w, rfl, ?_, (Except.ok.inj he).symm⟩
  rw [Except.ok.inj hs1]

/-- **C125.**  A proof made with the factor `x` for any stated point convinces a verifier which uses
the point `X'` only if `X'` is `x · g`, or the challenge vanishes modulo `q`, or two named different
inputs of the hash collide. -/
theorem C125_wrong_point [Fact q.Prime] (E : Curve q G) (hxy : Function.Injective E.xy)
    {pk : Paillier.PublicKey} {D : Dealer} {X : G} {x y r c1 c2 : ℤ} {rp : Rand2} {pi : Proof2}
    (h : genProof2 E pk D (some X) x y r c1 c2 rp = .ok pi) {N : ℤ} (hN : 0 < N) {D' : Dealer}
    (hD : 0 < D'.N) {X' : G} {c1' c2' : Option ℤ}
    (hv : verify2 E ⟨N, N * N⟩ D' (some X') c1' c2' pi = .ok ()) :
    X' = (x : ZMod q) • E.gen ∨ (∃ e : ℤ, pi.e = some e ∧ (e : ZMod q) = 0) ∨
      ∃ z z' t v w a1 a2 u' b1 b2 b3 b4 b5,
        wcInput E pk.N D X c1 c2 ((rp.alpha : ZMod q) • E.gen) z z' t v w ≠
          wcInput E N D' X' a1 a2 u' b1 b2 b3 b4 b5 ∧
        fsHash E.kdf (wcInput E pk.N D X c1 c2 ((rp.alpha : ZMod q) • E.gen) z z' t v w) =
          fsHash E.kdf (wcInput E N D' X' a1 a2 u' b1 b2 b3 b4 b5) := by
  unfold genProof2 at h
  obtain ⟨_, _, h⟩ := Go.bind_eq_ok.1 h
  obtain ⟨e, z, z', t, v, w, he, hs1, hhash⟩ := genProof2Core_wc h
  obtain ⟨a1, a2, b1, e', s, s1, s2, b3, t1, t2, _, _, hpi, hacc⟩ :=
    (C127_verify_iff E N hN D' hD (some X') c1' c2' pi).1 hv
  obtain ⟨_, _, b2, b4, b5, _, _, _, u', hu', hhash'⟩ := hacc
  subst hpi
  obtain rfl := Option.some.inj he
  obtain rfl := Option.some.inj hs1
  by_cases hX : X' = (x : ZMod q) • E.gen
  · exact .inl hX
  by_cases he0 : ((e' : ℤ) : ZMod q) = 0
  · exact .inr (.inl ⟨e', rfl, he0⟩)
  refine .inr (.inr ⟨z, z', t, v, w, a1, a2, u', b1, b2, b3, b4, b5, fun hcon => ?_, ?_⟩)
  · have hu := wcInput_inj hxy hcon
    rw [← hu] at hu'
    push_cast at hu'
    rw [add_smul, add_comm, mul_smul] at hu'
    have := add_right_cancel hu'
    have h0 : (e' : ZMod q) • (X' - (x : ZMod q) • E.gen) = 0 := by rw [smul_sub, this, sub_self]
    have h1 := congrArg (fun P => ((e' : ZMod q)⁻¹) • P) h0
    simp only [smul_smul, inv_mul_cancel₀ he0, one_smul, smul_zero] at h1
    exact hX (sub_eq_zero.1 h1)
  · have := hhash.symm.trans hhash'
    exact_mod_cast this

/-- The two ways in which a wrong public share goes unnoticed: the challenge of the sender's proof is
zero modulo `q`, or a hash collision with the sender's hash input, of which `X`, `c` and the nonce
`alpha` are given. -/
def Unnoticed (E : Curve q G) (pi : Proof2) (X : G) (alpha : ℤ) : Prop :=
  (∃ e : ℤ, pi.e = some e ∧ (e : ZMod q) = 0) ∨
    ∃ N D c1 c2 z z' t v w N' D' X' a1 a2 u' b1 b2 b3 b4 b5,
      wcInput E N D X c1 c2 ((alpha : ZMod q) • E.gen) z z' t v w ≠
        wcInput E N' D' X' a1 a2 u' b1 b2 b3 b4 b5 ∧
      fsHash E.kdf (wcInput E N D X c1 c2 ((alpha : ZMod q) • E.gen) z z' t v w) =
        fsHash E.kdf (wcInput E N' D' X' a1 a2 u' b1 b2 b3 b4 b5)

theorem deref_eq_ok {α : Type} {a : Option α} {b : α} : deref a = .ok b ↔ a = some b := by
  cases a with
  | none => simp [deref, Go.crash]
  | some a => simp [deref]

theorem round1_keeps {E : Env q G} {s s' : Signer G} {rnd : Rnd1} {b : Bcast1}
    {p : List (ℕ × Proof1)} (h : round1 E s rnd = .ok (s', b, p)) :
    s'.id = s.id ∧ s'.w = s.w ∧ s'.pub = s.pub ∧ s'.sk = s.sk ∧ s'.keygen = s.keygen ∧
      s'.pks = s.pks := by
  unfold round1 at h
  simp only [Go.bind_eq_ok] at h
  obtain ⟨_, _, _, _, h⟩ := h
  split at h
  all_goals
    simp only [Go.bind_eq_ok, Go.ok_bind] at h
    obtain ⟨_, _, h⟩ := h
    obtain ⟨rfl, _⟩ := Prod.mk.inj (Except.ok.inj h)
    exact ⟨rfl, rfl, rfl, rfl, rfl, rfl⟩

theorem mapM_ok_mem {α β : Type} {f : α → Go β} {l : List α} {r : List β} (h : l.mapM f = .ok r)
    {b : β} (hb : b ∈ r) : ∃ a, f a = .ok b := by
  have hF := Go.mapM_eq_ok.1 h
  clear h
  induction hF with
  | nil => simp at hb
  | cons h1 _ ih =>
    rcases List.mem_cons.1 hb with rfl | hb
    · exact ⟨_, h1⟩
    · exact ih hb

/-- What a sender of round 2 has put into its message with check. -/
theorem round2_msg {E : Env q G} {s s' : Signer G} {params : List (ℕ × Option Bcast1)}
    {p2p : List (ℕ × Option Proof1)} {rnd : ℕ → RndM × RndM} {outs : List (ℕ × P2P)}
    (h : round2 E s params p2p rnd = .ok (s', outs)) :
    (s'.id = s.id ∧ s'.w = s.w ∧ s'.pub = s.pub ∧ s'.sk = s.sk ∧ s'.keygen = s.keygen) ∧
    ∃ B, s.pub.lookup s.id = some B ∧ ∀ i msg, (i, msg) ∈ outs → ∃ pk D y c c2 pf m,
      msg.proof3 = some pf ∧
      genProof2 E.toCurve pk D (some B) s.w y m c c2 (rnd i).2.rp = .ok pf.proof := by
  unfold round2 at h
  simp only [Go.bind_eq_ok] at h
  obtain ⟨_, _, _, _, B, hB, os, hos, h⟩ := h
  obtain ⟨rfl, rfl⟩ := Prod.mk.inj (Except.ok.inj h)
  refine ⟨⟨rfl, rfl, rfl, rfl, rfl⟩, B, deref_eq_ok.1 hB, fun i msg hmem => ?_⟩
  obtain ⟨o, ho, hoe⟩ := List.mem_map.1 hmem
  obtain ⟨rfl, rfl⟩ := Prod.mk.inj hoe
  obtain ⟨jp, hstep⟩ := mapM_ok_mem hos ho
  unfold step2 at hstep
  simp only [Go.bind_eq_ok] at hstep
  obtain ⟨pk, _, pi, _, _, _, c, _, pg, _, pw, hpw, hstep⟩ := hstep
  rw [← Except.ok.inj hstep]
  dsimp only
  unfold genResponseN at hpw
  cases hD : s.keygen.params jp.1 with
  | none =>
    rw [hD] at hpw
    simp only [Go.bind_eq_ok] at hpw
    obtain ⟨_, _, _, _, _, _, _, _, _, _, hpw⟩ := hpw
    exact absurd hpw (by simp [Go.crash])
  | some D =>
    rw [hD] at hpw
    dsimp only at hpw
    unfold genResponse at hpw
    simp only [Go.bind_eq_ok] at hpw
    obtain ⟨_, _, _, _, c2, _, _, _, pf, hpf, hpw⟩ := hpw
    refine ⟨pk, D, (rnd jp.1).2.betaTick, c, c2, _, (rnd jp.1).2.rBeta, rfl, ?_⟩
    rw [← Except.ok.inj hpw]
    exact hpf

theorem foldlM_mem_ok {α β : Type} {f : β → α → Go β} {l : List α} {b r : β}
    (h : l.foldlM f b = .ok r) {a : α} (ha : a ∈ l) : ∃ b' r', f b' a = .ok r' := by
  induction l generalizing b with
  | nil => simp at ha
  | cons x l ih =>
    rw [List.foldlM_cons, Go.bind_eq_ok] at h
    obtain ⟨b1, h1, h2⟩ := h
    rcases List.mem_cons.1 ha with rfl | ha
    · exact ⟨_, _, h1⟩
    · exact ih h2 ha

/-- **C125.**  Signer `i` gets through round 3 with the message of signer `j` only if the public share
it holds for `j` is `w_j · g` for the additive share `w_j` that `j` uses. -/
theorem C125_round3 [Fact q.Prime] {E : Env q G} (hxy : Function.Injective E.xy)
    -- the sender
    {sj sj' : Signer G} {params : List (ℕ × Option Bcast1)} {p2p : List (ℕ × Option Proof1)}
    {rnd : ℕ → RndM × RndM} {outs : List (ℕ × P2P)}
    (h2 : round2 E sj params p2p rnd = .ok (sj', outs)) {i : ℕ} {msg : P2P}
    (hmsg : (i, msg) ∈ outs)
    -- the receiver
    {si si' : Signer G} {inp : List (ℕ × Option P2P)} {delta : ℤ} {N : ℤ} (hN : 0 < N)
    (hpk : si.sk.pk = ⟨N, N * N⟩) (hD : ∀ D ∈ si.keygen.params si.id, 0 < D.N)
    (hne : sj.id ≠ si.id) (hin : (sj.id, some msg) ∈ inp)
    (h3 : round3 E si inp = .ok (si', delta)) :
    ∃ W B pf, si.pub.lookup sj.id = some W ∧ sj.pub.lookup sj.id = some B ∧
      msg.proof3 = some pf ∧
      (W = (sj.w : ZMod q) • E.gen ∨ Unnoticed E.toCurve pf.proof B (rnd i).2.rp.alpha) := by
  obtain ⟨_, B, hB, hout⟩ := round2_msg h2
  obtain ⟨pk, D, y, c, c2, pf, m, hpf, hgen⟩ := hout i msg hmsg
  unfold round3 at h3
  simp only [Go.bind_eq_ok] at h3
  obtain ⟨_, _, d0, _, s0, _, ds, hds, _⟩ := h3
  obtain ⟨b', r', hstep⟩ := foldlM_mem_ok hds (a := (sj.id, some msg))
    (List.mem_filter.2 ⟨hin, by simpa using hne⟩)
  unfold step3 at hstep
  simp only [Go.bind_eq_ok] at hstep
  obtain ⟨value, hvalue, _, _, _, _, W, hW, p3, hp3, mu, hmu, _⟩ := hstep
  have hvalue := Go.ofOption_eq_ok.1 hvalue
  obtain rfl := Option.some.inj hvalue
  have hp3 := deref_eq_ok.1 hp3
  obtain rfl := Option.some.inj (hpf.symm.trans hp3)
  refine ⟨W, B, pf, deref_eq_ok.1 hW, hB, hpf, ?_⟩
  unfold finalizeN at hmu
  cases hDi : si.keygen.params si.id with
  | none =>
    rw [hDi] at hmu
    simp only [Go.bind_eq_ok] at hmu
    obtain ⟨_, _, _, _, hmu⟩ := hmu
    exact absurd hmu (by simp [Go.crash])
  | some Di =>
    rw [hDi] at hmu
    dsimp only at hmu
    unfold finalize at hmu
    obtain ⟨_, hver, _⟩ := Go.bind_eq_ok.1 hmu
    rw [hpk] at hver
    rcases C125_wrong_point E.toCurve hxy hgen hN (hD Di hDi) hver with h | h | h
    · exact .inl h
    · exact .inr (.inl h)
    · obtain ⟨z, z', t, v, w, a1, a2, u', b1, b2, b3, b4, b5, h4, h5⟩ := h
      exact .inr (.inr ⟨_, _, _, _, z, z', t, v, w, _, _, _, a1, a2, u', b1, b2, b3, b4, b5, h4, h5⟩)

/-- **C125.**  Signing with the public shares of the key generation: signers made from shares `x`
of the key generation and the points it publishes.  If signer `i` gets through round 3, then the
published share of every other signer `j` whose messages are honest is the right one (which for
given other coefficients it is for one key only, `C49_published_iff`), or the error went unnoticed
because of a zero challenge or a hash collision. -/
theorem C125_published_shares_break_signing [Fact q.Prime] (hq : 255 < q) {E : DkgEnv q G}
    (hE : GoodEnv E) (hxy : Function.Injective E.xy)
    {t : ℕ} {A : Finset UInt32} {rndK : UInt32 → DkgRnd q}
    {S : Finset ℕ} (hS : ∀ j ∈ S, 1 ≤ j ∧ j ≤ 255) (h2 : 2 ≤ S.card) {i j : ℕ} (hi : i ∈ S)
    (hj : j ∈ S) (hij : j ≠ i) {y : G} {kgi kgj : KeyGen} {ski skj : Paillier.SecretKey}
    {psi psj : List (ℕ × G)} {pksi pksj : List (ℕ × Paillier.PublicKey)} {cosi cosj : List ℕ}
    (hcosi : ∀ k, k ∈ cosi ↔ k ∈ S) (hcosj : ∀ k, k ∈ cosj ↔ k ∈ S)
    -- the published shares
    (hpsi : ∀ k ∈ S, psi.lookup k = some (published t A rndK k • E.gen))
    (hpsj : ∀ k ∈ S, psj.lookup k = some (published t A rndK k • E.gen))
    (hpki : ∀ k ∈ S, k ≠ i → (pksi.lookup k).isSome = true)
    (hpkj : ∀ k ∈ S, k ≠ j → (pksj.lookup k).isSome = true)
    {N : ℤ} (hN : 0 < N) (hpk : ski.pk = ⟨N, N * N⟩) (hD : ∀ D ∈ kgi.params i, 0 < D.N)
    -- both signers and their rounds
    {si sj si1 sj1 si2 sj2 si3 : Signer G}
    (hsi : newSigner i (jointAt t A rndK (i : ZMod q)) ski y kgi psi pksi cosi = .ok si)
    (hsj : newSigner j (jointAt t A rndK (j : ZMod q)) skj y kgj psj pksj cosj = .ok sj)
    {ri rj : Rnd1} {bi bj : Bcast1} {pi pj : List (ℕ × Proof1)}
    (hi1 : round1 E.toEnv si ri = .ok (si1, bi, pi)) (hj1 : round1 E.toEnv sj rj = .ok (sj1, bj, pj))
    {mi mj : List (ℕ × Option Bcast1)} {qi qj : List (ℕ × Option Proof1)}
    {rmi rmj : ℕ → RndM × RndM} {oi oj : List (ℕ × P2P)}
    (hi2 : round2 E.toEnv si1 mi qi rmi = .ok (si2, oi))
    (hj2 : round2 E.toEnv sj1 mj qj rmj = .ok (sj2, oj))
    {msg : P2P} (hmsg : (i, msg) ∈ oj) {inp : List (ℕ × Option P2P)} (hin : (j, some msg) ∈ inp)
    {delta : ℤ} (hi3 : round3 E.toEnv si2 inp = .ok (si3, delta)) :
    published t A rndK j = jointAt t A rndK (j : ZMod q) ∨
      ∃ B pf, msg.proof3 = some pf ∧ Unnoticed E.toCurve pf.proof B (rmj i).2.rp.alpha := by
  obtain ⟨si', h1, hid, _, hsk, hkg, _, _, _, _, _, _, hpub, _⟩ := newSigner_gen hq hS h2 hi
    (fun k => published t A rndK k • E.gen) (jointAt t A rndK (i : ZMod q)) ski y kgi psi pksi cosi
    hcosi hpsi hpki
  obtain rfl := Except.ok.inj (h1.symm.trans hsi)
  obtain ⟨sj', h1', hidj, _, _, _, _, _, _, _, _, hwj, hpubj, _⟩ := newSigner_gen hq hS h2 hj
    (fun k => published t A rndK k • E.gen) (jointAt t A rndK (j : ZMod q)) skj y kgj psj pksj cosj
    hcosj hpsj hpkj
  obtain rfl := Except.ok.inj (h1'.symm.trans hsj)
  obtain ⟨a1, a2, a3, a4, a5, a6⟩ := round1_keeps hi1
  obtain ⟨c1, c2, c3, c4, c5, c6⟩ := round1_keeps hj1
  obtain ⟨⟨b1, b2, b3, b4, b5⟩, _⟩ := round2_msg hi2
  obtain ⟨W, B, pf, hW, _, hpf, hor⟩ := C125_round3 (E := E.toEnv) hxy hj2 hmsg (si := si2)
    (inp := inp) hN (by rw [b4, a4, hsk]; exact hpk) (by rw [b5, a5, hkg, b1, a1, hid]; exact hD)
    (by rw [c1, hidj, b1, a1, hid]; exact hij) (by rw [c1, hidj]; exact hin) hi3
  rcases hor with hor | hor
  · left
    rw [c1, hidj, b3, a3, hpub j hj] at hW
    rw [← Option.some.inj hW, c2, hwj, addShare, smul_smul] at hor
    have h0 : lag0 S (fun k => (k : ZMod q)) j * published t A rndK j -
        lag0 S (fun k => (k : ZMod q)) j * jointAt t A rndK (j : ZMod q) = 0 :=
      hE.gen _ (by rw [sub_smul, hor, sub_self])
    rw [← mul_sub] at h0
    refine sub_eq_zero.1 ((mul_eq_zero.1 h0).resolve_left ?_)
    unfold lag0
    refine Finset.prod_ne_zero_iff.2 fun k hk => ?_
    obtain ⟨hkj, hkS⟩ := Finset.mem_erase.1 hk
    have hk1 := hS k hkS
    have hj1 := hS j hj
    refine div_ne_zero ?_ (sub_ne_zero.2 ?_)
    · intro h
      have := Nat.le_of_dvd (by omega) ((ZMod.natCast_eq_zero_iff _ _).1 h)
      omega
    · intro h
      rw [ZMod.natCast_eq_natCast_iff] at h
      unfold Nat.ModEq at h
      rw [Nat.mod_eq_of_lt (by omega), Nat.mod_eq_of_lt (by omega)] at h
      exact hkj h
  · exact .inr ⟨B, pf, hpf, hor⟩

/-! ## The own proof parameters -/

theorem cmpLe_unit {a : Option ℤ} {b : ℤ} {u : Unit} (h : cmpLe a b = .ok u) : cmpLe a b = .ok () := h

/-- **C130.**  The result of the key generation has no entry for the own identifier.  A signer whose
parameters have none for its own identifier panics in round 2 at the first message with a valid
proof. -/
theorem C130_own_params_missing_panics {E : Env q G} {s : Signer G}
    {params : List (ℕ × Option Bcast1)} {p2p : List (ℕ × Option Proof1)} {rnd : ℕ → RndM × RndM}
    (hv : verifyStateMap s 2 (some (params.map (·.1))) = .ok ())
    (hv' : verifyP2PMap s 2 (p2p.map (·.1)) = .ok ()) {B : G} (hB : s.pub.lookup s.id = some B)
    (htr : s.keygen.trusted = false) (hnone : s.keygen.params s.id = none)
    -- the first message
    {j : ℕ} {b : Bcast1} {rest : List (ℕ × Option Bcast1)} (hp : params = (j, some b) :: rest)
    (hj : j ≠ s.id) {pk : Paillier.PublicKey} (hpk : s.pks.lookup j = some pk) {pi : Proof1}
    (hpi : p2p.lookup j = some (some pi)) {D : Dealer}
    (hver : verify1 E.toCurve pk D b.Ctxt pi = .ok ()) :
    round2 E s params p2p rnd = Go.crash := by
  unfold verify1 at hver
  simp only [Go.bind_eq_ok] at hver
  obtain ⟨_, h1, u, h2, _⟩ := hver
  have hstep : step2 E s B p2p rnd (j, b) = Go.crash := by
    unfold step2
    simp only [hpk, deref, Go.ok_bind, pickProof, htr, hpi]
    simp only [Option.join_some, if_neg Bool.false_ne_true, Go.ok_bind, hnone, verify1N]
    rw [cmpLe_unit h1, Go.ok_bind, h2]
    rfl
  unfold round2
  rw [hv, Go.ok_bind, hv', Go.ok_bind, hB, hp]
  simp only [deref, Go.ok_bind, List.filterMap_cons, if_neg hj, Option.map_some, List.mapM_cons,
    hstep]
  rfl

/-- The parameters as they come out of the key generation: none for the own identifier. -/
theorem C130_result_lacks_own {n i : UInt32} {pk : UInt32 → Paillier.PublicKey}
    {D : UInt32 → Dealer} {data : List (UInt32 × Paillier.PublicKey × Dealer)}
    (h : ∀ j, data.lookup j = dataOf n i pk D j) :
    (KeyGen.dkg (data.map fun e => (e.1.toNat, e.2.2))).params i.toNat = none := by
  have hi := h i
  unfold dataOf at hi
  rw [if_neg (by tauto)] at hi
  unfold KeyGen.params
  clear h
  dsimp only
  induction data with
  | nil => rfl
  | cons e data ih =>
    obtain ⟨k, v⟩ := e
    rw [List.lookup_cons] at hi
    rw [List.map_cons, List.lookup_cons]
    by_cases hk : i = k
    · subst hk
      simp at hi
    · have h1 : (i == k) = false := by simpa using hk
      have h2 : (i.toNat == k.toNat) = false := by
        simpa using fun h => hk (UInt32.toNat_inj.1 h)
      rw [h1] at hi
      rw [h2]
      exact ih hi

/-! ## The key generation followed by signing -/

/-- **C49.**  The shares of the key generation are good for signing: with public shares computed from
the shares (not the published ones) and with the own parameters added, every honest run of signing
by at least `t` participants ends with a signature which is valid for the public key of the key
generation. -/
theorem C49_then_sign [Fact q.Prime] [DecidableEq G] (hq : 255 < q) {E : DkgEnv q G}
    (hE : GoodEnv E) (hx : ∀ P, (E.xy (-P)).1 = (E.xy P).1)
    (hy : ∀ P ≠ 0, ((E.xy (-P)).2 % 2).toNat = ((E.xy P).2 % 2).toNat ^^^ 1)
    (kdfLen : ∀ m, (E.kdf m).length = 32)
    -- the results of the key generation, as in `C49_honest_run`
    {t n : UInt32} (ht : 2 ≤ t.toNat) {rndK : UInt32 → DkgRnd q} {res : UInt32 → DkgResult G}
    (hg : ∀ i ∈ parts n, GoodDkg E t.toNat (rndK i))
    (hres : ∀ i ∈ parts n, (res i).y = (∑ j ∈ parts n, (((rndK j).ui.natAbs : ℕ) : ZMod q)) • E.gen ∧
      (res i).xi = ((∑ j ∈ parts n, polyAt t.toNat (rndK j) (i.toNat : ZMod q)).cast : ℤ) ∧
      Paillier.newSecretKey (some (rndK i).p) (some (rndK i).q) = .ok (res i).sk)
    -- the signers
    {S : Finset ℕ} (hS : ∀ j ∈ S, 1 ≤ j ∧ j ≤ n.toNat ∧ j ≤ 255) (hcard : t.toNat ≤ S.card)
    (big : ∀ i ∈ parts n, (q : ℤ) ^ 2 + (q : ℤ) ^ 5 ≤ (rndK i).p * (rndK i).q)
    (kg : ℕ → KeyGen)
    (hkg : ∀ i ∈ S, (kg i).trusted = false ∧
      ∀ j ∈ S, (kg i).params j = some (dkgParams (rndK (UInt32.ofNat j))))
    (publicShares : ℕ → List (ℕ × G)) (pks : ℕ → List (ℕ × Paillier.PublicKey))
    (hpub : ∀ i ∈ S, ∀ j ∈ S,
      (publicShares i).lookup j = some (((res (UInt32.ofNat j)).xi : ZMod q) • E.gen))
    (hpks : ∀ i ∈ S, ∀ j ∈ S, j ≠ i → (pks i).lookup j = some (res (UInt32.ofNat j)).sk.pk)
    (cos : ℕ → List ℕ) (hcos : ∀ i ∈ S, ∀ j, j ∈ cos i ↔ j ∈ S)
    -- the run of signing
    (rnd : ℕ → Rnd1) (rndM : ℕ → ℕ → RndM × RndM)
    (rp : ℕ → ℕ → Rand1) (hash : List UInt8) (ord : ℕ → ℕ → List ℕ)
    (hr : ∀ i ∈ S, GoodRnd1 q ((rndK (UInt32.ofNat i)).p * (rndK (UInt32.ofNat i)).q) (rnd i))
    (hm : ∀ i ∈ S, ∀ j ∈ S,
      GoodRndM q ((rndK (UInt32.ofNat j)).p * (rndK (UInt32.ofNat j)).q) (rndM i j).1 ∧
      GoodRndM q ((rndK (UInt32.ofNat j)).p * (rndK (UInt32.ofNat j)).q) (rndM i j).2)
    (hrp : ∀ i ∈ S, ∀ j, (rp i j).alpha ≤ (q : ℤ) ^ 3 - 2 ^ 256 * q)
    (hord : ∀ n, ∀ i ∈ S, (ord n i).Nodup ∧ ∀ j, j ∈ ord n i ↔ j ∈ S ∧ j ≠ i)
    (hhash : beNat hash < q)
    (hK : (∑ i ∈ S, ((rnd i).k : ZMod q)) ≠ 0) (hGam : (∑ i ∈ S, ((rnd i).gamma : ZMod q)) ≠ 0) :
    ∃ (s0 : ℕ → Signer G) (τ : Run E.toEnv S s0 rnd rndM rp hash ord) (σ : Sig),
      (∀ i ∈ S, newSigner i ((res (UInt32.ofNat i)).xi : ZMod q) (res (UInt32.ofNat i)).sk
        (res (UInt32.ofNat i)).y (kg i) (publicShares i) (pks i) (cos i) = .ok (s0 i)) ∧
      (∀ i ∈ S, τ.sig i = σ) ∧ (0 ≤ σ.s ∧ σ.s ≤ (q : ℤ) / 2) ∧
      (σ.s ≠ 0 → 0 < σ.r → σ.r < q → ∀ i ∈ S,
        ∃ P, EcdsaValid E.toEnv (res (UInt32.ofNat i)).y (beNat hash) σ P) := by
  have hmem : ∀ j ∈ S, UInt32.ofNat j ∈ parts n ∧ (UInt32.ofNat j).toNat = j := by
    intro j hj
    obtain ⟨h1, h2, h3⟩ := hS j hj
    have : (UInt32.ofNat j).toNat = j := UInt32.toNat_ofNat_of_lt' (by show j < 2 ^ 32; omega)
    exact ⟨mem_parts.2 (by rw [this]; exact ⟨h1, h2⟩), this⟩
  have hS' : ∀ j ∈ S, 1 ≤ j ∧ j ≤ 255 := fun j hj => ⟨(hS j hj).1, (hS j hj).2.2⟩
  have hxi : ∀ j ∈ S, ((res (UInt32.ofNat j)).xi : ZMod q) =
      jointAt t.toNat (parts n) rndK (j : ZMod q) := by
    intro j hj
    obtain ⟨h1, h2⟩ := hmem j hj
    rw [(hres _ h1).2.1, ZMod.intCast_zmod_cast, h2]
    rfl
  have hgen0 : E.gen ≠ 0 := by
    intro h
    exact one_ne_zero (hE.gen 1 (by rw [h, smul_zero]))
  have hsum : ∑ j ∈ S, addShare q S j (((res (UInt32.ofNat j)).xi : ℤ) : ZMod q) =
      ∑ j ∈ parts n, (((rndK j).ui.natAbs : ℕ) : ZMod q) := by
    have h := C43_sum hq hS' (t := t.toNat) (by omega) hcard
      (natBytes (joint t.toNat (parts n) rndK 0).val)
      (fun k => joint t.toNat (parts n) rndK (k + 1))
    rw [beNat_natBytes, ZMod.natCast_val, ZMod.cast_id] at h
    rw [← joint_zero t.toNat (parts n) rndK, ← h]
    refine Finset.sum_congr rfl fun j hj => ?_
    rw [hxi j hj, jointAt_eq (by omega), V1.dealt, beNat_natBytes, ZMod.natCast_val, ZMod.cast_id]
    obtain ⟨m, hm⟩ := Nat.exists_eq_succ_of_ne_zero (show t.toNat ≠ 0 by omega)
    rw [hm, Finset.sum_range_succ', Nat.succ_sub_one]
    simp [add_comm]
  obtain ⟨s0, τ, σ, R, h1, h2, _, _, h5, h6⟩ := C45_from_shares (E := E.toEnv) hq hx hgen0 hy
    (fun r hr => hE.decEnc _ fun h => hr (hE.gen r h)) hE.hmacLen kdfLen hS' (by omega)
    (fun j => ((res (UInt32.ofNat j)).xi : ZMod q)) hsum
    (fun j => (rndK (UInt32.ofNat j)).p) (fun j => (rndK (UInt32.ofNat j)).q)
    (fun j => (res (UInt32.ofNat j)).sk) (fun i hi => (hg _ (hmem i hi).1).primes)
    (fun i hi => (hres _ (hmem i hi).1).2.2) (fun i hi => big _ (hmem i hi).1) kg false
    (fun j => dkgParams (rndK (UInt32.ofNat j))) hkg
    (fun i hi => dkgParams_good (hg _ (hmem i hi).1)) publicShares pks hpub hpks cos hcos rnd rndM
    rp hash ord hr hm hrp hord hhash hK hGam
  refine ⟨s0, τ, σ, fun i hi => ?_, h2, h5, fun a b c i hi => ?_⟩
  · rw [(hres _ (hmem i hi).1).1]
    exact h1 i hi
  · obtain ⟨P, hP, _⟩ := h6 a b c
    exact ⟨P, by rw [(hres _ (hmem i hi).1).1]; exact hP⟩

end

end Verif.Gg20
