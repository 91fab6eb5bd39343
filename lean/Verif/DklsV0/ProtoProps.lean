import Verif.DklsV0.ProtoModel
import Verif.DklsV0.SignProps
import Verif.Dkls.ProtocolProps

/-!
# C204: the iterators of the older DKLs

`Stepper.run` is any sequence of calls of `Next` with any messages and any randomness; the specification of an honest network is `pingPong`.
-/

namespace Verif.DklsV0
open Verif.Legacy Verif.Ot Verif.Dkls

/-! ## Any execution -/

section
variable {σ R : Type}

theorem stepOf_ok {f : σ → R → Option Msg → Go (σ × Option Msg)} {s s' : σ} {i : R × Option Msg} {o : Option Msg}
    (h : stepOf f s i = (s', .ok o)) : f s i.1 i.2 = .ok (s', o) := by
  unfold stepOf at h
  split at h
  · rename_i s1 o1 h1
    obtain ⟨rfl, h2⟩ := Prod.mk.inj h
    obtain rfl := Except.ok.inj h2
    exact h1
  · exact absurd (Prod.mk.inj h).2 (by simp)

theorem stepOf_error {f : σ → R → Option Msg → Go (σ × Option Msg)} {s s' : σ} {i : R × Option Msg} {e : Fail}
    (h : stepOf f s i = (s', .error e)) : s' = s := by
  unfold stepOf at h
  split at h
  · exact absurd (Prod.mk.inj h).2 (by simp)
  · exact (Prod.mk.inj h).1.symm

theorem stepOf_run {f : σ → R → Option Msg → Go (σ × Option Msg)} {s s' : σ} {r : R} {m o : Option Msg} (h : f s r m = .ok (s', o)) :
    stepOf f s (r, m) = (s', .ok o) := by
  unfold stepOf
  rw [h]

/-- an invariant of the steps, which are all made by `stepOf`, holds after any calls -/
theorem run_inv (fs : List (σ → R → Option Msg → Go (σ × Option Msg))) (Inv : ℕ → σ → Prop)
    (hstep : ∀ k f s r m s' o, fs[k]? = some f → Inv k s → f s r m = .ok (s', o) → Inv (k + 1) s') (inputs : List (R × Option Msg)) :
    ∀ p : Stepper σ (R × Option Msg) (Option Msg), p.steps = fs.map stepOf → Inv p.step p.state →
      Inv (p.run inputs).1.step (p.run inputs).1.state := by
  induction inputs with
  | nil => intro p _ h; exact h
  | cons i is ih =>
    intro p hp h
    show Inv ((p.next i).1.run is).1.step ((p.next i).1.run is).1.state
    refine ih _ ((p.next_steps i).trans hp) ?_
    unfold Stepper.next
    cases hf : p.steps[p.step]? with
    | none => exact h
    | some g =>
      simp only
      rw [hp, List.getElem?_map, Option.map_eq_some_iff] at hf
      obtain ⟨f, hf, rfl⟩ := hf
      rcases hg : stepOf f p.state i with ⟨s, e | o⟩
      · rw [stepOf_error hg]; exact h
      · exact hstep _ _ _ _ _ _ _ hf h (stepOf_ok hg)

/-- the number of steps done by a complete run -/
theorem run_complete (p : Stepper σ (R × Option Msg) (Option Msg)) (h0 : p.step = 0) (inputs : List (R × Option Msg))
    (h : (p.run inputs).1.complete = true) : (p.run inputs).1.step = p.steps.length := by
  obtain ⟨-, b, c, -⟩ := run_aux inputs p (by omega)
  rw [Stepper.complete, c, decide_eq_true_iff] at h
  omega

/-- C204: a failed call of `Next` leaves the party as it was, so it can be repeated with another message: in particular Bob tries any number
of answers of Alice with one nonce -/
theorem C204_retry (fs : List (σ → R → Option Msg → Go (σ × Option Msg))) (p : Stepper σ (R × Option Msg) (Option Msg)) (hp : p.steps = fs.map stepOf)
    (i : R × Option Msg) (e : NextErr) (h : (p.next i).2 = .error e) : (p.next i).1 = p := by
  unfold Stepper.next at h ⊢
  cases hf : p.steps[p.step]? with
  | none => rfl
  | some g =>
    rw [hf] at h
    simp only at h ⊢
    rw [hp, List.getElem?_map, Option.map_eq_some_iff] at hf
    obtain ⟨f, hf, rfl⟩ := hf
    rcases hg : stepOf f p.state i with ⟨s, e | o⟩
    · rw [stepOf_error hg]
    · rw [hg] at h; exact absurd h (by simp)

end

variable {env : Env}

/-- C204: whatever the messages and the randomness, a signature that `BobSign.Result` gives is not nil and was verified, for the message of
`NewBobSign`, under the public key of the decoded state -/
theorem C204_bob_sign (c : Gob BobSaved) (msg state : List UInt8) (p : BobSignIter) (hp : newBobSign env c msg state = .ok p)
    (inputs : List (BobRandom × Option Msg)) (o : Option Sig) (h : bobSignResult (p.run inputs).1 = .ok o) :
    ∃ sig saved pk, o = some sig ∧ c.dec state = some saved ∧ saved.pk = some pk ∧
      env.ecdsaVerify { pk with curve := env.curve } msg sig.R sig.S = true := by
  obtain ⟨saved, hs, hp⟩ := Go.bind_eq_ok.1 hp
  rw [Go.ofOption_eq_ok] at hs
  obtain rfl := Except.ok.inj hp
  obtain ⟨hc, ho⟩ := Go.guard_bind_eq_ok.1 h
  obtain rfl := Except.ok.inj ho
  have hstep := run_complete _ rfl inputs hc
  have inv := run_inv [bobSignStep1 env, bobSignStep2 env msg]
    (fun k s => s.saved = saved ∧ (k = 2 → ∃ sig pk, s.sig = some sig ∧ saved.pk = some pk ∧
      env.ecdsaVerify { pk with curve := env.curve } msg sig.R sig.S = true))
    (by
      intro k f s r m s' o hf hi hr
      match k, hf with
      | 0, hf =>
        obtain rfl := Option.some.inj hf
        obtain ⟨⟨m1, b⟩, -, h2⟩ := Go.bind_eq_ok.1 hr
        obtain ⟨rfl, -⟩ := Prod.mk.inj (Except.ok.inj h2)
        exact ⟨hi.1, fun h => absurd h (by decide)⟩
      | 1, hf =>
        obtain rfl := Option.some.inj hf
        obtain ⟨i1, -, h2⟩ := Go.bind_eq_ok.1 hr
        obtain ⟨b, -, h2⟩ := Go.bind_eq_ok.1 h2
        obtain ⟨sig, h3, h2⟩ := Go.bind_eq_ok.1 h2
        obtain ⟨rfl, -⟩ := Prod.mk.inj (Except.ok.inj h2)
        refine ⟨hi.1, fun _ => ?_⟩
        rw [hi.1] at h3
        unfold signFinal at h3
        obtain ⟨sig', h4, h5⟩ := Go.bind_eq_ok.1 h3
        obtain ⟨pk, h6, h7⟩ := Go.bind_eq_ok.1 h5
        obtain ⟨h8, h9⟩ := Go.guard_bind_eq_ok.1 h7
        obtain rfl := Except.ok.inj h9
        refine ⟨sig', pk, rfl, ?_, h8⟩
        cases hpk : saved.pk with
        | none => rw [hpk] at h6; exact absurd h6 (by simp [deref, Go.crash])
        | some q => rw [hpk] at h6; exact congrArg some (Except.ok.inj h6)
      | k + 2, hf => exact absurd hf (by simp))
    inputs ⟨[stepOf (bobSignStep1 env), stepOf (bobSignStep2 env msg)], 0, ⟨saved, none, none⟩⟩ rfl ⟨rfl, fun h => absurd h (show ¬ 0 = 2 by decide)⟩
  obtain ⟨sig, pk, h1, h2, h3⟩ := inv.2 hstep
  exact ⟨sig, saved, pk, h1, hs, h2, h3⟩

/-- C204: there is no result before the end, and never one of Alice's signing -/
theorem C204_results (ca : Gob AliceSaved) (cb : Gob BobSaved) (a : AliceDkg) (b : BobDkg) (s : BobSignIter) (t : AliceSignIter) :
    ((∃ r, aliceDkgResult ca a = .ok r) ↔ a.complete = true) ∧ ((∃ r, bobDkgResult cb b = .ok r) ↔ b.complete = true) ∧
      ((∃ r, bobSignResult s = .ok r) ↔ s.complete = true) ∧ DklsV0.aliceSignResult t = Go.err := by
  refine ⟨?_, ?_, ?_, rfl⟩
  · unfold aliceDkgResult
    simp only [Go.guard_bind_eq_ok]
    exact ⟨fun ⟨_, h, _⟩ => h, fun h => ⟨_, h, rfl⟩⟩
  · unfold bobDkgResult
    simp only [Go.guard_bind_eq_ok]
    exact ⟨fun ⟨_, h, _⟩ => h, fun h => ⟨_, h, rfl⟩⟩
  · unfold bobSignResult
    simp only [Go.guard_bind_eq_ok]
    exact ⟨fun ⟨_, h, _⟩ => h, fun h => ⟨_, h, rfl⟩⟩

/-- what Alice has checked after each number of steps -/
def AliceInv (env : Env) (k : ℕ) (s : AliceState) : Prop :=
  (1 ≤ k → ∃ n, prove env s.sk n = .ok s.pkA) ∧
  (2 ≤ k → ∃ proof pk, s.pk = some pk ∧ verify env proof = .ok () ∧ EcPoint.scalarMult proof.pub (some s.sk) = .ok pk) ∧
  (3 ≤ k → ∃ proof a msg, verify env proof = .ok () ∧ receiverPad env proof.pub s.packed a = .ok (msg, s.rho)) ∧
  (5 ≤ k → ∃ op, receiverFinal env s.packed s.rho s.xi op = .ok ())

/-- C204: whatever the messages and the randomness, when `AliceDkg` gives a result then the key is the product of her secret with a point of
which she verified a proof, her pads are those of a point of which she verified a proof, she verified the openings of the pads, and the
encoded state holds the secret, the choices, the pads and the key -/
theorem C204_alice_dkg (c : Gob AliceSaved) (inputs : List (AliceRand × Option Msg)) (bytes : List UInt8) (pk : Option EcPoint)
    (h : aliceDkgResult c ((newAliceDkg env).run inputs).1 = .ok (bytes, pk)) :
    ∃ saved proof key proof' a msg xi op, c.dec bytes = some saved ∧ (∃ n, prove env saved.sk n = .ok saved.pkA) ∧
      pk = some key ∧ saved.pk = some key ∧ verify env proof = .ok () ∧ EcPoint.scalarMult proof.pub (some saved.sk) = .ok key ∧
      verify env proof' = .ok () ∧ receiverPad env proof'.pub saved.packed a = .ok (msg, saved.rho) ∧
      receiverFinal env saved.packed saved.rho xi op = .ok () := by
  obtain ⟨hc, ho⟩ := Go.guard_bind_eq_ok.1 h
  obtain ⟨rfl, rfl⟩ := Prod.mk.inj (Except.ok.inj ho)
  have hstep := run_complete _ rfl inputs hc
  have inv := run_inv [aliceStep1 env, aliceStep2 env, aliceStep3 env, aliceStep4 env, aliceStep5 env] (AliceInv env)
    (by
      intro k f s r m s' o hf hi hr
      obtain ⟨i1, i2, i3, i4⟩ := hi
      match k, hf with
      | 0, hf =>
        obtain rfl := Option.some.inj hf
        obtain ⟨⟨p, d⟩, h1, h2⟩ := Go.bind_eq_ok.1 hr
        obtain ⟨rfl, -⟩ := Prod.mk.inj (Except.ok.inj h2)
        unfold aliceCommit proveCommit at h1
        obtain ⟨p', h3, h4⟩ := Go.bind_eq_ok.1 h1
        obtain ⟨c', -, h5⟩ := Go.bind_eq_ok.1 h4
        obtain ⟨rfl, -⟩ := Prod.mk.inj (Except.ok.inj h5)
        exact ⟨fun _ => ⟨_, h3⟩, fun h => absurd h (by decide), fun h => absurd h (by decide), fun h => absurd h (by decide)⟩
      | 1, hf =>
        obtain rfl := Option.some.inj hf
        obtain ⟨p, -, h2⟩ := Go.bind_eq_ok.1 hr
        obtain ⟨q, h3, h2⟩ := Go.bind_eq_ok.1 h2
        obtain ⟨rfl, -⟩ := Prod.mk.inj (Except.ok.inj h2)
        obtain ⟨_, h4, h5⟩ := Go.bind_eq_ok.1 h3
        exact ⟨fun _ => i1 le_rfl, fun _ => ⟨p, q, rfl, h4, h5⟩, fun h => absurd h (by decide), fun h => absurd h (by decide)⟩
      | 2, hf =>
        obtain rfl := Option.some.inj hf
        obtain ⟨p, -, h2⟩ := Go.bind_eq_ok.1 hr
        obtain ⟨q, h3, h2⟩ := Go.bind_eq_ok.1 h2
        obtain ⟨⟨mg, rho⟩, h6, h2⟩ := Go.bind_eq_ok.1 h2
        obtain ⟨rfl, -⟩ := Prod.mk.inj (Except.ok.inj h2)
        obtain ⟨_, h4, h5⟩ := Go.bind_eq_ok.1 h3
        obtain rfl := Except.ok.inj h5
        exact ⟨fun _ => i1 (by decide), fun _ => i2 le_rfl, fun _ => ⟨p, r.a, mg, h4, h6⟩, fun h => absurd h (by decide)⟩
      | 3, hf =>
        obtain rfl := Option.some.inj hf
        obtain ⟨p, -, h2⟩ := Go.bind_eq_ok.1 hr
        obtain ⟨rfl, -⟩ := Prod.mk.inj (Except.ok.inj h2)
        exact ⟨fun _ => i1 (by decide), fun _ => i2 (by decide), fun _ => i3 (by decide), fun h => absurd h (by decide)⟩
      | 4, hf =>
        obtain rfl := Option.some.inj hf
        obtain ⟨p, -, h2⟩ := Go.bind_eq_ok.1 hr
        obtain ⟨_, h3, h2⟩ := Go.bind_eq_ok.1 h2
        obtain ⟨rfl, -⟩ := Prod.mk.inj (Except.ok.inj h2)
        exact ⟨fun _ => i1 (by decide), fun _ => i2 (by decide), fun _ => i3 (by decide), fun _ => ⟨p, h3⟩⟩
      | k + 5, hf => exact absurd hf (by simp))
    inputs (newAliceDkg env) rfl ⟨fun h => absurd h (show ¬ 1 ≤ 0 by decide), fun h => absurd h (show ¬ 2 ≤ 0 by decide), fun h => absurd h (show ¬ 3 ≤ 0 by decide), fun h => absurd h (show ¬ 5 ≤ 0 by decide)⟩
  rw [hstep, show (newAliceDkg env).steps.length = 5 from rfl] at inv
  obtain ⟨i1, i2, i3, i4⟩ := inv
  obtain ⟨proof, key, e1, e2, e3⟩ := i2 (by decide)
  obtain ⟨proof', a, msg, e4, e5⟩ := i3 (by decide)
  obtain ⟨op, e6⟩ := i4 (by decide)
  exact ⟨_, proof, key, proof', a, msg, _, op, c.dec_enc _, i1 (by decide), e1, e1, e2, e3, e4, e5, e6⟩

/-- what Bob has checked after each number of steps -/
def BobInv (env : Env) (k : ℕ) (s : BobState) : Prop :=
  (1 ≤ k → ∃ n, prove env s.sk n = .ok s.pkB) ∧
  (2 ≤ k → (∃ proof pk, s.pk = some pk ∧ decommitVerify env proof s.com = .ok () ∧ EcPoint.scalarMult proof.pub (some s.sk) = .ok pk) ∧
    ∃ b n proof sender, senderPubKey env b n = .ok (proof, sender) ∧ s.sender = some sender) ∧
  (3 ≤ k → ∃ sender input xi, s.sender = some sender ∧ senderPad env sender input = .ok (s.rho, xi)) ∧
  (4 ≤ k → ∃ resp op, senderVerification env s.rho resp = .ok op)

/-- C204: the same for `BobDkg`: the point is one whose proof was committed to before he sent anything -/
theorem C204_bob_dkg (c : Gob BobSaved) (inputs : List (BobRand × Option Msg)) (bytes : List UInt8) (pk : Option EcPoint)
    (h : bobDkgResult c ((newBobDkg env).run inputs).1 = .ok (bytes, pk)) :
    ∃ saved com proof key b n proof' sender input xi resp op, c.dec bytes = some saved ∧ (∃ n, prove env saved.sk n = .ok saved.pkB) ∧
      pk = some key ∧ saved.pk = some key ∧ decommitVerify env proof com = .ok () ∧ EcPoint.scalarMult proof.pub (some saved.sk) = .ok key ∧
      senderPubKey env b n = .ok (proof', sender) ∧ senderPad env sender input = .ok (saved.rho, xi) ∧
      senderVerification env saved.rho resp = .ok op := by
  obtain ⟨hc, ho⟩ := Go.guard_bind_eq_ok.1 h
  obtain ⟨rfl, rfl⟩ := Prod.mk.inj (Except.ok.inj ho)
  have hstep := run_complete _ rfl inputs hc
  have inv := run_inv [bobStep1 env, bobStep2 env, bobStep3 env, bobStep4 env] (BobInv env)
    (by
      intro k f s r m s' o hf hi hr
      obtain ⟨i1, i2, i3, i4⟩ := hi
      match k, hf with
      | 0, hf =>
        obtain rfl := Option.some.inj hf
        obtain ⟨d, -, h2⟩ := Go.bind_eq_ok.1 hr
        obtain ⟨p, h1, h2⟩ := Go.bind_eq_ok.1 h2
        obtain ⟨rfl, -⟩ := Prod.mk.inj (Except.ok.inj h2)
        exact ⟨fun _ => ⟨_, h1⟩, fun h => absurd h (by decide), fun h => absurd h (by decide), fun h => absurd h (by decide)⟩
      | 1, hf =>
        obtain rfl := Option.some.inj hf
        obtain ⟨p, -, h2⟩ := Go.bind_eq_ok.1 hr
        obtain ⟨q, h3, h2⟩ := Go.bind_eq_ok.1 h2
        obtain ⟨⟨pf, sd⟩, h6, h2⟩ := Go.bind_eq_ok.1 h2
        obtain ⟨rfl, -⟩ := Prod.mk.inj (Except.ok.inj h2)
        obtain ⟨_, h4, h5⟩ := Go.bind_eq_ok.1 h3
        exact ⟨fun _ => i1 le_rfl, fun _ => ⟨⟨p, q, rfl, h4, h5⟩, _, _, pf, sd, h6, rfl⟩, fun h => absurd h (by decide), fun h => absurd h (by decide)⟩
      | 2, hf =>
        obtain rfl := Option.some.inj hf
        obtain ⟨p, -, h2⟩ := Go.bind_eq_ok.1 hr
        obtain ⟨sd, h3, h2⟩ := Go.bind_eq_ok.1 h2
        obtain ⟨⟨rho, xi⟩, h6, h2⟩ := Go.bind_eq_ok.1 h2
        obtain ⟨rfl, -⟩ := Prod.mk.inj (Except.ok.inj h2)
        obtain ⟨j1, b, n, pf, sd', j2, j3⟩ := i2 le_rfl
        have : sd' = sd := by rw [j3] at h3; exact Except.ok.inj h3
        subst this
        exact ⟨fun _ => i1 (by decide), fun _ => i2 le_rfl, fun _ => ⟨sd', p, xi, j3, h6⟩, fun h => absurd h (by decide)⟩
      | 3, hf =>
        obtain rfl := Option.some.inj hf
        obtain ⟨p, -, h2⟩ := Go.bind_eq_ok.1 hr
        obtain ⟨op, h3, h2⟩ := Go.bind_eq_ok.1 h2
        obtain ⟨rfl, -⟩ := Prod.mk.inj (Except.ok.inj h2)
        exact ⟨fun _ => i1 (by decide), fun _ => i2 (by decide), fun _ => i3 (by decide), fun _ => ⟨p, op, h3⟩⟩
      | k + 4, hf => exact absurd hf (by simp))
    inputs (newBobDkg env) rfl ⟨fun h => absurd h (show ¬ 1 ≤ 0 by decide), fun h => absurd h (show ¬ 2 ≤ 0 by decide), fun h => absurd h (show ¬ 3 ≤ 0 by decide), fun h => absurd h (show ¬ 4 ≤ 0 by decide)⟩
  rw [hstep, show (newBobDkg env).steps.length = 4 from rfl] at inv
  obtain ⟨i1, i2, i3, i4⟩ := inv
  obtain ⟨⟨proof, key, e1, e2, e3⟩, b, n, proof', sender, e4, e5⟩ := i2 (by decide)
  obtain ⟨sender', input, xi, e6, e7⟩ := i3 (by decide)
  obtain rfl := Option.some.inj (e5.symm.trans e6)
  obtain ⟨resp, op, e8⟩ := i4 (by decide)
  exact ⟨_, _, proof, key, b, n, proof', sender, input, xi, resp, op, c.dec_enc _, i1 (by decide), e1, e1, e2, e3, e4, e7, e8⟩

/-! ## Honest executions -/

/-- two parties that pass their messages to each other until the first one has finished: `a` is called first -/
def pingPong {σ τ R T : Type} (ra : R) (rb : T) : ℕ → Stepper σ (R × Option Msg) (Option Msg) → Stepper τ (T × Option Msg) (Option Msg) →
    Option Msg → Option (Stepper σ (R × Option Msg) (Option Msg) × Stepper τ (T × Option Msg) (Option Msg))
  | 0, _, _, _ => none
  | n + 1, a, b, m =>
    match a.next (ra, m) with
    | (_, .error _) => none
    | (a', .ok m') =>
      if a'.complete then some (a', b)
      else match b.next (rb, m') with
        | (_, .error _) => none
        | (b', .ok m'') => pingPong ra rb n a' b' m''

theorem pingPong_go {σ τ R T : Type} {ra : R} {rb : T} {n : ℕ} {a a' : Stepper σ (R × Option Msg) (Option Msg)} {b b' : Stepper τ (T × Option Msg) (Option Msg)}
    {m m' m'' : Option Msg} (h1 : a.next (ra, m) = (a', .ok m')) (h2 : a'.complete = false) (h3 : b.next (rb, m') = (b', .ok m'')) :
    pingPong ra rb (n + 1) a b m = pingPong ra rb n a' b' m'' := by
  rw [pingPong, h1]
  dsimp only
  rw [h2, if_neg Bool.false_ne_true, h3]

theorem pingPong_end {σ τ R T : Type} {ra : R} {rb : T} {n : ℕ} {a a' : Stepper σ (R × Option Msg) (Option Msg)} {b : Stepper τ (T × Option Msg) (Option Msg)}
    {m m' : Option Msg} (h1 : a.next (ra, m) = (a', .ok m')) (h2 : a'.complete = true) : pingPong ra rb (n + 1) a b m = some (a', b) := by
  rw [pingPong, h1]
  dsimp only
  rw [h2, if_pos rfl]

theorem next_ok {σ R : Type} {f : σ → R → Option Msg → Go (σ × Option Msg)} {p : Stepper σ (R × Option Msg) (Option Msg)} {r : R} {m o : Option Msg} {s : σ}
    (hf : p.steps[p.step]? = some (stepOf f)) (h : f p.state r m = .ok (s, o)) :
    p.next (r, m) = (⟨p.steps, p.step + 1, s⟩, .ok o) := by
  unfold Stepper.next
  rw [hf]
  simp only
  rw [stepOf_run h]

section
variable {A : Type} [AddCommGroup A] [Module (ZMod env.q) A] [hp : Fact env.q.Prime] (L : Sound env A)

omit [Module (ZMod env.q) A] hp in
/-- C204: an honest key generation: both finish, the results give the same key, which is the product of the secrets, and Alice's pads are the
chosen ones of Bob's -/
theorem C204_dkg (hq : env.q ≤ 2 ^ 256) (ca : Gob AliceSaved) (cb : Gob BobSaved) (ra : AliceRand) (rb : BobRand) :
    ∃ a b sa sb oa ob, pingPong ra rb 5 (newAliceDkg env) (newBobDkg env) none = some (a, b) ∧ aliceDkgResult ca a = .ok (oa, some (L.pt ((ra.sk * rb.sk) • L.g))) ∧
      bobDkgResult cb b = .ok (ob, some (L.pt ((ra.sk * rb.sk) • L.g))) ∧ ca.dec oa = some sa ∧ cb.dec ob = some sb ∧
      sa.sk = ra.sk ∧ sb.sk = rb.sk ∧ sa.packed = ra.packed ∧ sa.pk = some (L.pt ((ra.sk * rb.sk) • L.g)) ∧ sb.pk = some (L.pt ((ra.sk * rb.sk) • L.g)) ∧
      ∀ i : Fin 256, sa.rho i = pick (bit ra.packed i) (sb.rho i) := by
  obtain ⟨pkA, com, pkB, pk, h1, h2, h3, h4, rfl⟩ := C199_dkg L (le_trans hq (by norm_num)) ra.sk ra.k rb.sk rb.k
  obtain ⟨proof, s, pub, msg, rhoR, rhoS, xi, op, g1, g2, g3, g4, g5, g6, g7, -, -⟩ := C200_honest L rb.b rb.kb ra.packed ra.a
  have a1 : (newAliceDkg env).next (ra, none) = (⟨(newAliceDkg env).steps, 1, { newAlice with sk := ra.sk, pkA := pkA }⟩, .ok (some (.commitment com.toList))) :=
    next_ok (f := aliceStep1 env) rfl (by unfold aliceStep1; rw [h1]; rfl)
  have b1 : (newBobDkg env).next (rb, some (.commitment com.toList)) =
      (⟨(newBobDkg env).steps, 1, { newBob with com := com.toList, sk := rb.sk, pkB := pkB }⟩, .ok (some (.proof pkB))) :=
    next_ok (f := bobStep1 env) rfl (by unfold bobStep1; rw [show Msg.asCommitment (some (.commitment com.toList)) = .ok com.toList from rfl, Go.ok_bind, h2]; rfl)
  have a2 : Stepper.next (⟨(newAliceDkg env).steps, 1, { newAlice with sk := ra.sk, pkA := pkA }⟩ : AliceDkg) (ra, some (.proof pkB)) =
      (⟨(newAliceDkg env).steps, 2, { newAlice with sk := ra.sk, pkA := pkA, pk := some (L.pt ((ra.sk * rb.sk) • L.g)) }⟩, .ok (some (.proof pkA))) :=
    next_ok (f := aliceStep2 env) rfl (by
      unfold aliceStep2
      rw [show Msg.asProof (some (.proof pkB)) = .ok pkB from rfl, Go.ok_bind]
      dsimp only
      rw [h3]; rfl)
  have b2 : Stepper.next (⟨(newBobDkg env).steps, 1, { newBob with com := com.toList, sk := rb.sk, pkB := pkB }⟩ : BobDkg) (rb, some (.proof pkA)) =
      (⟨(newBobDkg env).steps, 2, { newBob with com := com.toList, sk := rb.sk, pkB := pkB, pk := some (L.pt ((ra.sk * rb.sk) • L.g)), sender := some s }⟩,
        .ok (some (.proof proof))) :=
    next_ok (f := bobStep2 env) rfl (by
      unfold bobStep2
      rw [show Msg.asProof (some (.proof pkA)) = .ok pkA from rfl, Go.ok_bind]
      dsimp only
      rw [h4, Go.ok_bind, g1]; rfl)
  have a3 : Stepper.next (⟨(newAliceDkg env).steps, 2, { newAlice with sk := ra.sk, pkA := pkA, pk := some (L.pt ((ra.sk * rb.sk) • L.g)) }⟩ : AliceDkg)
      (ra, some (.proof proof)) = (⟨(newAliceDkg env).steps, 3, ⟨ra.sk, pkA, some (L.pt ((ra.sk * rb.sk) • L.g)), pub, ra.packed, rhoR, newAlice.xi⟩⟩, .ok (some (.points msg))) :=
    next_ok (f := aliceStep3 env) rfl (by
      unfold aliceStep3
      rw [show Msg.asProof (some (.proof proof)) = .ok proof from rfl, Go.ok_bind, g2, Go.ok_bind, g3]; rfl)
  have b3 : Stepper.next (⟨(newBobDkg env).steps, 2, { newBob with com := com.toList, sk := rb.sk, pkB := pkB, pk := some (L.pt ((ra.sk * rb.sk) • L.g)), sender := some s }⟩ : BobDkg)
      (rb, some (.points msg)) = (⟨(newBobDkg env).steps, 3, ⟨com.toList, rb.sk, pkB, some (L.pt ((ra.sk * rb.sk) • L.g)), some s, rhoS⟩⟩, .ok (some (.digests xi))) :=
    next_ok (f := bobStep3 env) rfl (by
      unfold bobStep3
      rw [show Msg.asPoints (some (.points msg)) = .ok msg from rfl, Go.ok_bind]
      dsimp only
      rw [show deref (some s) = .ok s from rfl, Go.ok_bind, g4]; rfl)
  have a4 : Stepper.next (⟨(newAliceDkg env).steps, 3, ⟨ra.sk, pkA, some (L.pt ((ra.sk * rb.sk) • L.g)), pub, ra.packed, rhoR, newAlice.xi⟩⟩ : AliceDkg)
      (ra, some (.digests xi)) = (⟨(newAliceDkg env).steps, 4, ⟨ra.sk, pkA, some (L.pt ((ra.sk * rb.sk) • L.g)), pub, ra.packed, rhoR, xi⟩⟩,
        .ok (some (.digests (receiverVerification env ra.packed rhoR xi)))) :=
    next_ok (f := aliceStep4 env) rfl rfl
  have b4 : Stepper.next (⟨(newBobDkg env).steps, 3, ⟨com.toList, rb.sk, pkB, some (L.pt ((ra.sk * rb.sk) • L.g)), some s, rhoS⟩⟩ : BobDkg)
      (rb, some (.digests (receiverVerification env ra.packed rhoR xi))) =
        (⟨(newBobDkg env).steps, 4, ⟨com.toList, rb.sk, pkB, some (L.pt ((ra.sk * rb.sk) • L.g)), some s, rhoS⟩⟩, .ok (some (.openings op))) :=
    next_ok (f := bobStep4 env) rfl (by
      unfold bobStep4
      rw [show Msg.asDigests (some (.digests (receiverVerification env ra.packed rhoR xi))) = .ok (receiverVerification env ra.packed rhoR xi) from rfl, Go.ok_bind]
      dsimp only
      rw [g5]; rfl)
  have a5 : Stepper.next (⟨(newAliceDkg env).steps, 4, ⟨ra.sk, pkA, some (L.pt ((ra.sk * rb.sk) • L.g)), pub, ra.packed, rhoR, xi⟩⟩ : AliceDkg)
      (ra, some (.openings op)) = (⟨(newAliceDkg env).steps, 5, ⟨ra.sk, pkA, some (L.pt ((ra.sk * rb.sk) • L.g)), pub, ra.packed, rhoR, xi⟩⟩, .ok none) :=
    next_ok (f := aliceStep5 env) rfl (by
      unfold aliceStep5
      rw [show Msg.asOpenings (some (.openings op)) = .ok op from rfl, Go.ok_bind]
      dsimp only
      rw [g6]; rfl)
  refine ⟨⟨(newAliceDkg env).steps, 5, ⟨ra.sk, pkA, some (L.pt ((ra.sk * rb.sk) • L.g)), pub, ra.packed, rhoR, xi⟩⟩,
    ⟨(newBobDkg env).steps, 4, ⟨com.toList, rb.sk, pkB, some (L.pt ((ra.sk * rb.sk) • L.g)), some s, rhoS⟩⟩,
    ⟨pkA, ra.packed, rhoR, ra.sk, some (L.pt ((ra.sk * rb.sk) • L.g))⟩, ⟨pkB, rhoS, rb.sk, some (L.pt ((ra.sk * rb.sk) • L.g))⟩, _, _, ?_, rfl, rfl,
    ca.dec_enc _, cb.dec_enc _, rfl, rfl, rfl, rfl, rfl, g7⟩
  exact (pingPong_go a1 rfl b1).trans ((pingPong_go a2 rfl b2).trans ((pingPong_go a3 rfl b3).trans ((pingPong_go a4 rfl b4).trans (pingPong_end a5 rfl))))

/-- C204: from the key generation to the signature: honest parties that encode and decode their states in between end with a valid signature
under the joint key, outside the cases of `C203_valid` -/
theorem C204_end_to_end (hv : VerifySpec L) (hodd : env.curve.params.P % 2 = 1) (hq : env.q ≤ 2 ^ 256) (ca : Gob AliceSaved) (cb : Gob BobSaved)
    (ra : AliceRand) (rb : BobRand) (kPrimeA phi : ℤ) (rd : BobRandom) (digest : List UInt8) (hd : digest.length ≤ 32) (kA : ZMod env.q)
    (hk : kA = hashPt L (kPrimeA • rd.kB • L.g) + kPrimeA) (hkA : kA ≠ 0) (hkB : (rd.kB : ZMod env.q) ≠ 0) (R : A) (hR : R = (kA * rd.kB) • L.g)
    (hr0 : (L.xy R).1 ≠ 0) (hrq : (L.xy R).1 < env.q)
    (hs0 : ((beNat digest : ℕ) : ZMod env.q) + (L.xy R).1 * (ra.sk * rb.sk) ≠ 0) :
    ∃ a b oa ob ia ib a' b' sig, pingPong ra rb 5 (newAliceDkg env) (newBobDkg env) none = some (a, b) ∧
      aliceDkgResult ca a = .ok (oa, some (L.pt ((ra.sk * rb.sk) • L.g))) ∧ bobDkgResult cb b = .ok (ob, some (L.pt ((ra.sk * rb.sk) • L.g))) ∧
      newAliceSign env ca digest oa = .ok ia ∧ newBobSign env cb digest ob = .ok ib ∧
      pingPong rd (kPrimeA, phi) 2 ib ia none = some (b', a') ∧ bobSignResult b' = .ok (some sig) ∧
      Dkls.EcdsaValid (ZMod env.q) env.q L.g ((ra.sk * rb.sk) • L.g) (fun Q => (L.xy Q).1.toNat) (beNat digest) sig.R.toNat sig.S.toNat := by
  obtain ⟨a, b, sa, sb, oa, ob, h1, h2, h3, h4, h5, h6, h7, h8, h9, h10, h11⟩ := C204_dkg L hq ca cb ra rb
  obtain ⟨m1, bob, m2, sig, g1, g2, g3, g4, -⟩ := C203_valid L hv hodd hq sb.rho ra.packed ra.sk rb.sk kPrimeA phi rd digest hd kA hk hkA hkB R hR hr0 hrq hs0
  have b1 : Stepper.next (⟨[stepOf (bobSignStep1 env), stepOf (bobSignStep2 env digest)], 0, ⟨sb, none, none⟩⟩ : BobSignIter) (rd, none) =
      (⟨[stepOf (bobSignStep1 env), stepOf (bobSignStep2 env digest)], 1, ⟨sb, some bob, none⟩⟩, .ok (some (.signInit m1))) :=
    next_ok (f := bobSignStep1 env) rfl (by unfold bobSignStep1; dsimp only; rw [h7, g1]; rfl)
  have a1 : Stepper.next (⟨[stepOf (aliceSignStep env digest)], 0, sa⟩ : AliceSignIter) ((kPrimeA, phi), some (.signInit m1)) =
      (⟨[stepOf (aliceSignStep env digest)], 1, sa⟩, .ok (some (.signMsg m2))) :=
    next_ok (f := aliceSignStep env digest) rfl (by
      unfold aliceSignStep
      rw [show Msg.asSignInit (some (.signInit m1)) = .ok m1 from rfl, Go.ok_bind]
      dsimp only
      rw [h6, h8, h9, show sa.rho = fun i : Fin 256 => pick (bit ra.packed i) (sb.rho i) from funext h11, g2]; rfl)
  have b2 : Stepper.next (⟨[stepOf (bobSignStep1 env), stepOf (bobSignStep2 env digest)], 1, ⟨sb, some bob, none⟩⟩ : BobSignIter) (rd, some (.signMsg m2)) =
      (⟨[stepOf (bobSignStep1 env), stepOf (bobSignStep2 env digest)], 2, ⟨sb, some bob, some sig⟩⟩, .ok none) :=
    next_ok (f := bobSignStep2 env digest) rfl (by
      unfold bobSignStep2
      rw [show Msg.asSignMsg (some (.signMsg m2)) = .ok m2 from rfl, Go.ok_bind]
      dsimp only
      rw [show deref (some bob) = .ok bob from rfl, Go.ok_bind, h10, g3]; rfl)
  refine ⟨a, b, oa, ob, ⟨[stepOf (aliceSignStep env digest)], 0, sa⟩,
    ⟨[stepOf (bobSignStep1 env), stepOf (bobSignStep2 env digest)], 0, ⟨sb, none, none⟩⟩, ⟨[stepOf (aliceSignStep env digest)], 1, sa⟩,
    ⟨[stepOf (bobSignStep1 env), stepOf (bobSignStep2 env digest)], 2, ⟨sb, some bob, some sig⟩⟩, sig, h1, h2, h3, ?_, ?_, ?_, ?_, g4⟩
  · unfold newAliceSign; rw [h4]; rfl
  · unfold newBobSign; rw [h5]; rfl
  · exact (pingPong_go b1 rfl a1).trans (pingPong_end b2 rfl)
  · rfl

end

/-- the key generation on secp256k1 with the secrets 3 and 5 -/
example (sha : List UInt8 → Digest) (shake : ℕ → UInt8) (ca : Gob AliceSaved) (cb : Gob BobSaved) (packed : Digest) :
    ∃ a b oa ob, pingPong ⟨3, 7, packed, fun i => i⟩ ⟨5, 11, 13, 17⟩ 5 (newAliceDkg (k256Env [] sha shake k256Verify)) (newBobDkg (k256Env [] sha shake k256Verify)) none =
        some (a, b) ∧ aliceDkgResult ca a = .ok (oa, some ((k256Lawful []).pt ((15 : ℤ) • (k256Lawful []).g))) ∧
      bobDkgResult cb b = .ok (ob, some ((k256Lawful []).pt ((15 : ℤ) • (k256Lawful []).g))) := by
  obtain ⟨a, b, -, -, oa, ob, h1, h2, h3, -⟩ := C204_dkg (k256Sound [] sha shake k256Verify) (by show Primes.k256q ≤ 2 ^ 256; decide +kernel) ca cb
    ⟨3, 7, packed, fun i => i⟩ ⟨5, 11, 13, 17⟩
  exact ⟨a, b, oa, ob, h1, h2, h3⟩

/-- from the key generation to a signature on secp256k1, with the values of the example of `C203_valid` -/
example (ca : Gob AliceSaved) (cb : Gob BobSaved) (packed : Digest) (phi : ℤ) : ∃ a b oa ob ia ib a' b' sig,
    pingPong ⟨3, 7, packed, fun i => i⟩ ⟨5, 11, 13, 17⟩ 5 (newAliceDkg (k256Env [] (fun _ => Vector.replicate 32 0) (fun _ => 0) k256Verify))
      (newBobDkg (k256Env [] (fun _ => Vector.replicate 32 0) (fun _ => 0) k256Verify)) none = some (a, b) ∧
    (aliceDkgResult ca a).map Prod.fst = .ok oa ∧ (bobDkgResult cb b).map Prod.fst = .ok ob ∧
    newAliceSign (k256Env [] (fun _ => Vector.replicate 32 0) (fun _ => 0) k256Verify) ca [0] oa = .ok ia ∧
    newBobSign (k256Env [] (fun _ => Vector.replicate 32 0) (fun _ => 0) k256Verify) cb [0] ob = .ok ib ∧
    pingPong ⟨Vector.replicate 32 7, 1, fun _ => Vector.replicate 32 1, Vector.replicate 10 2, Vector.replicate 42 3⟩ ((2 : ℤ), phi) 2 ib ia none = some (b', a') ∧
    bobSignResult b' = .ok (some sig) := by
  have nz : ∀ z : ℤ, z % (Primes.k256q : ℤ) ≠ 0 → (z : ZMod Primes.k256q) ≠ 0 := fun z h h' =>
    h (Int.emod_eq_zero_of_dvd ((ZMod.intCast_zmod_eq_zero_iff_dvd _ _).1 h'))
  have hR : ((2 : ℤ) • (k256Lawful []).g) = (((2 : ℤ) : ZMod Primes.k256q) * ((1 : ℤ) : ZMod Primes.k256q)) • (k256Lawful []).g := by
    rw [Int.cast_one, mul_one, Int.cast_smul_eq_zsmul]
  obtain ⟨a, b, oa, ob, ia, ib, a', b', sig, h1, h2, h3, h4, h5, h6, h7, -⟩ :=
    C204_end_to_end (k256Sound [] (fun _ => Vector.replicate 32 0) (fun _ => 0) k256Verify)
    (k256_verifySpec (fun _ => Vector.replicate 32 0) (fun _ => 0)) (by show (Primes.k256p : ℤ) % 2 = 1; decide +kernel)
    (by show Primes.k256q ≤ 2 ^ 256; decide +kernel) ca cb ⟨3, 7, packed, fun i => i⟩ ⟨5, 11, 13, 17⟩ 2 phi
    ⟨Vector.replicate 32 7, 1, fun _ => Vector.replicate 32 1, Vector.replicate 10 2, Vector.replicate 42 3⟩ [0] (by decide)
    (((2 : ℤ) : ZMod Primes.k256q)) (by
      show (((2 : ℤ) : ZMod Primes.k256q)) = ((intOf (Vector.replicate 32 0) : ℤ) : ZMod Primes.k256q) + ((2 : ℤ) : ZMod Primes.k256q)
      rw [show intOf (Vector.replicate 32 0) = 0 by decide +kernel, Int.cast_zero, zero_add])
    (nz 2 (by decide +kernel)) (nz 1 (by decide +kernel)) ((2 : ℤ) • (k256Lawful []).g) hR
    (by show ((k256Lawful []).xy ((2 : ℤ) • (k256Lawful []).g)).1 ≠ 0; rw [k256_two]; decide)
    (by show ((k256Lawful []).xy ((2 : ℤ) • (k256Lawful []).g)).1 < (Primes.k256q : ℤ); rw [k256_two]; decide +kernel)
    (by
      show ((beNat [0] : ℕ) : ZMod Primes.k256q) + (((k256Lawful []).xy ((2 : ℤ) • (k256Lawful []).g)).1 : ZMod Primes.k256q) *
        (((3 : ℤ) : ZMod Primes.k256q) * ((5 : ℤ) : ZMod Primes.k256q)) ≠ 0
      rw [k256_two, show beNat [0] = 0 from rfl, Nat.cast_zero, zero_add, ← Int.cast_mul, ← Int.cast_mul]
      exact nz _ (by decide +kernel))
  exact ⟨a, b, oa, ob, ia, ib, a', b', sig, h1, by rw [h2]; rfl, by rw [h3]; rfl, h4, h5, h6, h7⟩

end Verif.DklsV0
