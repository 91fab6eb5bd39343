import Verif.Dkls.ExchangeModel
import Verif.Dkls.ProtocolProps

/-!
# C219: signing and refresh of DKLs through messages are the rounds of the two parties
-/

namespace Verif.Dkls

variable {σ τ : Type}

/-! ## The rounds without messages -/

/-- a round that must succeed before the rest -/
def turn {β γ : Type} (r : σ × Go β) (k : σ → β → Go γ) : Go γ :=
  match r with
  | (_, .error e) => .error e
  | (s, .ok y) => k s y

variable {Seed R2 R3 Out Out' Sig : Type}

/-- the rounds of signing, one after the other; the states at the end -/
def signRounds (ra : AliceSignRounds σ Seed R2 R3) (rb : BobSignRounds τ Seed R2 R3) (a : σ) (b : τ) : Go (σ × τ) :=
  turn (ra.r1 a) fun a x => turn (rb.r2 b x) fun b x => turn (ra.r3 a x) fun a x => turn (rb.r4 b x) fun b _ => .ok (a, b)

variable {S1 S2 S3 S4 S5 S6 : Type}

/-- the rounds of the refresh, one after the other -/
def refreshRounds (ra : AliceRefreshRounds σ S1 S2 S3 S4 S5 S6) (rb : BobRefreshRounds τ S1 S2 S3 S4 S5 S6) (a : σ) (b : τ) :
    Go (σ × τ) :=
  turn (rb.r2 b (ra.r1 a).2) fun b x => turn (ra.r3 (ra.r1 a).1 x) fun a x => turn (rb.r4 b x) fun b x =>
  turn (ra.r5 a x) fun a x => turn (rb.r6 b x) fun b x => turn (ra.r7 a x) fun a _ => .ok (a, b)

/-! ## Steps on messages of the other party -/

/-- the message that carries `x` -/
def carry {α : Type} (c : Gob α) (proto name : String) (v : ℕ) (x : α) : Message :=
  ⟨proto, v, [("direct", c.enc x)], [("round", name)]⟩

theorem firstStep_eq {β : Type} {round : σ → σ × Go β} {enc : Ser} {proto name : String} {c : Gob β} {v : ℕ}
    (hv : enc.rule.ok v = true) (s : σ) (m : Option Message) :
    firstStep round enc proto name c v (true, s) m =
      ((true, (round s).1), (round s).2.map fun y => some (carry c proto name v y)) := by
  unfold firstStep encodeWith carry
  rcases round s with ⟨s', e | y⟩
  · rfl
  · simp [hv, Except.map]

theorem protoStep_eq {α β : Type} {dec : Ser} {cin : Gob α} {round : σ → α → σ × Go β} {enc : Ser} {proto name : String}
    {c : Gob β} {v : ℕ} (hv : enc.rule.ok v = true) (s : σ) {p n : String} {v' : ℕ} (hv' : dec.rule.ok v' = true) (x : α) :
    protoStep dec cin round enc proto name c v (true, s) (some (carry cin p n v' x)) =
      ((true, (round s x).1), (round s x).2.map fun y => some (carry c proto name v y)) := by
  unfold protoStep decodeWith encodeWith carry
  simp only [hv', Bool.not_true, Bool.and_false, Bool.true_or, Message.direct]
  have e : cin.dec ((List.lookup "direct" [("direct", cin.enc x)]).getD []) = some x := by
    simp [List.lookup, cin.dec_enc]
  simp only [e, Go.ofOption, Bool.false_eq_true, if_false]
  rcases round s x with ⟨s', e | y⟩
  · rfl
  · simp [hv, Except.map]

theorem lastStep_eq {α : Type} {dec : Ser} {cin : Gob α} {round : σ → α → σ × Go Unit} (s : σ) {p n : String} {v' : ℕ}
    (hv' : dec.rule.ok v' = true) (x : α) :
    lastStep dec cin round (true, s) (some (carry cin p n v' x)) =
      ((true, (round s x).1), (round s x).2.map fun _ => none) := by
  unfold lastStep decodeWith carry
  simp only [hv', Bool.not_true, Bool.and_false, Bool.true_or, Message.direct]
  have e : cin.dec ((List.lookup "direct" [("direct", cin.enc x)]).getD []) = some x := by
    simp [List.lookup, cin.dec_enc]
  simp only [e, Go.ofOption, Bool.false_eq_true, if_false]
  rcases round s x with ⟨s', e | y⟩ <;> rfl

/-- one call of `Next` of a party whose next step is known -/
theorem exchange_succ {a : Party σ} {b : Party τ} {m : Option Message} {n : ℕ}
    {f : Step (Bool × σ) (Option Message) (Option Message)} (hf : a.steps[a.step]? = some f) {s' : Bool × σ}
    {r : Go (Option Message)} (h : f a.state m = (s', r)) :
    (∀ e, r = .error e → exchange (n + 1) a b m = (⟨a.steps, a.step, s'⟩, b, .error (.failed e))) ∧
    (∀ m', r = .ok m' → exchange (n + 1) a b m =
      ((exchange n b ⟨a.steps, a.step + 1, s'⟩ m').2.1, (exchange n b ⟨a.steps, a.step + 1, s'⟩ m').1,
        (exchange n b ⟨a.steps, a.step + 1, s'⟩ m').2.2)) := by
  constructor
  · rintro e rfl
    simp only [exchange, Stepper.next, hf, h]
  · rintro m' rfl
    simp only [exchange, Stepper.next, hf, h]

/-- the outcome of an exchange: what a run of the rounds says -/
def Agrees (R : Go (σ × τ)) (x : Party σ × Party τ × Except NextErr (Option Message)) : Prop :=
  match R with
  | .error e => x.2.2 = .error (.failed e)
  | .ok (a, b) => x.2.2 = .ok none ∧ x.1.complete = true ∧ x.2.1.complete = true ∧ x.1.state = (true, a) ∧
      x.2.1.state = (true, b)

/-- the outcome seen from the other party -/
def Agrees' (R : Go (σ × τ)) (x : Party τ × Party σ × Except NextErr (Option Message)) : Prop :=
  Agrees R (x.2.1, x.1, x.2.2)

theorem agrees_turn {β : Type} {a : Party σ} {b : Party τ} {m : Option Message} {n : ℕ}
    {f : Step (Bool × σ) (Option Message) (Option Message)} (hf : a.steps[a.step]? = some f) {r : σ × Go β}
    {g : β → Option Message} (h : f a.state m = ((true, r.1), r.2.map g)) {k : σ → β → Go (σ × τ)}
    (hk : ∀ y, r.2 = .ok y → Agrees' (k r.1 y) (exchange n b ⟨a.steps, a.step + 1, (true, r.1)⟩ (g y))) :
    Agrees (turn r k) (exchange (n + 1) a b m) := by
  rcases r with ⟨s, e | y⟩
  · rw [(exchange_succ hf h).1 e rfl]; rfl
  · rw [(exchange_succ hf h).2 (g y) rfl]
    exact hk y rfl

theorem agrees_turn' {β : Type} {a : Party σ} {b : Party τ} {m : Option Message} {n : ℕ}
    {f : Step (Bool × τ) (Option Message) (Option Message)} (hf : b.steps[b.step]? = some f) {r : τ × Go β}
    {g : β → Option Message} (h : f b.state m = ((true, r.1), r.2.map g)) {k : τ → β → Go (σ × τ)}
    (hk : ∀ y, r.2 = .ok y → Agrees (k r.1 y) (exchange n a ⟨b.steps, b.step + 1, (true, r.1)⟩ (g y))) :
    Agrees' (turn r k) (exchange (n + 1) b a m) := by
  rcases r with ⟨s, e | y⟩
  · rw [(exchange_succ hf h).1 e rfl]; rfl
  · rw [(exchange_succ hf h).2 (g y) rfl]
    exact hk y rfl

/-! ## Constructors -/

theorem alice_dec (g : Gob Out) (reg : Bool) (m : Message) : decodeWith aliceResultDec g reg (some m) =
    if m.version = 200 then (true, Go.ofOption (g.dec m.direct)) else (reg, Go.err) := by
  by_cases hv : m.version = 200
  · have h1 : aliceResultDec.rule.ok m.version = true := decide_eq_true hv
    rw [if_pos hv]
    cases reg <;> simp only [decodeWith, h1] <;> rfl
  · have h1 : aliceResultDec.rule.ok m.version = false := decide_eq_false hv
    rw [if_neg hv]
    simp [decodeWith, h1]

theorem bob_dec (g : Gob Out) (reg : Bool) (m : Message) : decodeWith bobResultDec g reg (some m) =
    if m.version = 200 ∧ reg = true then (true, Go.ofOption (g.dec m.direct)) else (reg, Go.err) := by
  by_cases hv : m.version = 200
  · have h1 : bobResultDec.rule.ok m.version = true := decide_eq_true hv
    cases reg
    · rw [if_neg (by simp)]
      simp only [decodeWith, h1]; rfl
    · rw [if_pos ⟨hv, rfl⟩]
      simp only [decodeWith, h1]; rfl
  · have h1 : bobResultDec.rule.ok m.version = false := decide_eq_false hv
    rw [if_neg (by simp [hv])]
    simp [decodeWith, h1]

/-- **C219, constructors.** Alice accepts the result of a key generation exactly if its version is 200 and its payload can be
decoded, Bob only if the types are registered already in the process; the party then holds the decoded result. The version
of the constructor is not checked. -/
theorem C219_constructors (g : Gob Out) (ia : Out → σ) (cs : SignGobs Seed R2 R3) (ras : AliceSignRounds σ Seed R2 R3)
    (rbs : BobSignRounds σ Seed R2 R3) (cr : RefreshGobs S1 S2 S3 S4 S5 S6) (rar : AliceRefreshRounds σ S1 S2 S3 S4 S5 S6)
    (rbr : BobRefreshRounds σ S1 S2 S3 S4 S5 S6) (v : ℕ) (reg : Bool) (m : Message) :
    ((∃ p, (newAliceSign g ia cs ras v reg (some m)).2 = .ok p) ↔ m.version = 200 ∧ ∃ o, g.dec m.direct = some o) ∧
    ((∃ p, (newBobSign g ia cs rbs v reg (some m)).2 = .ok p) ↔ reg = true ∧ m.version = 200 ∧ ∃ o, g.dec m.direct = some o) ∧
    ((∃ p, (newAliceRefresh g ia cr rar v reg (some m)).2 = .ok p) ↔ m.version = 200 ∧ ∃ o, g.dec m.direct = some o) ∧
    ((∃ p, (newBobRefresh g ia cr rbr v reg (some m)).2 = .ok p) ↔
      reg = true ∧ m.version = 200 ∧ ∃ o, g.dec m.direct = some o) ∧
    (∀ o, g.dec m.direct = some o → m.version = 200 →
      (∀ p, (newAliceSign g ia cs ras v reg (some m)).2 = .ok p → p.state = (true, ia o) ∧ p.step = 0) ∧
      (∀ p, (newBobSign g ia cs rbs v reg (some m)).2 = .ok p → p.state = (true, ia o) ∧ p.step = 0) ∧
      (∀ p, (newAliceRefresh g ia cr rar v reg (some m)).2 = .ok p → p.state = (true, ia o) ∧ p.step = 0) ∧
      (∀ p, (newBobRefresh g ia cr rbr v reg (some m)).2 = .ok p → p.state = (true, ia o) ∧ p.step = 0)) := by
  unfold newAliceSign newBobSign newAliceRefresh newBobRefresh
  simp only [alice_dec, bob_dec]
  by_cases hv : m.version = 200
  · rcases ho : g.dec m.direct with _ | o <;> cases reg <;> simp [hv, Go.ofOption, Go.err]
  · simp [hv, Go.err]

/-! ## Key generation -/

variable {K1 K2 Proof Masked Chal Resp Opening : Type}

/-- the rounds of the key generation, one after the other -/
def dkgRounds (ra : AliceRounds σ K1 K2 Proof Masked Chal Resp Opening)
    (rb : BobRounds τ K1 K2 Proof Masked Chal Resp Opening) (a : σ) (b : τ) : Go (τ × σ) :=
  turn (rb.r1 b) fun b x => turn (ra.r2 a x) fun a x => turn (rb.r3 b x) fun b x => turn (ra.r4 a x) fun a x =>
  turn (rb.r5 b x) fun b x => turn (ra.r6 a x) fun a x => turn (rb.r7 b x) fun b x => turn (ra.r8 a x) fun a x =>
  turn (rb.r9 b x) fun b x => turn (ra.r10 a x) fun a _ => .ok (b, a)

/-- **C219, key generation.** In processes in which the types are registered, handing the messages of version 200 from one party to
the other, Bob first, runs the ten rounds. -/
theorem C219_dkg (c : DkgGobs K1 K2 Proof Masked Chal Resp Opening) (ra : AliceRounds σ K1 K2 Proof Masked Chal Resp Opening)
    (rb : BobRounds τ K1 K2 Proof Masked Chal Resp Opening) (a : σ) (b : τ) :
    Agrees (dkgRounds ra rb a b) (exchange 10 (newBobDkg c rb 200 true b) (newAliceDkg c ra 200 true a) none) := by
  unfold dkgRounds
  refine agrees_turn rfl (firstStep_eq rfl _ _) fun x hx => ?_
  refine agrees_turn' rfl (protoStep_eq rfl _ rfl x) fun x hx => ?_
  refine agrees_turn rfl (protoStep_eq rfl _ rfl x) fun x hx => ?_
  refine agrees_turn' rfl (protoStep_eq rfl _ rfl x) fun x hx => ?_
  refine agrees_turn rfl (protoStep_eq rfl _ rfl x) fun x hx => ?_
  refine agrees_turn' rfl (protoStep_eq rfl _ rfl x) fun x hx => ?_
  refine agrees_turn rfl (protoStep_eq rfl _ rfl x) fun x hx => ?_
  refine agrees_turn' rfl (protoStep_eq rfl _ rfl x) fun x hx => ?_
  refine agrees_turn rfl (protoStep_eq rfl _ rfl x) fun x hx => ?_
  refine agrees_turn' rfl (lastStep_eq _ rfl x) fun x hx => ?_
  exact ⟨rfl, rfl, rfl, rfl, rfl⟩

/-! ## Signing -/

/-- **C219, signing.** Handing the messages of version 200 from one party to the other runs the rounds of signing: the exchange fails
exactly when a round does, and with its failure; otherwise both parties are complete after two calls of `Next` each, with the
states after the rounds. -/
theorem C219_sign (g : Gob Out) (g' : Gob Out') (ia : Out → σ) (ib : Out' → τ) (c : SignGobs Seed R2 R3)
    (ra : AliceSignRounds σ Seed R2 R3) (rb : BobSignRounds τ Seed R2 R3) (reg reg' : Bool) (ma mb : Message) (o : Out)
    (o' : Out') (ho : g.dec ma.direct = some o) (ho' : g'.dec mb.direct = some o') (A : Party σ) (B : Party τ)
    (hA : (newAliceSign g ia c ra 200 reg (some ma)).2 = .ok A) (hB : (newBobSign g' ib c rb 200 reg' (some mb)).2 = .ok B) :
    Agrees (signRounds ra rb (ia o) (ib o')) (exchange 4 A B none) := by
  have ha : A = ⟨[firstStep ra.r1 (signEnc 1) "DKLs18-Sign" "1" c.seed 200,
      protoStep (signDec 3) c.r2 ra.r3 (signEnc 3) "DKLs18-Sign" "3" c.r3 200], 0, (true, ia o)⟩ := by
    unfold newAliceSign at hA
    rw [alice_dec] at hA
    by_cases hv : ma.version = 200
    · rw [if_pos hv, ho] at hA
      exact (Except.ok.inj hA).symm
    · rw [if_neg hv] at hA; cases hA
  have hb : B = ⟨[protoStep (signDec 2) c.seed rb.r2 (signEnc 2) "DKLs18-Sign" "2" c.r2 200,
      lastStep (signDec 4) c.r3 rb.r4], 0, (true, ib o')⟩ := by
    unfold newBobSign at hB
    rw [bob_dec] at hB
    by_cases hv : mb.version = 200 ∧ reg' = true
    · rw [if_pos hv, ho'] at hB
      exact (Except.ok.inj hB).symm
    · rw [if_neg hv] at hB; cases hB
  subst ha hb
  unfold signRounds
  refine agrees_turn rfl (firstStep_eq rfl _ _) fun x hx => ?_
  refine agrees_turn' rfl (protoStep_eq rfl _ rfl x) fun x hx => ?_
  refine agrees_turn rfl (protoStep_eq rfl _ rfl x) fun x hx => ?_
  refine agrees_turn' rfl (lastStep_eq _ rfl x) fun x hx => ?_
  exact ⟨rfl, rfl, rfl, rfl, rfl⟩

/-- a party whose first step never succeeds does nothing -/
theorem never {p : Party σ} {f : Step (Bool × σ) (Option Message) (Option Message)} (hf : p.steps[0]? = some f)
    (h : ∀ s m o, (f s m).2 ≠ .ok o) : ∀ inputs (q : Party σ), q.steps = p.steps → q.step = 0 →
    successes (q.run inputs).2 = 0 := by
  intro inputs
  induction inputs with
  | nil => intro q _ _; rfl
  | cons i is ih =>
    intro q hq h0
    have e : ∃ s e, q.next i = (⟨q.steps, q.step, s⟩, .error (.failed e)) := by
      unfold Stepper.next
      rw [hq, h0, hf]
      rcases hr : f q.state i with ⟨s, e | o⟩
      · exact ⟨s, e, by simp only [hr]⟩
      · exact absurd (congrArg Prod.snd hr) (h _ _ _)
    obtain ⟨s, e, hn⟩ := e
    rw [Stepper.run, show q.seen i = some (q.step, false) by rw [Stepper.seen, hn], successes_cons_false, hn]
    exact ih _ hq h0

/-- **C219, other versions.** With any other version no call of `Next` of a party in signing returns a message. -/
theorem C219_sign_versions (g : Gob Out) (ia : Out → σ) (c : SignGobs Seed R2 R3) (ra : AliceSignRounds σ Seed R2 R3)
    (rb : BobSignRounds σ Seed R2 R3) (reg : Bool) (ma : Message) (v : ℕ) (hv : v ≠ 200) (A : Party σ)
    (hA : (newAliceSign g ia c ra v reg (some ma)).2 = .ok A ∨ (newBobSign g ia c rb v reg (some ma)).2 = .ok A)
    (inputs : List (Option Message)) :
    successes (A.run inputs).2 = 0 := by
  have hv1 : ∀ n, (signEnc n).rule.ok v = false := fun n => decide_eq_false hv
  rcases hA with hA | hA
  · have hs : A.steps[0]? = some (firstStep ra.r1 (signEnc 1) "DKLs18-Sign" "1" c.seed v) ∧ A.step = 0 := by
      unfold newAliceSign at hA
      rcases h : decodeWith aliceResultDec g reg (some ma) with ⟨reg', e | o⟩
      · rw [h] at hA; cases hA
      · rw [h] at hA; obtain rfl := Except.ok.inj hA; exact ⟨rfl, rfl⟩
    refine never hs.1 ?_ inputs A rfl hs.2
    intro s m o
    unfold firstStep encodeWith
    rcases ra.r1 s.2 with ⟨s', e | y⟩
    · exact fun h => nomatch h
    · simp only [hv1]
      exact fun h => nomatch h
  · have hs : A.steps[0]? = some (protoStep (signDec 2) c.seed rb.r2 (signEnc 2) "DKLs18-Sign" "2" c.r2 v) ∧ A.step = 0 := by
      unfold newBobSign at hA
      rcases h : decodeWith bobResultDec g reg (some ma) with ⟨reg', e | o⟩
      · rw [h] at hA; cases hA
      · rw [h] at hA; obtain rfl := Except.ok.inj hA; exact ⟨rfl, rfl⟩
    refine never hs.1 ?_ inputs A rfl hs.2
    intro s m o
    unfold protoStep
    rcases decodeWith (signDec 2) c.seed s.1 m with ⟨reg', e | x⟩
    · exact fun h => nomatch h
    · rcases hr : rb.r2 s.2 x with ⟨s', e | y⟩
      · simp only [hr]; exact fun h => nomatch h
      · simp only [hr, encodeWith, hv1]
        exact fun h => nomatch h

/-- **C219, signature.** The result of Bob is the signature in his state, exactly when he is complete, for version 200. -/
theorem C219_signature (g : Gob Sig) (sig : τ → Sig) (v : ℕ) (B : Party τ) :
    (B.complete = false → signResult g sig v B = .ok none) ∧
    (B.complete = true → v ≠ 200 → signResult g sig v B = Go.err) ∧
    (B.complete = true → v = 200 → ∃ m, signResult g sig v B = .ok (some m) ∧
      ∀ reg, (decodeWith sigSer g reg (some m)).2 = .ok (sig B.state.2)) := by
  unfold signResult encodeWith
  refine ⟨fun h => by simp [h], fun h hv => ?_, fun h hv => ?_⟩
  · have h1 : sigSer.rule.ok v = false := decide_eq_false hv
    simp only [h, h1]; rfl
  · have h1 : sigSer.rule.ok v = true := decide_eq_true hv
    refine ⟨carry g "DKLs18-Sign" "signature" v (sig B.state.2), ?_, fun reg => ?_⟩
    · simp only [h, h1]; rfl
    · rw [decodeWith_iff]
      exact ⟨h1, fun h => absurd h (by decide), by simp [carry, Message.direct, g.dec_enc]⟩

/-! ## Refresh -/

/-- **C219, refresh.** Handing the messages of one party to the other runs the rounds of the refresh, for any two versions from 200
on. -/
theorem C219_refresh (g : Gob Out) (g' : Gob Out') (ia : Out → σ) (ib : Out' → τ) (c : RefreshGobs S1 S2 S3 S4 S5 S6)
    (ra : AliceRefreshRounds σ S1 S2 S3 S4 S5 S6) (rb : BobRefreshRounds τ S1 S2 S3 S4 S5 S6) (reg reg' : Bool)
    (ma mb : Message) (o : Out) (o' : Out') (ho : g.dec ma.direct = some o) (ho' : g'.dec mb.direct = some o') (v w : ℕ)
    (hv : 200 ≤ v) (hw : 200 ≤ w) (A : Party σ) (B : Party τ)
    (hA : (newAliceRefresh g ia c ra v reg (some ma)).2 = .ok A)
    (hB : (newBobRefresh g' ib c rb w reg' (some mb)).2 = .ok B) :
    Agrees (refreshRounds ra rb (ia o) (ib o')) (exchange 7 A B none) := by
  have ha : A = ⟨[firstStep (fun s => ((ra.r1 s).1, .ok (ra.r1 s).2)) (refreshEnc 1) "DKLs18-Refresh" "1" c.s1 v,
      protoStep (refreshDec 3) c.s2 ra.r3 (refreshEnc 3) "DKLs18-Refresh" "3" c.s3 v,
      protoStep (refreshDec 5) c.s4 ra.r5 (refreshEnc 5) "DKLs18-Refresh" "5" c.s5 v,
      lastStep (refreshDec 7) c.s6 ra.r7], 0, (true, ia o)⟩ := by
    unfold newAliceRefresh at hA
    rw [alice_dec] at hA
    by_cases hv : ma.version = 200
    · rw [if_pos hv, ho] at hA
      exact (Except.ok.inj hA).symm
    · rw [if_neg hv] at hA; cases hA
  have hb : B = ⟨[protoStep (refreshDec 2) c.s1 rb.r2 (refreshEnc 2) "DKLs18-Refresh" "2" c.s2 w,
      protoStep (refreshDec 4) c.s3 rb.r4 (refreshEnc 4) "DKLs18-Refresh" "4" c.s4 w,
      protoStep (refreshDec 6) c.s5 rb.r6 (refreshEnc 6) "DKLs18-Refresh" "6" c.s6 w], 0, (true, ib o')⟩ := by
    unfold newBobRefresh at hB
    rw [bob_dec] at hB
    by_cases hv : mb.version = 200 ∧ reg' = true
    · rw [if_pos hv, ho'] at hB
      exact (Except.ok.inj hB).symm
    · rw [if_neg hv] at hB; cases hB
  subst ha hb
  have hv' : VersionRule.ok .atLeast v = true := (atLeast_ok v).2 hv
  have hw' : VersionRule.ok .atLeast w = true := (atLeast_ok w).2 hw
  have e0 : refreshRounds ra rb (ia o) (ib o') = turn ((ra.r1 (ia o)).1, (.ok (ra.r1 (ia o)).2 : Go S1)) fun a x =>
      turn (rb.r2 (ib o') x) fun b x => turn (ra.r3 a x) fun a x => turn (rb.r4 b x) fun b x =>
      turn (ra.r5 a x) fun a x => turn (rb.r6 b x) fun b x => turn (ra.r7 a x) fun a _ => .ok (a, b) := rfl
  rw [e0]
  refine agrees_turn rfl (firstStep_eq hv' _ _) fun x hx => ?_
  refine agrees_turn' rfl (protoStep_eq hw' _ hv' x) fun x hx => ?_
  refine agrees_turn rfl (protoStep_eq hv' _ hw' x) fun x hx => ?_
  refine agrees_turn' rfl (protoStep_eq hw' _ hv' x) fun x hx => ?_
  refine agrees_turn rfl (protoStep_eq hv' _ hw' x) fun x hx => ?_
  refine agrees_turn' rfl (protoStep_eq hw' _ hv' x) fun x hx => ?_
  refine agrees_turn rfl (lastStep_eq _ hw' x) fun x hx => ?_
  exact ⟨rfl, rfl, rfl, rfl, rfl⟩

/-- **C219, result of a refresh.** It is encoded by the functions of the key generation: for any version but 200 a complete
refresh gives an error, also for the later versions in which it ran; the message for version 200 starts new parties. -/
theorem C219_refresh_result (g : Gob Out) (out : σ → Out) (name : String) (v : ℕ) (A : Party σ) :
    (A.complete = false → refreshResult g out name v A = .ok none) ∧
    (A.complete = true → v ≠ 200 → refreshResult g out name v A = Go.err) ∧
    (A.complete = true → v = 200 → ∃ m, refreshResult g out name v A = .ok (some m) ∧
      ∀ reg, (decodeWith aliceResultDec g reg (some m)).2 = .ok (out A.state.2) ∧
        (decodeWith bobResultDec g true (some m)).2 = .ok (out A.state.2)) := by
  unfold refreshResult encodeWith
  refine ⟨fun h => by simp [h], fun h hv => ?_, fun h hv => ?_⟩
  · have h1 : dkgOutputEnc.rule.ok v = false := decide_eq_false hv
    simp only [h, h1]; rfl
  · have h1 : dkgOutputEnc.rule.ok v = true := decide_eq_true hv
    have h2 : (carry g "DKLs18-DKG" name v (out A.state.2)).version = 200 := hv
    have h3 : g.dec (carry g "DKLs18-DKG" name v (out A.state.2)).direct = some (out A.state.2) := by
      simp [carry, Message.direct, g.dec_enc]
    refine ⟨carry g "DKLs18-DKG" name v (out A.state.2), ?_, fun reg => ⟨?_, ?_⟩⟩
    · rw [h, h1]
      cases A.state.1 <;> rfl
    · rw [alice_dec, if_pos h2, h3]; rfl
    · rw [bob_dec, if_pos ⟨h2, rfl⟩, h3]; rfl

/-! ## Examples -/

/-- rounds that count: Alice sends 1, Bob answers with one more, Alice with one more, Bob keeps what he gets -/
def toyA : AliceSignRounds ℕ (List UInt8) (List UInt8) (List UInt8) :=
  ⟨fun s => (s + 1, .ok [1]), fun s x => (s + x.length, .ok (1 :: x))⟩
@[inherit_doc toyA]
def toyB : BobSignRounds (List UInt8) (List UInt8) (List UInt8) (List UInt8) :=
  ⟨fun s x => (s, .ok (1 :: x)), fun _ x => (x, Go.guard (x.length = 3))⟩

example : signRounds toyA toyB 5 [] = .ok (8, [1, 1, 1]) := rfl

/-- both parties are complete and Bob holds the three bytes -/
example : (newAliceSign toyGob List.length ⟨toyGob, toyGob, toyGob⟩ toyA 200 false
      (some ⟨"", 200, [("direct", [1, 7, 7])], []⟩)).2.toOption.isSome = true ∧
    ((newBobSign toyGob id ⟨toyGob, toyGob, toyGob⟩ toyB 200 false
      (some ⟨"", 200, [("direct", [1, 7, 7])], []⟩)).2.toOption.isSome = false) ∧
    ((newBobSign toyGob id ⟨toyGob, toyGob, toyGob⟩ toyB 200 true
      (some ⟨"", 200, [("direct", [1, 7, 7])], []⟩)).2.toOption.isSome = true) := by decide +kernel

/-- the exchange of the two: Bob ends with the three bytes -/
example : ∃ A B, (newAliceSign toyGob List.length ⟨toyGob, toyGob, toyGob⟩ toyA 200 false
      (some ⟨"", 200, [("direct", [1, 7, 7])], []⟩)).2 = .ok A ∧
    (newBobSign toyGob id ⟨toyGob, toyGob, toyGob⟩ toyB 200 true (some ⟨"", 200, [("direct", [1, 7, 7])], []⟩)).2 = .ok B ∧
    (exchange 4 A B none).2.2 = .ok none ∧ (exchange 4 A B none).2.1.state = (true, [1, 1, 1]) := by
  refine ⟨_, _, rfl, rfl, ?_⟩
  have := C219_sign toyGob toyGob List.length id ⟨toyGob, toyGob, toyGob⟩ toyA toyB false true
    ⟨"", 200, [("direct", [1, 7, 7])], []⟩ ⟨"", 200, [("direct", [1, 7, 7])], []⟩ [7, 7] [7, 7] rfl rfl _ _ rfl rfl
  exact ⟨this.1, this.2.2.2.2⟩

/-- a refresh in which Alice uses version 300 and Bob 200: it completes, but there is no result for version 300 -/
example : ∃ A B, (newAliceRefresh toyGob id ⟨toyGob, toyGob, toyGob, toyGob, toyGob, toyGob⟩
      ⟨fun s => (s, [1]), fun s x => (s, .ok x), fun s x => (s, .ok x), fun _ x => (x, .ok ())⟩ 300 false
      (some ⟨"", 200, [("direct", [1, 7, 7])], []⟩)).2 = .ok A ∧
    (newBobRefresh toyGob id ⟨toyGob, toyGob, toyGob, toyGob, toyGob, toyGob⟩
      ⟨fun s x => (s, .ok (2 :: x)), fun s x => (s, .ok x), fun s x => (s, .ok x)⟩ 200 true
      (some ⟨"", 200, [("direct", [1, 7, 7])], []⟩)).2 = .ok B ∧
    (exchange 7 A B none).1.state = (true, [2, 1]) ∧
    refreshResult toyGob id "alice-output" 300 (exchange 7 A B none).1 = Go.err ∧
    (∃ m, refreshResult toyGob id "alice-output" 200 (exchange 7 A B none).1 = .ok (some m)) := by
  refine ⟨_, _, rfl, rfl, ?_⟩
  have := C219_refresh toyGob toyGob id id ⟨toyGob, toyGob, toyGob, toyGob, toyGob, toyGob⟩
      ⟨fun s => (s, [1]), fun s x => (s, .ok x), fun s x => (s, .ok x), fun _ x => (x, .ok ())⟩
      ⟨fun s x => (s, .ok (2 :: x)), fun s x => (s, .ok x), fun s x => (s, .ok x)⟩ false true
    ⟨"", 200, [("direct", [1, 7, 7])], []⟩ ⟨"", 200, [("direct", [1, 7, 7])], []⟩ [7, 7] [7, 7] rfl rfl 300 200 (by omega)
    (by omega) _ _ rfl rfl
  refine ⟨this.2.2.2.1, (C219_refresh_result toyGob id "alice-output" 300 _).2.1 this.2.1 (by omega), ?_⟩
  obtain ⟨m, h, -⟩ := (C219_refresh_result toyGob id "alice-output" 200 _).2.2 this.2.1 rfl
  exact ⟨m, h⟩

end Verif.Dkls
