import Verif.Dkls.ProtocolModel
import Mathlib.Tactic.Tauto
import Mathlib.Data.List.Basic

/-!
# C41, C42, C121: the protocol layer of DKLs

C41: the stepper runs the steps in order, repeats a step that failed and never runs a step twice after it
succeeded.  C42: versions and round trips of the serialization.  C121: which processes can decode which messages.
-/

set_option linter.unusedSectionVars false

namespace Verif.Dkls

variable {σ I O : Type}

/-! ## C41 -/

/-- what an observer sees of a call of `Next`: that the protocol is finished, or which step was run and whether it
succeeded -/
def Stepper.seen (p : Stepper σ I O) (input : I) : Option (ℕ × Bool) :=
  match (p.next input).2 with
  | .error .finished => none
  | .error (.failed _) => some (p.step, false)
  | .ok _ => some (p.step, true)

/-- a sequence of calls of `Next`: the final state and what is seen of every call -/
def Stepper.run (p : Stepper σ I O) : List I → Stepper σ I O × List (Option (ℕ × Bool))
  | [] => (p, [])
  | i :: is => (((p.next i).1.run is).1, p.seen i :: ((p.next i).1.run is).2)

/-- number of successful steps in a log -/
def successes (log : List (Option (ℕ × Bool))) : ℕ :=
  log.countP fun e => match e with
    | some (_, true) => true
    | _ => false

/-- what a log of calls of a protocol of `n` steps has to look like: each call runs the step whose number is the
number of successful calls before it, or reports that the protocol is finished if there were `n` of them -/
def LogOk (n : ℕ) (log : List (Option (ℕ × Bool))) : Prop :=
  ∀ (k : ℕ) (e : Option (ℕ × Bool)), log[k]? = some e →
    (e = none ↔ successes (log.take k) = n) ∧ (∀ i b, e = some (i, b) → i = successes (log.take k))

theorem Stepper.next_steps (p : Stepper σ I O) (i : I) : (p.next i).1.steps = p.steps := by
  unfold Stepper.next
  cases h : p.steps[p.step]? with
  | none => rfl
  | some f =>
    simp only
    rcases f p.state i with ⟨s, e | o⟩ <;> rfl

/-- one call -/
theorem Stepper.next_cases (p : Stepper σ I O) (i : I) :
    (p.steps.length ≤ p.step ∧ p.seen i = none ∧ (p.next i).1 = p)
      ∨ (p.step < p.steps.length ∧ p.seen i = some (p.step, false) ∧ (p.next i).1.step = p.step)
      ∨ (p.step < p.steps.length ∧ p.seen i = some (p.step, true) ∧ (p.next i).1.step = p.step + 1) := by
  unfold Stepper.seen Stepper.next
  cases h : p.steps[p.step]? with
  | none => exact Or.inl ⟨List.getElem?_eq_none_iff.1 h, rfl, rfl⟩
  | some f =>
    have hlt : p.step < p.steps.length := (List.getElem?_eq_some_iff.1 h).1
    simp only
    rcases hf : f p.state i with ⟨s, e | o⟩
    · exact Or.inr (Or.inl ⟨hlt, rfl, rfl⟩)
    · exact Or.inr (Or.inr ⟨hlt, rfl, rfl⟩)

theorem successes_cons_true (j : ℕ) (l : List (Option (ℕ × Bool))) :
    successes (some (j, true) :: l) = successes l + 1 := by
  simp [successes]

theorem successes_cons_false (j : ℕ) (l : List (Option (ℕ × Bool))) :
    successes (some (j, false) :: l) = successes l := by
  simp [successes]

theorem successes_cons_none (l : List (Option (ℕ × Bool))) : successes (none :: l) = successes l := by
  simp [successes]

/-- the log of a party which has done `p.step` steps -/
theorem run_aux (is : List I) : ∀ p : Stepper σ I O, p.step ≤ p.steps.length →
    (p.run is).1.step = p.step + successes (p.run is).2 ∧ (p.run is).1.step ≤ p.steps.length
      ∧ (p.run is).1.steps = p.steps
      ∧ ∀ (k : ℕ) (e : Option (ℕ × Bool)), (p.run is).2[k]? = some e →
        (e = none ↔ p.step + successes ((p.run is).2.take k) = p.steps.length)
          ∧ (∀ i b, e = some (i, b) → i = p.step + successes ((p.run is).2.take k)) := by
  induction is with
  | nil =>
    intro p hp
    refine ⟨by simp [Stepper.run, successes], hp, rfl, ?_⟩
    intro k e h
    simp [Stepper.run] at h
  | cons i is ih =>
    intro p hp
    have hst := p.next_steps i
    rcases p.next_cases i with ⟨hle, hs, hn⟩ | ⟨hlt, hs, hn⟩ | ⟨hlt, hs, hn⟩
    · obtain ⟨a, b, c, d⟩ := ih (p.next i).1 (by rw [hn]; exact hp)
      simp only [Stepper.run, hs, successes_cons_none]
      rw [hn] at a b c d ⊢
      refine ⟨a, b, c, ?_⟩
      intro k e h
      cases k with
      | zero =>
        simp only [List.getElem?_cons_zero, Option.some.injEq] at h
        subst h
        refine ⟨?_, by simp⟩
        simp only [List.take_zero, successes, List.countP_nil, true_iff]
        omega
      | succ k =>
        rw [List.getElem?_cons_succ] at h
        rw [List.take_succ_cons, successes_cons_none]
        exact d k e h
    · obtain ⟨a, b, c, d⟩ := ih (p.next i).1 (by rw [hn, hst]; exact hp)
      simp only [Stepper.run, hs, successes_cons_false]
      rw [hn] at a d
      rw [hst] at b c d
      refine ⟨a, b, c, ?_⟩
      intro k e h
      cases k with
      | zero =>
        simp only [List.getElem?_cons_zero, Option.some.injEq] at h
        subst h
        simp only [List.take_zero, successes, List.countP_nil, reduceCtorEq, false_iff, Option.some.injEq,
          Prod.mk.injEq]
        exact ⟨by omega, fun i b h => by omega⟩
      | succ k =>
        rw [List.getElem?_cons_succ] at h
        rw [List.take_succ_cons, successes_cons_false]
        exact d k e h
    · obtain ⟨a, b, c, d⟩ := ih (p.next i).1 (by rw [hn, hst]; omega)
      simp only [Stepper.run, hs, successes_cons_true]
      rw [hn] at a d
      rw [hst] at b c d
      refine ⟨by omega, b, c, ?_⟩
      intro k e h
      cases k with
      | zero =>
        simp only [List.getElem?_cons_zero, Option.some.injEq] at h
        subst h
        simp only [List.take_zero, successes, List.countP_nil, reduceCtorEq, false_iff, Option.some.injEq,
          Prod.mk.injEq]
        exact ⟨by omega, fun i b h => by omega⟩
      | succ k =>
        rw [List.getElem?_cons_succ] at h
        rw [List.take_succ_cons, successes_cons_true]
        obtain ⟨d1, d2⟩ := d k e h
        exact ⟨by rw [d1]; omega, fun i b he => by rw [d2 i b he]; omega⟩

/-- **C41, order of the steps.** Whatever the inputs and however the steps fail: each call of `Next` runs the step
after the last one which succeeded (a failed step is run again, a successful one never), at most as many steps
succeed as there are, and after that every call reports that the protocol is finished. -/
theorem C41_order (p : Stepper σ I O) (h0 : p.step = 0) (inputs : List I) :
    LogOk p.steps.length (p.run inputs).2 ∧ successes (p.run inputs).2 ≤ p.steps.length
      ∧ ((p.run inputs).1.complete = true ↔ successes (p.run inputs).2 = p.steps.length) := by
  obtain ⟨a, b, c, d⟩ := run_aux inputs p (by omega)
  rw [h0, Nat.zero_add] at a
  refine ⟨?_, by omega, ?_⟩
  · intro k e h
    have := d k e h
    rw [h0, Nat.zero_add] at this
    exact this
  · rw [Stepper.complete, c, decide_eq_true_iff]
    omega

/-- **C41, after the end.** Calls of a finished protocol change nothing and give the error `ErrProtocolFinished`. -/
theorem C41_finished (p : Stepper σ I O) (h : p.complete = true) (input : I) :
    p.next input = (p, .error .finished) := by
  rw [Stepper.complete, decide_eq_true_iff] at h
  unfold Stepper.next
  rw [List.getElem?_eq_none_iff.2 h]

/-- **C41, result.** There is a result only after all steps succeeded; before that the caller gets neither a result
nor an error. -/
theorem C41_result (p : Stepper σ I O) (h0 : p.step = 0) (inputs : List I) (encode : σ → Go O) :
    (∀ m, (p.run inputs).1.result encode = .ok (some m) →
        successes (p.run inputs).2 = p.steps.length ∧ encode (p.run inputs).1.state = .ok m)
      ∧ (successes (p.run inputs).2 < p.steps.length → (p.run inputs).1.result encode = .ok none)
      ∧ (successes (p.run inputs).2 = p.steps.length →
        (p.run inputs).1.result encode = (encode (p.run inputs).1.state >>= fun m => .ok (some m))) := by
  obtain ⟨-, hle, hc⟩ := C41_order p h0 inputs
  refine ⟨?_, ?_, ?_⟩
  · intro m h
    unfold Stepper.result at h
    cases hcc : (p.run inputs).1.complete with
    | false => simp [hcc] at h
    | true =>
      rw [hcc] at h
      simp only [Bool.not_true, Bool.false_eq_true, if_false] at h
      rw [Go.bind_eq_ok] at h
      obtain ⟨m', he, h⟩ := h
      have := Option.some.inj (Except.ok.inj h)
      exact ⟨hc.1 hcc, this ▸ he⟩
  · intro h
    unfold Stepper.result
    have : (p.run inputs).1.complete = false := by
      rw [← Bool.not_eq_true, hc]
      omega
    simp [this]
  · intro h
    unfold Stepper.result
    simp [hc.2 h]

/-- the first step fails on 0, the second one always succeeds -/
def toyStepper : Stepper ℕ ℕ ℕ :=
  ⟨[fun s i => (s + 1, if i = 0 then Go.err else .ok i), fun s i => (s + 10, .ok (s + i))], 0, 0⟩

example : (toyStepper.run [0, 5, 7, 8]).2 = [some (0, false), some (0, true), some (1, true), none]
    ∧ (toyStepper.run [0, 5, 7, 8]).1.state = 12
    ∧ (toyStepper.run [0, 5, 7, 8]).1.complete = true ∧ (toyStepper.run [0, 5]).1.complete = false := by
  decide +kernel

/-! ## C42 -/

/-- the serialization functions of the key generation and of signing -/
def IsDkgOrSign (s : Ser) : Prop :=
  (∃ r, s = dkgEnc r ∨ s = dkgDec r ∨ s = signEnc r ∨ s = signDec r) ∨ s = dkgOutputEnc ∨ s = aliceResultDec
    ∨ s = bobResultDec ∨ s = sigSer

/-- the serialization functions of the refresh -/
def IsRefresh (s : Ser) : Prop :=
  (∃ r, s = refreshEnc r ∨ s = refreshDec r) ∨ s = refreshOutputEnc ∨ s = aliceRefreshDec ∨ s = bobRefreshDec

theorem IsDkgOrSign.rule {s : Ser} (h : IsDkgOrSign s) : s.rule = .exactly := by
  rcases h with ⟨r, rfl | rfl | rfl | rfl⟩ | rfl | rfl | rfl | rfl <;> rfl

theorem IsRefresh.rule {s : Ser} (h : IsRefresh s) : s.rule = .atLeast := by
  rcases h with ⟨r, rfl | rfl⟩ | rfl | rfl | rfl <;> rfl

theorem exactly_ok (v : ℕ) : VersionRule.ok .exactly v = true ↔ v = 200 := decide_eq_true_iff

theorem atLeast_ok (v : ℕ) : VersionRule.ok .atLeast v = true ↔ 200 ≤ v := decide_eq_true_iff

/-- when decoding succeeds, for any function -/
theorem decodeWith_iff {α : Type} (s : Ser) (c : Gob α) (reg : Bool) (m : Message) (x : α) :
    (decodeWith s c reg (some m)).2 = .ok x ↔
      s.rule.ok m.version = true ∧ (s.iface = true → reg = true ∨ s.registers = true)
        ∧ c.dec m.direct = some x := by
  cases hr : s.rule.ok m.version <;> cases hi : s.iface <;> cases reg <;> cases hg : s.registers <;>
    simp [decodeWith, hr, hi, hg, Go.err, Go.ofOption_eq_ok]

theorem decodeWith_reg {α : Type} (s : Ser) (c : Gob α) (reg : Bool) (m : Option Message) :
    (decodeWith s c reg m).1 = true → reg = true ∨ s.registers = true := by
  unfold decodeWith
  cases m with
  | none => exact fun h => Or.inl h
  | some m =>
    simp only
    split
    · exact fun h => Or.inl h
    · split <;> · simp only [Bool.or_eq_true]; exact id

theorem encodeWith_iff {α : Type} (s : Ser) (proto round : String) (c : Gob α) (reg : Bool) (x : α) (v : ℕ)
    (m : Message) :
    (encodeWith s proto round c reg x v).2 = .ok m ↔
      s.rule.ok v = true ∧ (s.iface = true → reg = true ∨ s.registers = true)
        ∧ m = ⟨proto, v, [("direct", c.enc x)], [("round", round)]⟩ := by
  cases hr : s.rule.ok v <;> cases hi : s.iface <;> cases reg <;> cases hg : s.registers <;>
    simp [encodeWith, hr, hi, hg, Go.err, eq_comm]

theorem encodeWith_reg {α : Type} (s : Ser) (proto round : String) (c : Gob α) (reg : Bool) (x : α) (v : ℕ) :
    (encodeWith s proto round c reg x v).1 = true → reg = true ∨ s.registers = true := by
  unfold encodeWith
  simp only
  split
  · exact fun h => Or.inl h
  · split <;> · simp only [Bool.or_eq_true]; exact id

/-- **C42, key generation and signing.** A message is accepted only if its version is exactly 200, a message is
produced only for version 200, and it carries it. -/
theorem C42_versions {α : Type} (s : Ser) (hs : IsDkgOrSign s) (c : Gob α) (reg : Bool) :
    (∀ m x, (decodeWith s c reg (some m)).2 = .ok x → m.version = 200)
      ∧ (∀ proto round x v m, (encodeWith s proto round c reg x v).2 = .ok m → v = 200 ∧ m.version = 200) := by
  constructor
  · intro m x h
    have := ((decodeWith_iff s c reg m x).1 h).1
    rw [hs.rule] at this
    exact (exactly_ok _).1 this
  · intro proto round x v m h
    obtain ⟨a, -, b⟩ := (encodeWith_iff s proto round c reg x v m).1 h
    rw [hs.rule] at a
    have : v = 200 := (exactly_ok _).1 a
    exact ⟨this, by rw [b]; exact this⟩

/-- **C42 fails for the refresh.** Its functions accept every version from 200 on: a message of any later version
is read as if it were of version 1. -/
theorem C42_refresh_versions {α : Type} (s : Ser) (hs : IsRefresh s) (c : Gob α) (m : Message) (x : α) :
    (decodeWith s c true (some m)).2 = .ok x ↔ 200 ≤ m.version ∧ c.dec m.direct = some x := by
  rw [decodeWith_iff, hs.rule, atLeast_ok]
  simp

/-- **C42, round trip.** What one function encodes, a function with the same version check decodes to the same
value, in a process in which the types are registered. -/
theorem C42_roundtrip {α : Type} (s t : Ser) (hst : s.rule = t.rule) (proto round : String) (c : Gob α)
    (reg : Bool) (x : α) (v : ℕ) (m : Message) (h : (encodeWith s proto round c reg x v).2 = .ok m) :
    (decodeWith t c true (some m)).2 = .ok x := by
  obtain ⟨a, -, rfl⟩ := (encodeWith_iff s proto round c reg x v m).1 h
  rw [decodeWith_iff]
  exact ⟨by rw [← hst]; exact a, fun _ => Or.inl rfl, by simp [Message.direct, c.dec_enc]⟩

/-- **C42, what the decoders do not look at.** The protocol name, the round number and the other payloads of a
message have no influence: a message of another round or another protocol with the same version and payload is
accepted in its place. -/
theorem C42_ignored {α : Type} (s : Ser) (c : Gob α) (reg : Bool) (m m' : Message) (hv : m.version = m'.version)
    (hd : m.direct = m'.direct) : decodeWith s c reg (some m) = decodeWith s c reg (some m') := by
  simp only [decodeWith]
  rw [hv, hd]

/-- **C42, messages of the wrong protocol.** The first message of signing (a seed of 32 bytes) is accepted as the
first message of the key generation, and vice versa. -/
theorem C42_cross_protocol {α : Type} (c : Gob α) (reg : Bool) (x : α) (m : Message) :
    ((encodeWith (signEnc 1) "DKLs18-Sign" "1" c reg x 200).2 = .ok m → (decodeWith (dkgDec 2) c reg (some m)).2 = .ok x)
      ∧ ((encodeWith (dkgEnc 1) "DKLs18-DKG" "1" c reg x 200).2 = .ok m →
        (decodeWith (signDec 2) c reg (some m)).2 = .ok x) := by
  constructor <;> · intro h
                    obtain ⟨-, -, rfl⟩ := (encodeWith_iff _ _ _ _ _ _ _ _).1 h
                    rw [decodeWith_iff]
                    exact ⟨rfl, fun h => absurd h (by decide), by simp [Message.direct, c.dec_enc]⟩

/-- **C42, missing message.** Decoding nil panics. -/
theorem C42_nil {α : Type} (s : Ser) (c : Gob α) (reg : Bool) : (decodeWith s c reg none).2 = .error .panic := rfl

/-- bytes as they are -/
def toyGob : Gob (List UInt8) := ⟨fun x => 1 :: x, fun b => b.tail?, fun _ => rfl⟩

example : (decodeWith (dkgDec 2) toyGob false (some ⟨"x", 200, [("direct", [1, 5])], []⟩)).2.toOption = some [5]
    ∧ (decodeWith (dkgDec 2) toyGob false (some ⟨"x", 201, [("direct", [1, 5])], []⟩)).2.toOption = none
    ∧ (decodeWith (refreshDec 4) toyGob false (some ⟨"x", 201, [("direct", [1, 5])], []⟩)).2.toOption = some [5]
    ∧ (decodeWith (refreshDec 4) toyGob false (some ⟨"x", 199, [("direct", [1, 5])], []⟩)).2.toOption = none := by
  decide +kernel

example : ∃ m, (encodeWith (dkgEnc 3) "DKLs18-DKG" "3" toyGob true [7] 200).2 = .ok m := ⟨_, rfl⟩

/-! ## C121 -/

/-- **C121, Bob in a new process.** `NewBobSign` and `NewBobRefresh` decode Bob's stored key share first; in a
process in which nothing was registered this fails for every message, whereas Alice can decode hers. -/
theorem C121_bob_restart {α : Type} (c : Gob α) (m : Message) :
    (∀ x, (decodeWith bobResultDec c false (some m)).2 ≠ .ok x)
      ∧ (∀ x, (decodeWith bobRefreshDec c false (some m)).2 ≠ .ok x)
      ∧ (∀ x, (decodeWith aliceResultDec c false (some m)).2 = .ok x ↔ m.version = 200 ∧ c.dec m.direct = some x)
      ∧ (decodeWith aliceResultDec c false (some m)).1 = decide (m.version = 200) := by
  refine ⟨fun x h => ?_, fun x h => ?_, fun x => ?_, ?_⟩
  · exact absurd (((decodeWith_iff _ _ _ _ _).1 h).2.1 rfl) (by decide)
  · exact absurd (((decodeWith_iff _ _ _ _ _).1 h).2.1 rfl) (by decide)
  · rw [decodeWith_iff]
    simp [aliceResultDec, exactly_ok]
  · by_cases hv : m.version = 200
    · simp [decodeWith, aliceResultDec, (exactly_ok 200).2 rfl, hv]
    · have : VersionRule.ok .exactly m.version = false := by
        rw [← Bool.not_eq_true, exactly_ok]
        exact hv
      simp [decodeWith, aliceResultDec, this, hv]

section parties

variable {Seed R2 Proof Masked Chal Resp Opening : Type} (c : DkgGobs Seed R2 Proof Masked Chal Resp Opening)

/-- a step with functions which register nothing leaves the registry as it is -/
theorem protoStep_reg {α β : Type} (dec : Ser) (cin : Gob α) (round : σ → α → σ × Go β) (enc : Ser)
    (proto name : String) (cout : Gob β) (v : ℕ) (st : Bool × σ) (m : Option Message)
    (hd : dec.registers = false) (he : enc.registers = false) (hst : st.1 = false) :
    (protoStep dec cin round enc proto name cout v st m).1.1 = false := by
  obtain ⟨r, s⟩ := st
  obtain rfl : r = false := hst
  have h1 := decodeWith_reg dec cin false m
  rw [hd] at h1
  unfold protoStep
  simp only
  rcases hdec : decodeWith dec cin false m with ⟨reg, e | x⟩
  · rw [hdec] at h1
    simpa using h1
  · rw [hdec] at h1
    obtain rfl : reg = false := by simpa using h1
    simp only
    rcases hr : round s x with ⟨s, e | y⟩
    · rfl
    · simp only
      have h2 := encodeWith_reg enc proto name cout false y v
      rw [he] at h2
      rcases henc : encodeWith enc proto name cout false y v with ⟨reg', e | out⟩
      · rw [henc] at h2
        simpa using h2
      · rw [henc] at h2
        simpa using h2

/-- a step whose input contains interfaces fails if the types are not registered -/
theorem protoStep_fails {α β : Type} (dec : Ser) (cin : Gob α) (round : σ → α → σ × Go β) (enc : Ser)
    (proto name : String) (cout : Gob β) (v : ℕ) (st : Bool × σ) (m : Option Message)
    (hd : dec.registers = false) (hi : dec.iface = true) (hst : st.1 = false) :
    ∃ e, protoStep dec cin round enc proto name cout v st m = (st, .error e) := by
  rcases st with ⟨r, s⟩
  obtain rfl : r = false := hst
  cases m with
  | none => exact ⟨_, rfl⟩
  | some m =>
    cases hr : dec.rule.ok m.version
    · exact ⟨.error, by simp [protoStep, decodeWith, hr, Go.err]⟩
    · exact ⟨.error, by simp [protoStep, decodeWith, hr, hd, hi, Go.err]⟩

/-- in a process in which nothing is registered Alice is stuck at her second step -/
theorem alice_stuck (r : AliceRounds σ Seed R2 Proof Masked Chal Resp Opening) (v : ℕ) (s : σ)
    (inputs : List (Option Message)) :
    ∀ p : Stepper (Bool × σ) (Option Message) (Option Message), p.steps = (newAliceDkg c r v false s).steps →
      p.step ≤ 1 → p.state.1 = false → (p.run inputs).1.step ≤ 1 ∧ (p.run inputs).1.state.1 = false
        ∧ (p.run inputs).1.steps = p.steps := by
  induction inputs with
  | nil => exact fun p _ h1 h2 => ⟨h1, h2, rfl⟩
  | cons i is ih =>
    intro p hp h1 h2
    have key : (p.next i).1.step ≤ 1 ∧ (p.next i).1.state.1 = false := by
      unfold Stepper.next
      rw [hp]
      rcases Nat.le_one_iff_eq_zero_or_eq_one.1 h1 with h | h
      · rw [h]
        have hreg := protoStep_reg (dkgDec 2) c.seed r.r2 (dkgEnc 2) "DKLs18-DKG" "2" c.r2 v p.state i rfl rfl h2
        simp only [newAliceDkg, List.getElem?_cons_zero]
        rcases hs : protoStep (dkgDec 2) c.seed r.r2 (dkgEnc 2) "DKLs18-DKG" "2" c.r2 v p.state i with ⟨s', e | o⟩
        · rw [hs] at hreg
          exact ⟨Nat.zero_le _, hreg⟩
        · rw [hs] at hreg
          exact ⟨Nat.le_refl _, hreg⟩
      · rw [h]
        obtain ⟨e, he⟩ := protoStep_fails (dkgDec 4) c.proof r.r4 (dkgEnc 4) "DKLs18-DKG" "4" c.proof v p.state i
          rfl rfl h2
        simp only [newAliceDkg, List.getElem?_cons_succ, List.getElem?_cons_zero, he]
        exact ⟨Nat.le_refl _, h2⟩
    obtain ⟨a, b, d⟩ := ih (p.next i).1 (by rw [p.next_steps i]; exact hp) key.1 key.2
    exact ⟨a, b, by rw [← p.next_steps i]; exact d⟩

/-- **C121, Alice in the key generation.** In a process in which the types are not registered Alice's `Next` never
gets past the first step, whatever messages she receives and whatever her rounds do: the key generation does not
complete, and `Result` stays nil. -/
theorem C121_alice_dkg (r : AliceRounds σ Seed R2 Proof Masked Chal Resp Opening) (v : ℕ) (s : σ)
    (inputs : List (Option Message)) (encode : Bool × σ → Go (Option Message)) :
    successes ((newAliceDkg c r v false s).run inputs).2 ≤ 1
      ∧ ((newAliceDkg c r v false s).run inputs).1.result encode = .ok none := by
  obtain ⟨a, -, -⟩ := alice_stuck c r v s inputs (newAliceDkg c r v false s) rfl (Nat.zero_le _) rfl
  obtain ⟨b, -⟩ := run_aux inputs (newAliceDkg c r v false s) (Nat.zero_le _)
  have h : successes ((newAliceDkg c r v false s).run inputs).2 ≤ 1 := by
    have : (newAliceDkg c r v false s).step = 0 := rfl
    omega
  refine ⟨h, (C41_result _ rfl inputs encode).2.1 ?_⟩
  exact Nat.lt_of_le_of_lt h (by decide : 1 < 5)

/-- **C121, Bob in the key generation.** Bob's first message registers the types: from then on his process can
decode everything. -/
theorem C121_bob_dkg (r : BobRounds σ Seed R2 Proof Masked Chal Resp Opening) (s : σ) (m : Option Message)
    (reg : Bool) (h : ∃ o, ((newBobDkg c r 200 reg s).next m).2 = .ok o) :
    ((newBobDkg c r 200 reg s).next m).1.state.1 = true := by
  obtain ⟨o, h⟩ := h
  have e : ∀ (st : Bool × σ), firstStep r.r1 (dkgEnc 1) "DKLs18-DKG" "1" c.seed 200 st m =
      match r.r1 st.2 with
      | (s, .error e) => ((st.1, s), .error e)
      | (s, .ok y) => ((true, s), .ok (some ⟨"DKLs18-DKG", 200, [("direct", c.seed.enc y)], [("round", "1")]⟩)) := by
    intro st
    unfold firstStep
    rcases r.r1 st.2 with ⟨s, e | y⟩
    · rfl
    · simp [encodeWith, dkgEnc, (exactly_ok 200).2 rfl]
  simp only [Stepper.next, newBobDkg, List.getElem?_cons_zero, e] at h ⊢
  rcases hr : r.r1 s with ⟨s', e | y⟩
  · rw [hr] at h
    simp at h
  · rfl

/-- rounds that always succeed, for payloads of one byte string each -/
def toyAlice : AliceRounds ℕ (List UInt8) (List UInt8) (List UInt8) (List UInt8) (List UInt8) (List UInt8)
    (List UInt8) :=
  ⟨fun s x => (s + 1, .ok x), fun s x => (s + 1, .ok x), fun s x => (s + 1, .ok x), fun s x => (s + 1, .ok x),
    fun s _ => (s + 1, .ok ())⟩

@[inherit_doc toyAlice]
def toyGobs : DkgGobs (List UInt8) (List UInt8) (List UInt8) (List UInt8) (List UInt8) (List UInt8) (List UInt8) :=
  ⟨toyGob, toyGob, toyGob, toyGob, toyGob, toyGob, toyGob⟩

/-- five messages which complete the key generation where the types are registered -/
example : successes ((newAliceDkg toyGobs toyAlice 200 true 0).run
      (List.replicate 5 (some ⟨"", 200, [("direct", [1])], []⟩))).2 = 5
    ∧ successes ((newAliceDkg toyGobs toyAlice 200 false 0).run
      (List.replicate 5 (some ⟨"", 200, [("direct", [1])], []⟩))).2 = 1 := by decide +kernel

@[inherit_doc toyAlice]
def toyBob : BobRounds ℕ (List UInt8) (List UInt8) (List UInt8) (List UInt8) (List UInt8) (List UInt8)
    (List UInt8) :=
  ⟨fun s => (s + 1, .ok [3]), fun s x => (s + 1, .ok x), fun s x => (s + 1, .ok x), fun s x => (s + 1, .ok x),
    fun s x => (s + 1, .ok x)⟩

example : ∃ o, ((newBobDkg toyGobs toyBob 200 false 0).next none).2 = .ok o := ⟨_, rfl⟩

example : ∃ m : Message, m.version = 200 ∧ toyGob.dec m.direct = some [4] :=
  ⟨⟨"", 200, [("direct", [1, 4])], []⟩, by decide⟩

end parties

end Verif.Dkls
