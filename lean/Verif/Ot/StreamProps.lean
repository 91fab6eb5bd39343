import Verif.Ot.StreamModel
import Verif.Ot.KosProps

/-!
# C205: the OT streams
-/

namespace Verif.Ot

/-! ## Executions -/

/-- `n` actions lead from `c` to `d` -/
inductive Steps {α β : Type} : ℕ → Side α × Side β → Side α × Side β → Prop
  | zero (c) : Steps 0 c c
  | succ {n c d e} : Step c d → Steps n d e → Steps (n + 1) c e

/-- neither end can act -/
def Stuck {α β : Type} (c : Side α × Side β) : Prop := ∀ d, ¬ Step c d

/-- neither end can act, and no decoder can read ahead -/
def StuckRA {α β : Type} (c : Side α × Side β) : Prop := ∀ d, ¬ StepRA c d

section confluence

variable {α β : Type}

/-- the actions of the two ends commute -/
theorem next_comm (x : Side α) (y : Side β) (x1 : Side α) (y1 : Side β) (x2 : Side α) (y2 : Side β)
    (h1 : next x y = some (x1, y1)) (h2 : next y x = some (y2, x2)) :
    ∃ x3 y3, next x2 y2 = some (x3, y3) ∧ next y1 x1 = some (y3, x3) := by
  obtain ⟨p, bx, ix⟩ := x
  obtain ⟨q, bY, iy⟩ := y
  cases p with
  | done r => simp [next] at h1
  | send m k =>
    simp only [next, Option.some.injEq, Prod.mk.injEq] at h1
    obtain ⟨rfl, rfl⟩ := h1
    cases q with
    | done r => simp [next] at h2
    | send m' k' =>
      simp only [next, Option.some.injEq, Prod.mk.injEq] at h2
      obtain ⟨rfl, rfl⟩ := h2
      exact ⟨_, _, rfl, rfl⟩
    | fresh k' =>
      simp only [next, Option.some.injEq, Prod.mk.injEq] at h2
      obtain ⟨rfl, rfl⟩ := h2
      exact ⟨_, _, rfl, rfl⟩
    | recv k' =>
      cases bY with
      | cons b bs =>
        simp only [next, Option.some.injEq, Prod.mk.injEq] at h2
        obtain ⟨rfl, rfl⟩ := h2
        exact ⟨_, _, rfl, rfl⟩
      | nil =>
        cases iy with
        | nil => simp [next] at h2
        | cons b bs =>
          simp only [next, Option.some.injEq, Prod.mk.injEq] at h2
          obtain ⟨rfl, rfl⟩ := h2
          exact ⟨_, _, rfl, rfl⟩
  | fresh k =>
    simp only [next, Option.some.injEq, Prod.mk.injEq] at h1
    obtain ⟨rfl, rfl⟩ := h1
    cases q with
    | done r => simp [next] at h2
    | send m' k' =>
      simp only [next, Option.some.injEq, Prod.mk.injEq] at h2
      obtain ⟨rfl, rfl⟩ := h2
      exact ⟨_, _, rfl, rfl⟩
    | fresh k' =>
      simp only [next, Option.some.injEq, Prod.mk.injEq] at h2
      obtain ⟨rfl, rfl⟩ := h2
      exact ⟨_, _, rfl, rfl⟩
    | recv k' =>
      cases bY with
      | cons b bs =>
        simp only [next, Option.some.injEq, Prod.mk.injEq] at h2
        obtain ⟨rfl, rfl⟩ := h2
        exact ⟨_, _, rfl, rfl⟩
      | nil =>
        cases iy with
        | nil => simp [next] at h2
        | cons b bs =>
          simp only [next, Option.some.injEq, Prod.mk.injEq] at h2
          obtain ⟨rfl, rfl⟩ := h2
          exact ⟨_, _, rfl, rfl⟩
  | recv k =>
    cases bx with
    | cons c cs =>
      simp only [next, Option.some.injEq, Prod.mk.injEq] at h1
      obtain ⟨rfl, rfl⟩ := h1
      cases q with
      | done r => simp [next] at h2
      | send m' k' =>
        simp only [next, Option.some.injEq, Prod.mk.injEq] at h2
        obtain ⟨rfl, rfl⟩ := h2
        exact ⟨_, _, rfl, rfl⟩
      | fresh k' =>
        simp only [next, Option.some.injEq, Prod.mk.injEq] at h2
        obtain ⟨rfl, rfl⟩ := h2
        exact ⟨_, _, rfl, rfl⟩
      | recv k' =>
        cases bY with
        | cons b bs =>
          simp only [next, Option.some.injEq, Prod.mk.injEq] at h2
          obtain ⟨rfl, rfl⟩ := h2
          exact ⟨_, _, rfl, rfl⟩
        | nil =>
          cases iy with
          | nil => simp [next] at h2
          | cons b bs =>
            simp only [next, Option.some.injEq, Prod.mk.injEq] at h2
            obtain ⟨rfl, rfl⟩ := h2
            exact ⟨_, _, rfl, rfl⟩
    | nil =>
      cases ix with
      | nil => simp [next] at h1
      | cons c cs =>
        simp only [next, Option.some.injEq, Prod.mk.injEq] at h1
        obtain ⟨rfl, rfl⟩ := h1
        cases q with
        | done r => simp [next] at h2
        | send m' k' =>
          simp only [next, Option.some.injEq, Prod.mk.injEq] at h2
          obtain ⟨rfl, rfl⟩ := h2
          exact ⟨_, _, rfl, rfl⟩
        | fresh k' =>
          simp only [next, Option.some.injEq, Prod.mk.injEq] at h2
          obtain ⟨rfl, rfl⟩ := h2
          exact ⟨_, _, rfl, rfl⟩
        | recv k' =>
          cases bY with
          | cons b bs =>
            simp only [next, Option.some.injEq, Prod.mk.injEq] at h2
            obtain ⟨rfl, rfl⟩ := h2
            exact ⟨_, _, rfl, rfl⟩
          | nil =>
            cases iy with
            | nil => simp [next] at h2
            | cons b bs =>
              simp only [next, Option.some.injEq, Prod.mk.injEq] at h2
              obtain ⟨rfl, rfl⟩ := h2
              exact ⟨_, _, rfl, rfl⟩

theorem diamond {c d e : Side α × Side β} (h1 : Step c d) (h2 : Step c e) :
    d = e ∨ ∃ f, Step d f ∧ Step e f := by
  cases h1 with
  | left h1 =>
    cases h2 with
    | left h2 => exact Or.inl (Option.some.inj (h1.symm.trans h2))
    | right h2 =>
      obtain ⟨x3, y3, ha, hb⟩ := next_comm _ _ _ _ _ _ h1 h2
      exact Or.inr ⟨(x3, y3), .right hb, .left ha⟩
  | right h1 =>
    cases h2 with
    | left h2 =>
      obtain ⟨x3, y3, ha, hb⟩ := next_comm _ _ _ _ _ _ h2 h1
      exact Or.inr ⟨(x3, y3), .left ha, .right hb⟩
    | right h2 =>
      have h := Option.some.inj (h1.symm.trans h2)
      refine Or.inl ?_
      rw [Prod.mk.injEq] at h
      rw [h.1, h.2]

theorem steps_of_step {n : ℕ} {c d e : Side α × Side β} (h : Steps n c d) (hd : Stuck d) (hs : Step c e) :
    ∃ m, n = m + 1 ∧ Steps m e d := by
  induction h generalizing e with
  | zero c => exact absurd hs (hd e)
  | @succ n c c' d h1 h2 ih =>
    refine ⟨n, rfl, ?_⟩
    rcases diamond h1 hs with rfl | ⟨f, hf1, hf2⟩
    · exact h2
    · obtain ⟨m, rfl, hm⟩ := ih hd hf1
      exact .succ hf2 hm

/-- The order in which the two ends act does not matter: if one execution ends in a state `d` in which neither
end can act, after `n` actions, then every execution has at most `n` actions and can be continued to `d`, and
one which cannot be continued has ended in `d`. -/
theorem C205_schedule {n : ℕ} {c d : Side α × Side β} (h : Steps n c d) (hd : Stuck d)
    {k : ℕ} {e : Side α × Side β} (he : Steps k c e) :
    k ≤ n ∧ Steps (n - k) e d ∧ (Stuck e → e = d) := by
  have key : k ≤ n ∧ Steps (n - k) e d := by
    induction he generalizing n with
    | zero c => exact ⟨Nat.zero_le _, h⟩
    | succ h1 h2 ih =>
      obtain ⟨m, rfl, hm⟩ := steps_of_step h hd h1
      obtain ⟨hle, hs⟩ := ih hm
      refine ⟨by omega, ?_⟩
      rw [Nat.add_sub_add_right]
      exact hs
  refine ⟨key.1, key.2, fun hst => ?_⟩
  have h2 := key.2
  generalize n - k = m at h2
  cases h2 with
  | zero => rfl
  | succ h1 => exact absurd h1 (hst _)

theorem stuck_done (ra : Go α) (rb : Go β) (bx ix bY iy : List Wire) :
    Stuck ((⟨.done ra, bx, ix⟩, ⟨.done rb, bY, iy⟩) : Side α × Side β) := by
  intro d h
  cases h with
  | left h => simp [next] at h
  | right h => simp [next] at h

theorem stuckRA_done (ra : Go α) (rb : Go β) (bx ix bY iy : List Wire) :
    StuckRA ((⟨.done ra, bx, ix⟩, ⟨.done rb, bY, iy⟩) : Side α × Side β) := by
  intro d h
  cases h with
  | step h => exact stuck_done _ _ _ _ _ _ _ h
  | left h => cases h
  | right h => cases h

theorem Steps.trans {n m : ℕ} {c d e : Side α × Side β} (h1 : Steps n c d) (h2 : Steps m d e) :
    Steps (n + m) c e := by
  induction h1 with
  | zero c => rw [Nat.zero_add]; exact h2
  | @succ n c c' d h _ ih =>
    rw [show n + 1 + m = (n + m) + 1 by omega]
    exact .succ h (ih h2)

end confluence

/-! ## Two functions one after the other -/

section bind

variable {α β α' β' : Type}

/-- the process goes on with `f` -/
def Side.bind (x : Side α) (f : α → Proc α') : Side α' := ⟨x.proc.bind f, x.buf, x.inbox⟩

theorem lift_bind {γ : Type} (r : Go γ) (k : γ → Proc α) (f : α → Proc α') :
    (Proc.lift r k).bind f = Proc.lift r fun c => (k c).bind f := by
  cases r <;> rfl

theorem next_bind (f : α → Proc α') (g : β → Proc β') (x : Side α) (y : Side β) (x' : Side α) (y' : Side β)
    (h : next x y = some (x', y')) : next (x.bind f) (y.bind g) = some (x'.bind f, y'.bind g) := by
  obtain ⟨p, bx, ix⟩ := x
  cases p with
  | done r => simp [next] at h
  | send m k =>
    simp only [next, Option.some.injEq, Prod.mk.injEq] at h
    obtain ⟨rfl, rfl⟩ := h
    rfl
  | fresh k =>
    simp only [next, Option.some.injEq, Prod.mk.injEq] at h
    obtain ⟨rfl, rfl⟩ := h
    rfl
  | recv k =>
    cases bx with
    | cons c cs =>
      simp only [next, Option.some.injEq, Prod.mk.injEq] at h
      obtain ⟨rfl, rfl⟩ := h
      rfl
    | nil =>
      cases ix with
      | nil => simp [next] at h
      | cons c cs =>
        simp only [next, Option.some.injEq, Prod.mk.injEq] at h
        obtain ⟨rfl, rfl⟩ := h
        rfl

theorem steps_bind (f : α → Proc α') (g : β → Proc β') {n : ℕ} {c d : Side α × Side β} (h : Steps n c d) :
    Steps n (c.1.bind f, c.2.bind g) (d.1.bind f, d.2.bind g) := by
  induction h with
  | zero c => exact .zero _
  | succ h1 _ ih =>
    refine .succ ?_ ih
    cases h1 with
    | left h => exact .left (next_bind f g _ _ _ _ h)
    | right h => exact .right (next_bind g f _ _ _ _ h)

end bind

/-! ## Reading ahead -/

section readahead

variable {α β : Type}

/-- the process makes no further decoder -/
inductive NoFresh : Proc α → Prop
  | done (r) : NoFresh (.done r)
  | send (m k) : NoFresh k → NoFresh (.send m k)
  | recv (k) : (∀ m, NoFresh (k m)) → NoFresh (.recv k)

/-- no further decoder, or the first decoder is still to be made -/
def OneDecoder (x : Side α) : Prop := NoFresh x.proc ∨ ∃ k, x.proc = .fresh k ∧ NoFresh k ∧ x.buf = []

/-- the read buffer put back -/
def Side.erase (x : Side α) : Side α := ⟨x.proc, [], x.buf ++ x.inbox⟩

theorem next_erase (x : Side α) (y : Side β) (hx : OneDecoder x) (x' : Side α) (y' : Side β)
    (h : next x y = some (x', y')) :
    next x.erase y.erase = some (x'.erase, y'.erase) ∧ OneDecoder x' ∧ (OneDecoder y → OneDecoder y') := by
  obtain ⟨p, bx, ix⟩ := x
  cases p with
  | done r => simp [next] at h
  | send m k =>
    simp only [next, Option.some.injEq, Prod.mk.injEq] at h
    obtain ⟨rfl, rfl⟩ := h
    refine ⟨by simp [next, Side.erase], ?_, fun h => h⟩
    rcases hx with hx | ⟨k', hx, -⟩
    · cases hx with
      | send m k h => exact Or.inl h
    · cases hx
  | fresh k =>
    simp only [next, Option.some.injEq, Prod.mk.injEq] at h
    obtain ⟨rfl, rfl⟩ := h
    rcases hx with hx | ⟨k', hx, hk, hb⟩
    · cases hx
    · cases hx
      simp only at hb
      subst hb
      exact ⟨rfl, Or.inl hk, fun h => h⟩
  | recv k =>
    have hk : ∀ m, NoFresh (k m) := by
      rcases hx with hx | ⟨k', hx, -⟩
      · cases hx with
        | recv k h => exact h
      · cases hx
    cases bx with
    | cons c cs =>
      simp only [next, Option.some.injEq, Prod.mk.injEq] at h
      obtain ⟨rfl, rfl⟩ := h
      exact ⟨rfl, Or.inl (hk c), fun h => h⟩
    | nil =>
      cases ix with
      | nil => simp [next] at h
      | cons c cs =>
        simp only [next, Option.some.injEq, Prod.mk.injEq] at h
        obtain ⟨rfl, rfl⟩ := h
        exact ⟨rfl, Or.inl (hk c), fun h => h⟩

theorem fetch_erase {x x' : Side α} (h : Fetch x x') : x'.erase = x.erase ∧ (OneDecoder x → OneDecoder x') := by
  cases h with
  | mk k ms inbox h =>
    refine ⟨rfl, fun h => ?_⟩
    rcases h with h | ⟨k', h, -⟩
    · exact Or.inl h
    · cases h

/-- reading ahead makes no difference to what the two ends can reach -/
theorem stepRA_erase {c d : Side α × Side β} (h : StepRA c d) (h1 : OneDecoder c.1) (h2 : OneDecoder c.2) :
    (Step (c.1.erase, c.2.erase) (d.1.erase, d.2.erase) ∨ (d.1.erase, d.2.erase) = (c.1.erase, c.2.erase)) ∧
      OneDecoder d.1 ∧ OneDecoder d.2 := by
  cases h with
  | step h =>
    cases h with
    | left h =>
      obtain ⟨ha, hb, hc⟩ := next_erase _ _ h1 _ _ h
      exact ⟨Or.inl (.left ha), hb, hc h2⟩
    | right h =>
      obtain ⟨ha, hb, hc⟩ := next_erase _ _ h2 _ _ h
      exact ⟨Or.inl (.right ha), hc h1, hb⟩
  | left h =>
    obtain ⟨ha, hb⟩ := fetch_erase h
    exact ⟨Or.inr (by rw [ha]), hb h1, h2⟩
  | right h =>
    obtain ⟨ha, hb⟩ := fetch_erase h
    exact ⟨Or.inr (by rw [ha]), h1, hb h2⟩

theorem next_none_erase (x : Side α) (y y' : Side β) (h : next x y = none) : next x.erase y' = none := by
  obtain ⟨p, bx, ix⟩ := x
  cases p with
  | done r => rfl
  | send m k => simp [next] at h
  | fresh k => simp [next] at h
  | recv k =>
    cases bx with
    | cons c cs => simp [next] at h
    | nil =>
      cases ix with
      | nil => rfl
      | cons c cs => simp [next] at h

/-- reachable by any number of actions on a connection which lets the decoders read ahead -/
abbrev ReachRA (c d : Side α × Side β) : Prop := Relation.ReflTransGen StepRA c d

/-- A single run of two functions, each of which makes one decoder, is not affected by reading ahead: if the run
on a connection which keeps the values apart ends with the results `ra` and `rb`, every execution on any other
connection that cannot go on has ended with the same results. -/
theorem C205_single_run {p : Proc α} {q : Proc β} (hp : NoFresh p) (hq : NoFresh q) {n : ℕ} {ra : Go α} {rb : Go β}
    (h : Steps n (Side.start (.fresh p), Side.start (.fresh q)) (⟨.done ra, [], []⟩, ⟨.done rb, [], []⟩))
    {e : Side α × Side β} (he : ReachRA (Side.start (.fresh p), Side.start (.fresh q)) e) (hst : StuckRA e) :
    e.1.proc = .done ra ∧ e.2.proc = .done rb := by
  have inv : (∃ k, Steps k (Side.start (.fresh p), Side.start (.fresh q)) (e.1.erase, e.2.erase)) ∧
      OneDecoder e.1 ∧ OneDecoder e.2 := by
    clear hst
    induction he with
    | refl => exact ⟨⟨0, .zero _⟩, Or.inr ⟨p, rfl, hp, rfl⟩, Or.inr ⟨q, rfl, hq, rfl⟩⟩
    | tail _ hs ih =>
      obtain ⟨⟨k, hk⟩, h1, h2⟩ := ih
      obtain ⟨ha, hb, hc⟩ := stepRA_erase hs h1 h2
      refine ⟨?_, hb, hc⟩
      rcases ha with ha | ha
      · exact ⟨k + 1, hk.trans (.succ ha (.zero _))⟩
      · rw [ha]
        exact ⟨k, hk⟩
  obtain ⟨⟨k, hk⟩, -, -⟩ := inv
  have hst' : Stuck (e.1.erase, e.2.erase) := by
    obtain ⟨x, y⟩ := e
    intro d hd
    have hx : next x y = none := by
      cases hn : next x y with
      | none => rfl
      | some z => exact absurd (.step (.left (x' := z.1) (y' := z.2) hn)) (hst z)
    have hy : next y x = none := by
      cases hn : next y x with
      | none => rfl
      | some z => exact absurd (.step (.right (x' := z.2) (y' := z.1) hn)) (hst (z.2, z.1))
    cases hd with
    | left hd => rw [next_none_erase x y _ hx] at hd; cases hd
    | right hd => rw [next_none_erase y x _ hy] at hd; cases hd
  have := (C205_schedule h (stuck_done _ _ _ _ _ _) hk).2.2 hst'
  rw [Prod.mk.injEq] at this
  exact ⟨congrArg Side.proc this.1, congrArg Side.proc this.2⟩

end readahead

/-! ## One end against any peer -/

section peer

variable {α β : Type}

/-- the result of a process which is given the values `ms` -/
def Proc.exec : Proc α → List Wire → Option (Go α)
  | .done r, _ => some r
  | .send _ k, ms => k.exec ms
  | .fresh k, ms => k.exec ms
  | .recv k, m :: ms => (k m).exec ms
  | .recv _, [] => none

theorem exec_of_step {c d : Side α × Side β} (h : StepRA c d) {ms : List Wire} {r : Go α}
    (hd : d.1.proc.exec ms = some r) : ∃ ms', c.1.proc.exec ms' = some r := by
  cases h with
  | step h =>
    cases h with
    | @left x y x' y' h =>
      obtain ⟨p, bx, ix⟩ := x
      cases p with
      | done r => simp [next] at h
      | send m k =>
        simp only [next, Option.some.injEq, Prod.mk.injEq] at h
        obtain ⟨rfl, rfl⟩ := h
        exact ⟨ms, hd⟩
      | fresh k =>
        simp only [next, Option.some.injEq, Prod.mk.injEq] at h
        obtain ⟨rfl, rfl⟩ := h
        exact ⟨ms, hd⟩
      | recv k =>
        cases bx with
        | cons c cs =>
          simp only [next, Option.some.injEq, Prod.mk.injEq] at h
          obtain ⟨rfl, rfl⟩ := h
          exact ⟨c :: ms, hd⟩
        | nil =>
          cases ix with
          | nil => simp [next] at h
          | cons c cs =>
            simp only [next, Option.some.injEq, Prod.mk.injEq] at h
            obtain ⟨rfl, rfl⟩ := h
            exact ⟨c :: ms, hd⟩
    | @right x y x' y' h =>
      have hp : x'.proc = x.proc := by
        obtain ⟨q, bY, iy⟩ := y
        cases q with
        | done r => simp [next] at h
        | send m k =>
          simp only [next, Option.some.injEq, Prod.mk.injEq] at h
          rw [← h.2]
        | fresh k =>
          simp only [next, Option.some.injEq, Prod.mk.injEq] at h
          rw [h.2]
        | recv k =>
          cases bY with
          | cons c cs =>
            simp only [next, Option.some.injEq, Prod.mk.injEq] at h
            rw [h.2]
          | nil =>
            cases iy with
            | nil => simp [next] at h
            | cons c cs =>
              simp only [next, Option.some.injEq, Prod.mk.injEq] at h
              rw [h.2]
      exact ⟨ms, by rw [← hd]; simp only [hp]⟩
  | left h =>
    cases h with
    | mk k ms' inbox h => exact ⟨ms, hd⟩
  | right h => exact ⟨ms, hd⟩

/-- whatever the peer does, a result is the result on some list of values -/
theorem exec_of_reach {p : Proc α} {q : Proc β} {e : Side α × Side β} {r : Go α}
    (h : ReachRA (Side.start p, Side.start q) e) (he : e.1.proc = .done r) : ∃ ms, p.exec ms = some r := by
  have key : ∃ ms, (Side.start p).proc.exec ms = some r := by
    refine Relation.ReflTransGen.head_induction_on
      (motive := fun c _ => ∃ ms, c.1.proc.exec ms = some r) h ?_ ?_
    · exact ⟨[], by rw [he]; rfl⟩
    · intro c d hs _ ih
      obtain ⟨ms, hms⟩ := ih
      exact exec_of_step hs hms
  exact key

theorem exec_lift {γ : Type} {r : Go γ} {k : γ → Proc α} {ms : List Wire} {a : α}
    (h : (Proc.lift r k).exec ms = some (.ok a)) : ∃ c, r = .ok c ∧ (k c).exec ms = some (.ok a) := by
  cases r with
  | ok c => exact ⟨c, rfl, h⟩
  | error e => simp [Proc.lift, Proc.exec] at h

theorem exec_sendVal {γ : Type} {g : Codec1 γ} {c : γ} {k : Proc α} {ms : List Wire} {a : α}
    (h : (sendVal g c k).exec ms = some (.ok a)) : k.exec ms = some (.ok a) := by
  obtain ⟨m, -, h⟩ := exec_lift h
  exact h

theorem exec_recvVal {γ : Type} {g : Codec1 γ} {k : γ → Proc α} {ms : List Wire} {a : α}
    (h : (recvVal g k).exec ms = some (.ok a)) : ∃ ms' c, (k c).exec ms' = some (.ok a) := by
  cases ms with
  | nil => simp [recvVal, Proc.exec] at h
  | cons m ms =>
    obtain ⟨c, -, h⟩ := exec_lift (r := Go.ofOption (g.dec m)) h
    exact ⟨ms, c, h⟩

end peer

/-! ## Building executions -/

section build

variable {α β γ : Type} {n : ℕ} {d : Side α × Side β}

theorem left_fresh {p : Proc α} {bx ix : List Wire} {y : Side β} (h : Steps n (⟨p, [], ix⟩, y) d) :
    Steps (n + 1) (⟨.fresh p, bx, ix⟩, y) d := .succ (.left rfl) h

theorem right_fresh {q : Proc β} {bY iy : List Wire} {x : Side α} (h : Steps n (x, ⟨q, [], iy⟩) d) :
    Steps (n + 1) (x, ⟨.fresh q, bY, iy⟩) d := .succ (.right rfl) h

theorem left_lift {r : Go γ} {c : γ} (hr : r = .ok c) {k : γ → Proc α} {bx ix : List Wire} {y : Side β}
    (h : Steps n (⟨k c, bx, ix⟩, y) d) : Steps n (⟨Proc.lift r k, bx, ix⟩, y) d := by
  subst hr; exact h

theorem right_lift {r : Go γ} {c : γ} (hr : r = .ok c) {k : γ → Proc β} {bY iy : List Wire} {x : Side α}
    (h : Steps n (x, ⟨k c, bY, iy⟩) d) : Steps n (x, ⟨Proc.lift r k, bY, iy⟩) d := by
  subst hr; exact h

theorem left_send {g : Codec1 γ} {a : γ} {m : Wire} (hm : g.enc a = some m) {k : Proc α} {bx ix : List Wire}
    {q : Proc β} {bY iy : List Wire} (h : Steps n (⟨k, bx, ix⟩, ⟨q, bY, iy ++ [m]⟩) d) :
    Steps (n + 1) (⟨sendVal g a k, bx, ix⟩, ⟨q, bY, iy⟩) d :=
  left_lift (Go.ofOption_eq_ok.2 hm) (.succ (.left rfl) h)

theorem right_send {g : Codec1 γ} {a : γ} {m : Wire} (hm : g.enc a = some m) {k : Proc β} {bx ix : List Wire}
    {p : Proc α} {bY iy : List Wire} (h : Steps n (⟨p, bx, ix ++ [m]⟩, ⟨k, bY, iy⟩) d) :
    Steps (n + 1) (⟨p, bx, ix⟩, ⟨sendVal g a k, bY, iy⟩) d :=
  right_lift (Go.ofOption_eq_ok.2 hm) (.succ (.right rfl) h)

theorem left_recv {g : Codec1 γ} {a : γ} {m : Wire} (hm : g.dec m = some a) {k : γ → Proc α} {ix : List Wire}
    {y : Side β} (h : Steps n (⟨k a, [], ix⟩, y) d) : Steps (n + 1) (⟨recvVal g k, [], m :: ix⟩, y) d :=
  .succ (.left rfl) (left_lift (Go.ofOption_eq_ok.2 hm) h)

theorem right_recv {g : Codec1 γ} {a : γ} {m : Wire} (hm : g.dec m = some a) {k : γ → Proc β} {iy : List Wire}
    {x : Side α} (h : Steps n (x, ⟨k a, [], iy⟩) d) : Steps (n + 1) (x, ⟨recvVal g k, [], m :: iy⟩) d :=
  .succ (.right rfl) (right_lift (Go.ofOption_eq_ok.2 hm) h)

theorem noFresh_lift {r : Go γ} {k : γ → Proc α} (h : ∀ c, NoFresh (k c)) : NoFresh (Proc.lift r k) := by
  cases r with
  | ok c => exact h c
  | error e => exact .done _

theorem noFresh_sendVal {g : Codec1 γ} {a : γ} {k : Proc α} (h : NoFresh k) : NoFresh (sendVal g a k) :=
  noFresh_lift fun _ => .send _ _ h

theorem noFresh_recvVal {g : Codec1 γ} {k : γ → Proc α} (h : ∀ c, NoFresh (k c)) : NoFresh (recvVal g k) :=
  .recv _ fun _ => noFresh_lift h

end build

/-! ## The seed OT -/

section seed

variable {F : Type} [Field F] [DecidableEq F]
variable {G : Type} [AddCommGroup G] [Module F G] [DecidableEq G]

/-- all five codecs work -/
structure SeedGob.Ok (g : SeedGob F G) : Prop where
  proof : g.proof.Ok
  masked : g.masked.Ok
  challenge : g.challenge.Ok
  response : g.response.Ok
  opening : g.opening.Ok

omit [DecidableEq F] [DecidableEq G] in
/-- the rounds called by hand (`honestRun`) and over the stream do the same; here up to the last message -/
theorem seed_steps_open (env : Env F G) (g : SeedGob F G) (hg : g.Ok) (n : ℕ) (sid : Digest) (rnd : ℕ → UInt8)
    (b k : F) (a : ℕ → F) (s' : Sender F G) (r' : Receiver G)
    (h : honestRun env n sid rnd b k a = .ok (s', r')) :
    ∃ s r, newSender n sid = .ok s ∧ newReceiver rnd n sid = .ok r ∧
      ∃ op m, g.opening.dec m = some op ∧ r'.round6 env op = .ok () ∧
        Steps 11 (Side.start (senderStream env g s b k), Side.start (receiverStream env g r a))
          (⟨.done (.ok s'), [], []⟩,
            ⟨recvVal g.opening fun op => Proc.lift (r'.round6 env op) fun _ => .done (.ok r'), [], [m]⟩) := by
  unfold honestRun at h
  obtain ⟨s, hs, h⟩ := Go.bind_eq_ok.1 h
  obtain ⟨r, hr, h⟩ := Go.bind_eq_ok.1 h
  obtain ⟨⟨pf, s1⟩, h1, h⟩ := Go.bind_eq_ok.1 h
  obtain ⟨⟨masked, r1⟩, h2, h⟩ := Go.bind_eq_ok.1 h
  obtain ⟨⟨ch, s2⟩, h3, h⟩ := Go.bind_eq_ok.1 h
  obtain ⟨⟨resp, r2⟩, h4, h⟩ := Go.bind_eq_ok.1 h
  obtain ⟨op, h5, h⟩ := Go.bind_eq_ok.1 h
  obtain ⟨u, h6, h⟩ := Go.bind_eq_ok.1 h
  obtain ⟨rfl, rfl⟩ := Prod.mk.inj (Except.ok.inj h)
  obtain ⟨m1, e1, d1⟩ := hg.proof pf
  obtain ⟨m2, e2, d2⟩ := hg.masked masked
  obtain ⟨m3, e3, d3⟩ := hg.challenge ch
  obtain ⟨m4, e4, d4⟩ := hg.response resp
  obtain ⟨m5, e5, d5⟩ := hg.opening op
  refine ⟨s, r, hs, hr, op, m5, d5, h6, ?_⟩
  exact left_fresh <| right_fresh <| left_lift h1 <| left_send e1 <| right_recv d1 <| right_lift h2 <|
    right_send e2 <| left_recv d2 <| left_lift h3 <| left_send e3 <| right_recv d3 <| right_lift h4 <|
    right_send e4 <| left_recv d4 <| left_lift h5 <| left_send e5 <| .zero _

omit [DecidableEq F] [DecidableEq G] in
/-- the rounds called by hand (`honestRun`) and over the stream do the same -/
theorem seed_steps (env : Env F G) (g : SeedGob F G) (hg : g.Ok) (n : ℕ) (sid : Digest) (rnd : ℕ → UInt8)
    (b k : F) (a : ℕ → F) (s' : Sender F G) (r' : Receiver G)
    (h : honestRun env n sid rnd b k a = .ok (s', r')) :
    ∃ s r, newSender n sid = .ok s ∧ newReceiver rnd n sid = .ok r ∧
      Steps 12 (Side.start (senderStream env g s b k), Side.start (receiverStream env g r a))
        (⟨.done (.ok s'), [], []⟩, ⟨.done (.ok r'), [], []⟩) := by
  obtain ⟨s, r, hs, hr, op, m, hm, h6, hst⟩ := seed_steps_open env g hg n sid rnd b k a s' r' h
  exact ⟨s, r, hs, hr, hst.trans (right_recv hm <| right_lift h6 <| .zero _)⟩

/-- Two honest parties which run the seed OT over a stream: in whatever order they act, and however much their
decoders read ahead, an execution which cannot go on has ended with success at both ends, and the receiver's pad
is the chosen one of the sender's in every slot.  No execution has more than 12 actions when every read delivers
one value. -/
theorem C205_seed (env : Env F G) (hp : PointsOk env) (g : SeedGob F G) (hg : g.Ok) (n : ℕ) (hn : 8 ∣ n)
    (sid : Digest) (rnd : ℕ → UInt8) (b k : F) (a : ℕ → F) (pf : Schnorr.Proof F G)
    (hpf : (Schnorr.newProver env.gen none (proofSid env sid).toList).prove env.shaL env.penc env.cd
      b k = .ok pf)
    (hA : ∀ i < n, a i • env.gen + (if choice rnd i then b • env.gen else 0) ≠ 0) :
    ∃ s r s' r', newSender n sid = .ok s ∧ newReceiver rnd n sid = .ok r ∧
      (∀ e, ReachRA (Side.start (senderStream env g s b k), Side.start (receiverStream env g r a)) e →
        StuckRA e → e.1.proc = .done (.ok s') ∧ e.2.proc = .done (.ok r')) ∧
      (∀ m e, Steps m (Side.start (senderStream env g s b k), Side.start (receiverStream env g r a)) e →
        m ≤ 12) ∧
      s'.keys.length = n ∧ r'.pads.length = n ∧
      ∀ i < n, ∃ ks, s'.keys[i]? = some ks ∧ r'.pads[i]? = some (pick (choice rnd i) ks) := by
  obtain ⟨s', r', hrun, hk, hl, hslot, -⟩ := C32_honest env hp n hn sid rnd b k a pf hpf hA
  obtain ⟨s, r, hs, hr, hst⟩ := seed_steps env g hg n sid rnd b k a s' r' hrun
  refine ⟨s, r, s', r', hs, hr, fun e he hse => ?_, fun m e he => ?_, hk, hl, hslot⟩
  · refine C205_single_run ?_ ?_ hst he hse
    · exact noFresh_lift fun _ => noFresh_sendVal <| noFresh_recvVal fun _ => noFresh_lift fun _ =>
        noFresh_sendVal <| noFresh_recvVal fun _ => noFresh_lift fun _ => noFresh_sendVal <| .done _
    · exact noFresh_recvVal fun _ => noFresh_lift fun _ => noFresh_sendVal <| noFresh_recvVal fun _ =>
        noFresh_lift fun _ => noFresh_sendVal <| noFresh_recvVal fun _ => noFresh_lift fun _ => .done _
  · exact (C205_schedule hst (stuck_done _ _ _ _ _ _) he).1

/-- A receiver which returns without error from a stream with any peer has got a valid proof of knowledge for
the key `B` its pads belong to, and has checked in every slot that the opening at its choice bit is the hash of
its pad and that the two openings are consistent with the challenge. -/
theorem C205_receiver (env : Env F G) (g : SeedGob F G) (n : ℕ) (hn : 8 ∣ n) (sid : Digest) (rnd : ℕ → UInt8)
    (a : ℕ → F) (r r' : Receiver G) (hr : newReceiver rnd n sid = .ok r) {β : Type} (q : Proc β)
    (e : Side (Receiver G) × Side β) (he : ReachRA (Side.start (receiverStream env g r a), Side.start q) e)
    (hdone : e.1.proc = .done (.ok r')) :
    ∃ pf : Schnorr.Proof F G,
      Schnorr.verify env.shaL env.penc env.cd env.gen (some pf) none (proofSid env sid).toList = .ok () ∧
      r'.senderPublicKey = some pf.statement ∧
      ∀ i < n, r'.pads[i]? = some (padOf env (saltOf env sid) i (a i • pf.statement)) ∧
        ∃ o : Digest × Digest,
          pick (choice rnd i) o = env.sha (padOf env (saltOf env sid) i (a i • pf.statement)).toList ∧
          r'.senderChallenge[i]? = some (xorBytes (env.sha o.1.toList) (env.sha o.2.toList)) := by
  obtain ⟨ms, hms⟩ := exec_of_reach he hdone
  obtain ⟨ms, pf, hms⟩ := exec_recvVal (g := g.proof) hms
  obtain ⟨⟨masked, r1⟩, h2, hms⟩ := exec_lift (r := r.round2 env a (some pf)) hms
  obtain ⟨ms, ch, hms⟩ := exec_recvVal (g := g.challenge) (exec_sendVal (g := g.masked) hms)
  obtain ⟨⟨resp, r2⟩, h4, hms⟩ := exec_lift (r := r1.round4 env ch) hms
  obtain ⟨ms, op, hms⟩ := exec_recvVal (g := g.opening) (exec_sendVal (g := g.response) hms)
  obtain ⟨u, h6, hms⟩ := exec_lift (r := r2.round6 env op) hms
  obtain rfl : r2 = r' := Except.ok.inj (Option.some.inj hms)
  -- the new receiver
  unfold newReceiver at hr
  rw [Go.guard_true ((batch_and n).2 hn)] at hr
  simp only [Go.ok_bind] at hr
  rw [initChoice_ok n hn rnd] at hr
  simp only [Go.ok_bind] at hr
  obtain rfl := Except.ok.inj hr
  -- round 2
  unfold Receiver.round2 deref at h2
  simp only [Go.ok_bind] at h2
  obtain ⟨u', hv, h2⟩ := Go.bind_eq_ok.1 h2
  obtain ⟨out, hout, h2⟩ := Go.bind_eq_ok.1 h2
  obtain ⟨-, rfl⟩ := Prod.mk.inj (Except.ok.inj h2)
  -- round 4
  unfold Receiver.round4 at h4
  obtain ⟨out4, -, h4⟩ := Go.bind_eq_ok.1 h4
  obtain ⟨-, rfl⟩ := Prod.mk.inj (Except.ok.inj h4)
  rw [mapM_range_eq_ok] at hout
  obtain ⟨hlen, hout⟩ := hout
  have hpads : ∀ i < n, (out.map Prod.snd)[i]? = some (padOf env (saltOf env sid) i (a i • pf.statement)) := by
    intro i hi
    obtain ⟨y, hy, hyi⟩ := hout i hi
    unfold Receiver.transferOne at hyi
    simp only at hyi
    obtain ⟨w, -, hyi⟩ := Go.bind_eq_ok.1 hyi
    obtain ⟨res, -, hyi⟩ := Go.bind_eq_ok.1 hyi
    obtain rfl := Except.ok.inj hyi
    rw [List.getElem?_map, hy]
    rfl
  refine ⟨pf, hv, rfl, fun i hi => ⟨hpads i hi, ?_⟩⟩
  have h6' := (C32_round6_iff env _ (choice rnd) rfl (by simpa using hlen) op).1 h6 i _ (hpads i hi)
  obtain ⟨o, -, ho1, ho2⟩ := h6'
  exact ⟨o, ho1, ho2⟩

/-- A sender which returns without error has been sent, in every slot, the double hash of its first key: the
receiver has passed the check of round 5. -/
theorem C205_sender (env : Env F G) (g : SeedGob F G) (s s' : Sender F G) (b k : F) {β : Type} (q : Proc β)
    (e : Side (Sender F G) × Side β) (he : ReachRA (Side.start (senderStream env g s b k), Side.start q) e)
    (hdone : e.1.proc = .done (.ok s')) :
    s'.secretKey = some b ∧ s'.publicKey = some (b • env.gen) ∧ s'.keys.length = s.batchSize ∧
      ∃ responses : List Digest, ∀ (i : ℕ) (ks : Digest × Digest), s'.keys[i]? = some ks →
        responses[i]? = some (env.sha (env.sha ks.1.toList).toList) := by
  obtain ⟨ms, hms⟩ := exec_of_reach he hdone
  obtain ⟨⟨pf, s1⟩, h1, hms⟩ := exec_lift (r := s.round1 env b k) hms
  obtain ⟨ms, masked, hms⟩ := exec_recvVal (g := g.masked) (exec_sendVal (g := g.proof) hms)
  obtain ⟨⟨ch, s2⟩, h3, hms⟩ := exec_lift (r := s1.round3 env masked) hms
  obtain ⟨ms, resp, hms⟩ := exec_recvVal (g := g.response) (exec_sendVal (g := g.challenge) hms)
  obtain ⟨op, h5, hms⟩ := exec_lift (r := s2.round5 env resp) hms
  obtain rfl : s2 = s' := Except.ok.inj (Option.some.inj (exec_sendVal (g := g.opening) hms))
  unfold Sender.round1 at h1
  simp only at h1
  obtain ⟨pf', -, h1⟩ := Go.bind_eq_ok.1 h1
  obtain ⟨-, rfl⟩ := Prod.mk.inj (Except.ok.inj h1)
  unfold Sender.round3 at h3
  obtain ⟨B, hB, h3⟩ := Go.bind_eq_ok.1 h3
  obtain ⟨pts, hpts, h3⟩ := Go.bind_eq_ok.1 h3
  obtain ⟨out, hout, h3⟩ := Go.bind_eq_ok.1 h3
  obtain ⟨-, rfl⟩ := Prod.mk.inj (Except.ok.inj h3)
  have hlen : (out.map Prod.fst).length = s.batchSize := by
    rw [mapM_range_eq_ok] at hout
    simpa using hout.1
  exact ⟨rfl, rfl, hlen, resp, ((C32_round5_iff env _ hlen resp op).1 h5).2⟩

omit [DecidableEq F] [DecidableEq G] in
/-- If the encoder refuses the proof (its interface fields hold types which nobody has registered with gob: the
stream registers the types of secp256k1 only, stream.go:22-23, 65-66), the sender returns an error, whatever the
peer does. -/
theorem C205_unregistered (env : Env F G) (g : SeedGob F G) (s : Sender F G) (b k : F)
    (hg : ∀ pf, g.proof.enc pf = none) {β : Type} (q : Proc β) (e : Side (Sender F G) × Side β)
    (he : ReachRA (Side.start (senderStream env g s b k), Side.start q) e) (s' : Sender F G) :
    e.1.proc ≠ .done (.ok s') := by
  intro h
  obtain ⟨ms, hms⟩ := exec_of_reach he h
  obtain ⟨⟨pf, s1⟩, -, hms⟩ := exec_lift (r := s.round1 env b k) hms
  obtain ⟨m, hm, -⟩ := exec_lift (r := Go.ofOption (g.proof.enc pf)) hms
  rw [hg pf] at hm
  cases hm

end seed

/-! ## The extension -/

section cot

variable {F : Type} [Field F] [DecidableEq F]

/-- both codecs work -/
structure CotGob.Ok (g : CotGob F) : Prop where
  first : g.first.Ok
  tau : g.tau.Ok

omit [DecidableEq F] in
theorem cot_steps (env : KEnv F) (g : CotGob F) (hg : g.Ok) (keys : List (Digest × Digest)) (seed : SeedReceiver)
    (sid : Digest) (choice : Vector UInt8 cotBytes) (rnd : Vector UInt8 42) (input : Fin cotL → F × F)
    (m : KosRound1) (r : KosReceiver) (tA tau tB : Fin cotL → F × F)
    (h1 : kosRound1 env keys sid choice rnd = .ok (m, r)) (h2 : kosRound2 env seed sid input m = .ok (tA, tau))
    (h3 : kosRound3 env r tau = .ok tB) :
    Steps 6 (Side.start (receiverCotStream env g keys sid choice rnd),
        Side.start (senderCotStream env g seed sid input))
      (⟨.done (.ok tB), [], []⟩, ⟨.done (.ok tA), [], []⟩) := by
  obtain ⟨m1, e1, d1⟩ := hg.first m
  obtain ⟨m2, e2, d2⟩ := hg.tau tau
  exact left_fresh <| right_fresh <| left_lift h1 <| left_send e1 <| right_recv d1 <| right_lift h2 <|
    right_send e2 <| left_recv d2 <| left_lift h3 <| .zero _

/-- Two honest parties with the outputs of a correct seed OT which run the extension over a stream: whatever the
order of the actions and the reads, an execution which cannot go on has ended with success at both ends, and the
shares add up to the chosen inputs. -/
theorem C205_cot (env : KEnv F) (hl : ∀ x y, (env.cd.enc x).length = (env.cd.enc y).length) (g : CotGob F) (hg : g.Ok)
    (keys : List (Digest × Digest)) (seed : SeedReceiver) (nabla : Digest) (h : SeedOk keys seed nabla)
    (sid : Digest) (choice : Vector UInt8 cotBytes) (rnd : Vector UInt8 42) (input : Fin cotL → F × F)
    (hdec : ∀ psi, Decodable env sid psi nabla) :
    ∃ tA tB : Fin cotL → F × F, (∀ j, tA j + tB j = if bitAt choice j then input j else 0) ∧
      ∀ e, ReachRA (Side.start (receiverCotStream env g keys sid choice rnd),
          Side.start (senderCotStream env g seed sid input)) e → StuckRA e →
        e.1.proc = .done (.ok tB) ∧ e.2.proc = .done (.ok tA) := by
  obtain ⟨m, r, h1, hgood, -⟩ := C35_honest env hl keys seed nabla h sid choice rnd input
  obtain ⟨tA, tau, tB, h2, h3, hsum⟩ := hgood (hdec _)
  refine ⟨tA, tB, hsum, fun e he hse => ?_⟩
  refine C205_single_run ?_ ?_ (cot_steps env g hg keys seed sid choice rnd input m r tA tau tB h1 h2 h3) he hse
  · exact noFresh_lift fun _ => noFresh_sendVal <| noFresh_recvVal fun _ => noFresh_lift fun _ => .done _
  · exact noFresh_recvVal fun _ => noFresh_lift fun _ => noFresh_sendVal <| .done _

end cot

/-! ## Seed OT and extension on one connection -/

section both

variable {F : Type} [Field F] [DecidableEq F]
variable {G : Type} [AddCommGroup G] [Module F G] [DecidableEq G]

/-- The two streams one after the other on one connection.  If every read delivers one value, every execution
has at most 18 actions, and one which cannot go on has ended with shares which add up to the chosen inputs. -/
theorem C205_both (env : Env F G) (hp : PointsOk env) (g : SeedGob F G) (hg : g.Ok) (kenv : KEnv F)
    (hl : ∀ x y, (kenv.cd.enc x).length = (kenv.cd.enc y).length) (kg : CotGob F) (hkg : kg.Ok)
    (sid csid : Digest) (rnd : ℕ → UInt8) (b k : F) (a : ℕ → F) (pf : Schnorr.Proof F G)
    (hpf : (Schnorr.newProver env.gen none (proofSid env sid).toList).prove env.shaL env.penc env.cd
      b k = .ok pf)
    (hA : ∀ i < 256, a i • env.gen + (if choice rnd i then b • env.gen else 0) ≠ 0)
    (cho : Vector UInt8 cotBytes) (crnd : Vector UInt8 42) (input : Fin cotL → F × F)
    (hdec : ∀ psi, Decodable kenv csid psi (Vector.ofFn fun i => rnd i.val)) :
    ∃ s r, newSender 256 sid = .ok s ∧ newReceiver rnd 256 sid = .ok r ∧
      ∃ tA tB : Fin cotL → F × F, (∀ j, tA j + tB j = if bitAt cho j then input j else 0) ∧
        ∀ n e, Steps n (Side.start (aliceStream env g kenv kg s b k csid cho crnd),
            Side.start (bobStream env g kenv kg r a csid input)) e →
          n ≤ 18 ∧ (Stuck e → e = (⟨.done (.ok tB), [], []⟩, ⟨.done (.ok tA), [], []⟩)) := by
  obtain ⟨s', r', hrun, hseed⟩ := C35_from_seed env hp sid rnd b k a pf hpf hA
  obtain ⟨s, r, hs, hr, hst⟩ := seed_steps env g hg 256 sid rnd b k a s' r' hrun
  obtain ⟨m, kr, h1, hgood, -⟩ := C35_honest kenv hl s'.keys _ _ hseed csid cho crnd input
  obtain ⟨tA, tau, tB, h2, h3, hsum⟩ := hgood (hdec _)
  have hc := cot_steps kenv kg hkg s'.keys _ csid cho crnd input m kr tA tau tB h1 h2 h3
  refine ⟨s, r, hs, hr, tA, tB, hsum, fun n e he => ?_⟩
  have hb := steps_bind (fun s => receiverCotStream kenv kg s.keys csid cho crnd)
    (fun r : Receiver G => senderCotStream kenv kg ⟨r.packed, r.choices, r.pads⟩ csid input) hst
  have := C205_schedule (Steps.trans hb hc) (stuck_done _ _ _ _ _ _) he
  exact ⟨this.1, this.2.2⟩

theorem reach_of_steps {α β : Type} {n : ℕ} {c d : Side α × Side β} (h : Steps n c d) : ReachRA c d := by
  induction h with
  | zero c => exact .refl
  | succ h _ ih => exact .head (.step h) ih

/-- The same on a connection which lets the decoders read ahead: there is an execution in which both parties are
honest, neither has returned, and both wait for ever.  The last message of the seed OT and the first message of
the extension go in the same direction; a read that takes both leaves the second in the buffer of the first
decoder, and the second decoder never sees it. -/
theorem C205_readahead (env : Env F G) (hp : PointsOk env) (g : SeedGob F G) (hg : g.Ok) (kenv : KEnv F)
    (kg : CotGob F) (hkg : kg.Ok)
    (sid csid : Digest) (rnd : ℕ → UInt8) (b k : F) (a : ℕ → F) (pf : Schnorr.Proof F G)
    (hpf : (Schnorr.newProver env.gen none (proofSid env sid).toList).prove env.shaL env.penc env.cd
      b k = .ok pf)
    (hA : ∀ i < 256, a i • env.gen + (if choice rnd i then b • env.gen else 0) ≠ 0)
    (hl : ∀ x y, (kenv.cd.enc x).length = (kenv.cd.enc y).length)
    (cho : Vector UInt8 cotBytes) (crnd : Vector UInt8 42) (input : Fin cotL → F × F) :
    ∃ s r, newSender 256 sid = .ok s ∧ newReceiver rnd 256 sid = .ok r ∧
      ∃ e, ReachRA (Side.start (aliceStream env g kenv kg s b k csid cho crnd),
          Side.start (bobStream env g kenv kg r a csid input)) e ∧
        StuckRA e ∧ (∀ res, e.1.proc ≠ .done res) ∧ ∀ res, e.2.proc ≠ .done res := by
  obtain ⟨s', r', hrun, hseed⟩ := C35_from_seed env hp sid rnd b k a pf hpf hA
  obtain ⟨s, r, hs, hr, op, m, hm, h6, hst⟩ := seed_steps_open env g hg 256 sid rnd b k a s' r' hrun
  obtain ⟨first, kr, h1, -, -⟩ := C35_honest kenv hl s'.keys _ _ hseed csid cho crnd input
  obtain ⟨c1, e1, d1⟩ := hkg.first first
  refine ⟨s, r, hs, hr, ?_⟩
  have hb := steps_bind (fun s => receiverCotStream kenv kg s.keys csid cho crnd)
    (fun r : Receiver G => senderCotStream kenv kg ⟨r.packed, r.choices, r.pads⟩ csid input) hst
  -- the seed sender goes on with the first message of the extension
  have h2 : Steps 2 (Side.start (receiverCotStream kenv kg s'.keys csid cho crnd),
      (⟨(recvVal g.opening fun op => Proc.lift (r'.round6 env op) fun _ => .done (.ok r')).bind
        fun r : Receiver G => senderCotStream kenv kg ⟨r.packed, r.choices, r.pads⟩ csid input, [], [m]⟩ :
        Side (Fin cotL → F × F)))
      (⟨recvVal kg.tau fun tau => Proc.lift (kosRound3 kenv kr tau) fun tB => .done (.ok tB), [], []⟩,
        ⟨(recvVal g.opening fun op => Proc.lift (r'.round6 env op) fun _ => .done (.ok r')).bind
        fun r : Receiver G => senderCotStream kenv kg ⟨r.packed, r.choices, r.pads⟩ csid input, [], [m, c1]⟩) :=
    left_fresh <| left_lift h1 <| left_send e1 <| .zero _
  refine ⟨(⟨recvVal kg.tau fun tau => Proc.lift (kosRound3 kenv kr tau) fun tB => .done (.ok tB), [], []⟩,
    ⟨recvVal kg.first fun first => Proc.lift (kosRound2 kenv ⟨r'.packed, r'.choices, r'.pads⟩ csid input first)
      fun (tA, tau) => sendVal kg.tau tau <| .done (.ok tA), [], []⟩), ?_, ?_, ?_, ?_⟩
  · refine (reach_of_steps (hb.trans h2)).trans ?_
    refine .head (.right (.mk _ [m, c1] [] (by simp))) ?_
    refine .head (.step (.right rfl)) ?_
    refine .head (.step (.right (y' := ⟨_, [], []⟩) ?_)) .refl
    beta_reduce
    rw [hm]
    show next (⟨((Proc.lift (r'.round6 env op) fun _ => Proc.done (.ok r')).bind _), _, _⟩ : Side _) _ = _
    rw [h6]
    rfl
  · intro d hd
    cases hd with
    | step hd =>
      cases hd with
      | left h => cases h
      | right h => cases h
    | left h =>
      generalize hx : (⟨recvVal kg.tau fun tau => Proc.lift (kosRound3 kenv kr tau) fun tB => .done (.ok tB), [], []⟩ :
        Side (Fin cotL → F × F)) = x at h
      cases h with
      | mk k ms inbox hne =>
        have := congrArg Side.inbox hx
        simp only at this
        exact hne (List.append_eq_nil_iff.1 this.symm).1
    | right h =>
      generalize hx : (⟨recvVal kg.first fun first => Proc.lift (kosRound2 kenv ⟨r'.packed, r'.choices, r'.pads⟩ csid input first)
        fun (tA, tau) => sendVal kg.tau tau <| .done (.ok tA), [], []⟩ : Side (Fin cotL → F × F)) = x at h
      cases h with
      | mk k ms inbox hne =>
        have := congrArg Side.inbox hx
        simp only at this
        exact hne (List.append_eq_nil_iff.1 this.symm).1
  · intro res h
    cases h
  · intro res h
    cases h

end both

/-! ## The hypotheses hold together -/

section examples

/-- a codec for any countable type -/
theorem exists_codec (α : Type) [Countable α] : ∃ g : Codec1 α, g.Ok := by
  classical
  obtain ⟨f, hf⟩ := Countable.exists_injective_nat α
  refine ⟨⟨fun a => some (List.replicate (f a) 0),
    fun m => if h : ∃ a, f a = m.length then some h.choose else none⟩, fun a => ⟨_, rfl, ?_⟩⟩
  have h : ∃ a', f a' = (List.replicate (f a) (0 : UInt8)).length := ⟨a, by simp⟩
  dsimp only
  rw [dif_pos h, Option.some.injEq]
  apply hf
  rw [h.choose_spec, List.length_replicate]

instance : Countable UInt8 := Function.Injective.countable (f := UInt8.toNat) fun _ _ h => UInt8.toNat_inj.1 h

instance (α : Type) [Countable α] (n : ℕ) : Countable (Vector α n) :=
  Function.Injective.countable (f := Vector.toList) fun _ _ h => Vector.toList_inj.1 h

instance : Countable KosRound1 :=
  Function.Injective.countable (f := fun m => (m.U, m.wPrime, m.vPrime)) fun a b h => by
    obtain ⟨U, w, v⟩ := a
    obtain ⟨U', w', v'⟩ := b
    simp only [Prod.mk.injEq] at h
    rw [h.1, h.2.1, h.2.2]

instance : Countable (Schnorr.Proof Toy.K Toy.K) :=
  Function.Injective.countable (f := fun m => (m.C, m.S, m.statement)) fun a b h => by
    obtain ⟨U, w, v⟩ := a
    obtain ⟨U', w', v'⟩ := b
    simp only [Prod.mk.injEq] at h
    rw [h.1, h.2.1, h.2.2]

theorem exists_seedGob : ∃ g : SeedGob Toy.K Toy.K, g.Ok := by
  obtain ⟨g1, h1⟩ := exists_codec (Schnorr.Proof Toy.K Toy.K)
  obtain ⟨g2, h2⟩ := exists_codec (List (List UInt8))
  obtain ⟨g3, h3⟩ := exists_codec (List Digest)
  obtain ⟨g4, h4⟩ := exists_codec (List (Digest × Digest))
  exact ⟨⟨g1, g2, g3, g3, g4⟩, h1, h2, h3, h3, h4⟩

theorem exists_cotGob : ∃ g : CotGob Toy.K, g.Ok := by
  obtain ⟨g1, h1⟩ := exists_codec KosRound1
  obtain ⟨g2, h2⟩ := exists_codec (Fin cotL → Toy.K × Toy.K)
  exact ⟨⟨g1, g2⟩, h1, h2⟩

/-- `C205_both`, `C205_readahead`, `C205_seed`, `C205_cot` -/
theorem toyBoth (cho : Vector UInt8 cotBytes) (crnd : Vector UInt8 42) (input : Fin cotL → Toy.K × Toy.K) :
    ∃ g kg s r, newSender 256 toySid = .ok s ∧ newReceiver toyRnd 256 toySid = .ok r ∧
      (∃ n e, Steps n (Side.start (aliceStream toyEnv g toyKEnv kg s (5 : Toy.K) 7 toySid cho crnd),
        Side.start (bobStream toyEnv g toyKEnv kg r (fun _ => (2 : Toy.K)) toySid input)) e ∧ Stuck e ∧
        ∃ tA tB : Fin cotL → Toy.K × Toy.K, (∀ j, tA j + tB j = if bitAt cho j then input j else 0) ∧
          e = (⟨.done (.ok tB), [], []⟩, ⟨.done (.ok tA), [], []⟩)) := by
  obtain ⟨g, hg⟩ := exists_seedGob
  obtain ⟨kg, hkg⟩ := exists_cotGob
  have hA : ∀ i < 256, (2 : Toy.K) • toyEnv.gen + (if choice toyRnd i then (5 : Toy.K) • toyEnv.gen else 0) ≠ 0 := by
    intro i _
    cases choice toyRnd i <;> decide +kernel
  obtain ⟨s', r', hrun, hseed⟩ := C35_from_seed toyEnv toyPoints toySid toyRnd (5 : Toy.K) 7 (fun _ => 2) _ toyProve hA
  obtain ⟨s, r, hs, hr, hst⟩ := seed_steps toyEnv g hg 256 toySid toyRnd (5 : Toy.K) 7 (fun _ => 2) s' r' hrun
  obtain ⟨m, kr, h1, hgood, -⟩ := C35_honest toyKEnv (fun x y => by rw [toyK_len, toyK_len]) s'.keys _ _ hseed toySid
    cho crnd input
  obtain ⟨tA, tau, tB, h2, h3, hsum⟩ := hgood fun j k hk => ⟨toyK_slot _ _ _ _ hk, toyK_slot _ _ _ _ hk⟩
  have hc := cot_steps toyKEnv kg hkg s'.keys _ toySid cho crnd input m kr tA tau tB h1 h2 h3
  have hb := steps_bind (fun s => receiverCotStream toyKEnv kg s.keys toySid cho crnd)
    (fun r : Receiver Toy.K => senderCotStream toyKEnv kg ⟨r.packed, r.choices, r.pads⟩ toySid input) hst
  exact ⟨g, kg, s, r, hs, hr, _, _, hb.trans hc, stuck_done _ _ _ _ _ _, tA, tB, hsum, rfl⟩

/-- `C205_readahead` in a concrete case -/
example (g : SeedGob Toy.K Toy.K) (hg : g.Ok) (kg : CotGob Toy.K) (hkg : kg.Ok) (cho : Vector UInt8 cotBytes)
    (crnd : Vector UInt8 42) (input : Fin cotL → Toy.K × Toy.K) :
    ∃ s r, newSender 256 toySid = .ok s ∧ newReceiver toyRnd 256 toySid = .ok r ∧
      ∃ e, ReachRA (Side.start (aliceStream toyEnv g toyKEnv kg s (5 : Toy.K) 7 toySid cho crnd),
          Side.start (bobStream toyEnv g toyKEnv kg r (fun _ => (2 : Toy.K)) toySid input)) e ∧
        StuckRA e ∧ (∀ res, e.1.proc ≠ .done res) ∧ ∀ res, e.2.proc ≠ .done res :=
  C205_readahead toyEnv toyPoints g hg toyKEnv kg hkg toySid toySid toyRnd (5 : Toy.K) 7 (fun _ => 2) _ toyProve
    (by intro i _; cases choice toyRnd i <;> decide +kernel) (fun x y => by rw [toyK_len, toyK_len]) cho crnd input

/-- `C205_receiver`, `C205_sender`: the end states exist -/
example : ∃ g s r s' r', newReceiver toyRnd 256 toySid = .ok r ∧
    ReachRA (Side.start (senderStream toyEnv g s (5 : Toy.K) 7), Side.start (receiverStream toyEnv g r fun _ => 2))
      (⟨.done (.ok s'), [], []⟩, ⟨.done (.ok r'), [], []⟩) := by
  obtain ⟨g, hg⟩ := exists_seedGob
  obtain ⟨s', r', hrun, -⟩ := C35_from_seed toyEnv toyPoints toySid toyRnd (5 : Toy.K) 7 (fun _ => 2) _ toyProve
    (by intro i _; cases choice toyRnd i <;> decide +kernel)
  obtain ⟨s, r, hs, hr, hst⟩ := seed_steps toyEnv g hg 256 toySid toyRnd (5 : Toy.K) 7 (fun _ => 2) s' r' hrun
  exact ⟨g, s, r, s', r', hr, reach_of_steps hst⟩

end examples

end Verif.Ot
