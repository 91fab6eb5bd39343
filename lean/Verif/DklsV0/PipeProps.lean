import Verif.DklsV0.PipeModel
import Mathlib.Data.List.Infix
import Mathlib.Order.Lattice

/-!
# C229: the connection of two parties in one process
-/

namespace Verif.DklsV0.Pipe

/-- all bytes a party passed to `Write`, in order -/
def sent (p : Bool) : List (Event × List UInt8) → List UInt8
  | [] => []
  | (.write q b, _) :: t => (if q = p then b else []) ++ sent p t
  | (.read _ _, _) :: t => sent p t

/-- all bytes a party got from `Read`, in order -/
def got (p : Bool) : List (Event × List UInt8) → List UInt8
  | [] => []
  | (.write _ _, _) :: t => got p t
  | (.read q _, out) :: t => (if q = p then out else []) ++ got p t

theorem sent_append (p : Bool) (a b) : sent p (a ++ b) = sent p a ++ sent p b := by
  induction a with
  | nil => rfl
  | cons x t ih => rcases x with ⟨_ | _, _⟩ <;> simp [sent, ih]

theorem got_append (p : Bool) (a b) : got p (a ++ b) = got p a ++ got p b := by
  induction a with
  | nil => rfl
  | cons x t ih => rcases x with ⟨_ | _, _⟩ <;> simp [got, ih]

/-- bytes of the call at a pipe that are still to be taken -/
def left : Option Call → List UInt8
  | none => []
  | some c => c.rem

/-- bytes of the call at a pipe that have been taken -/
def taken : Option Call → ℕ
  | none => 0
  | some c => c.n

structure Inv (tr : List (Event × List UInt8)) (s : Net) : Prop where
  r : ∀ p, s.r p = p
  w : ∀ p, s.w p = !p
  who : ∀ p c, s.pipes p = some c → c.who = !p
  bytes : ∀ p, got p tr ++ left (s.pipes p) = sent (!p) tr
  count : ∀ p, s.exchanged p + taken (s.pipes (!p)) = (got p tr).length + (got (!p) tr).length

theorem inv_new : Inv [] new where
  r p := by cases p <;> rfl
  w p := by cases p <;> rfl
  who p c h := by cases h
  bytes p := rfl
  count p := rfl

theorem idle_iff {tr s} (i : Inv tr s) (p : Bool) : s.idle p = true ↔ s.pipes (!p) = none := by
  have h0 := i.who false
  have h1 := i.who true
  cases h : s.pipes false <;> cases h' : s.pipes true <;> cases p <;>
    simp_all [Net.idle]

theorem inv_write {tr s} (i : Inv tr s) (p : Bool) (b : List UInt8) {s' out}
    (h : s.step (.write p b) = some (s', out)) : Inv (tr ++ [(.write p b, out)]) s' := by
  have hi := idle_iff i p
  simp only [Net.step, i.w] at h
  split at h
  · rename_i hc
    have hn : s.pipes (!p) = none := by simpa using (Bool.and_eq_true_iff.1 hc).2
    cases h
    have hb := i.bytes
    have hk := i.count
    have hw := i.who
    refine ⟨i.r, i.w, fun q c hq => ?_, fun q => ?_, fun q => ?_⟩
    · cases p <;> cases q <;> simp_all [Function.update] <;> (subst hq; rfl)
    · have := hb q
      cases p <;> cases q <;> simp_all [Function.update, sent_append, got_append, sent, got, left]
    · have := hk q
      cases p <;> cases q <;> simp_all [Function.update, got_append, got, taken]
  · cases h

theorem inv_read {tr s} (i : Inv tr s) (p : Bool) (size : ℕ) {s' out}
    (h : s.step (.read p size) = some (s', out)) : Inv (tr ++ [(.read p size, out)]) s' := by
  simp only [Net.step, i.r] at h
  split at h
  · rename_i hc
    have hn := (idle_iff i p).1 hc
    obtain ⟨c, hp, e⟩ := Option.map_eq_some_iff.1 h
    have hwho := i.who p c hp
    have hb := i.bytes
    have hk := i.count
    have b0 := hb p
    have b1 := hb (!p)
    have k0 := hk p
    have k1 := hk (!p)
    rw [Bool.not_not] at b1 k1
    rw [hp] at b0 k1
    rw [hn] at b1 k0
    simp only [left, taken, List.append_nil, Nat.add_zero] at b0 b1 k0 k1
    unfold Net.take at e
    simp only [i.r, hwho] at e
    split at e
    · rename_i hlt
      cases e
      clear h hb hk
      refine ⟨i.r, i.w, fun q d hq => ?_, fun q => ?_, fun q => ?_⟩
      · have := i.who q d
        cases p <;> cases q <;> simp_all [Function.update] <;> (subst hq; rfl)
      · cases p <;> cases q <;> simp_all [Function.update, sent_append, got_append, sent, got, left]
      · clear b0 b1
        cases p <;> cases q <;> simp [Function.update, got_append, got, taken] at hn k0 k1 ⊢ <;> (try rw [hn]) <;> (try simp only []) <;> omega
    · rename_i hge
      have hall : c.rem.take size = c.rem := List.take_of_length_le (not_lt.1 hge)
      rw [hall] at e
      cases e
      clear h hb hk
      refine ⟨i.r, i.w, fun q d hq => ?_, fun q => ?_, fun q => ?_⟩
      · have := i.who q d
        cases p <;> cases q <;> simp_all [Function.update]
      · cases p <;> cases q <;> simp_all [Function.update, sent_append, got_append, sent, got, left]
      · clear b0 b1
        cases p <;> cases q <;> simp [Function.update, got_append, got, taken] at hn k0 k1 ⊢ <;> (try rw [hn]) <;> (try simp only []) <;> omega
  · cases h

theorem Run.inv {tr s} (h : Run tr s) : Inv tr s := by
  induction h with
  | start => exact inv_new
  | @step tr s e s' out _ hs ih =>
    cases e with
    | write p b => exact inv_write ih p b hs
    | read p size => exact inv_read ih p size hs

/-- C229: in every execution each party reads what the other wrote, in order and without loss; it has
read everything unless a `Write` of the other one is in progress -/
theorem C229_order {tr s} (h : Run tr s) (p : Bool) :
    got p tr <+: sent (!p) tr ∧ (s.idle (!p) = true → got p tr = sent (!p) tr) := by
  have i := h.inv
  refine ⟨⟨_, i.bytes p⟩, fun hi => ?_⟩
  have := (idle_iff i (!p)).1 hi
  rw [Bool.not_not] at this
  simpa [this, left] using i.bytes p

/-- C229: once no `Write` is in progress, both counters are the number of bytes written by both parties -/
theorem C229_count {tr s} (h : Run tr s) (hi : s.idle false = true ∧ s.idle true = true) (p : Bool) :
    s.exchanged p = (sent false tr).length + (sent true tr).length := by
  have i := h.inv
  have h0 := (idle_iff i false).1 hi.1
  have h1 := (idle_iff i true).1 hi.2
  have k := i.count p
  have b0 := (C229_order h false).2 hi.2
  have b1 := (C229_order h true).2 hi.1
  simp only [Bool.not_false, Bool.not_true] at h0 h1 b0 b1
  cases p <;> simp_all [taken]
  omega

/-- C229: at every moment a counter holds the bytes that have gone through, without those of the party's own `Write` in progress -/
theorem C229_count_le {tr s} (h : Run tr s) (p : Bool) :
    s.exchanged p ≤ (got false tr).length + (got true tr).length ∧
    (s.idle p = true → s.exchanged p = (got false tr).length + (got true tr).length) := by
  have i := h.inv
  have k := i.count p
  refine ⟨by cases p <;> simp at k ⊢ <;> omega, fun hi => ?_⟩
  rw [(idle_iff i p).1 hi] at k
  cases p <;> simp [taken] at k ⊢ <;> omega

/-- C229: the parties do not always get on: if both write, be it nothing at all, no call ever returns -/
theorem C229_blocked {tr s} (h : Run tr s) : (∀ e, s.step e = none) ↔ s.idle false = false ∧ s.idle true = false := by
  have i := h.inv
  constructor
  · intro hs
    by_contra hc
    have : ∃ p, s.idle p = true := by
      cases h0 : s.idle false
      · cases h1 : s.idle true
        · exact absurd ⟨h0, h1⟩ hc
        · exact ⟨_, h1⟩
      · exact ⟨_, h0⟩
    obtain ⟨p, hp⟩ := this
    have := hs (.write p [])
    simp [Net.step, hp, i.w, (idle_iff i p).1 hp] at this
  · rintro ⟨h0, h1⟩ (⟨_ | _, b⟩ | ⟨_ | _, n⟩) <;> simp [Net.step, h0, h1]

/-- C229: a party that does not write can read: while the other one writes, a `Read` returns as many of the
bytes to come as fit in the buffer, and ends the `Write` exactly if those are all -/
theorem C229_read {tr s} (h : Run tr s) (p : Bool) (hp : s.idle p = true) (hq : s.idle (!p) = false) (size : ℕ) :
    ∃ s' out, s.step (.read p size) = some (s', out) ∧ sent (!p) tr = got p tr ++ (out ++ (sent (!p) tr).drop ((got p tr).length + out.length)) ∧
      out.length = min size ((sent (!p) tr).length - (got p tr).length) ∧
      (s'.idle (!p) = true ↔ (sent (!p) tr).length - (got p tr).length ≤ size) := by
  have i := h.inv
  have hx : s.pipes p ≠ none := fun e => by
    have := (idle_iff i (!p)).2 (by rw [Bool.not_not]; exact e)
    rw [this] at hq; cases hq
  obtain ⟨c, hc⟩ := Option.ne_none_iff_exists'.1 hx
  have hb := i.bytes p
  rw [hc] at hb
  simp only [left] at hb
  have hs : s.step (.read p size) = some (s.take p c size) := by simp [Net.step, hp, i.r, hc]
  have i' := inv_read i p size (s' := (s.take p c size).1) (out := (s.take p c size).2) hs
  have ho : (s.take p c size).2 = c.rem.take size := by unfold Net.take; simp only; split <;> rfl
  refine ⟨(s.take p c size).1, (s.take p c size).2, hs, ?_, ?_, ?_⟩
  · rw [ho, ← hb, List.drop_append, List.drop_eq_nil_of_le (by omega)]
    rw [List.nil_append, Nat.add_sub_cancel_left, List.length_take]
    rcases le_total size c.rem.length with hl | hl
    · rw [min_eq_left hl, List.take_append_drop]
    · rw [min_eq_right hl, List.drop_length, List.take_of_length_le hl, List.append_nil]
  · rw [ho, ← hb]; simp
  · rw [idle_iff i' (!p), Bool.not_not, ← hb]
    unfold Net.take
    simp only [i.r]
    split <;> simp <;> omega

/-- an execution: the first party writes three bytes, the second one takes them in two pieces and answers -/
example : ∃ tr s, Run tr s ∧ got true tr = [1, 2, 3] ∧ got false tr = [9] ∧ s.idle false = true ∧ s.idle true = true ∧ s.exchanged false = 4 := by
  refine ⟨_, _, .step (.step (.step (.step (.step .start (e := .write false [1, 2, 3]) rfl) (e := .read true 2) rfl)
    (e := .read true 8) rfl) (e := .write true [9]) rfl) (e := .read false 1) rfl, ?_⟩
  decide +kernel

/-- an execution in which both write and wait for ever -/
example : ∃ tr s, Run tr s ∧ ∀ e, s.step e = none := by
  refine ⟨_, _, .step (.step .start (e := .write false [1]) rfl) (e := .write true []) rfl, ?_⟩
  exact (C229_blocked (.step (.step .start (e := .write false [1]) rfl) (e := .write true []) rfl)).2 (by decide +kernel)

end Verif.DklsV0.Pipe
