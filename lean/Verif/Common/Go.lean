import Mathlib.Init

/-!
# Results of Go functions

A Go function returning `(T, error)` is modelled as `Go T`: either a value, an
error (`Fail.error`, the message is not modelled), or a run-time panic
(`Fail.panic`, e.g. nil dereference, index out of range).
-/

namespace Verif

/-- The two ways a Go call can fail to produce a value. -/
inductive Fail
  | error
  | panic
  deriving DecidableEq, Repr

/-- Result of a Go call. -/
abbrev Go (α : Type) := Except Fail α

namespace Go

/-- `return nil, fmt.Errorf(..)`. -/
abbrev err {α : Type} : Go α := Except.error Fail.error

/-- a run-time panic. -/
abbrev crash {α : Type} : Go α := Except.error Fail.panic

/-- `if !cond { return error }`. -/
def guard (c : Prop) [Decidable c] : Go Unit := if c then .ok () else err

/-- Go's `(T, error)` result of a partial decoding function. -/
def ofOption {α : Type} : Option α → Go α
  | some a => .ok a
  | none => err

theorem guard_eq_ok {c : Prop} [Decidable c] {u : Unit} : guard c = .ok u ↔ c := by
  unfold guard; split <;> simp_all [err]

theorem guard_true {c : Prop} [Decidable c] (h : c) : guard c = .ok () := by
  simp [guard, h]

theorem guard_false {c : Prop} [Decidable c] (h : ¬ c) : guard c = err := by
  simp [guard, h]

theorem bind_eq_ok {α β : Type} {x : Go α} {f : α → Go β} {b : β} :
    (x >>= f) = .ok b ↔ ∃ a, x = .ok a ∧ f a = .ok b := by
  cases x with
  | error e => simp [bind, Except.bind]
  | ok a => simp [bind, Except.bind]

@[simp] theorem ok_bind {α β : Type} {a : α} {f : α → Go β} :
    ((Except.ok a : Go α) >>= f) = f a := rfl

@[simp] theorem error_bind {α β : Type} {e : Fail} {f : α → Go β} :
    ((Except.error e : Go α) >>= f) = Except.error e := rfl

@[simp] theorem pure_eq_ok {α : Type} {a : α} : (pure a : Go α) = Except.ok a := rfl

theorem ofOption_eq_ok {α : Type} {o : Option α} {a : α} :
    ofOption o = .ok a ↔ o = some a := by
  cases o <;> simp [ofOption]

theorem guard_bind_eq_ok {α : Type} {c : Prop} [Decidable c] {f : Unit → Go α} {b : α} :
    (guard c >>= f) = .ok b ↔ c ∧ f () = .ok b := by
  by_cases h : c <;> simp [guard, h]

end Go
end Verif
