import Verif.Common.Go
import Mathlib.Data.Fin.Tuple.Basic

/-!
# Loops which fill a fixed-size array
-/

namespace Verif.Go

variable {β : Type}

/-- `for i := 0; i < n; i++ { out[i], err = f(i); … }`: the entries in order, or the first failure -/
def tabulate : (n : ℕ) → (Fin n → Go β) → Go (Fin n → β)
  | 0, _ => .ok Fin.elim0
  | n + 1, f => do
    let x ← f 0
    let r ← tabulate n (fun i => f i.succ)
    .ok (Fin.cons x r)

theorem tabulate_eq_ok : ∀ {n : ℕ} {f : Fin n → Go β} {r : Fin n → β},
    tabulate n f = .ok r ↔ ∀ i, f i = .ok (r i)
  | 0, f, r => by
    unfold tabulate
    constructor
    · intro _ i; exact i.elim0
    · intro _; congr 1; funext i; exact i.elim0
  | n + 1, f, r => by
    unfold tabulate
    rw [bind_eq_ok]
    constructor
    · rintro ⟨x, hx, h⟩
      obtain ⟨r', hr', h⟩ := bind_eq_ok.1 h
      obtain rfl := Except.ok.inj h
      rw [tabulate_eq_ok] at hr'
      intro i
      refine Fin.cases ?_ (fun i => ?_) i
      · exact hx
      · rw [Fin.cons_succ]; exact hr' i
    · intro h
      refine ⟨r 0, h 0, ?_⟩
      rw [bind_eq_ok]
      refine ⟨fun i => r i.succ, tabulate_eq_ok.2 fun i => h i.succ, ?_⟩
      congr 1
      exact Fin.cons_self_tail r

theorem tabulate_ok {n : ℕ} {f : Fin n → Go β} (r : Fin n → β) (h : ∀ i, f i = .ok (r i)) :
    tabulate n f = .ok r := tabulate_eq_ok.2 h

/-- The failure of a loop is that of its first failing iteration. -/
theorem tabulate_eq_error : ∀ {n : ℕ} {f : Fin n → Go β} {e : Fail},
    tabulate n f = .error e ↔ ∃ i, f i = .error e ∧ ∀ j < i, ∃ y, f j = .ok y
  | 0, f, e => by
    unfold tabulate
    constructor
    · intro h; cases h
    · rintro ⟨i, -⟩; exact i.elim0
  | n + 1, f, e => by
    unfold tabulate
    cases h0 : f 0 with
    | error e' =>
      constructor
      · intro h
        refine ⟨0, ?_, fun j hj => absurd hj (Fin.not_lt_zero j)⟩
        rw [error_bind] at h
        rw [h0, Except.error.inj h]
      · rintro ⟨i, hi, hj⟩
        rcases Fin.eq_zero_or_eq_succ i with rfl | ⟨k, rfl⟩
        · rw [h0] at hi; rw [error_bind, Except.error.inj hi]
        · obtain ⟨y, hy⟩ := hj 0 (Fin.succ_pos k)
          rw [h0] at hy; cases hy
    | ok x =>
      rw [ok_bind]
      cases h1 : tabulate n (fun i => f i.succ) with
      | ok r =>
        rw [ok_bind]
        constructor
        · intro h; cases h
        · rintro ⟨i, hi, -⟩
          rcases Fin.eq_zero_or_eq_succ i with rfl | ⟨k, rfl⟩
          · rw [h0] at hi; cases hi
          · rw [tabulate_eq_ok.1 h1 k] at hi; cases hi
      | error e' =>
        have ih := (tabulate_eq_error (f := fun i => f i.succ) (e := e')).1 h1
        obtain ⟨k, hk, hj⟩ := ih
        constructor
        · intro h
          have : e' = e := by injection h
          subst this
          refine ⟨k.succ, hk, fun j hjk => ?_⟩
          rcases Fin.eq_zero_or_eq_succ j with rfl | ⟨l, rfl⟩
          · exact ⟨x, h0⟩
          · exact hj l (Fin.succ_lt_succ_iff.1 hjk)
        · rintro ⟨i, hi, hi'⟩
          rcases Fin.eq_zero_or_eq_succ i with rfl | ⟨l, rfl⟩
          · rw [h0] at hi; cases hi
          · rcases lt_trichotomy k l with h | h | h
            · obtain ⟨y, hy⟩ := hi' k.succ (Fin.succ_lt_succ_iff.2 h)
              rw [hk] at hy; cases hy
            · subst h; rw [hk] at hi; rw [error_bind, Except.error.inj hi]
            · obtain ⟨y, hy⟩ := hj l h
              rw [hi] at hy; cases hy

example : tabulate 3 (fun i => (.ok (i.val * 2) : Go ℕ)) = .ok (fun i => i.val * 2) :=
  tabulate_ok _ fun _ => rfl

end Verif.Go
