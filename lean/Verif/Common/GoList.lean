import Verif.Common.Go
import Mathlib.Algebra.BigOperators.Group.List.Basic

/-!
Lemmas on loops over lists in the `Go` monad.
-/

namespace Verif.Go

/-- A loop that can only fail succeeds iff every iteration does. -/
theorem forM_eq_ok {α : Type} {l : List α} {f : α → Go Unit} {u : Unit} :
    l.forM f = .ok u ↔ ∀ x ∈ l, f x = .ok () := by
  induction l with
  | nil => simp [List.forM]
  | cons a l ih =>
    change (f a >>= fun _ => l.forM f) = .ok u ↔ _
    rw [bind_eq_ok]
    constructor
    · rintro ⟨_, h1, h2⟩ x hx
      rcases List.mem_cons.1 hx with rfl | hx
      · exact h1
      · exact ih.1 h2 x hx
    · intro h
      exact ⟨(), h a (by simp), ih.2 fun x hx => h x (by simp [hx])⟩

/-- Accumulating loop. -/
theorem foldlM_add {α M : Type} [AddCommMonoid M] {l : List α} {f : M → α → Go M} {w : α → M}
    (h : ∀ e ∈ l, ∀ a, f a e = .ok (a + w e)) (a : M) :
    l.foldlM f a = .ok (a + (l.map w).sum) := by
  induction l generalizing a with
  | nil => simp [List.foldlM]
  | cons e l ih =>
    rw [List.foldlM_cons, h e (by simp), ok_bind, ih (fun x hx => h x (by simp [hx])),
      List.map_cons, List.sum_cons, add_assoc]

/-- `mapM` succeeds iff every element does, and then collects the results. -/
theorem mapM_eq_ok {α β : Type} {l : List α} {f : α → Go β} {r : List β} :
    l.mapM f = .ok r ↔ List.Forall₂ (fun a b => f a = .ok b) l r := by
  induction l generalizing r with
  | nil =>
    simp only [List.mapM_nil, pure_eq_ok, Except.ok.injEq, List.forall₂_nil_left_iff, eq_comm]
  | cons a l ih =>
    rw [List.mapM_cons, bind_eq_ok]
    constructor
    · rintro ⟨b, h1, h2⟩
      rw [bind_eq_ok] at h2
      obtain ⟨bs, h3, h4⟩ := h2
      obtain rfl := Except.ok.inj h4
      exact .cons h1 (ih.1 h3)
    · intro h
      cases h with
      | cons h1 h2 => exact ⟨_, h1, bind_eq_ok.2 ⟨_, ih.2 h2, rfl⟩⟩

end Verif.Go
