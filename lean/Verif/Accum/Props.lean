import Verif.Accum.Lemmas
import Verif.Common.Toy
import Mathlib.Algebra.Algebra.Bilinear

/-!
# Properties of the accumulator and of membership witnesses (C63, C64, C65)
-/

set_option linter.unusedSectionVars false

namespace Verif.Accum

variable {F : Type} [Field F] [DecidableEq F]
variable {G1 G2 GT : Type} [AddCommGroup G1] [Module F G1] [DecidableEq G1]
  [AddCommGroup G2] [Module F G2] [DecidableEq G2] [AddCommGroup GT] [Module F GT] [DecidableEq GT]

/-! ## C63: histories of operations -/

/-- The operations of a manager on an accumulator; elements may be nil. -/
inductive Op (F : Type) where
  | add (y : Option F)
  | remove (y : Option F)
  | addElements (ys : List (Option F))
  | update (adds dels : List (Option F))

/-- run one operation with key `α` -/
def Op.step (α : F) (acc : Option G1) : Op F → Option G1 × Bool
  | .add y => let r := Accum.add acc (some α) y; (r.1, r.2.isOk)
  | .remove y => let r := Accum.remove acc (some α) y; (r.1, r.2.isOk)
  | .addElements ys => let r := Accum.addElements acc (some α) ys; (r.1, r.2.isOk)
  | .update a d => let r := Accum.update acc (some α) a d; (r.1, r.2.isOk)

/-- run a list of operations; returns the final accumulator and the operations that succeeded -/
def exec (α : F) : Option G1 → List (Op F) → Option G1 × List (Op F)
  | acc, [] => (acc, [])
  | acc, o :: os =>
    let r := o.step α acc
    let rest := exec α r.1 os
    (rest.1, if r.2 then o :: rest.2 else rest.2)

/-- specification: the elements an operation adds -/
def Op.added : Op F → List F
  | .add y => y.toList
  | .remove _ => []
  | .addElements ys => ys.filterMap id
  | .update a _ => a.filterMap id

/-- specification: the elements an operation removes -/
def Op.removed : Op F → List F
  | .add _ => []
  | .remove y => y.toList
  | .addElements _ => []
  | .update _ d => d.filterMap id

theorem filterMap_some (l : List F) : (l.map some).filterMap id = l := by
  rw [List.filterMap_map]; simp

theorem updateCore_eq_ok {v : G1} {α : F} {adds dels : List (Option F)} {v' : G1} {cs : List G1} :
    updateCore v (some α) adds dels = .ok (v', cs) ↔
      v ≠ 0 ∧ ∃ (a d ks : List F), adds = a.map some ∧ dels = d.map some ∧ (∀ y ∈ d, y + α ≠ 0) ∧
        createCoefficients (some α) (a.map some) (d.map some) = .ok ks ∧
        v' = (shifted α a * (shifted α d)⁻¹) • v ∧ cs = ks.map fun c => c • v := by
  unfold updateCore
  rw [Go.guard_bind_eq_ok]
  refine and_congr_right fun _ => ?_
  simp only [Go.ofOption, Go.ok_bind]
  constructor
  · intro h
    rw [Go.bind_eq_ok] at h
    obtain ⟨A, hA, h⟩ := h
    rw [Go.bind_eq_ok] at h
    obtain ⟨D, hD, h⟩ := h
    have ha : ∃ a : List F, adds = a.map some := by
      unfold batchAdditions at hA
      simp only [Go.ofOption, Go.ok_bind, Go.bind_eq_ok] at hA
      obtain ⟨a, ha, -⟩ := hA
      exact ⟨a, elems_eq_ok ha⟩
    have hd : ∃ d : List F, dels = d.map some := by
      unfold batchDeletions batchAdditions at hD
      simp only [Go.ofOption, Go.ok_bind, Go.bind_eq_ok] at hD
      obtain ⟨_, ⟨d, hd, -⟩, -⟩ := hD
      exact ⟨d, elems_eq_ok hd⟩
    obtain ⟨a, rfl⟩ := ha
    obtain ⟨d, rfl⟩ := hd
    rw [batchAdditions_some] at hA
    cases hA
    rw [batchDeletions_some, invert_eq_ok] at hD
    obtain ⟨hD, rfl⟩ := hD
    rw [Go.bind_eq_ok] at h
    obtain ⟨ks, hks, h⟩ := h
    cases h
    exact ⟨a, d, ks, rfl, rfl, shifted_ne_zero.1 hD, hks, rfl, rfl⟩
  · rintro ⟨a, d, ks, rfl, rfl, hd, hks, rfl, rfl⟩
    rw [batchAdditions_some, batchDeletions_some, invert_eq_ok.2 ⟨shifted_ne_zero.2 hd, rfl⟩, hks]
    rfl

/-- C63: exactly when `Update` succeeds, and its effect. -/
theorem C63_update_decision (α : F) (v : G1) (adds dels : List (Option F)) :
    (∃ r, (update (some v) (some α) adds dels).2 = .ok r) ↔
      v ≠ 0 ∧ none ∉ adds ∧ none ∉ dels ∧ ∀ y, some y ∈ dels → y + α ≠ 0 := by
  have key : (∃ r, (update (some v) (some α) adds dels).2 = .ok r) ↔
      ∃ r, updateCore v (some α) adds dels = .ok r := by
    unfold update
    cases h : updateCore v (some α) adds dels <;> simp [h]
  rw [key]
  have nn : ∀ l : List (Option F), none ∉ l → ∃ r : List F, l = r.map some := by
    intro l
    induction l with
    | nil => intro _; exact ⟨[], rfl⟩
    | cons x l ih =>
      intro h
      rw [List.mem_cons, not_or] at h
      obtain ⟨r, rfl⟩ := ih h.2
      cases x with
      | none => exact absurd rfl h.1
      | some x => exact ⟨x :: r, rfl⟩
  constructor
  · rintro ⟨⟨v', cs⟩, h⟩
    obtain ⟨hv, a, d, ks, rfl, rfl, hd, -⟩ := updateCore_eq_ok.1 h
    exact ⟨hv, by simp, by simp, fun y hy => hd y (by simpa using hy)⟩
  · rintro ⟨hv, ha, hd, hz⟩
    obtain ⟨a, rfl⟩ := nn _ ha
    obtain ⟨d, rfl⟩ := nn _ hd
    have hz' : ∀ y ∈ d, y + α ≠ 0 := fun y hy => hz y (List.mem_map.2 ⟨y, hy, rfl⟩)
    obtain ⟨ks, hks, -⟩ := createCoefficients_spec α a d hz'
    exact ⟨(_, _), updateCore_eq_ok.2 ⟨hv, a, d, ks, rfl, rfl, hz', hks, rfl, rfl⟩⟩

example : (update (some (2 : Toy.K)) (some (5 : Toy.K)) [some 1, some 3] [some 7]).2.isOk = true := by
  decide +kernel

/-- one step: a failed call changes nothing, a successful one multiplies by the elements' factors -/
theorem step_spec (α : F) (v : G1) (o : Op F) :
    o.step α (some v) = (some ((shifted α o.added * (shifted α o.removed)⁻¹) • v), true) ∨
      o.step α (some v) = (some v, false) := by
  cases o with
  | add y =>
    cases y with
    | none => right; rfl
    | some y =>
      simp only [Op.step, add]
      by_cases hv : v = 0
      · right; rw [if_pos hv]; rfl
      · left; rw [if_neg hv]
        simp [Except.isOk, Except.toBool, Op.added, Op.removed, shifted]
  | remove y =>
    cases y with
    | none => right; rfl
    | some y =>
      simp only [Op.step, remove]
      by_cases hv : v = 0
      · right; rw [if_pos hv]; rfl
      · rw [if_neg hv]
        by_cases h0 : y + α = 0
        · right
          have : invert (y + α) = Go.err := by simp [invert, Go.guard, h0, Go.err]
          rw [this]; rfl
        · left
          rw [invert_eq_ok.2 ⟨h0, rfl⟩]
          simp [Except.isOk, Except.toBool, Op.added, Op.removed, shifted]
  | addElements ys =>
    simp only [Op.step, addElements]
    cases h : batchAdditions (some α) ys with
    | error f => right; rfl
    | ok r =>
      left
      have h' := h
      unfold batchAdditions at h'
      simp only [Go.ofOption, Go.ok_bind, Go.bind_eq_ok] at h'
      obtain ⟨l, hl, -⟩ := h'
      have := elems_eq_ok hl
      subst this
      rw [batchAdditions_some] at h
      cases h
      simp only [Except.isOk, Except.toBool, Op.added, Op.removed, filterMap_some]
      simp [shifted]
  | update a d =>
    simp only [Op.step, update]
    cases h : updateCore v (some α) a d with
    | error f => right; rfl
    | ok r =>
      left
      obtain ⟨hv, a, d, ks, rfl, rfl, hd, hks, e1, e2⟩ := updateCore_eq_ok.1 (show _ = Except.ok (r.1, r.2) from h)
      simp only [Except.isOk, Except.toBool, Op.added, Op.removed, filterMap_some]
      rw [e1]

theorem shifted_append (α : F) (a b : List F) : shifted α (a ++ b) = shifted α a * shifted α b := by
  simp [shifted]

theorem shifted_perm {α : F} {a b : List F} (h : a.Perm b) : shifted α a = shifted α b :=
  (h.map _).prod_eq

/-- C63: after any history of operations, failing ones included, the accumulator is the starting value
times `∏ (y + α)` over all elements the successful operations added, divided by the same product over
the elements they removed. -/
theorem C63_history (α : F) (v : G1) (ops : List (Op F)) :
    (exec α (some v) ops).1 = some
      ((shifted α ((exec α (some v) ops).2.flatMap Op.added) *
        (shifted α ((exec α (some v) ops).2.flatMap Op.removed))⁻¹) • v) := by
  induction ops generalizing v with
  | nil => simp [exec, shifted]
  | cons o os ih =>
    rw [exec]
    have h1 := step_spec α v o
    simp only
    rcases h1 with h1 | h1
    · rw [h1, ih]
      simp only [if_true]
      rw [List.flatMap_cons, List.flatMap_cons, shifted_append, shifted_append,
        smul_smul, mul_inv]
      congr 2
      ring
    · rw [h1, ih]
      simp

example : (exec (5 : Toy.K) (some (2 : Toy.K))
    [.add (some 1), .remove none, .remove (some 252), .update [some 3] [some 1]]).1 =
      some (2 * 8) := by decide +kernel

/-- C63: the final value does not depend on the order: two histories whose successful operations added
and removed the same elements, in whatever order and grouping, end in the same accumulator. -/
theorem C63_order_independent (α : F) (v : G1) (ops ops' : List (Op F))
    (ha : ((exec α (some v) ops).2.flatMap Op.added).Perm
      ((exec α (some v) ops').2.flatMap Op.added))
    (hr : ((exec α (some v) ops).2.flatMap Op.removed).Perm
      ((exec α (some v) ops').2.flatMap Op.removed)) :
    (exec α (some v) ops).1 = (exec α (some v) ops').1 := by
  rw [C63_history, C63_history, shifted_perm ha, shifted_perm hr]

example : (exec (5 : Toy.K) (some (2 : Toy.K)) [.add (some 1), .add (some 3)]).1 =
    (exec (5 : Toy.K) (some (2 : Toy.K)) [.addElements [some 3, some 1]]).1 := by decide +kernel

/-- the elements named by an operation are not nil -/
def Op.total : Op F → Prop
  | .add y => y ≠ none
  | .remove y => y ≠ none
  | .addElements ys => none ∉ ys
  | .update a d => none ∉ a ∧ none ∉ d

theorem exists_some {l : List (Option F)} (h : none ∉ l) : ∃ r : List F, l = r.map some := by
  induction l with
  | nil => exact ⟨[], rfl⟩
  | cons x l ih =>
    rw [List.mem_cons, not_or] at h
    obtain ⟨r, rfl⟩ := ih h.2
    cases x with
    | none => exact absurd rfl h.1
    | some x => exact ⟨x :: r, rfl⟩

/-- C63: a history none of whose elements is nil or the negated key, on an accumulator that is not the
identity, never fails. -/
theorem C63_all_succeed (α : F) (v : G1) (hv : v ≠ 0) (ops : List (Op F))
    (ht : ∀ o ∈ ops, o.total) (hk : ∀ o ∈ ops, ∀ y ∈ o.added ++ o.removed, y + α ≠ 0) :
    (exec α (some v) ops).2 = ops := by
  induction ops generalizing v with
  | nil => rfl
  | cons o os ih =>
    have hs : (o.step α (some v)).2 = true := by
      have t := ht o (by simp)
      have k := hk o (by simp)
      cases o with
      | add y =>
        obtain ⟨y, rfl⟩ := Option.ne_none_iff_exists'.1 t
        simp [Op.step, add, hv, Except.isOk, Except.toBool]
      | remove y =>
        obtain ⟨y, rfl⟩ := Option.ne_none_iff_exists'.1 t
        simp only [Op.step, remove]
        rw [if_neg hv, invert_eq_ok.2 ⟨k y (by simp [Op.removed]), rfl⟩]
        rfl
      | addElements ys =>
        obtain ⟨r, rfl⟩ := exists_some t
        simp [Op.step, addElements, batchAdditions_some, Except.isOk, Except.toBool]
      | update a d =>
        have := (C63_update_decision α v a d).2 ⟨hv, t.1, t.2, fun y hy =>
          k y (by simp [Op.added, Op.removed, hy])⟩
        obtain ⟨r, hr⟩ := this
        simp [Op.step, hr, Except.isOk, Except.toBool]
    have h1 : o.step α (some v) =
        (some ((shifted α o.added * (shifted α o.removed)⁻¹) • v), true) := by
      rcases step_spec α v o with h1 | h1
      · exact h1
      · rw [h1] at hs; cases hs
    rw [exec]
    simp only
    rw [h1]
    simp only [if_true]
    refine congrArg (o :: ·) (ih _ ?_ (fun o ho => ht o (by simp [ho])) (fun o ho => hk o (by simp [ho])))
    refine smul_ne_zero (mul_ne_zero ?_ (inv_ne_zero ?_)) hv
    · exact shifted_ne_zero.2 fun y hy => hk o (by simp) y (by simp [hy])
    · exact shifted_ne_zero.2 fun y hy => hk o (by simp) y (by simp [hy])

example : ((5 : Toy.K) ≠ 0) ∧ (1 : Toy.K) + 5 ≠ 0 := by decide

/-- C63: adding elements and later removing the same ones restores the accumulator, whatever their
number and order. -/
theorem C63_add_remove (α : F) (v : G1) (hv : v ≠ 0) (ys zs : List F) (hp : ys.Perm zs)
    (hk : ∀ y ∈ ys, y + α ≠ 0) :
    (exec α (some v) ((ys.map fun y => Op.add (some y)) ++
      zs.map fun y => Op.remove (some y))).1 = some v := by
  have hall := C63_all_succeed α v hv ((ys.map fun y => Op.add (some y)) ++
      zs.map fun y => Op.remove (some y)) (by
        intro o ho
        rw [List.mem_append, List.mem_map, List.mem_map] at ho
        rcases ho with ⟨y, -, rfl⟩ | ⟨y, -, rfl⟩ <;> simp [Op.total]) (by
        intro o ho
        rw [List.mem_append, List.mem_map, List.mem_map] at ho
        rcases ho with ⟨y, hy, rfl⟩ | ⟨y, hy, rfl⟩
        · simpa [Op.added, Op.removed] using hk y hy
        · simpa [Op.added, Op.removed] using hk y (hp.mem_iff.2 hy))
  rw [C63_history, hall]
  have e1 : ((ys.map fun y => Op.add (some y)) ++ zs.map fun y => Op.remove (some y)).flatMap
      Op.added = ys := by
    rw [List.flatMap_append, List.flatMap_map, List.flatMap_map]
    simp [Op.added]
  have e2 : ((ys.map fun y => Op.add (some y)) ++ zs.map fun y => Op.remove (some y)).flatMap
      Op.removed = zs := by
    rw [List.flatMap_append, List.flatMap_map, List.flatMap_map]
    simp [Op.removed]
  rw [e1, e2, ← shifted_perm hp, mul_inv_cancel₀ (shifted_ne_zero.2 hk), one_smul]

example : (exec (5 : Toy.K) (some (2 : Toy.K)) [.add (some 1), .add (some 3), .remove (some 1),
    .remove (some 3)]).1 = some 2 := by decide +kernel

/-- C63: adding the negated key, alone or inside a batch, turns the accumulator into the identity for
good: no later history changes it. -/
theorem C63_absorbing (α : F) (v : G1) (ys : List (Option F)) (hn : none ∉ ys)
    (hm : some (-α) ∈ ys) (ops : List (Op F)) :
    (exec α (some v) (Op.addElements ys :: ops)).1 = some 0 := by
  obtain ⟨r, rfl⟩ := exists_some hn
  have h0 : shifted α r = 0 := by
    by_contra hne
    exact shifted_ne_zero.1 hne (-α) (by simpa using hm) (neg_add_cancel α)
  have hs : (Op.addElements (r.map some)).step α (some v) = (some 0, true) := by
    simp [Op.step, addElements, batchAdditions_some, h0, Except.isOk, Except.toBool]
  rw [exec, hs]
  simp only
  rw [C63_history, smul_zero]

example : (exec (5 : Toy.K) (some (2 : Toy.K)) [.addElements [some 252], .add (some 3)]).1 =
    some 0 := by decide +kernel

/-- C63: `WithElements` gives the generator times `∏ (y + α)` in any order, and agrees with adding one by
one to a new accumulator. -/
theorem C63_with_elements (α : F) (g1 : G1) (ys : List F) :
    withElements g1 (some α) (ys.map some) = (some (shifted α ys • g1), .ok ()) ∧
      (g1 ≠ 0 → (∀ y ∈ ys, y + α ≠ 0) →
        (exec α (new g1) (ys.map fun y => Op.add (some y))).1 = some (shifted α ys • g1)) := by
  refine ⟨by simp [withElements, batchAdditions_some], fun hg hk => ?_⟩
  have hall := C63_all_succeed α g1 hg (ys.map fun y => Op.add (some y)) (by
    intro o ho
    obtain ⟨y, -, rfl⟩ := List.mem_map.1 ho
    simp [Op.total]) (by
    intro o ho
    obtain ⟨y, hy, rfl⟩ := List.mem_map.1 ho
    simpa [Op.added, Op.removed] using hk y hy)
  unfold new
  rw [C63_history, hall]
  have e1 : (ys.map fun y => Op.add (some y)).flatMap Op.added = ys := by
    rw [List.flatMap_map]; simp [Op.added]
  have e2 : (ys.map fun y => Op.add (some y)).flatMap Op.removed = [] := by
    rw [List.flatMap_map]; simp [Op.removed]
  rw [e1, e2]
  simp [shifted]

example : withElements (3 : Toy.K) (some (5 : Toy.K)) [some 1, some 2] = (some (6 * 7 * 3), .ok ()) := by
  decide +kernel

/-! ## C64: witnesses -/

/-- C64: `Verify` accepts exactly when nothing is nil or zero and `(y + α)·C` is the accumulator. -/
theorem C64_verify_iff (g2 : G2) (e : G1 →ₗ[F] G2 →ₗ[F] GT) (hnd : ∀ P, e P g2 = 0 → P = 0)
    (α : F) (mw : Witness F G1) (acc : Option G1) :
    mw.verify g2 e (some (publicKey g2 α)) acc = .ok () ↔
      ∃ c y v, mw = ⟨some c, some y⟩ ∧ acc = some v ∧ c ≠ 0 ∧ y ≠ 0 ∧ α • g2 ≠ 0 ∧ v ≠ 0 ∧
        (y + α) • c = v := by
  rcases mw with ⟨_ | c, _ | y⟩ <;> rcases acc with _ | v <;>
    try (simp [Witness.verify, Go.err]; done)
  simp only [Witness.verify, Go.guard_bind_eq_ok, Go.guard_eq_ok]
  unfold publicKey
  have hpair : e c (y • g2 + α • g2) + e (-v) g2 = 0 ↔ (y + α) • c = v := by
    have : e c (y • g2 + α • g2) + e (-v) g2 = e ((y + α) • c - v) g2 := by
      simp only [map_add, map_smul, map_neg, map_sub, LinearMap.smul_apply, LinearMap.sub_apply,
        LinearMap.neg_apply]
      module
    rw [this, ← sub_eq_zero (a := (y + α) • c)]
    exact ⟨hnd _, fun h => by rw [h]; simp⟩
  rw [hpair]
  constructor
  · rintro ⟨h1, h2, h3, h4, h5⟩
    exact ⟨c, y, v, rfl, rfl, h1, h2, h3, h4, h5⟩
  · rintro ⟨c', y', v', h, h', h1, h2, h3, h4, h5⟩
    cases h
    cases h'
    exact ⟨h1, h2, h3, h4, h5⟩

example : (⟨some 3, some 1⟩ : Witness Toy.K Toy.K).verify (1 : Toy.K) (LinearMap.mul Toy.K Toy.K)
    (some (publicKey 1 (5 : Toy.K))) (some 18) = .ok () := by decide +kernel

/-- C64: exactly when a witness is issued, and which one. -/
theorem C64_new_decision (y : Option F) (acc : Option G1) (sk : Option F) (w : Witness F G1) :
    newWitness y acc sk = .ok w ↔
      ∃ e v α, y = some e ∧ acc = some v ∧ sk = some α ∧ v ≠ 0 ∧ α ≠ 0 ∧ e ≠ 0 ∧ e + α ≠ 0 ∧
        w = ⟨some ((e + α)⁻¹ • v), some e⟩ := by
  rcases y with _ | e <;> rcases acc with _ | v <;> rcases sk with _ | k <;>
    try (simp [newWitness, Go.err]; done)
  simp only [newWitness, Go.guard_bind_eq_ok]
  constructor
  · rintro ⟨hv, hk, he, h⟩
    simp only [remove, if_neg hv] at h
    by_cases h0 : e + k = 0
    · have : invert (e + k) = Go.err := by simp [invert, Go.guard, h0, Go.err]
      rw [this] at h
      cases h
    · rw [invert_eq_ok.2 ⟨h0, rfl⟩] at h
      cases h
      exact ⟨e, v, k, rfl, rfl, rfl, hv, hk, he, h0, rfl⟩
  · rintro ⟨_, _, _, h1, h2, h3, hv, hk, he, h0, rfl⟩
    cases h1; cases h2; cases h3
    refine ⟨hv, hk, he, ?_⟩
    simp only [remove, if_neg hv]
    rw [invert_eq_ok.2 ⟨h0, rfl⟩]

example : newWitness (some (1 : Toy.K)) (some (18 : Toy.K)) (some 5) = .ok ⟨some 3, some 1⟩ := by
  decide +kernel

/-- C64: every issued witness verifies.  The hypotheses say nothing about membership: the manager can
issue an accepted witness for any element, accumulated or not. -/
theorem C64_new_verifies (g2 : G2) (hg2 : g2 ≠ 0) (e : G1 →ₗ[F] G2 →ₗ[F] GT)
    (hnd : ∀ P, e P g2 = 0 → P = 0) (α : F) (y : Option F) (acc : Option G1) (w : Witness F G1)
    (h : newWitness y acc (some α) = .ok w) :
    w.verify g2 e (some (publicKey g2 α)) acc = .ok () := by
  obtain ⟨x, v, k, rfl, rfl, hk, hv, hk0, hx, h0, rfl⟩ := (C64_new_decision _ _ _ _).1 h
  cases hk
  rw [C64_verify_iff g2 e hnd]
  refine ⟨_, x, v, rfl, rfl, smul_ne_zero (inv_ne_zero h0) hv, hx, smul_ne_zero hk0 hg2, hv, ?_⟩
  rw [smul_smul, mul_inv_cancel₀ h0, one_smul]

example : (1 : Toy.K) ≠ 0 ∧ newWitness (some (9 : Toy.K)) (some (18 : Toy.K)) (some 5) =
    .ok ⟨some (18 / 14), some 9⟩ := by decide +kernel

/-- C64: for a given accumulator and element there is at most one accepted witness. -/
theorem C64_unique (g2 : G2) (e : G1 →ₗ[F] G2 →ₗ[F] GT) (hnd : ∀ P, e P g2 = 0 → P = 0)
    (α : F) (c c' : G1) (y : F) (acc : Option G1)
    (h : (⟨some c, some y⟩ : Witness F G1).verify g2 e (some (publicKey g2 α)) acc = .ok ())
    (h' : (⟨some c', some y⟩ : Witness F G1).verify g2 e (some (publicKey g2 α)) acc = .ok ()) :
    c = c' := by
  obtain ⟨_, _, v, hw, hv, -, -, -, hv0, he⟩ := (C64_verify_iff g2 e hnd _ _ _).1 h
  cases hw
  obtain ⟨_, _, v', hw', hv', -, -, -, -, he'⟩ := (C64_verify_iff g2 e hnd _ _ _).1 h'
  cases hw'
  cases hv.symm.trans hv'
  have h0 : y + α ≠ 0 := by
    intro h0; rw [h0, zero_smul] at he; exact hv0 he.symm
  exact (smul_right_injective G1 h0) (he.trans he'.symm)

example : (⟨some 3, some 1⟩ : Witness Toy.K Toy.K).verify (1 : Toy.K) (LinearMap.mul Toy.K Toy.K)
    (some (publicKey 1 (5 : Toy.K))) (some 18) = .ok () := by decide +kernel

/-- C64: after the element is removed, its old witness is refused (unless `y + α = 1`, when the removal
changes nothing). -/
theorem C64_removed_refused (g2 : G2) (e : G1 →ₗ[F] G2 →ₗ[F] GT) (hnd : ∀ P, e P g2 = 0 → P = 0)
    (α : F) (c v : G1) (y : F) (v' : G1)
    (h : (⟨some c, some y⟩ : Witness F G1).verify g2 e (some (publicKey g2 α)) (some v) = .ok ())
    (hr : remove (some v) (some α) (some y) = (some v', .ok ())) :
    (⟨some c, some y⟩ : Witness F G1).verify g2 e (some (publicKey g2 α)) (some v') = .ok () ↔
      y + α = 1 := by
  obtain ⟨_, _, _, hw, hv, hc, hy, hp, hv0, he⟩ := (C64_verify_iff g2 e hnd _ _ _).1 h
  cases hw; cases hv
  simp only [remove, if_neg hv0] at hr
  have h0 : y + α ≠ 0 := by
    intro h0; rw [h0, zero_smul] at he; exact hv0 he.symm
  rw [invert_eq_ok.2 ⟨h0, rfl⟩] at hr
  simp only [Prod.mk.injEq, Option.some.injEq, and_true] at hr
  have hv' : v' = c := by
    rw [← hr, ← he, smul_smul, inv_mul_cancel₀ h0, one_smul]
  subst hv'
  rw [C64_verify_iff g2 e hnd]
  constructor
  · rintro ⟨_, _, _, hw, hv, -, -, -, -, h1⟩
    cases hw; cases hv
    have : (y + α - 1) • v' = 0 := by rw [sub_smul, h1, one_smul, sub_self]
    rcases smul_eq_zero.1 this with h | h
    · exact sub_eq_zero.1 h
    · exact absurd h hc
  · intro h1
    exact ⟨_, _, _, rfl, rfl, hc, hy, hp, hc, by rw [h1, one_smul]⟩

example : remove (some (18 : Toy.K)) (some (5 : Toy.K)) (some 1) = (some 3, .ok ()) := by decide +kernel

/-! ## C65: updating witnesses -/

theorem batch_core {α : F} {v v' : G1} {adds dels : List (Option F)} {cs : List G1}
    (hup : update (some v) (some α) adds dels = (some v', .ok cs)) :
    v ≠ 0 ∧ ∃ a d : List F, adds = a.map some ∧ dels = d.map some ∧ (∀ y ∈ d, y + α ≠ 0) ∧
      v' = (shifted α a * (shifted α d)⁻¹) • v ∧ cs.length = max a.length d.length ∧
      ∀ x, (x + α) • evalL cs x =
        (shifted α a * (dvals x d * (shifted α d)⁻¹)) • v - dvals x a • v := by
  unfold update at hup
  simp only at hup
  cases h : updateCore v (some α) adds dels with
  | error f => rw [h] at hup; cases hup
  | ok r =>
    rw [h] at hup
    simp only [Prod.mk.injEq, Option.some.injEq, Except.ok.injEq] at hup
    obtain ⟨r1, r2⟩ := hup
    obtain ⟨hv, a, d, ks, rfl, rfl, hd, hks, e1, e2⟩ :=
      updateCore_eq_ok.1 (show _ = Except.ok (r.1, r.2) from h)
    obtain ⟨ks', hks', hlen, hev⟩ := createCoefficients_spec α a d hd
    cases hks.symm.trans hks'
    refine ⟨hv, a, d, rfl, rfl, hd, by rw [← r1, e1], by rw [← r2, e2, List.length_map, hlen],
      fun x => ?_⟩
    rw [← r2, e2, evalL_smul_point, smul_smul, hev, sub_smul]

theorem batchUpdate_eq {y : F} {c : G1} {a d : List F} {cs : List G1} (hne : cs ≠ [])
    (hd : y ∉ d) :
    (⟨some c, some y⟩ : Witness F G1).batchUpdate (some (a.map some)) (some (d.map some))
      (cs.map some) =
      .ok ⟨some ((dvals y a * (dvals y d)⁻¹) • c + (dvals y d)⁻¹ • evalL cs y), some y⟩ := by
  unfold Witness.batchUpdate evaluateDelta
  simp only
  rw [dad_some, dad_some]
  simp only [Go.ok_bind, Go.ofOption]
  rw [evaluate_some hne, invert_eq_ok.2 ⟨dvals_ne_zero.2 hd, rfl⟩]
  rfl

/-- C65: after any `Update` of the accumulator that is not empty, `BatchUpdate` with the published
coefficients keeps the witness of every element that was not deleted valid. -/
theorem C65_batch_update (α : F) (v v' c : G1) (y : F) (adds dels : List (Option F)) (cs : List G1)
    (hup : update (some v) (some α) adds dels = (some v', .ok cs)) (hne : adds ≠ [] ∨ dels ≠ [])
    (hw : (y + α) • c = v) (hy : some y ∉ dels) :
    ∃ c', (⟨some c, some y⟩ : Witness F G1).batchUpdate (some adds) (some dels) (cs.map some) =
      .ok ⟨some c', some y⟩ ∧ (y + α) • c' = v' := by
  obtain ⟨hv, a, d, rfl, rfl, hd, rfl, hlen, hev⟩ := batch_core hup
  have hne' : cs ≠ [] := by
    rw [← List.length_pos_iff, hlen]
    rcases hne with h | h
    · have : 0 < a.length := List.length_pos_iff.2 (by simpa using h)
      omega
    · have : 0 < d.length := List.length_pos_iff.2 (by simpa using h)
      omega
  have hy' : y ∉ d := fun hm => hy (List.mem_map.2 ⟨y, hm, rfl⟩)
  refine ⟨_, batchUpdate_eq hne' hy', ?_⟩
  have hD := dvals_ne_zero.2 hy'
  rw [smul_add, smul_comm (y + α) (dvals y d)⁻¹, hev y, smul_comm (y + α), hw]
  have : dvals y a • v = (dvals y d * (dvals y a * (dvals y d)⁻¹)) • v := by
    congr 1; field_simp
  rw [smul_sub, smul_smul, smul_smul, mul_comm (dvals y d)⁻¹ (dvals y a)]
  have e2 : (dvals y d)⁻¹ * (shifted α a * (dvals y d * (shifted α d)⁻¹)) =
      shifted α a * (shifted α d)⁻¹ := by
    field_simp
  rw [e2]
  abel

example : (update (some (18 : Toy.K)) (some (5 : Toy.K)) [some 2, some 4] [some 3]).2.isOk = true ∧
    ((1 : Toy.K) + 5) • (3 : Toy.K) = 18 := by decide +kernel

/-- C65 in terms of `Verify`: a witness accepted before the update is accepted after `BatchUpdate`. -/
theorem C65_batch_verifies (g2 : G2) (e : G1 →ₗ[F] G2 →ₗ[F] GT) (hnd : ∀ P, e P g2 = 0 → P = 0)
    (α : F) (v v' : G1) (w : Witness F G1) (adds dels : List (Option F)) (cs : List G1)
    (hup : update (some v) (some α) adds dels = (some v', .ok cs)) (hne : adds ≠ [] ∨ dels ≠ [])
    (hw : w.verify g2 e (some (publicKey g2 α)) (some v) = .ok ())
    (hy : w.y ∉ dels) (hv' : v' ≠ 0) :
    ∃ w', w.batchUpdate (some adds) (some dels) (cs.map some) = .ok w' ∧ w'.y = w.y ∧
      w'.verify g2 e (some (publicKey g2 α)) (some v') = .ok () := by
  obtain ⟨c, y, _, rfl, hv, hc, hy0, hp, hv0, he⟩ := (C64_verify_iff g2 e hnd _ _ _).1 hw
  cases hv
  obtain ⟨c', hb, hc'⟩ := C65_batch_update α v v' c y adds dels cs hup hne he hy
  refine ⟨_, hb, rfl, (C64_verify_iff g2 e hnd _ _ _).2 ⟨c', y, v', rfl, rfl, ?_, hy0, hp, hv', hc'⟩⟩
  rintro rfl
  rw [smul_zero] at hc'
  exact hv' hc'.symm

example : (⟨some 3, some 1⟩ : Witness Toy.K Toy.K).verify (1 : Toy.K) (LinearMap.mul Toy.K Toy.K)
    (some (publicKey 1 (5 : Toy.K))) (some 18) = .ok () := by decide +kernel

/-- Published updates leading from one accumulator value to another. -/
def Chain (α : F) : G1 → List (List (Option F) × List (Option F) × List G1) → G1 → Prop
  | v, [], v' => v = v'
  | v, b :: bs, v' => ∃ v1, update (some v) (some α) b.1 b.2.1 = (some v1, .ok b.2.2) ∧
      Chain α v1 bs v'

/-- the coefficient sum of `evaluateDeltas`, recursively -/
def dsum (y : F) : List (F × F) → List (List G1) → G1
  | t :: ts, cs :: css => (ts.map Prod.fst).prod • evalL cs y + t.2 • dsum y ts css
  | _, _ => 0

theorem dsum_zipIdx (y : F) : ∀ (suf pre : List (F × F)) (C : List (List G1)),
    suf.length = C.length →
    ((C.zipIdx pre.length).map fun ci => ((((pre ++ suf).drop (ci.2 + 1)).map Prod.fst).prod *
      (((pre ++ suf).take ci.2).map Prod.snd).prod) • evalL ci.1 y).sum =
      (pre.map Prod.snd).prod • dsum y suf C
  | [], pre, [], _ => by simp [dsum]
  | [], pre, c :: C, h => by simp at h
  | t :: suf, pre, [], h => by simp at h
  | t :: suf, pre, c :: C, h => by
    have ih := dsum_zipIdx y suf (pre ++ [t]) C (by simpa using h)
    rw [List.zipIdx_cons, List.map_cons, List.sum_cons]
    simp only [List.length_append, List.length_cons, List.length_nil, Nat.zero_add,
      List.append_assoc, List.singleton_append, List.map_append, List.map_cons, List.map_nil,
      List.prod_append, List.prod_cons, List.prod_nil, mul_one] at ih
    rw [ih]
    have e1 : (pre ++ t :: suf).drop (pre.length + 1) = suf := by
      rw [List.drop_append]; simp
    have e2 : (pre ++ t :: suf).take pre.length = pre := by
      rw [List.take_append]; simp
    rw [e1, e2, dsum]
    module

theorem foldl_pointAdd (y : F) {β : Type} (T : β → List G1) (l : List β) (p : List G1) :
    evalL (l.foldl (fun p b => pointAdd p (T b)) p) y =
      evalL p y + (l.map fun b => evalL (T b) y).sum := by
  induction l generalizing p with
  | nil => simp
  | cons b l ih => rw [List.foldl_cons, ih, evalL_pointAdd, List.map_cons, List.sum_cons, add_assoc]

theorem foldl_pointAdd_ne {β : Type} (T : β → List G1) (l : List β) (p : List G1)
    (h : p ≠ [] ∨ ∃ b ∈ l, T b ≠ []) : l.foldl (fun p b => pointAdd p (T b)) p ≠ [] := by
  induction l generalizing p with
  | nil =>
    rcases h with h | ⟨b, hb, _⟩
    · exact h
    · simp at hb
  | cons b l ih =>
    rw [List.foldl_cons]
    apply ih
    have hl := pointAdd_length p (T b)
    rcases h with h | ⟨b', hb', h⟩
    · left
      have := List.length_pos_iff.2 h
      exact List.length_pos_iff.1 (by omega)
    · rcases List.mem_cons.1 hb' with rfl | hb'
      · left
        have := List.length_pos_iff.2 h
        exact List.length_pos_iff.1 (by omega)
      · exact Or.inr ⟨b', hb', h⟩

theorem foldl_mul_fst (l : List (F × F)) (a : F) :
    l.foldl (fun a t => a * t.1) a = a * (l.map Prod.fst).prod := by
  induction l generalizing a with
  | nil => simp
  | cons t l ih => rw [List.foldl_cons, ih, List.map_cons, List.prod_cons, mul_assoc]

theorem foldl_mul_snd (l : List (F × F)) (a : F) :
    l.foldl (fun a t => a * t.2) a = a * (l.map Prod.snd).prod := by
  induction l generalizing a with
  | nil => simp
  | cons t l ih => rw [List.foldl_cons, ih, List.map_cons, List.prod_cons, mul_assoc]

theorem dads_some (y : F) : ∀ bs : List (List F × List F),
    (((bs.map fun b => some (b.1.map some)).zip (bs.map fun b => some (b.2.map some))).mapM
      fun ad : Option (List (Option F)) × Option (List (Option F)) => (do
        let ta ← dad ad.1 (some y)
        let td ← dad ad.2 (some y)
        .ok (ta, td) : Go (F × F))) = .ok (bs.map fun b => (dvals y b.1, dvals y b.2))
  | [] => rfl
  | b :: bs => by
    rw [List.map_cons, List.map_cons, List.zip_cons_cons, List.mapM_cons, dads_some y bs]
    simp only [dad_some, Go.ok_bind]
    rfl

/-- the delta computed from any lists without nil entries -/
theorem evaluateDeltas_eq (y : F) (bs : List (List F × List F)) (css : List (List G1))
    (hlen : bs.length = css.length) (hd : ∀ b ∈ bs, y ∉ b.2) (hne : ∃ cs ∈ css, cs ≠ []) :
    evaluateDeltas (some y) (bs.map fun b => some (b.1.map some))
      (bs.map fun b => some (b.2.map some)) (css.map fun cs => cs.map some) =
      .ok ⟨(bs.map fun b => dvals y b.1).prod * ((bs.map fun b => dvals y b.2).prod)⁻¹,
        ((bs.map fun b => dvals y b.2).prod)⁻¹ •
          dsum y (bs.map fun b => (dvals y b.1, dvals y b.2)) css⟩ := by
  unfold evaluateDeltas
  have g : Go.guard (¬ ((bs.map fun b => some (b.1.map some)).length ≠
      (bs.map fun b => some (b.2.map some)).length ∨
      (bs.map fun b => some (b.1.map some)).length ≠
        (css.map fun cs => cs.map (some : G1 → Option G1)).length)) = .ok () :=
    Go.guard_true (by simp [hlen])
  rw [g]
  simp only [Go.ok_bind]
  rw [dads_some y bs]
  simp only [Go.ok_bind, foldl_mul_fst, foldl_mul_snd, one_mul, List.map_map, Function.comp_def]
  have hD : (bs.map fun b => dvals y b.2).prod ≠ 0 := by
    rw [Ne, List.prod_eq_zero_iff, List.mem_map]
    rintro ⟨b, hb, h0⟩
    exact dvals_ne_zero.2 (hd b hb) h0
  rw [invert_eq_ok.2 ⟨hD, rfl⟩, Go.ok_bind]
  have hz : (css.map fun cs => cs.map (some : G1 → Option G1)).zipIdx =
      css.zipIdx.map fun ci => (ci.1.map some, ci.2) := by
    rw [List.zipIdx_map]; rfl
  rw [hz, List.foldlM_map]
  rw [foldlM_ok (g := fun p ci => pointAdd p (ci.1.map fun v =>
    ((((bs.map fun b => (dvals y b.1, dvals y b.2)).drop (ci.2 + 1)).map Prod.fst).prod *
      (((bs.map fun b => (dvals y b.1, dvals y b.2)).take ci.2).map Prod.snd).prod) • v)), Go.ok_bind]
  swap
  · intro ci _ p
    unfold pointScale
    rw [mapM_some]
    rfl
  rw [evaluate_some, Go.ok_bind, foldl_pointAdd]
  · simp only [evalL_smul, evalL_nil, zero_add]
    have := dsum_zipIdx y (bs.map fun b => (dvals y b.1, dvals y b.2)) [] css (by simpa using hlen)
    simp only [List.nil_append, List.map_nil, List.prod_nil, one_smul, List.length_nil] at this
    rw [this]
  · apply foldl_pointAdd_ne
    right
    obtain ⟨cs, hcs, hne⟩ := hne
    obtain ⟨i, hi, rfl⟩ := List.getElem_of_mem hcs
    refine ⟨(css[i], i), ?_, ?_⟩
    · rw [List.mk_mem_zipIdx_iff_getElem?]; simp [hi]
    · intro h0; exact hne (by simpa using h0)

theorem chain_sum (α y : F) : ∀ (bs : List (List (Option F) × List (Option F) × List G1)) (v v' c : G1),
    Chain α v bs v' → (y + α) • c = v → (∀ b ∈ bs, some y ∉ b.2.1) →
    ∃ ls : List (List F × List F), bs.map (fun b => (b.1, b.2.1)) =
        ls.map (fun l => (l.1.map some, l.2.map some)) ∧ (∀ l ∈ ls, y ∉ l.2) ∧
      (∀ b ∈ bs, (b.1 ≠ [] ∨ b.2.1 ≠ []) → b.2.2 ≠ []) ∧
      (y + α) • ((ls.map fun l => dvals y l.1).prod • c +
        dsum y (ls.map fun l => (dvals y l.1, dvals y l.2)) (bs.map fun b => b.2.2)) =
        (ls.map fun l => dvals y l.2).prod • v'
  | [], v, v', c, hch, hw, _ => by
    refine ⟨[], rfl, by simp, by simp, ?_⟩
    cases hch
    simpa [dsum] using hw
  | b :: bs, v, v', c, hch, hw, hy => by
    obtain ⟨v1, hup, hch⟩ := hch
    obtain ⟨hv, a, d, ha, hd, hda, hv1, hlen, hev⟩ := batch_core hup
    have hyd : y ∉ d := fun hm => hy b (by simp) (by rw [hd]; exact List.mem_map.2 ⟨y, hm, rfl⟩)
    have hD := dvals_ne_zero.2 hyd
    have key : (y + α) • (dvals y a • c + evalL b.2.2 y) = dvals y d • v1 := by
      rw [smul_add, hev, smul_comm (y + α), hw, hv1]
      module
    have hw1 : (y + α) • ((dvals y d)⁻¹ • (dvals y a • c + evalL b.2.2 y)) = v1 := by
      rw [smul_comm, key, smul_smul, inv_mul_cancel₀ hD, one_smul]
    obtain ⟨ls, h1, h2, h3, h4⟩ := chain_sum α y bs v1 v' _ hch hw1
      (fun b hb => hy b (by simp [hb]))
    refine ⟨(a, d) :: ls, by simp [h1, ha, hd], ?_, ?_, ?_⟩
    · intro l hl
      rcases List.mem_cons.1 hl with rfl | hl
      · exact hyd
      · exact h2 l hl
    · intro b' hb' hne
      rcases List.mem_cons.1 hb' with rfl | hb'
      · rw [ha, hd] at hne
        rw [← List.length_pos_iff, hlen]
        rcases hne with h | h
        · have : 0 < a.length := List.length_pos_iff.2 (by simpa using h)
          omega
        · have : 0 < d.length := List.length_pos_iff.2 (by simpa using h)
          omega
      · exact h3 b' hb' hne
    · simp only [List.map_cons, List.prod_cons, dsum, List.map_map, Function.comp_def]
      rw [mul_smul (dvals y d) (List.prod _) v', ← h4, smul_comm (dvals y d) (y + α)]
      congr 1
      rw [smul_add (dvals y d), smul_comm (dvals y d) (List.prod _), smul_smul (dvals y d),
        mul_inv_cancel₀ hD, one_smul]
      module

/-- C65: along any sequence of published updates, of which at least one is not empty, a single
`MultiBatchUpdate` turns a witness valid for the first accumulator into one valid for the last, for
every element deleted in none of them. -/
theorem C65_multi_batch_update (α : F) (v v' c : G1) (y : F)
    (bs : List (List (Option F) × List (Option F) × List G1)) (hch : Chain α v bs v')
    (hw : (y + α) • c = v) (hy : ∀ b ∈ bs, some y ∉ b.2.1)
    (hne : ∃ b ∈ bs, b.1 ≠ [] ∨ b.2.1 ≠ []) :
    ∃ c', (⟨some c, some y⟩ : Witness F G1).multiBatchUpdate (bs.map fun b => some b.1)
        (bs.map fun b => some b.2.1) (bs.map fun b => b.2.2.map some) = .ok ⟨some c', some y⟩ ∧
      (y + α) • c' = v' := by
  obtain ⟨ls, h1, h2, h3, h4⟩ := chain_sum α y bs v v' c hch hw hy
  have hlen : ls.length = bs.length := by simpa using (congrArg List.length h1).symm
  have hA : (bs.map fun b => some b.1) = ls.map fun l => some (l.1.map some) := by
    have := congrArg (List.map fun p : List (Option F) × List (Option F) => some p.1) h1
    simpa [Function.comp_def] using this
  have hB : (bs.map fun b => some b.2.1) = ls.map fun l => some (l.2.map some) := by
    have := congrArg (List.map fun p : List (Option F) × List (Option F) => some p.2) h1
    simpa [Function.comp_def] using this
  have hC : (bs.map fun b => b.2.2.map (some : G1 → Option G1)) =
      (bs.map fun b => b.2.2).map fun cs => cs.map some := by
    rw [List.map_map]; rfl
  obtain ⟨b, hb, hbne⟩ := hne
  unfold Witness.multiBatchUpdate
  simp only
  rw [hA, hB, hC, evaluateDeltas_eq y ls _ (by simpa using hlen) h2
    ⟨b.2.2, List.mem_map.2 ⟨b, hb, rfl⟩, h3 b hb hbne⟩]
  refine ⟨_, rfl, ?_⟩
  have hD : (ls.map fun l => dvals y l.2).prod ≠ 0 := by
    rw [Ne, List.prod_eq_zero_iff, List.mem_map]
    rintro ⟨l, hl, h0⟩
    exact dvals_ne_zero.2 (h2 l hl) h0
  have hv' : v' = (ls.map fun l => dvals y l.2).prod⁻¹ • ((ls.map fun l => dvals y l.2).prod • v') := by
    rw [smul_smul, inv_mul_cancel₀ hD, one_smul]
  rw [hv', ← h4]
  module

example : Chain (5 : Toy.K) (18 : Toy.K)
    [([some 2], [], (update (some (18 : Toy.K)) (some (5 : Toy.K)) [some 2] []).2.toOption.getD []),
     ([], [some 3], (update (some (126 : Toy.K)) (some (5 : Toy.K)) [] [some 3]).2.toOption.getD [])]
    (126 / 8) := by
  refine ⟨126, by decide +kernel, 126 / 8, by decide +kernel, rfl⟩

/-- C65: the single update and the sequence of `BatchUpdate` calls give the same witness. -/
theorem C65_multi_eq_sequential (α : F) (v v1 v' c : G1) (y : F)
    (b1 b2 : List (Option F) × List (Option F) × List G1)
    (h1 : update (some v) (some α) b1.1 b1.2.1 = (some v1, .ok b1.2.2))
    (h2 : update (some v1) (some α) b2.1 b2.2.1 = (some v', .ok b2.2.2))
    (n1 : b1.1 ≠ [] ∨ b1.2.1 ≠ []) (n2 : b2.1 ≠ [] ∨ b2.2.1 ≠ [])
    (hw : (y + α) • c = v) (y1 : some y ∉ b1.2.1) (y2 : some y ∉ b2.2.1) :
    (⟨some c, some y⟩ : Witness F G1).multiBatchUpdate [some b1.1, some b2.1]
        [some b1.2.1, some b2.2.1] [b1.2.2.map some, b2.2.2.map some] =
      ((⟨some c, some y⟩ : Witness F G1).batchUpdate (some b1.1) (some b1.2.1)
        (b1.2.2.map some)).bind fun w =>
          w.batchUpdate (some b2.1) (some b2.2.1) (b2.2.2.map some) := by
  have hv : v ≠ 0 := (batch_core h1).1
  have h0 : y + α ≠ 0 := by
    intro h0; rw [h0, zero_smul] at hw; exact hv hw.symm
  obtain ⟨c1, e1, w1⟩ := C65_batch_update α v v1 c y _ _ _ h1 n1 hw y1
  obtain ⟨c2, e2, w2⟩ := C65_batch_update α v1 v' c1 y _ _ _ h2 n2 w1 y2
  obtain ⟨c3, e3, w3⟩ := C65_multi_batch_update α v v' c y [b1, b2] ⟨v1, h1, v', h2, rfl⟩ hw
    (by
      intro b hb
      simp only [List.mem_cons, List.not_mem_nil, or_false] at hb
      rcases hb with rfl | rfl
      · exact y1
      · exact y2) ⟨b1, by simp, n1⟩
  have : c3 = c2 := smul_right_injective G1 h0 (w3.trans w2.symm)
  subst this
  rw [e1]
  simp only [List.map_cons, List.map_nil] at e3
  rw [e3]
  exact e2.symm

example : (update (some (18 : Toy.K)) (some (5 : Toy.K)) [some 2] []).1 = some 126 := by decide +kernel

theorem dad_error_kind {l : Option (List (Option F))} {y : Option F} {f : Fail}
    (h : dad l y = .error f) : f = .error := by
  unfold dad at h
  rcases l with _ | l
  · cases h; rfl
  rcases y with _ | y
  · cases h; rfl
  simp only [Go.ofOption, Go.ok_bind] at h
  cases he : elems l with
  | error g =>
    rw [he] at h
    cases h
    exact mapM_ofOption_error he
  | ok vs =>
    rw [he, Go.ok_bind] at h
    split at h <;> cases h

theorem dad_member {l : List (Option F)} {y : F} (hm : some y ∈ l) :
    dad (some l) (some y) = .ok 0 ∨ dad (some l) (some y) = Go.err := by
  cases h : dad (some l) (some y) with
  | error f => right; rw [dad_error_kind h]
  | ok r =>
    left
    have h' := h
    unfold dad at h'
    simp only [Go.ofOption, Go.ok_bind, Go.bind_eq_ok] at h'
    obtain ⟨vs, hvs, -⟩ := h'
    have := elems_eq_ok hvs
    subst this
    rw [dad_some] at h
    rw [← h]
    congr 1
    by_contra h0
    exact dvals_ne_zero.1 h0 (by simpa using hm)

/-- C65: if the element was deleted, `BatchUpdate` returns an error, whatever the other inputs are. -/
theorem C65_deleted_error (w : Witness F G1) (y : F) (hy : w.y = some y)
    (adds : Option (List (Option F))) (dels : List (Option F)) (cs : List (Option G1))
    (hm : some y ∈ dels) : w.batchUpdate adds (some dels) cs = Go.err := by
  unfold Witness.batchUpdate evaluateDelta
  rw [hy]
  rcases dad_member hm with h | h
  · rw [h]
    simp [invert, Go.guard, Go.err]
  · rw [h]; rfl

example : (⟨some 3, some 1⟩ : Witness Toy.K Toy.K).batchUpdate none (some [some 2, some 1]) [] =
    Go.err := by decide +kernel

/-- C65: the same for `MultiBatchUpdate`: an element deleted in any of the batches gives an error. -/
theorem C65_multi_deleted_error (w : Witness F G1) (y : F) (hy : w.y = some y)
    (A D : List (Option (List (Option F)))) (C : List (List (Option G1))) (dels : List (Option F))
    (hD : some dels ∈ D) (hm : some y ∈ dels) : w.multiBatchUpdate A D C = Go.err := by
  unfold Witness.multiBatchUpdate evaluateDeltas
  rw [hy]
  by_cases hl : A.length ≠ D.length ∨ A.length ≠ C.length
  · rw [Go.guard_false (not_not.2 hl)]; rfl
  rw [Go.guard_true hl]
  simp only [Go.ok_bind]
  rw [not_or, not_not] at hl
  obtain ⟨i, hi, hDi⟩ := List.getElem_of_mem hD
  have hz : ∃ a, (a, some dels) ∈ A.zip D := by
    refine ⟨A[i]'(by omega), ?_⟩
    rw [← hDi]
    exact List.mem_iff_getElem.2 ⟨i, by simp; omega, by simp⟩
  obtain ⟨a, hz⟩ := hz
  have main : ∀ l : List (Option (List (Option F)) × Option (List (Option F))), (a, some dels) ∈ l →
      (l.mapM fun ad => (do
        let ta ← dad ad.1 (some y)
        let td ← dad ad.2 (some y)
        .ok (ta, td) : Go (F × F))) = Go.err ∨
      ∃ r : List (F × F), (l.mapM fun ad => (do
        let ta ← dad ad.1 (some y)
        let td ← dad ad.2 (some y)
        .ok (ta, td) : Go (F × F))) = .ok r ∧ (r.map Prod.snd).prod = 0 := by
    have anyl : ∀ l : List (Option (List (Option F)) × Option (List (Option F))),
      (l.mapM fun ad => (do
        let ta ← dad ad.1 (some y)
        let td ← dad ad.2 (some y)
        .ok (ta, td) : Go (F × F))) = Go.err ∨
      ∃ r : List (F × F), (l.mapM fun ad => (do
        let ta ← dad ad.1 (some y)
        let td ← dad ad.2 (some y)
        .ok (ta, td) : Go (F × F))) = .ok r := by
      intro l
      induction l with
      | nil => exact Or.inr ⟨[], rfl⟩
      | cons x l ih =>
        rw [List.mapM_cons]
        cases h1 : dad x.1 (some y) with
        | error f => left; rw [dad_error_kind h1]; rfl
        | ok r1 =>
          cases h2 : dad x.2 (some y) with
          | error f => left; rw [dad_error_kind h2]; rfl
          | ok r2 =>
            rcases ih with ih | ⟨r, ih⟩
            · left; rw [ih]; rfl
            · right; rw [ih]; exact ⟨_, rfl⟩
    intro l
    induction l with
    | nil => intro h; simp at h
    | cons x l ih =>
      intro h
      rw [List.mapM_cons]
      cases h1 : dad x.1 (some y) with
      | error f => left; rw [dad_error_kind h1]; rfl
      | ok r1 =>
        cases h2 : dad x.2 (some y) with
        | error f => left; rw [dad_error_kind h2]; rfl
        | ok r2 =>
          rcases List.mem_cons.1 h with rfl | h
          · have hz2 : r2 = 0 := by
              rcases dad_member hm with h | h
              · rw [h] at h2; cases h2; rfl
              · rw [h] at h2; cases h2
            rcases anyl l with ih | ⟨r, ih⟩
            · left; rw [ih]; rfl
            · right; rw [ih]; exact ⟨_, rfl, by simp [hz2]⟩
          · rcases ih h with ih | ⟨r, ih, h0⟩
            · left; rw [ih]; rfl
            · right; rw [ih]; exact ⟨_, rfl, by simp [h0]⟩
  rcases main _ hz with h | ⟨r, h, h0⟩
  · rw [h]; rfl
  · rw [h]
    simp only [Go.ok_bind, foldl_mul_snd, one_mul, h0]
    simp [invert, Go.guard, Go.err]

example : (⟨some 3, some 1⟩ : Witness Toy.K Toy.K).multiBatchUpdate [some [], some []]
    [some [some 4], some [some 2, some 1]] [[], []] = Go.err := by decide +kernel

/-- C65: an empty update has no coefficients, and applying it panics instead of leaving the witness
unchanged; so does an empty list of updates. -/
theorem C65_empty_update_panics (α : F) (v c : G1) (hv : v ≠ 0) (y : F) :
    update (some v) (some α) [] [] = (some v, .ok []) ∧
      (⟨some c, some y⟩ : Witness F G1).batchUpdate (some []) (some []) [] = Go.crash ∧
      (⟨some c, some y⟩ : Witness F G1).multiBatchUpdate [] [] [] = Go.crash := by
  refine ⟨?_, ?_, ?_⟩
  · have h := updateCore_eq_ok (v := v) (α := α) (adds := []) (dels := [])
      (v' := (shifted α [] * (shifted α [])⁻¹) • v) (cs := [])
    obtain ⟨ks, hks, hlen, -⟩ := createCoefficients_spec α [] [] (by simp)
    have hk : ks = [] := List.length_eq_zero_iff.1 (by simpa using hlen)
    subst hk
    have := h.2 ⟨hv, [], [], [], rfl, rfl, by simp, hks, rfl, rfl⟩
    unfold update
    simp only
    rw [this]
    simp [shifted]
  · have h1 := dad_some y ([] : List F)
    simp only [List.map_nil, dvals, List.prod_nil] at h1
    unfold Witness.batchUpdate evaluateDelta
    simp only [h1, Go.ok_bind]
    rw [invert_eq_ok.2 ⟨one_ne_zero, rfl⟩]
    rfl
  · unfold Witness.multiBatchUpdate evaluateDeltas
    have h2 : invert (1 : F) = .ok 1⁻¹ := invert_eq_ok.2 ⟨one_ne_zero, rfl⟩
    simp only [List.length_nil, List.zip_nil_left, List.mapM_nil, Go.pure_eq_ok]
    rw [Go.guard_true (by simp), Go.ok_bind]
    simp only [Go.ok_bind, List.foldl_nil]
    rw [h2]
    rfl

example : (2 : Toy.K) ≠ 0 := by decide

/-- C65: a witness without an element makes `MultiBatchUpdate` panic (when the list lengths agree) while
`BatchUpdate` returns an error. -/
theorem C65_nil_element (c : Option G1) (A D : List (Option (List (Option F))))
    (C : List (List (Option G1))) (h1 : A.length = D.length) (h2 : A.length = C.length)
    (adds dels : Option (List (Option F))) (cs : List (Option G1)) :
    (⟨c, none⟩ : Witness F G1).multiBatchUpdate A D C = Go.crash ∧
      (⟨c, none⟩ : Witness F G1).batchUpdate adds dels cs = Go.err := by
  constructor
  · unfold Witness.multiBatchUpdate evaluateDeltas
    rw [Go.guard_true (by simp [← h1, ← h2])]
    rfl
  · unfold Witness.batchUpdate evaluateDelta dad
    rcases dels with _ | d <;> rfl

example : ([some [some (1 : Toy.K)]] : List (Option (List (Option Toy.K)))).length =
    ([some []] : List (Option (List (Option Toy.K)))).length := rfl

/-- C65: for an element that the update adds, `BatchUpdate` produces a valid witness from any point at
all.  The published coefficients of an update therefore serve as witnesses for everything it adds. -/
theorem C65_added_any (α : F) (v v' c : G1) (y : F) (adds dels : List (Option F)) (cs : List G1)
    (hup : update (some v) (some α) adds dels = (some v', .ok cs))
    (hm : some y ∈ adds) (hy : some y ∉ dels) :
    ∃ c', (⟨some c, some y⟩ : Witness F G1).batchUpdate (some adds) (some dels) (cs.map some) =
      .ok ⟨some c', some y⟩ ∧ (y + α) • c' = v' := by
  obtain ⟨hv, a, d, rfl, rfl, hd, rfl, hlen, hev⟩ := batch_core hup
  have hya : y ∈ a := by simpa using hm
  have hne' : cs ≠ [] := by
    rw [← List.length_pos_iff, hlen]
    have : 0 < a.length := List.length_pos_of_mem hya
    omega
  have hy' : y ∉ d := fun hm => hy (List.mem_map.2 ⟨y, hm, rfl⟩)
  have hD := dvals_ne_zero.2 hy'
  have hA : dvals y a = 0 := by
    by_contra h0
    exact dvals_ne_zero.1 h0 hya
  refine ⟨_, batchUpdate_eq hne' hy', ?_⟩
  rw [hA, zero_mul, zero_smul, zero_add, smul_comm, hev y, hA, zero_smul, sub_zero, smul_smul]
  congr 1
  field_simp

example : (update (some (18 : Toy.K)) (some (5 : Toy.K)) [some 2, some 4] [some 3]).2.isOk = true := by
  decide +kernel

end Verif.Accum
