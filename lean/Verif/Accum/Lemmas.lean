import Verif.Accum.Model
import Verif.Common.Lagrange
import Mathlib.Algebra.BigOperators.Group.List.Lemmas
import Mathlib.Algebra.BigOperators.Group.Finset.Basic
import Mathlib.Algebra.BigOperators.GroupWithZero.Action
import Mathlib.Tactic.Ring
import Mathlib.Tactic.FieldSimp
import Mathlib.Tactic.LinearCombination
import Mathlib.Tactic.Module
import Mathlib.Tactic.Abel

/-!
# Lemmas on the accumulator's polynomials
-/

set_option linter.unusedSectionVars false

namespace Verif.Accum

variable {F : Type} [Field F] [DecidableEq F]
variable {G1 : Type} [AddCommGroup G1] [Module F G1] [DecidableEq G1]

theorem foldlM_ok {α β : Type} (f : β → α → Go β) (g : β → α → β) :
    ∀ (l : List α) (b : β), (∀ a ∈ l, ∀ b, f b a = .ok (g b a)) → l.foldlM f b = .ok (l.foldl g b)
  | [], _, _ => rfl
  | a :: l, b, h => by
    rw [List.foldlM_cons, h a (by simp), Go.ok_bind, List.foldl_cons]
    exact foldlM_ok f g l _ fun a ha => h a (by simp [ha])

theorem mapM_some {α : Type} : ∀ l : List α, (l.map some).mapM (Go.ofOption (α := α)) = .ok l
  | [] => rfl
  | a :: l => by
    rw [List.map_cons, List.mapM_cons, mapM_some l]; rfl

theorem mapM_ofOption_eq_ok {α : Type} : ∀ {l : List (Option α)} {r : List α},
    l.mapM (Go.ofOption (α := α)) = .ok r → l = r.map some
  | [], r, h => by cases h; rfl
  | a :: l, r, h => by
    rw [List.mapM_cons, Go.bind_eq_ok] at h
    obtain ⟨x, hx, h⟩ := h
    rw [Go.bind_eq_ok] at h
    obtain ⟨xs, hxs, h⟩ := h
    cases h
    rw [Go.ofOption_eq_ok] at hx
    rw [hx, mapM_ofOption_eq_ok hxs]; rfl

theorem mapM_ofOption_error {α : Type} : ∀ {l : List (Option α)} {f : Fail},
    l.mapM (Go.ofOption (α := α)) = .error f → f = .error
  | [], f, h => by cases h
  | a :: l, f, h => by
    rw [List.mapM_cons] at h
    cases a with
    | none => cases h; rfl
    | some a =>
      cases hl : l.mapM (Go.ofOption (α := α)) with
      | error g =>
        rw [hl] at h
        cases h
        exact mapM_ofOption_error hl
      | ok r => rw [hl] at h; cases h

theorem elems_some (l : List F) : elems (l.map some) = .ok l := mapM_some l

theorem elems_eq_ok {l : List (Option F)} {r : List F} (h : elems l = .ok r) : l = r.map some :=
  mapM_ofOption_eq_ok h

theorem foldl_mul_prod (f : F → F) (l : List F) (a : F) :
    l.foldl (fun m y => m * f y) a = a * (l.map f).prod := by
  induction l generalizing a with
  | nil => simp
  | cons y l ih => rw [List.foldl_cons, ih, List.map_cons, List.prod_cons]; ring

/-- `∏ (y + α)` -/
def shifted (α : F) (l : List F) : F := (l.map fun y => y + α).prod

/-- `∏ (y - x)` -/
def dvals (x : F) (l : List F) : F := (l.map fun y => y - x).prod

theorem batchAdditions_some (α : F) (l : List F) :
    batchAdditions (some α) (l.map some) = .ok (shifted α l) := by
  unfold batchAdditions
  rw [elems_some]
  simp only [Go.ofOption, Go.ok_bind]
  rw [foldl_mul_prod (fun y => y + α), one_mul]
  rfl

theorem batchDeletions_some (α : F) (l : List F) :
    batchDeletions (some α) (l.map some) = invert (shifted α l) := by
  unfold batchDeletions
  rw [batchAdditions_some]
  rfl

theorem invert_eq_ok {x y : F} : invert x = .ok y ↔ x ≠ 0 ∧ y = x⁻¹ := by
  unfold invert
  rw [Go.guard_bind_eq_ok, Except.ok.injEq]
  exact and_congr_right fun _ => eq_comm

theorem shifted_ne_zero {α : F} {l : List F} : shifted α l ≠ 0 ↔ ∀ y ∈ l, y + α ≠ 0 := by
  unfold shifted
  rw [Ne, List.prod_eq_zero_iff]
  constructor
  · intro h y hy h0
    exact h (List.mem_map.2 ⟨y, hy, h0⟩)
  · rintro h h0
    obtain ⟨y, hy, h0⟩ := List.mem_map.1 h0
    exact h y hy h0

theorem dvals_ne_zero {x : F} {l : List F} : dvals x l ≠ 0 ↔ x ∉ l := by
  unfold dvals
  rw [Ne, List.prod_eq_zero_iff, not_iff_not]
  constructor
  · intro h
    obtain ⟨y, hy, h0⟩ := List.mem_map.1 h
    rw [← sub_eq_zero.1 h0]; exact hy
  · intro h
    exact List.mem_map.2 ⟨x, h, sub_self x⟩

/-! ## Polynomials -/

theorem evalL_polyAdd (x : F) : ∀ p q : List F, evalL (polyAdd p q) x = evalL p x + evalL q x
  | [], q => by rw [polyAdd, evalL_nil, zero_add]
  | a :: p, [] => by rw [polyAdd, evalL_nil, add_zero]; simp
  | a :: p, b :: q => by
    rw [polyAdd, evalL_cons, evalL_cons, evalL_cons, evalL_polyAdd x p q]
    simp only [smul_eq_mul]; ring

theorem polyAdd_length : ∀ p q : List F, (polyAdd p q).length = max p.length q.length
  | [], q => by simp [polyAdd]
  | a :: p, [] => by simp [polyAdd]
  | a :: p, b :: q => by
    rw [polyAdd, List.length_cons, polyAdd_length p q, List.length_cons, List.length_cons]; omega

theorem evalL_neg (x : F) : ∀ q : List F, evalL (q.map fun c => -c) x = -evalL q x
  | [] => by simp [evalL_nil]
  | b :: q => by
    rw [List.map_cons, evalL_cons, evalL_cons, evalL_neg x q]; simp only [smul_eq_mul]; ring

theorem evalL_polySub (x : F) : ∀ p q : List F, evalL (polySub p q) x = evalL p x - evalL q x
  | [], q => by rw [polySub, evalL_nil, zero_sub, evalL_neg]
  | a :: p, [] => by rw [polySub, evalL_nil, sub_zero]; simp
  | a :: p, b :: q => by
    rw [polySub, evalL_cons, evalL_cons, evalL_cons, evalL_polySub x p q]
    simp only [smul_eq_mul]; ring

theorem polySub_length : ∀ p q : List F, (polySub p q).length = max p.length q.length
  | [], q => by simp [polySub]
  | a :: p, [] => by simp [polySub]
  | a :: p, b :: q => by
    rw [polySub, List.length_cons, polySub_length p q, List.length_cons, List.length_cons]; omega

theorem evalL_polyScale (x c : F) : ∀ p : List F, evalL (polyScale p c) x = evalL p x * c
  | [] => by simp [polyScale, evalL_nil]
  | a :: p => by
    have := evalL_polyScale x c p
    unfold polyScale at this ⊢
    rw [List.map_cons, evalL_cons, evalL_cons, this]
    simp only [smul_eq_mul]; ring

theorem evalL_modify (x c : F) : ∀ (p : List F) (k : ℕ), k < p.length →
    evalL (p.modify k (· + c)) x = evalL p x + c * x ^ k
  | [], k, h => by simp at h
  | a :: p, 0, _ => by
    rw [List.modify_zero_cons, evalL_cons, evalL_cons]; simp only [pow_zero]; ring
  | a :: p, k + 1, h => by
    rw [List.modify_succ_cons, evalL_cons, evalL_cons, evalL_modify x c p k (by simpa using h)]
    simp only [smul_eq_mul]; ring

theorem evalL_replicate (x : F) (n : ℕ) : evalL (List.replicate n (0 : F)) x = 0 := by
  induction n with
  | zero => rfl
  | succ n ih => rw [List.replicate_succ, evalL_cons, ih]; simp

theorem inner_fold (x c : F) (i : ℕ) : ∀ (q : List F) (k : ℕ) (prod : List F),
    i + k + q.length ≤ prod.length →
    ((q.zipIdx k).foldl (fun prod cj => prod.modify (i + cj.2) (· + c * cj.1)) prod).length =
      prod.length ∧
    evalL ((q.zipIdx k).foldl (fun prod cj => prod.modify (i + cj.2) (· + c * cj.1)) prod) x =
      evalL prod x + c * x ^ (i + k) * evalL q x
  | [], k, prod, _ => by simp [evalL_nil]
  | b :: q, k, prod, h => by
    rw [List.length_cons] at h
    rw [List.zipIdx_cons, List.foldl_cons]
    have ih := inner_fold x c i q (k + 1) (prod.modify (i + k) (· + c * b))
      (by rw [List.length_modify]; omega)
    rw [List.length_modify] at ih
    refine ⟨ih.1, ?_⟩
    rw [ih.2, evalL_modify x _ _ _ (by omega), evalL_cons]
    simp only [smul_eq_mul]
    ring

theorem outer_fold (x : F) (q : List F) : ∀ (p : List F) (k : ℕ) (prod : List F),
    k + p.length + q.length ≤ prod.length + 1 →
    ((p.zipIdx k).foldl (fun prod ci => q.zipIdx.foldl
      (fun prod cj => prod.modify (ci.2 + cj.2) (· + ci.1 * cj.1)) prod) prod).length =
      prod.length ∧
    evalL ((p.zipIdx k).foldl (fun prod ci => q.zipIdx.foldl
      (fun prod cj => prod.modify (ci.2 + cj.2) (· + ci.1 * cj.1)) prod) prod) x =
      evalL prod x + x ^ k * evalL p x * evalL q x
  | [], k, prod, _ => by simp [evalL_nil]
  | a :: p, k, prod, h => by
    rw [List.length_cons] at h
    rw [List.zipIdx_cons, List.foldl_cons]
    have i1 := inner_fold x a k q 0 prod (by omega)
    have ih := outer_fold x q p (k + 1) (q.zipIdx.foldl
      (fun prod cj => prod.modify (k + cj.2) (· + a * cj.1)) prod) (by rw [i1.1]; omega)
    refine ⟨ih.1.trans i1.1, ?_⟩
    rw [ih.2, i1.2, evalL_cons]
    simp only [smul_eq_mul]
    ring

theorem evalL_polyMul (x : F) (p q : List F) : evalL (polyMul p q) x = evalL p x * evalL q x := by
  unfold polyMul
  cases p with
  | nil => simp [evalL_replicate, evalL_nil]
  | cons a p =>
    rw [(outer_fold x q (a :: p) 0 _ (by simp; omega)).2, evalL_replicate]
    ring

theorem polyMul_length {p q : List F} (hp : p ≠ []) :
    (polyMul p q).length = p.length + q.length - 1 := by
  unfold polyMul
  have : 0 < p.length := List.length_pos_iff.2 hp
  rw [(outer_fold 0 q p 0 _ (by simp; omega)).1, List.length_replicate]

theorem prodPoly_gen (x : F) : ∀ (ys p : List F), p ≠ [] →
    (ys.foldl (fun p y => polyMul p [y, -1]) p).length = p.length + ys.length ∧
    evalL (ys.foldl (fun p y => polyMul p [y, -1]) p) x = evalL p x * dvals x ys
  | [], p, _ => by simp [dvals]
  | y :: ys, p, hp => by
    have hl : 0 < p.length := List.length_pos_iff.2 hp
    have h1 : (polyMul p [y, -1]).length = p.length + 1 := by
      rw [polyMul_length hp]; simp
    obtain ⟨i1, i2⟩ := prodPoly_gen x ys (polyMul p [y, -1]) (by
      rw [← List.length_pos_iff, h1]; omega)
    rw [List.foldl_cons]
    refine ⟨by rw [i1, h1, List.length_cons]; omega, ?_⟩
    rw [i2, evalL_polyMul]
    simp only [evalL_cons, evalL_nil, dvals, List.map_cons, List.prod_cons, smul_eq_mul]
    ring

theorem evalL_prodPoly (x : F) (ys : List F) : evalL (prodPoly ys) x = dvals x ys := by
  unfold prodPoly
  rw [(prodPoly_gen x ys [1] (by simp)).2]
  simp [evalL]

theorem prodPoly_length (ys : List F) : (prodPoly ys).length = ys.length + 1 := by
  unfold prodPoly
  rw [(prodPoly_gen 0 ys [1] (by simp)).1]
  simp [Nat.add_comm]

theorem foldl_polyAdd (x : F) (T : ℕ → List F) (n : ℕ) :
    evalL ((List.range n).foldl (fun v s => polyAdd v (T s)) []) x =
      ∑ s ∈ Finset.range n, evalL (T s) x := by
  induction n with
  | zero => rfl
  | succ n ih =>
    rw [List.range_succ, List.foldl_append, List.foldl_cons, List.foldl_nil, evalL_polyAdd, ih,
      Finset.sum_range_succ]

theorem foldl_polyAdd_length (T : ℕ → List F) (m n : ℕ) (h : ∀ s < n, (T s).length ≤ m) :
    ((List.range n).foldl (fun v s => polyAdd v (T s)) []).length ≤ m ∧
    ∀ s < n, (T s).length ≤ ((List.range n).foldl (fun v s => polyAdd v (T s)) []).length := by
  induction n with
  | zero => simp
  | succ n ih =>
    obtain ⟨i1, i2⟩ := ih fun s hs => h s (by omega)
    rw [List.range_succ, List.foldl_append, List.foldl_cons, List.foldl_nil, polyAdd_length]
    refine ⟨max_le i1 (h n (by omega)), fun s hs => ?_⟩
    rcases Nat.lt_succ_iff_lt_or_eq.1 hs with hs | rfl
    · exact (i2 s hs).trans (le_max_left _ _)
    · exact le_max_right _ _

theorem take_prod (f : F → F) (l : List F) (k : ℕ) (hk : k < l.length) :
    ((l.take (k + 1)).map f).prod = ((l.take k).map f).prod * f l[k] := by
  rw [List.take_add_one, List.getElem?_eq_getElem hk, List.map_append, List.prod_append]
  simp

theorem drop_prod (f : F → F) (l : List F) (k : ℕ) (hk : k < l.length) :
    ((l.drop k).map f).prod = f l[k] * ((l.drop (k + 1)).map f).prod := by
  rw [List.drop_eq_getElem_cons hk, List.map_cons, List.prod_cons]

theorem vD_sum (α x : F) (dels : List F) (h : ∀ y ∈ dels, y + α ≠ 0) (k : ℕ) (hk : k ≤ dels.length) :
    (x + α) * ∑ s ∈ Finset.range k, dvals x (dels.take s) * (shifted α (dels.take (s + 1)))⁻¹ =
      1 - dvals x (dels.take k) * (shifted α (dels.take k))⁻¹ := by
  induction k with
  | zero => simp [dvals, shifted]
  | succ k ih =>
    have hk' : k < dels.length := by omega
    rw [Finset.sum_range_succ, mul_add, ih (by omega)]
    have e1 := take_prod (fun y => y + α) dels k hk'
    have e2 := take_prod (fun y => y - x) dels k hk'
    have n1 : shifted α (dels.take k) ≠ 0 :=
      shifted_ne_zero.2 fun y hy => h y (List.mem_of_mem_take hy)
    have n2 : dels[k] + α ≠ 0 := h _ (List.getElem_mem _)
    unfold dvals shifted at *
    rw [e1, e2]
    field_simp
    ring

theorem vA_sum (α x : F) (adds : List F) (k : ℕ) (hk : k ≤ adds.length) :
    (x + α) * ∑ s ∈ Finset.range k, dvals x (adds.drop (s + 1)) * shifted α (adds.take s) =
      shifted α (adds.take k) * dvals x (adds.drop k) - dvals x adds := by
  induction k with
  | zero => simp [shifted]
  | succ k ih =>
    have hk' : k < adds.length := by omega
    rw [Finset.sum_range_succ, mul_add, ih (by omega)]
    have e1 := take_prod (fun y => y + α) adds k hk'
    have e2 := drop_prod (fun y => y - x) adds k hk'
    unfold dvals shifted at *
    rw [e1, e2]
    ring

/-- The coefficients returned by `CreateCoefficients` and the rational function they interpolate. -/
theorem createCoefficients_spec (α : F) (adds dels : List F) (h : ∀ y ∈ dels, y + α ≠ 0) :
    ∃ cs, createCoefficients (some α) (adds.map some) (dels.map some) = .ok cs ∧
      cs.length = max adds.length dels.length ∧
      ∀ x, (x + α) * evalL cs x =
        shifted α adds * (dvals x dels * (shifted α dels)⁻¹) - dvals x adds := by
  unfold createCoefficients
  rw [elems_some, elems_some]
  simp only [Go.ofOption, Go.ok_bind, batchAdditions_some]
  rw [foldlM_ok (g := fun vD s => polyAdd vD (polyScale (prodPoly (dels.take s))
    (shifted α (dels.take (s + 1)))⁻¹)), Go.ok_bind]
  swap
  · intro s _ b
    rw [batchDeletions_some, invert_eq_ok.2 ⟨shifted_ne_zero.2 fun y hy =>
      h y (List.mem_of_mem_take hy), rfl⟩]
    rfl
  rw [foldlM_ok (g := fun vA s => polyAdd vA (polyScale (prodPoly (adds.drop (s + 1)))
    (shifted α (adds.take s)))), Go.ok_bind]
  swap
  · intro s _ b
    by_cases hs : s = 0
    · subst hs; simp [shifted]
    · rw [if_neg hs]
  refine ⟨_, rfl, ?_, fun x => ?_⟩
  · rw [polySub_length]
    congr 1
    · have := foldl_polyAdd_length (fun s => polyScale (prodPoly (adds.drop (s + 1)))
        (shifted α (adds.take s))) adds.length adds.length (fun s hs => by
          simp only [polyScale, List.length_map, prodPoly_length, List.length_drop]; omega)
      refine le_antisymm this.1 ?_
      cases adds with
      | nil => simp
      | cons a as =>
        have := this.2 0 (by simp)
        simpa [polyScale, prodPoly_length] using this
    · unfold polyScale
      rw [List.length_map]
      have := foldl_polyAdd_length (fun s => polyScale (prodPoly (dels.take s))
        (shifted α (dels.take (s + 1)))⁻¹) dels.length dels.length (fun s hs => by
          simp only [polyScale, List.length_map, prodPoly_length, List.length_take]; omega)
      refine le_antisymm this.1 ?_
      rcases Nat.eq_zero_or_pos dels.length with h0 | h0
      · omega
      · have := this.2 (dels.length - 1) (by omega)
        simp only [polyScale, List.length_map, prodPoly_length, List.length_take] at this ⊢
        omega
  · rw [evalL_polySub, evalL_polyScale, foldl_polyAdd, foldl_polyAdd]
    simp only [evalL_polyScale, evalL_prodPoly]
    rw [mul_sub, ← mul_assoc, vD_sum α x dels h _ le_rfl, vA_sum α x adds _ le_rfl]
    simp only [List.take_length, List.drop_length]
    simp only [dvals, List.map_nil, List.prod_nil]
    ring

/-! ## Point polynomials -/

theorem evaluate_some {ps : List G1} (hne : ps ≠ []) (x : F) :
    evaluate (ps.map some) x = .ok (evalL ps x) := by
  unfold evaluate
  rw [mapM_some, Go.ok_bind]
  cases ps with
  | nil => exact absurd rfl hne
  | cons a l =>
    simp only
    have gen : ∀ (l : List G1) (r : G1) (pp : F),
        (l.foldl (fun (st : G1 × F) c => (st.1 + st.2 • c, st.2 * x)) (r, pp)).1 =
          r + pp • evalL l x := by
      intro l
      induction l with
      | nil => intro r pp; simp [evalL_nil]
      | cons c l ih =>
        intro r pp
        rw [List.foldl_cons, ih, evalL_cons]
        simp only
        module
    rw [gen, evalL_cons]

theorem evalL_pointAdd (x : F) : ∀ p q : List G1, evalL (pointAdd p q) x = evalL p x + evalL q x
  | [], q => by rw [pointAdd, evalL_nil, zero_add]
  | a :: p, [] => by rw [pointAdd, evalL_nil, add_zero]; simp
  | a :: p, b :: q => by
    rw [pointAdd, evalL_cons, evalL_cons, evalL_cons, evalL_pointAdd x p q]
    module

theorem pointAdd_length : ∀ p q : List G1, (pointAdd p q).length = max p.length q.length
  | [], q => by simp [pointAdd]
  | a :: p, [] => by simp [pointAdd]
  | a :: p, b :: q => by
    rw [pointAdd, List.length_cons, pointAdd_length p q, List.length_cons, List.length_cons]; omega

theorem evalL_smul (x c : F) : ∀ p : List G1, evalL (p.map fun v => c • v) x = c • evalL p x
  | [] => by simp [evalL_nil]
  | a :: p => by rw [List.map_cons, evalL_cons, evalL_cons, evalL_smul x c p]; module

theorem evalL_smul_point (x : F) (v : G1) : ∀ cs : List F,
    evalL (cs.map fun c => c • v) x = evalL cs x • v
  | [] => by simp [evalL_nil]
  | a :: p => by
    rw [List.map_cons, evalL_cons, evalL_cons, evalL_smul_point x v p, smul_eq_mul]; module

theorem dad_some (y : F) (l : List F) : dad (some (l.map some)) (some y) = .ok (dvals y l) := by
  unfold dad
  simp only [Go.ofOption, Go.ok_bind]
  rw [elems_some]
  simp only [Go.ok_bind]
  split
  · simp [dvals]
  · rw [foldl_mul_prod (fun v => v - y), one_mul]; rfl

end Verif.Accum
