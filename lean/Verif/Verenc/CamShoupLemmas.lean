import Verif.Verenc.CamShoupModel
import Verif.Common.GoList
import Mathlib.Tactic.Abel
import Mathlib.Tactic.LinearCombination
import Mathlib.Tactic.NormNum
import Mathlib.Algebra.Order.Ring.Int
import Mathlib.Tactic.Zify

/-!
# Group computations of the Camenisch-Shoup encryption in the units modulo `n²`
-/

set_option linter.unusedSectionVars false

namespace Verif.CamShoup

/-- A group as the package makes it: odd modulus greater than one and an invertible `g`. -/
structure Valid (G : Group) (n : ℕ) (γ : (ZMod (n * n))ˣ) : Prop where
  one_lt : 1 < n
  odd : n % 2 = 1
  made : mkGroup n G.g = .ok G
  g : (G.g : ZMod (n * n)) = γ

variable {n : ℕ} {γ : (ZMod (n * n))ˣ} {G : Group}

/-- the canonical representative of a unit -/
def cv (u : (ZMod (n * n))ˣ) : ℤ := ((u : ZMod (n * n)).val : ℤ)

theorem Valid.pos (h : Valid G n γ) : 0 < n * n := Nat.mul_pos (by have := h.one_lt; omega) (by have := h.one_lt; omega)

theorem Valid.fields (h : Valid G n γ) : G.n = n ∧ G.h = n + 1 ∧ G.n2 = ((n * n : ℕ) : ℤ) ∧
    G.n2d2 = ((n * n / 2 : ℕ) : ℤ) ∧ G.nd4 = ((n / 2 : ℕ) : ℤ) ∧ ∃ t : ℤ, G.twoInvTwo = 1 + n * t := by
  have hm := h.made
  unfold mkGroup at hm
  split at hm
  · cases hm
  · rename_i i hi
    have hi' := (Big.modInverse_eq_some (by have := h.one_lt; omega)).1 hi
    have hm := (Except.ok.inj hm).symm
    have hs : ∀ k : ℕ, ((k : ℤ) >>> (1 : ℕ)) = ((k / 2 : ℕ) : ℤ) := by
      intro k; rw [Int.shiftRight_eq_div_pow]; norm_num
    have a1 := congrArg Group.n hm
    have a2 := congrArg Group.h hm
    have a3 := congrArg Group.n2 hm
    have a4 := congrArg Group.n2d2 hm
    have a5 := congrArg Group.twoInvTwo hm
    have a6 := congrArg Group.nd4 hm
    simp only at a1 a2 a3 a4 a5 a6
    refine ⟨a1, a2, by rw [a3]; push_cast; ring, ?_, by rw [a6, hs], ?_⟩
    · rw [a4, show (n : ℤ) * n = ((n * n : ℕ) : ℤ) by push_cast; ring, hs]
    · obtain ⟨t, ht⟩ := Int.modEq_iff_dvd.1 hi'.2.2
      exact ⟨-t, by rw [a5]; linarith⟩

theorem cv_cast [NeZero (n * n)] (u : (ZMod (n * n))ˣ) : ((cv u : ℤ) : ZMod (n * n)) = u := by
  simp [cv]

theorem cv_nonneg (u : (ZMod (n * n))ˣ) : 0 ≤ cv u := by simp [cv]

theorem cv_lt [NeZero (n * n)] (u : (ZMod (n * n))ˣ) : cv u < ((n * n : ℕ) : ℤ) := by
  simp only [cv]; exact_mod_cast ZMod.val_lt _

theorem cv_of_cast [NeZero (n * n)] {a : ℤ} {u : (ZMod (n * n))ˣ} (h0 : 0 ≤ a) (h1 : a < ((n * n : ℕ) : ℤ))
    (h : (a : ZMod (n * n)) = u) : a = cv u :=
  Big.eq_of_cast h0 h1 (cv_nonneg u) (cv_lt u) (by rw [h, cv_cast])

theorem cv_inj [NeZero (n * n)] {u w : (ZMod (n * n))ˣ} (h : cv u = cv w) : u = w := by
  apply Units.ext
  rw [← cv_cast u, ← cv_cast w, h]

theorem cv_ne_zero (h : Valid G n γ) (u : (ZMod (n * n))ˣ) : cv u ≠ 0 := by
  have : NeZero (n * n) := ⟨h.pos.ne'⟩
  have h1 : 1 < n * n := by have := h.one_lt; nlinarith
  have : Fact (1 < n * n) := ⟨h1⟩
  intro h0
  have := cv_cast u
  rw [h0] at this
  exact u.ne_zero (by simpa using this.symm)

theorem exp_of_cast (h : Valid G n γ) {a y : ℤ} {u : (ZMod (n * n))ˣ} (ha : (a : ZMod (n * n)) = u) :
    G.exp a y = .ok (cv (u ^ y)) := by
  have : NeZero (n * n) := ⟨h.pos.ne'⟩
  obtain ⟨r, hr, h0, h1, hc⟩ := Big.exp_cast (y := y) h.pos ha
  unfold Group.exp
  rw [h.fields.2.2.1, hr, cv_of_cast h0 h1 hc]

theorem exp_cv (h : Valid G n γ) (y : ℤ) (u : (ZMod (n * n))ˣ) : G.exp (cv u) y = .ok (cv (u ^ y)) :=
  have : NeZero (n * n) := ⟨h.pos.ne'⟩
  exp_of_cast h (cv_cast u)

theorem gexp_cv (h : Valid G n γ) (y : ℤ) : G.gexp y = .ok (cv (γ ^ y)) := exp_of_cast h h.g

theorem mul_cv (h : Valid G n γ) (u w : (ZMod (n * n))ˣ) : G.mul (cv u) (cv w) = .ok (cv (u * w)) := by
  have : NeZero (n * n) := ⟨h.pos.ne'⟩
  have hp : (0 : ℤ) < ((n * n : ℕ) : ℤ) := by exact_mod_cast h.pos
  unfold Group.mul Big.mod
  rw [h.fields.2.2.1, if_neg hp.ne']
  congr 1
  apply cv_of_cast (Int.emod_nonneg _ hp.ne') (Int.emod_lt_of_pos _ hp)
  rw [ZMod.intCast_mod]
  push_cast
  rw [cv_cast, cv_cast]

theorem inv_cv (h : Valid G n γ) (u : (ZMod (n * n))ˣ) : G.inv (cv u) = .ok (cv u⁻¹) := by
  have : NeZero (n * n) := ⟨h.pos.ne'⟩
  obtain ⟨i, hi, h0, h1, hc⟩ := Big.modInverse_cast h.pos (cv_cast u)
  unfold Group.inv
  rw [h.fields.2.2.1, hi, cv_of_cast h0 h1 hc]

/-- the unit `1 + n` -/
def eta (n : ℕ) : (ZMod (n * n))ˣ where
  val := 1 + n
  inv := 1 - n
  val_inv := by
    have : ((n : ℕ) : ZMod (n * n)) * n = 0 := by rw [← Nat.cast_mul, ZMod.natCast_self]
    linear_combination -this
  inv_val := by
    have : ((n : ℕ) : ZMod (n * n)) * n = 0 := by rw [← Nat.cast_mul, ZMod.natCast_self]
    linear_combination -this

theorem eta_zpow (m : ℤ) : ((eta n ^ m : (ZMod (n * n))ˣ) : ZMod (n * n)) = 1 + m * n := by
  have hn : ((n : ℕ) : ZMod (n * n)) * n = 0 := by rw [← Nat.cast_mul, ZMod.natCast_self]
  have key : ∀ k : ℕ, ((eta n ^ k : (ZMod (n * n))ˣ) : ZMod (n * n)) = 1 + k * n := by
    intro k
    induction k with
    | zero => simp
    | succ k ih =>
      rw [pow_succ, Units.val_mul, ih]
      simp only [eta]
      push_cast
      linear_combination (k : ZMod (n * n)) * hn
  obtain ⟨k, rfl | rfl⟩ := m.eq_nat_or_neg
  · rw [zpow_natCast, key]; push_cast; rfl
  · rw [zpow_neg, zpow_natCast]
    refine Units.inv_eq_of_mul_eq_one_right ?_
    rw [key]
    push_cast
    linear_combination (-(k : ZMod (n * n)) * k) * hn

theorem hexp_cv (h : Valid G n γ) (y : ℤ) : G.hexp y = .ok (cv (eta n ^ y)) := by
  refine exp_of_cast h ?_
  rw [h.fields.2.1]
  simp only [eta]; push_cast; ring

/-- `h` has order `n` -/
theorem eta_zpow_eq {a b : ℤ} (h : ∃ k, a - b = n * k) : eta n ^ a = eta n ^ b := by
  obtain ⟨k, hk⟩ := h
  have hn : ((n : ℕ) : ZMod (n * n)) * n = 0 := by rw [← Nat.cast_mul, ZMod.natCast_self]
  apply Units.ext
  rw [eta_zpow, eta_zpow]
  have : (a : ZMod (n * n)) = b + n * k := by
    rw [show a = b + n * k by linarith]; push_cast; ring
  rw [this]
  linear_combination (k : ZMod (n * n)) * hn

theorem cv_eta (h : Valid G n γ) (m : ℤ) : cv (eta n ^ m) = 1 + (m % n) * n := by
  have : NeZero (n * n) := ⟨h.pos.ne'⟩
  have h1 : (1 : ℤ) < n := by exact_mod_cast h.one_lt
  have h2 := Int.emod_nonneg m (show (n : ℤ) ≠ 0 by omega)
  have h3 := Int.emod_lt_of_pos m (show (0 : ℤ) < n by omega)
  symm
  apply cv_of_cast
  · positivity
  · push_cast; nlinarith
  · rw [eta_zpow_eq (a := m) (b := m % n) ⟨m / n, by
      have := Int.emod_add_mul_ediv m n; linarith⟩, eta_zpow]
    push_cast
    ring

/-- the absolute value of a canonical representative is that of the unit or of its negative, and is a fixed
point -/
theorem abs_cv (h : Valid G n γ) (u : (ZMod (n * n))ˣ) :
    ∃ w : (ZMod (n * n))ˣ, (w = u ∨ w = -u) ∧ G.abs (cv u) = .ok (cv w) ∧ G.abs (cv w) = .ok (cv w) := by
  have hz : NeZero (n * n) := ⟨h.pos.ne'⟩
  have hp : (0 : ℤ) < ((n * n : ℕ) : ℤ) := by exact_mod_cast h.pos
  have f3 := h.fields.2.2.1
  have f4 := h.fields.2.2.2.1
  have hodd : n * n % 2 = 1 := by rw [Nat.mul_mod, h.odd]
  have habs : ∀ w : (ZMod (n * n))ˣ, G.abs (cv w) =
      .ok (if cv w > ((n * n / 2 : ℕ) : ℤ) then ((n * n : ℕ) : ℤ) - cv w else cv w) := by
    intro w
    unfold Group.abs Big.mod
    rw [f3, if_neg hp.ne', Int.emod_eq_of_lt (cv_nonneg w) (cv_lt w), Go.ok_bind, f4]
  by_cases hu : cv u > ((n * n / 2 : ℕ) : ℤ)
  · refine ⟨-u, .inr rfl, ?_⟩
    have hc : ((n * n : ℕ) : ℤ) - cv u = cv (-u) := by
      apply cv_of_cast
      · have := cv_lt u; omega
      · have := cv_nonneg u; have := cv_ne_zero h u; omega
      · have hc : (((n * n : ℕ) : ℤ) : ZMod (n * n)) = 0 := by
          rw [Int.cast_natCast, ZMod.natCast_self]
        rw [Int.cast_sub, hc, cv_cast, zero_sub]; simp
    rw [habs, if_pos hu, hc]
    refine ⟨rfl, ?_⟩
    rw [habs, if_neg]
    rw [← hc]
    omega
  · refine ⟨u, .inl rfl, ?_, ?_⟩ <;> rw [habs, if_neg hu]

/-! ## Loops -/

theorem computeE_cv (h : Valid G n γ) (r : ℤ) : ∀ (ys : List (ZMod (n * n))ˣ) (ms : List ℤ),
    ms.length ≤ ys.length →
    computeE G (ys.map cv) ms r = .ok ((List.zipWith (fun y m => y ^ r * eta n ^ m) ys ms).map cv)
  | ys, [], _ => by cases ys <;> simp [computeE]
  | [], _ :: _, hl => by simp at hl
  | y :: ys, m :: ms, hl => by
    simp only [List.map_cons, computeE, exp_cv h, hexp_cv h, mul_cv h, Go.ok_bind]
    rw [computeE_cv h r ys ms (by simpa using hl)]
    simp only [Go.ok_bind, List.zipWith_cons_cons, List.map_cons]

theorem rebuildE_cv (h : Valid G n γ) (c2 r2 : ℤ) : ∀ (ys es : List (ZMod (n * n))ˣ) (ms extra : List ℤ),
    ms.length ≤ ys.length → es.length = ms.length →
    rebuildE G c2 r2 (ys.map cv) (es.map cv ++ extra) ms =
      .ok ((List.zipWith (fun (ye : (ZMod (n * n))ˣ × (ZMod (n * n))ˣ) m =>
        ye.2 ^ c2 * ye.1 ^ r2 * eta n ^ (m * 2)) (ys.zip es) ms).map cv)
  | ys, es, [], extra, _, he => by simp [rebuildE]
  | [], _, _ :: _, _, hl, _ => by simp at hl
  | _ :: _, [], _ :: _, _, _, he => by simp at he
  | y :: ys, e :: es, m :: ms, extra, hl, he => by
    simp only [List.map_cons, List.cons_append, rebuildE, exp_cv h, hexp_cv h, mul_cv h, Go.ok_bind]
    rw [rebuildE_cv h c2 r2 ys es ms extra (by simpa using hl) (by simpa using he)]
    simp only [Go.ok_bind, List.zip_cons_cons, List.zipWith_cons_cons, List.map_cons]

theorem mapM_ok {α β : Type} (f : α → Go β) (k : α → β) : ∀ l : List α, (∀ a ∈ l, f a = .ok (k a)) →
    l.mapM f = .ok (l.map k)
  | [], _ => rfl
  | a :: l, h => by
    rw [List.mapM_cons, h a (by simp), Go.ok_bind, mapM_ok f k l (fun b hb => h b (by simp [hb]))]
    rfl

/-- the encryption key of a decryption key -/
theorem encKey_cv (h : Valid G n γ) (dk : DecKey) (hg : dk.group = G) :
    dk.encKey = .ok ⟨(dk.x1.map fun x => γ ^ x).map cv, cv (γ ^ dk.x2), cv (γ ^ dk.x3), G⟩ := by
  unfold DecKey.encKey
  rw [hg, gexp_cv h, gexp_cv h, Go.ok_bind, Go.ok_bind,
    mapM_ok G.gexp (fun x => cv (γ ^ x)) dk.x1 (fun x _ => gexp_cv h x), Go.ok_bind, List.map_map]
  rfl

end Verif.CamShoup
