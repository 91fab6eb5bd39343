import Mathlib.Tactic.Ring
import Mathlib.Tactic.Linarith
import Verif.Fiat.Check

/-!
# The checker is sound

Every assignment of an accepted program holds as an equation in the final state, and the substitutions of the checker preserve the value of the
linear form.
-/

namespace Verif.Fiat
open Verif.Native

theorem nbeq {n m : ℕ} (h : Nat.beq n m = true) : n = m := Nat.eq_of_beq_eq_true h
theorem nble {n m : ℕ} (h : Nat.ble n m = true) : n ≤ m := Nat.le_of_ble_eq_true h
theorem nblt {n m : ℕ} (h : Nat.blt n m = true) : n < m := Nat.le_of_ble_eq_true h
theorem nbne {n m : ℕ} (h : (!Nat.beq n m) = true) : n ≠ m := by
  rintro rfl; simp at h

theorem E.same_eq : ∀ {x y : E}, x.same y = true → x = y := by
  intro x
  induction x with
  | r n => intro y h; cases y <;> simp [E.same] at h ⊢; all_goals exact h
  | a n => intro y h; cases y <;> simp [E.same] at h ⊢; all_goals exact h
  | b n => intro y h; cases y <;> simp [E.same] at h ⊢; all_goals exact h
  | k n => intro y h; cases y <;> simp [E.same] at h ⊢; all_goals exact h
  | plus x y ihx ihy =>
    intro z h; cases z <;> simp only [E.same, Bool.and_eq_true, Bool.false_eq_true] at h
    rw [ihx h.1, ihy h.2]
  | band x y ihx ihy =>
    intro z h; cases z <;> simp only [E.same, Bool.and_eq_true, Bool.false_eq_true] at h
    rw [ihx h.1, ihy h.2]

/-! ## The equations of the final state -/

/-- the assignment is an equation between the values of the state -/
def Holds (σ : St) : S → Prop
  | .mul hi lo x y => (hi ≠ 0 → σ.reg hi = mulHi (x.eval σ) (y.eval σ)) ∧ (lo ≠ 0 → σ.reg lo = x.eval σ * y.eval σ)
  | .add s c x y z => (s ≠ 0 → σ.reg s = x.eval σ + y.eval σ + z.eval σ) ∧
      (c ≠ 0 → σ.reg c = addCarry (x.eval σ) (y.eval σ) (z.eval σ))
  | .sub d b x y z => (d ≠ 0 → σ.reg d = x.eval σ - y.eval σ - z.eval σ) ∧
      (b ≠ 0 → σ.reg b = subBorrow (x.eval σ) (y.eval σ) (z.eval σ))
  | .set n x => n ≠ 0 → σ.reg n = x.eval σ
  | .cmov n c x y => n ≠ 0 → σ.reg n = cmovMask (c.eval σ) (x.eval σ) (y.eval σ)

theorem put_arg1 (σ : St) (n v) : (σ.put n v).arg1 = σ.arg1 := by unfold St.put; split <;> rfl
theorem put_arg2 (σ : St) (n v) : (σ.put n v).arg2 = σ.arg2 := by unfold St.put; split <;> rfl
theorem put_reg_ne (σ : St) {n m : ℕ} (v) (h : m = 0 ∨ n ≠ m) : (σ.put m v).reg n = σ.reg n := by
  unfold St.put
  split
  · rfl
  · rcases h with h | h
    · contradiction
    · simp [h]
theorem put_reg_self (σ : St) {n : ℕ} (v) (h : n ≠ 0) : (σ.put n v).reg n = v := by
  unfold St.put; simp [h]

theorem exec_arg1 (σ : St) (s : S) : (s.exec σ).arg1 = σ.arg1 := by cases s <;> simp [S.exec, put_arg1]
theorem exec_arg2 (σ : St) (s : S) : (s.exec σ).arg2 = σ.arg2 := by cases s <;> simp [S.exec, put_arg2]

theorem exec_reg (σ : St) (s : S) {n : ℕ} (h1 : s.t1 = 0 ∨ n ≠ s.t1) (h2 : s.t2 = 0 ∨ n ≠ s.t2) : (s.exec σ).reg n = σ.reg n := by
  cases s <;> simp only [S.exec, S.t1, S.t2] at * <;> simp [put_reg_ne, h1, h2]

/-- the states agree on the arguments and below `n` -/
def Agree (n : ℕ) (σ τ : St) : Prop := σ.arg1 = τ.arg1 ∧ σ.arg2 = τ.arg2 ∧ ∀ m < n, σ.reg m = τ.reg m

theorem E.eval_agree {n : ℕ} {σ τ : St} (h : Agree n σ τ) : ∀ (x : E), x.under n = true → x.eval σ = x.eval τ := by
  intro x
  induction x with
  | r m => intro hx; exact h.2.2 m (nblt hx)
  | a i => intro _; simp [E.eval, h.1]
  | b i => intro _; simp [E.eval, h.2.1]
  | k w => intro _; rfl
  | plus x y ihx ihy =>
    intro hx; simp only [E.under, Bool.and_eq_true] at hx
    simp [E.eval, ihx hx.1, ihy hx.2]
  | band x y ihx ihy =>
    intro hx; simp only [E.under, Bool.and_eq_true] at hx
    simp [E.eval, ihx hx.1, ihy hx.2]

theorem ssa_cons {n : ℕ} {s : S} {l : List S} (h : ssa n (s :: l) = true) :
    s.reads n = true ∧ (s.t1 = 0 ∨ n ≤ s.t1) ∧ (s.t2 = 0 ∨ n ≤ s.t2) ∧ (s.t1 = 0 ∨ s.t1 ≠ s.t2) ∧
      ssa (max n (max (s.t1 + 1) (s.t2 + 1))) l = true := by
  simp only [ssa, Bool.and_eq_true, Bool.or_eq_true] at h
  obtain ⟨⟨⟨⟨h1, h2⟩, h3⟩, h4⟩, h5⟩ := h
  exact ⟨h1, h2.imp nbeq nble, h3.imp nbeq nble, h4.imp nbeq nbne, h5⟩

theorem fold_agree : ∀ (l : List S) (n : ℕ) (σ : St), ssa n l = true → Agree n σ (l.foldl S.exec σ)
  | [], _, _, _ => ⟨rfl, rfl, fun _ _ => rfl⟩
  | s :: l, n, σ, h => by
    obtain ⟨_, h1, h2, _, h5⟩ := ssa_cons h
    have ih := fold_agree l _ (s.exec σ) h5
    refine ⟨?_, ?_, fun m hm => ?_⟩
    · rw [List.foldl_cons, ← ih.1, exec_arg1]
    · rw [List.foldl_cons, ← ih.2.1, exec_arg2]
    · rw [List.foldl_cons, ← ih.2.2 m (lt_of_lt_of_le hm (le_max_left _ _)), exec_reg]
      · rcases h1 with h | h
        · exact .inl h
        · right; omega
      · rcases h2 with h | h
        · exact .inl h
        · right; omega

theorem fold_holds : ∀ (l : List S) (n : ℕ) (σ : St), ssa n l = true → 1 ≤ n → ∀ s ∈ l, Holds (l.foldl S.exec σ) s
  | [], _, _, _, _ => by simp
  | s :: l, n, σ, h, hn => by
    have hag := fold_agree (s :: l) n σ h
    obtain ⟨h0, h1, h2, h4, h5⟩ := ssa_cons h
    have ih := fold_agree l _ (s.exec σ) h5
    have hr1 : s.t1 ≠ 0 → ((s :: l).foldl S.exec σ).reg s.t1 = (s.exec σ).reg s.t1 := fun _ =>
      (ih.2.2 _ (by omega)).symm
    have hr2 : s.t2 ≠ 0 → ((s :: l).foldl S.exec σ).reg s.t2 = (s.exec σ).reg s.t2 := fun _ =>
      (ih.2.2 _ (by omega)).symm
    have hev : ∀ x : E, x.under n = true → x.eval ((s :: l).foldl S.exec σ) = x.eval σ := fun x hx => (E.eval_agree hag x hx).symm
    intro u hu
    rcases List.mem_cons.1 hu with rfl | hu
    · generalize (u :: l).foldl S.exec σ = τ at *
      cases u with
      | mul hi lo x y =>
        simp only [S.reads, Bool.and_eq_true, S.t1, S.t2, S.exec] at *
        refine ⟨fun hz => ?_, fun hz => ?_⟩
        · rw [hr1 hz, put_reg_ne _ _ (by omega), put_reg_self _ _ hz, hev x h0.1, hev y h0.2]
        · rw [hr2 hz, put_reg_self _ _ hz, hev x h0.1, hev y h0.2]
      | add s c x y z =>
        simp only [S.reads, Bool.and_eq_true, S.t1, S.t2, S.exec] at *
        refine ⟨fun hz => ?_, fun hz => ?_⟩
        · rw [hr1 hz, put_reg_ne _ _ (by omega), put_reg_self _ _ hz, hev x h0.1.1, hev y h0.1.2, hev z h0.2]
        · rw [hr2 hz, put_reg_self _ _ hz, hev x h0.1.1, hev y h0.1.2, hev z h0.2]
      | sub d b x y z =>
        simp only [S.reads, Bool.and_eq_true, S.t1, S.t2, S.exec] at *
        refine ⟨fun hz => ?_, fun hz => ?_⟩
        · rw [hr1 hz, put_reg_ne _ _ (by omega), put_reg_self _ _ hz, hev x h0.1.1, hev y h0.1.2, hev z h0.2]
        · rw [hr2 hz, put_reg_self _ _ hz, hev x h0.1.1, hev y h0.1.2, hev z h0.2]
      | set m x =>
        simp only [S.reads, S.t1, S.t2, S.exec] at *
        intro hz
        rw [hr1 hz, put_reg_self _ _ hz, hev x h0]
      | cmov m c x y =>
        simp only [S.reads, Bool.and_eq_true, S.t1, S.t2, S.exec] at *
        intro hz
        rw [hr1 hz, put_reg_self _ _ hz, hev c h0.1.1, hev x h0.1.2, hev y h0.2]
    · rw [List.foldl_cons]
      exact fold_holds l _ _ h5 (le_trans hn (le_max_left _ _)) u hu

/-! ## Equations between natural numbers -/

/-- the value of an expression as a number -/
def E.nv (σ : St) (x : E) : ℕ := (x.eval σ).toNat

theorem E.nv_lt (σ : St) (x : E) : x.nv σ < W := UInt64.toNat_lt _

theorem nv_k (σ : St) (w : ℕ) : (E.k w).nv σ = w % W := by
  simp only [E.nv, E.eval, UInt64.toNat_ofNat']

theorem mulHi_eq (x y : UInt64) : (mulHi x y).toNat * W + (x * y).toNat = x.toNat * y.toNat := by
  have hx := x.toNat_lt; have hy := y.toNat_lt
  have h : x.toNat * y.toNat / 2 ^ 64 < 2 ^ 64 := by
    rw [Nat.div_lt_iff_lt_mul (by norm_num)]
    exact Nat.mul_lt_mul'' hx hy
  rw [mulHi, UInt64.toNat_ofNat', Nat.mod_eq_of_lt h, UInt64.toNat_mul, Nat.mul_comm _ W]
  exact Nat.div_add_mod _ _

theorem mulHi_le (x y : UInt64) : (mulHi x y).toNat ≤ W - 2 := by
  have hx := x.toNat_lt; have hy := y.toNat_lt
  have h := mulHi_eq x y
  have h2 : x.toNat * y.toNat ≤ (2 ^ 64 - 1) * (2 ^ 64 - 1) := Nat.mul_le_mul (by omega) (by omega)
  by_contra hc
  have : W - 1 ≤ (mulHi x y).toNat := by omega
  have := Nat.mul_le_mul_right W this
  norm_num [W] at *
  omega

theorem mulHi_le' (x y : UInt64) : (mulHi x y).toNat ≤ y.toNat - 1 := by
  have hx := x.toNat_lt; have hy := y.toNat_lt
  have h := mulHi_eq x y
  rcases Nat.eq_zero_or_pos y.toNat with h0 | h0
  · rw [h0, Nat.mul_zero] at h
    have h1 := (Nat.add_eq_zero_iff.1 h).1
    rcases Nat.mul_eq_zero.1 h1 with h1 | h1
    · rw [h1]; exact Nat.zero_le _
    · norm_num at h1
  · have h2 : x.toNat * y.toNat < W * y.toNat := Nat.mul_lt_mul_of_pos_right hx h0
    by_contra hc
    have : y.toNat ≤ (mulHi x y).toNat := by omega
    have := Nat.mul_le_mul_right W this
    rw [Nat.mul_comm _ W] at this
    omega

theorem mulLo_le (x : UInt64) (w : ℕ) : (x * UInt64.ofNat w).toNat ≤ W - Nat.gcd w W := by
  have h1 : (x * UInt64.ofNat w).toNat = x.toNat * w % W := by
    rw [UInt64.toNat_mul, UInt64.toNat_ofNat']; exact Nat.mul_mod_mod _ _ _
  rw [h1]
  have hd : Nat.gcd w W ∣ x.toNat * w % W :=
    (Nat.dvd_mod_iff (Nat.gcd_dvd_right w W)).2 (Dvd.dvd.mul_left (Nat.gcd_dvd_left w W) _)
  have hlt : x.toNat * w % W < W := Nat.mod_lt _ (by norm_num)
  have hdW := Nat.gcd_dvd_right w W
  have := Nat.le_of_dvd (Nat.sub_pos_of_lt hlt) (Nat.dvd_sub hdW hd)
  omega

theorem add_eq (x y z : UInt64) : (x + y + z).toNat + W * (addCarry x y z).toNat = x.toNat + y.toNat + z.toNat := by
  have hx := x.toNat_lt; have hy := y.toNat_lt; have hz := z.toNat_lt
  rw [addCarry, UInt64.toNat_ofNat', UInt64.toNat_add, UInt64.toNat_add]
  simp only [W]; omega

theorem addCarry_le (x y z : UInt64) : (addCarry x y z).toNat ≤ 2 := by
  have hx := x.toNat_lt; have hy := y.toNat_lt; have hz := z.toNat_lt
  rw [addCarry, UInt64.toNat_ofNat']; omega

theorem addCarry_le' (x y z : UInt64) (h : z.toNat ≤ 1) : (addCarry x y z).toNat ≤ 1 := by
  have hx := x.toNat_lt; have hy := y.toNat_lt
  rw [addCarry, UInt64.toNat_ofNat']; omega

theorem subBorrow_le (x y z : UInt64) : (subBorrow x y z).toNat ≤ 1 := by
  unfold subBorrow; split <;> simp

theorem sub_eq (x y z : UInt64) (h : z.toNat ≤ 1) :
    (x - y - z).toNat + y.toNat + z.toNat = x.toNat + W * (subBorrow x y z).toNat := by
  have hx := x.toNat_lt; have hy := y.toNat_lt
  rw [UInt64.toNat_sub, UInt64.toNat_sub]
  unfold subBorrow
  split <;> simp [W] <;> omega

theorem subBorrow_toNat (x y z : UInt64) : (subBorrow x y z).toNat = if x.toNat < y.toNat + z.toNat then 1 else 0 := by
  unfold subBorrow; split <;> simp

theorem cmovMask_zero (x y : UInt64) : cmovMask 0 x y = x := by simp [cmovMask]
theorem cmovMask_one (x y : UInt64) : cmovMask 1 x y = y := by
  have : (0 - 1 : UInt64) &&& 0xffffffffffffffff = -1 := by decide
  simp only [cmovMask, this]
  simp

/-- the two forms of the conditional move agree -/
theorem cmovMul_eq (c x y : UInt64) : cmovMul c x y = cmovMask c x y := by
  have h1 : c * 0xffffffffffffffff = 0 - c := by
    rw [show (0xffffffffffffffff : UInt64) = -1 by decide, UInt64.mul_neg, UInt64.mul_one, UInt64.zero_sub]
  have h2 : (0 - c) &&& 0xffffffffffffffff = 0 - c := by
    rw [show (0xffffffffffffffff : UInt64) = -1 by decide]; simp
  simp only [cmovMul, cmovMask, h1, h2]

theorem cmov_nv (c x y : UInt64) (h : c.toNat ≤ 1) : (cmovMask c x y).toNat = if c.toNat = 0 then x.toNat else y.toNat := by
  rcases Nat.le_one_iff_eq_zero_or_eq_one.1 h with h | h
  · have : c = 0 := UInt64.toNat_inj.1 h
    subst this; simp [cmovMask_zero]
  · have : c = 1 := UInt64.toNat_inj.1 h
    subst this; simp [cmovMask_one]

/-! ## Bounds -/

theorem findDef_some {n : ℕ} : ∀ {l : List S} {s : S}, findDef n l = some s → s ∈ l ∧ (s.t1 = n ∨ s.t2 = n)
  | [], _, h => by simp [findDef] at h
  | u :: l, s, h => by
    unfold findDef at h
    split at h
    · rename_i hc
      simp only [Bool.or_eq_true] at hc
      cases h
      exact ⟨List.mem_cons_self, hc.imp nbeq nbeq⟩
    · exact ⟨List.mem_cons_of_mem _ (findDef_some h).1, (findDef_some h).2⟩

variable {code : List S} {σ : St}

theorem bnd_le (H : ∀ s ∈ code, Holds σ s) : ∀ (f : ℕ) (x : E), x.nv σ ≤ bnd code f x := by
  have hW : ∀ x : E, x.nv σ ≤ W - 1 := fun x => by have := x.nv_lt σ; omega
  intro f
  induction f with
  | zero => intro x; exact hW x
  | succ f ih =>
    intro x
    cases x with
    | k w => rw [nv_k]; exact Nat.mod_le _ _
    | a i => exact hW _
    | b i => exact hW _
    | band x y => exact hW _
    | plus x y =>
      have h : (E.plus x y).nv σ ≤ x.nv σ + y.nv σ := by
        simp only [E.nv, E.eval, UInt64.toNat_add]; exact Nat.mod_le _ _
      exact h.trans (Nat.add_le_add (ih x) (ih y))
    | r n =>
      unfold bnd
      simp only
      split
      · exact hW _
      · rename_i m hi lo u y hd
        obtain ⟨hm, ht⟩ := findDef_some hd
        have hh := H _ hm
        simp only [Holds, S.t1, S.t2] at hh ht
        split
        · rename_i hc
          have hc : _ = m + 1 := nbeq hc
          have hv : (E.r (m+1)).nv σ = (mulHi (u.eval σ) (y.eval σ)).toNat := by
            simp only [E.nv, E.eval]; rw [← hc, hh.1 (by omega)]
          rw [hv]
          split
          · rename_i w
            refine (mulHi_le' _ _).trans ?_
            have : (E.eval σ (.k w)).toNat ≤ w := by simp [E.eval]; exact Nat.mod_le _ _
            omega
          · exact mulHi_le _ _
        · rename_i hc
          have hc : lo = m + 1 := by
            rcases ht with h | h
            · rw [h] at hc; simp at hc
            · exact h
          split
          · rename_i w
            have hv : (E.r (m+1)).nv σ = (u.eval σ * UInt64.ofNat w).toNat := by
              simp only [E.nv, E.eval]; rw [← hc, hh.2 (by omega)]; rfl
            rw [hv]
            exact mulLo_le _ _
          · exact hW _
      · rename_i m s c u y z hd
        obtain ⟨hm, ht⟩ := findDef_some hd
        have hh := H _ hm
        simp only [Holds] at hh
        split
        · rename_i hc
          have hc : _ = m + 1 := nbeq hc
          have hv : (E.r (m+1)).nv σ = (addCarry (u.eval σ) (y.eval σ) (z.eval σ)).toNat := by
            simp only [E.nv, E.eval]; rw [← hc, hh.2 (by omega)]
          rw [hv]
          split
          · rename_i hb
            exact addCarry_le' _ _ _ ((ih z).trans (nble hb))
          · exact addCarry_le _ _ _
        · exact hW _
      · rename_i m d b u y z hd
        obtain ⟨hm, ht⟩ := findDef_some hd
        have hh := H _ hm
        simp only [Holds] at hh
        split
        · rename_i hc
          have hc : _ = m + 1 := nbeq hc
          have hv : (E.r (m+1)).nv σ = (subBorrow (u.eval σ) (y.eval σ) (z.eval σ)).toNat := by
            simp only [E.nv, E.eval]; rw [← hc, hh.2 (by omega)]
          rw [hv]; exact subBorrow_le _ _ _
        · exact hW _
      · rename_i m n u hd
        obtain ⟨hm, ht⟩ := findDef_some hd
        have hh := H _ hm
        simp only [Holds, S.t1, S.t2] at hh ht
        have hn : n = m + 1 := by omega
        have hv : (E.r (m+1)).nv σ = u.nv σ := by
          simp only [E.nv, E.eval]; rw [← hn, hh (by omega)]
        rw [hv]; exact ih u
      · exact hW _

/-! ## Linear forms -/

/-- the value of an atom -/
def At.val (σ : St) : At → ℕ
  | .one => 1
  | .e x => x.nv σ
  | .q x => x.nv σ
  | .pr x y => x.nv σ * y.nv σ

/-- the value of a linear form -/
def lval (σ : St) : LF → ℕ
  | [] => 0
  | (c, a) :: l => c * a.val σ + lval σ l

theorem At.same_eq {a b : At} (h : a.same b = true) : a = b := by
  cases a <;> cases b <;> simp only [At.same, Bool.and_eq_true, Bool.false_eq_true] at h
  · rfl
  · rw [E.same_eq h]
  · rw [E.same_eq h]
  · rw [E.same_eq h.1, E.same_eq h.2]

theorem lval_ins (c : ℕ) (a : At) : ∀ L : LF, lval σ (ins c a L) = c * a.val σ + lval σ L
  | [] => rfl
  | (d, b) :: l => by
    unfold ins
    split
    · rename_i h
      have := At.same_eq h
      subst this
      simp only [lval]; ring
    · simp only [lval, lval_ins c a l]; ring

theorem lval_pick (a : At) : ∀ L : LF, lval σ L = (pick a L).1 * a.val σ + lval σ (pick a L).2
  | [] => by simp [pick, lval]
  | (d, b) :: l => by
    unfold pick
    split
    · rename_i h
      have := At.same_eq h
      subst this
      rfl
    · simp only [lval, lval_pick a l]; ring

theorem lin_val (H : ∀ s ∈ code, Holds σ s) (c : ℕ) : ∀ (x : E) (L L' : LF), lin code c x L = some L' →
    lval σ L' = c * x.nv σ + lval σ L := by
  intro x
  induction x with
  | r n => intro L L' h; cases h; exact lval_ins _ _ _
  | a n => intro L L' h; cases h; exact lval_ins _ _ _
  | b n => intro L L' h; cases h; exact lval_ins _ _ _
  | k w =>
    intro L L' h
    unfold lin at h
    split at h
    · rename_i hw
      cases h
      rw [lval_ins, nv_k, Nat.mod_eq_of_lt (nblt hw)]; simp [At.val]
    · cases h
  | band x y => intro L L' h; simp [lin] at h
  | plus x y ihx ihy =>
    intro L L' h
    unfold lin at h
    split at h
    · rename_i hb
      have hb := nblt hb
      have hx := bnd_le H fuel x
      have hy := bnd_le H fuel y
      split at h
      · rename_i L1 h1
        rw [ihy _ _ h, ihx _ _ h1]
        have : (E.plus x y).nv σ = x.nv σ + y.nv σ := by
          simp only [E.nv, E.eval, UInt64.toNat_add] at *
          exact Nat.mod_eq_of_lt (lt_of_le_of_lt (Nat.add_le_add hx hy) hb)
        rw [this]; ring
      · cases h
    · cases h

theorem prod_val (c : ℕ) (x y : E) (L L' : LF) (h : prod c x y L = some L') :
    lval σ L' = c * (x.nv σ * y.nv σ) + lval σ L := by
  unfold prod at h
  split at h
  · split at h
    · rename_i hw
      cases h
      rw [lval_ins, nv_k, Nat.mod_eq_of_lt (nblt hw)]
      simp only [At.val]; ring
    · cases h
  · cases h; exact lval_ins _ _ _

theorem rep_nv {n : ℕ} {e : E} (h : σ.reg n = e.eval σ) (x : E) : (rep n e x).nv σ = x.nv σ := by
  unfold rep
  split
  · split
    · rename_i hc
      rw [nbeq hc]; simp [E.nv, E.eval, h]
    · rfl
  · rfl

theorem At.rep_val {n : ℕ} {e : E} (h : σ.reg n = e.eval σ) (a : At) : (a.rep n e).val σ = a.val σ := by
  cases a <;> simp [At.rep, At.val, rep_nv h]

theorem lval_rep {n : ℕ} {e : E} (h : σ.reg n = e.eval σ) : ∀ L : LF, lval σ (L.map fun t => (t.1, t.2.rep n e)) = lval σ L
  | [] => rfl
  | (c, a) :: l => by simp only [List.map_cons, lval, At.rep_val h, lval_rep h l]

theorem vanish_val (H : ∀ s ∈ code, Holds σ s) (x y : E) (h : vanish code x y = true) : (x.nv σ + y.nv σ) % W = 0 := by
  unfold vanish at h
  split at h
  · cases h
  · rename_i lo hlo
    split at h
    · rename_i hi lo' q m0 hd
      obtain ⟨hm, ht⟩ := findDef_some hd
      have hh := H _ hm
      simp only [Bool.and_eq_true, Bool.or_eq_true] at h
      obtain ⟨⟨h1, h2⟩, h3⟩ := h
      have h1 := nbeq h1
      have hy : (E.r lo).nv σ = q.nv σ * m0 % W := by
        have := hh.2 (by rw [h1]; exact hlo)
        simp only [E.nv, E.eval]
        rw [← h1, this]
        simp only [E.eval, UInt64.toNat_mul, UInt64.toNat_ofNat']; exact Nat.mul_mod_mod _ _ _
      rw [hy]
      rcases h3 with ⟨h3, h4⟩ | h3
      · have h3 := E.same_eq h3
        have h4 := nbeq h4
        subst h3
        rw [Nat.add_mod_mod, show q.nv σ + q.nv σ * m0 = q.nv σ * (m0 + 1) by ring, Nat.mul_mod, h4]; simp
      · split at h3
        · cases h3
        · rename_i q' hq'
          split at h3
          · rename_i hi' q'' x' m' hd'
            obtain ⟨hm', ht'⟩ := findDef_some hd'
            have hh' := H _ hm'
            simp only [Bool.and_eq_true] at h3
            obtain ⟨⟨⟨h3, h4⟩, h5⟩, h6⟩ := h3
            have h3 := nbeq h3
            have h5 := E.same_eq h5
            have h6 := nbeq h6
            subst h5
            have hqv : (E.r q').nv σ = x'.nv σ * m' % W := by
              have := hh'.2 (by rw [h3]; exact hq')
              simp only [E.nv, E.eval]
              rw [← h3, this]
              simp only [E.eval, UInt64.toNat_mul, UInt64.toNat_ofNat']; exact Nat.mul_mod_mod _ _ _
            rw [hqv, Nat.mod_mul_mod, Nat.add_mod_mod, show x'.nv σ + x'.nv σ * m' * m0 = x'.nv σ * (m' * m0 + 1) by ring,
              Nat.mul_mod, h6]; simp
          · cases h3
        · cases h3
    · cases h
  · cases h

theorem step_val (H : ∀ s ∈ code, Holds σ s) (s : S) (hs : Holds σ s) (L L' : LF) (h : step code s L = some L') :
    lval σ L' = lval σ L := by
  cases s with
  | mul hi lo x y =>
    simp only [step] at h
    split at h
    · cases h
    split at h
    · cases h; rfl
    rename_i hlo hhi
    have hlo : lo ≠ 0 := by rintro rfl; simp at hlo
    have hhi : hi ≠ 0 := by rintro rfl; simp at hhi
    have e1 : (E.r hi).nv σ * W + (E.r lo).nv σ = x.nv σ * y.nv σ := by
      simp only [E.nv]
      rw [show (E.r hi).eval σ = _ from hs.1 hhi, show (E.r lo).eval σ = _ from hs.2 hlo]
      exact mulHi_eq _ _
    have hp := lval_pick (σ := σ) (.e (.r hi)) L
    have hq := lval_pick (σ := σ) (.e (.r lo)) (pick (.e (.r hi)) L).2
    split at h
    · rename_i hc
      have hc := nbeq hc
      simp only [At.val] at hp hq
      rw [hp, hq, hc]
      split at h
      · rename_i h0
        cases h
        rw [nbeq h0]; ring
      · rw [prod_val _ _ _ _ _ h, ← e1]; ring
    · cases h
  | add s c x y z =>
    simp only [step] at h
    split at h
    · cases h
    rename_i hc0
    have hc0 : c ≠ 0 := by rintro rfl; simp at hc0
    have hp := lval_pick (σ := σ) (.e (.r c)) L
    split at h
    · rename_i hs0
      split at h
      · rename_i h0
        cases h
        rw [hp, nbeq h0]; simp
      · split at h
        · rename_i hcond
          simp only [Bool.and_eq_true] at hcond
          obtain ⟨⟨hd, hz⟩, hv⟩ := hcond
          have hz := E.same_eq hz
          subst hz
          have hv := vanish_val H x y hv
          have hcv : (E.r c).nv σ * W = x.nv σ + y.nv σ := by
            simp only [E.nv] at hv ⊢
            rw [show (E.r c).eval σ = _ from hs.2 hc0]
            have := add_eq (x.eval σ) (y.eval σ) (E.eval σ (.k 0))
            have hk : (E.eval σ (.k 0)).toNat = 0 := rfl
            rw [UInt64.toNat_add, UInt64.toNat_add, hk] at this
            simp only [Nat.add_zero, Nat.mod_mod] at this
            rw [hv] at this
            rw [Nat.mul_comm]; omega
          split at h
          · rename_i L1 h1
            rw [lin_val H _ _ _ _ h, lin_val H _ _ _ _ h1, hp]
            have hdiv : (pick (.e (.r c)) L).1 = (pick (.e (.r c)) L).1 / W * W := by
              rw [Nat.div_mul_cancel (Nat.dvd_of_mod_eq_zero (nbeq hd))]
            simp only [At.val]
            generalize (pick (.e (.r c)) L).1 / W = d at *
            rw [hdiv, Nat.mul_assoc, Nat.mul_comm W, hcv]; ring
          · cases h
        · cases h
    · rename_i hs0
      have hs0 : s ≠ 0 := by rintro rfl; simp at hs0
      have e1 : (E.r s).nv σ + W * (E.r c).nv σ = x.nv σ + y.nv σ + z.nv σ := by
        simp only [E.nv]
        rw [show (E.r s).eval σ = _ from hs.1 hs0, show (E.r c).eval σ = _ from hs.2 hc0]
        exact add_eq _ _ _
      have hq := lval_pick (σ := σ) (.e (.r s)) (pick (.e (.r c)) L).2
      split at h
      · rename_i hc
        have hc := nbeq hc
        simp only [At.val] at hp hq
        rw [hp, hq, hc]
        split at h
        · rename_i h0
          cases h
          rw [nbeq h0]; ring
        · split at h
          · rename_i L1 h1
            split at h
            · rename_i L2 h2
              rw [lin_val H _ _ _ _ h, lin_val H _ _ _ _ h2, lin_val H _ _ _ _ h1]
              generalize (pick (At.e (E.r s)) (pick (At.e (E.r c)) L).2).1 = q
              have e2 : q * (E.r s).nv σ + q * (W * (E.r c).nv σ) = q * x.nv σ + q * y.nv σ + q * z.nv σ := by
                rw [← Nat.mul_add, e1, Nat.mul_add, Nat.mul_add]
              rw [Nat.mul_comm W q, Nat.mul_assoc]
              omega
            · cases h
          · cases h
      · cases h
  | sub d b x y z => cases h; rfl
  | set n x =>
    simp only [step] at h
    split at h
    · cases h
    rename_i hn
    have hn : n ≠ 0 := by rintro rfl; simp at hn
    have he := hs hn
    have hp := lval_pick (σ := σ) (.e (.r n)) L
    split at h
    · rename_i h0
      cases h
      rw [lval_rep he, hp, nbeq h0]; simp
    · rw [lin_val H _ _ _ _ h, lval_rep he, hp]
      simp [At.val, E.nv, E.eval, he]
  | cmov n c x y => cases h; rfl

theorem steps_val (H : ∀ s ∈ code, Holds σ s) : ∀ (l : List S) (L L' : LF), (∀ s ∈ l, Holds σ s) → steps code l L = some L' →
    lval σ L' = lval σ L
  | [], L, L', _, h => by cases h; rfl
  | s :: l, L, L', hl, h => by
    unfold steps at h
    split at h
    · rename_i L1 h1
      rw [steps_val H l L1 L' (fun u hu => hl u (List.mem_cons_of_mem _ hu)) h, step_val H s (hl s List.mem_cons_self) _ _ h1]
    · cases h

theorem lval_flat : ∀ L : LF, lval σ (flat L) = lval σ L
  | [] => rfl
  | (c, .q x) :: l => by simp only [flat, lval_ins, lval, lval_flat l, At.val]
  | (c, .one) :: l => by simp only [flat, lval_ins, lval, lval_flat l]
  | (c, .e _) :: l => by simp only [flat, lval_ins, lval, lval_flat l]
  | (c, .pr _ _) :: l => by simp only [flat, lval_ins, lval, lval_flat l]

theorem remove_val : ∀ (ex L L' : LF), remove ex L = some L' → lval σ L = lval σ ex + lval σ L'
  | [], L, L', h => by cases h; simp [lval]
  | (c, a) :: l, L, L', h => by
    unfold remove at h
    simp only at h
    split at h
    · rename_i hc
      have hc := nble hc
      have ih := remove_val l _ _ h
      rw [lval_pick a L]
      simp only [lval]
      split at ih
      · rename_i h0
        rw [← nbeq h0, ih]; ring
      · simp only [lval] at ih
        rw [Nat.add_assoc, ← ih]
        obtain ⟨d, hd⟩ := Nat.exists_eq_add_of_le hc
        rw [hd, Nat.add_sub_cancel_left]; ring
    · cases h

theorem quot_val (m : ℕ) : ∀ (L : LF) (q : ℕ), quot m L = some q → ∃ Q, lval σ L = m * Q ∧ Q ≤ q
  | [], q, h => ⟨0, by simp [lval], Nat.zero_le _⟩
  | (c, a) :: l, q, h => by
    unfold quot at h
    split at h
    · rename_i hc
      have hc := Nat.mul_div_cancel' (Nat.dvd_of_mod_eq_zero (nbeq hc))
      split at h
      · rename_i n hq
        cases h
        obtain ⟨Q, h1, h2⟩ := quot_val m l n hq
        refine ⟨c / m + Q, ?_, Nat.add_le_add_left h2 _⟩
        simp only [lval, At.val, h1]
        rw [Nat.mul_add, hc]; ring
      · rename_i x n hq
        cases h
        obtain ⟨Q, h1, h2⟩ := quot_val m l n hq
        have hx := x.nv_lt σ
        refine ⟨c / m * x.nv σ + Q, ?_, Nat.add_le_add (Nat.mul_le_mul_left _ (by omega)) h2⟩
        simp only [lval, At.val, h1]
        rw [Nat.mul_add, ← Nat.mul_assoc, hc]
      · cases h
    · cases h

/-! ## The final subtraction -/

theorem isSub_holds (H : ∀ s ∈ code, Holds σ s) {d b : ℕ} {x y z : E} (h : isSub code d b x y z = true) : Holds σ (.sub d b x y z) := by
  unfold isSub at h
  obtain ⟨s, hs, h⟩ := List.any_eq_true.1 h
  cases s <;> simp only [Bool.and_eq_true, Bool.false_eq_true] at h
  obtain ⟨⟨⟨⟨h1, h2⟩, h3⟩, h4⟩, h5⟩ := h
  rw [nbeq h1, nbeq h2, E.same_eq h3, E.same_eq h4, E.same_eq h5]
  exact H _ hs

theorem isAdd_holds (H : ∀ s ∈ code, Holds σ s) {d b : ℕ} {x y z : E} (h : isAdd code d b x y z = true) : Holds σ (.add d b x y z) := by
  unfold isAdd at h
  obtain ⟨s, hs, h⟩ := List.any_eq_true.1 h
  cases s <;> simp only [Bool.and_eq_true, Bool.false_eq_true] at h
  obtain ⟨⟨⟨⟨h1, h2⟩, h3⟩, h4⟩, h5⟩ := h
  rw [nbeq h1, nbeq h2, E.same_eq h3, E.same_eq h4, E.same_eq h5]
  exact H _ hs

theorem isCmov_holds (H : ∀ s ∈ code, Holds σ s) {n : ℕ} {c x y : E} (h : isCmov code n c x y = true) : Holds σ (.cmov n c x y) := by
  unfold isCmov at h
  obtain ⟨s, hs, h⟩ := List.any_eq_true.1 h
  cases s <;> simp only [Bool.and_eq_true, Bool.false_eq_true] at h
  obtain ⟨⟨⟨h1, h2⟩, h3⟩, h4⟩ := h
  rw [nbeq h1, E.same_eq h2, E.same_eq h3, E.same_eq h4]
  exact H _ hs

theorem sub_nv {d b : ℕ} {x y z : E} (h : Holds σ (.sub d b x y z)) (hd : d ≠ 0) (hb : b ≠ 0) (hz : z.nv σ ≤ 1) :
    (E.r d).nv σ + y.nv σ + z.nv σ = x.nv σ + W * (E.r b).nv σ ∧ (E.r b).nv σ ≤ 1 := by
  simp only [E.nv] at *
  rw [show (E.r d).eval σ = _ from h.1 hd, show (E.r b).eval σ = _ from h.2 hb]
  exact ⟨sub_eq _ _ _ hz, subBorrow_le _ _ _⟩

theorem borrow_nv {d b : ℕ} {x y z : E} (h : Holds σ (.sub d b x y z)) (hb : b ≠ 0) :
    (E.r b).nv σ = if x.nv σ < y.nv σ + z.nv σ then 1 else 0 := by
  simp only [E.nv] at *
  rw [show (E.r b).eval σ = _ from h.2 hb]
  exact subBorrow_toNat _ _ _

theorem add_nv {s c : ℕ} {x y z : E} (h : Holds σ (.add s c x y z)) (hs : s ≠ 0) (hc : c ≠ 0) :
    (E.r s).nv σ + W * (E.r c).nv σ = x.nv σ + y.nv σ + z.nv σ := by
  simp only [E.nv] at *
  rw [show (E.r s).eval σ = _ from h.1 hs, show (E.r c).eval σ = _ from h.2 hc]
  exact add_eq _ _ _

theorem add_nv' {s c : ℕ} {x y z : E} (h : Holds σ (.add s c x y z)) (hs : s ≠ 0) :
    ∃ c', (E.r s).nv σ + W * c' = x.nv σ + y.nv σ + z.nv σ := by
  refine ⟨(addCarry (x.eval σ) (y.eval σ) (z.eval σ)).toNat, ?_⟩
  simp only [E.nv] at *
  rw [show (E.r s).eval σ = _ from h.1 hs]
  exact add_eq _ _ _

theorem cmov_holds_nv {n : ℕ} {c x y : E} (h : Holds σ (.cmov n c x y)) (hn : n ≠ 0) (hc : c.nv σ ≤ 1) :
    (E.r n).nv σ = if c.nv σ = 0 then x.nv σ else y.nv σ := by
  simp only [E.nv] at *
  rw [show (E.r n).eval σ = _ from h hn]
  exact cmov_nv _ _ _ hc

/-- the value of four words -/
abbrev v4 (x0 x1 x2 x3 : ℕ) : ℕ := x0 + W * x1 + W ^ 2 * x2 + W ^ 3 * x3

theorem v4_lt {x0 x1 x2 x3 : ℕ} (h0 : x0 < W) (h1 : x1 < W) (h2 : x2 < W) (h3 : x3 < W) : v4 x0 x1 x2 x3 < W ^ 4 := by
  simp only [v4, W] at *; omega

theorem word_v4 {m : ℕ} (hm : m < W ^ 4) : v4 (word m 0) (word m 1) (word m 2) (word m 3) = m := by
  simp only [v4, word, W] at *; omega

theorem word_lt (m i : ℕ) : word m i < W := Nat.mod_lt _ (by norm_num)

/-- the arithmetic of the final subtraction -/
theorem tail_arith {t0 t1 t2 t3 t4 d0 d1 d2 d3 b0 b1 b2 b3 m0 m1 m2 m3 : ℕ}
    (hd0 : d0 < W) (hd1 : d1 < W) (hd2 : d2 < W) (hd3 : d3 < W)
    (ht0 : t0 < W) (ht1 : t1 < W) (ht2 : t2 < W) (ht3 : t3 < W)
    (h0 : d0 + m0 = t0 + W * b0) (h1 : d1 + m1 + b0 = t1 + W * b1) (h2 : d2 + m2 + b1 = t2 + W * b2)
    (h3 : d3 + m3 + b2 = t3 + W * b3) (hb3 : b3 ≤ 1)
    (hT : v4 t0 t1 t2 t3 + W ^ 4 * t4 < 2 * v4 m0 m1 m2 m3) (hm : v4 m0 m1 m2 m3 < W ^ 4) :
    (if t4 < b3 then v4 t0 t1 t2 t3 else v4 d0 d1 d2 d3) = (v4 t0 t1 t2 t3 + W ^ 4 * t4) % v4 m0 m1 m2 m3 := by
  have hD : v4 d0 d1 d2 d3 + v4 m0 m1 m2 m3 = v4 t0 t1 t2 t3 + W ^ 4 * b3 := by
    simp only [v4, W] at *; omega
  have hd := v4_lt hd0 hd1 hd2 hd3
  have ht := v4_lt ht0 ht1 ht2 ht3
  generalize v4 d0 d1 d2 d3 = D at *
  generalize v4 t0 t1 t2 t3 = T at *
  generalize v4 m0 m1 m2 m3 = M at *
  have hW4 : 0 < W ^ 4 := by norm_num
  generalize W ^ 4 = U at *
  have ht4 : t4 ≤ 1 := by
    by_contra hc
    have : U * 2 ≤ U * t4 := Nat.mul_le_mul_left _ (by omega)
    omega
  rcases Nat.le_one_iff_eq_zero_or_eq_one.1 hb3 with rfl | rfl <;>
    rcases Nat.le_one_iff_eq_zero_or_eq_one.1 ht4 with rfl | rfl
  · rw [if_neg (by omega)]
    have : T + U * 0 = D + M := by omega
    rw [this, Nat.add_mod_right, Nat.mod_eq_of_lt (by omega)]
  · omega
  · rw [if_pos (by omega), Nat.mul_zero, Nat.add_zero, Nat.mod_eq_of_lt (by omega)]
  · rw [if_neg (by omega)]
    have : T + U * 1 = D + M := by omega
    rw [this, Nat.add_mod_right, Nat.mod_eq_of_lt (by omega)]

theorem Limbs.val_v4 (x : Limbs) : x.val = v4 x.l0.toNat x.l1.toNat x.l2.toNat x.l3.toNat := by
  simp only [Limbs.val, v4, W]; ring

theorem run_val {p : Prog} {x y : Limbs} {o0 o1 o2 o3 : ℕ} (h : outIs p o0 o1 o2 o3 = true) :
    (p.run x y).val = v4 ((E.r o0).nv (p.final x y)) ((E.r o1).nv (p.final x y)) ((E.r o2).nv (p.final x y)) ((E.r o3).nv (p.final x y)) := by
  unfold outIs at h
  split at h
  · rename_i e0 e1 e2 e3 he
    simp only [Bool.and_eq_true] at h
    obtain ⟨⟨⟨h0, h1⟩, h2⟩, h3⟩ := h
    rw [Limbs.val_v4]
    simp only [Prog.run, he, E.nv]
    rw [E.same_eq h0, E.same_eq h1, E.same_eq h2, E.same_eq h3]
    rfl
  · cases h

theorem final_holds {p : Prog} (h : ssa 1 p.code = true) (x y : Limbs) : ∀ s ∈ p.code, Holds (p.final x y) s :=
  fold_holds p.code 1 _ h le_rfl

theorem final_arg1 {p : Prog} (h : ssa 1 p.code = true) (x y : Limbs) : (p.final x y).arg1 = x := (fold_agree p.code 1 _ h).1.symm
theorem final_arg2 {p : Prog} (h : ssa 1 p.code = true) (x y : Limbs) : (p.final x y).arg2 = y := (fold_agree p.code 1 _ h).2.1.symm

theorem nonzero_mem {l : List ℕ} (h : nonzero l = true) : ∀ n ∈ l, n ≠ 0 := fun n hn => nbne (List.all_eq_true.1 h n hn)

theorem tailOk_val {p : Prog} {m : ℕ} {t : Tail} (hs : ssa 1 p.code = true) (ht : tailOk p m t = true) (hm : m < W ^ 4) (x y : Limbs)
    (hT : v4 (t.t0.nv (p.final x y)) (t.t1.nv (p.final x y)) (t.t2.nv (p.final x y)) (t.t3.nv (p.final x y))
      + W ^ 4 * t.t4.nv (p.final x y) < 2 * m) :
    (p.run x y).val = (v4 (t.t0.nv (p.final x y)) (t.t1.nv (p.final x y)) (t.t2.nv (p.final x y)) (t.t3.nv (p.final x y))
      + W ^ 4 * t.t4.nv (p.final x y)) % m := by
  have H := final_holds hs x y
  generalize hσ : p.final x y = σ at *
  unfold tailOk at ht
  simp only [Bool.and_eq_true] at ht
  obtain ⟨⟨⟨⟨⟨⟨⟨⟨⟨⟨hnz, s0⟩, s1⟩, s2⟩, s3⟩, s4⟩, c0⟩, c1⟩, c2⟩, c3⟩, ho⟩ := ht
  have hnz := nonzero_mem hnz
  simp only [List.mem_cons, List.not_mem_nil, or_false, forall_eq_or_imp, forall_eq] at hnz
  obtain ⟨n0, n1, n2, n3, nb0, nb1, nb2, nb3, nc, no0, no1, no2, no3⟩ := hnz
  have kw : ∀ i, (E.k (word m i)).nv σ = word m i := fun i => by rw [nv_k, Nat.mod_eq_of_lt (word_lt m i)]
  have k0 : (E.k 0).nv σ = 0 := nv_k σ 0
  obtain ⟨e0, f0⟩ := sub_nv (isSub_holds H s0) n0 nb0 (by rw [k0]; exact Nat.zero_le _)
  obtain ⟨e1, f1⟩ := sub_nv (isSub_holds H s1) n1 nb1 f0
  obtain ⟨e2, f2⟩ := sub_nv (isSub_holds H s2) n2 nb2 f1
  obtain ⟨e3, f3⟩ := sub_nv (isSub_holds H s3) n3 nb3 f2
  have e4 := borrow_nv (isSub_holds H s4) nc
  rw [k0, Nat.zero_add] at e4
  rw [kw] at e0 e1 e2 e3
  rw [k0, Nat.add_zero] at e0
  have hc1 : (E.r t.c).nv σ ≤ 1 := by rw [e4]; split <;> omega
  have hr : (p.run x y).val = if t.t4.nv σ < (E.r t.b3).nv σ then v4 (t.t0.nv σ) (t.t1.nv σ) (t.t2.nv σ) (t.t3.nv σ)
      else v4 ((E.r t.d0).nv σ) ((E.r t.d1).nv σ) ((E.r t.d2).nv σ) ((E.r t.d3).nv σ) := by
    rw [run_val ho, hσ, cmov_holds_nv (isCmov_holds H c0) no0 hc1, cmov_holds_nv (isCmov_holds H c1) no1 hc1,
      cmov_holds_nv (isCmov_holds H c2) no2 hc1, cmov_holds_nv (isCmov_holds H c3) no3 hc1, e4]
    by_cases hlt : t.t4.nv σ < (E.r t.b3).nv σ
    · simp [hlt]
    · simp [hlt]
  rw [hr, tail_arith (E.nv_lt _ _) (E.nv_lt _ _) (E.nv_lt _ _) (E.nv_lt _ _) (E.nv_lt _ _) (E.nv_lt _ _) (E.nv_lt _ _) (E.nv_lt _ _)
    e0 e1 e2 e3 f3 (by rw [word_v4 hm]; exact hT) (by rw [word_v4 hm]; exact hm), word_v4 hm]

theorem target_val (H : ∀ s ∈ code, Holds σ s) {sh : ℕ} {t : Tail} {L : LF} (h : target code sh t = some L) :
    lval σ L = W ^ sh * (v4 (t.t0.nv σ) (t.t1.nv σ) (t.t2.nv σ) (t.t3.nv σ) + W ^ 4 * t.t4.nv σ) := by
  unfold target at h
  split at h
  · rename_i L0 h0
    split at h
    · rename_i L1 h1
      split at h
      · rename_i L2 h2
        split at h
        · rename_i L3 h3
          rw [lin_val H _ _ _ _ h, lin_val H _ _ _ _ h3, lin_val H _ _ _ _ h2, lin_val H _ _ _ _ h1, lin_val H _ _ _ _ h0]
          simp only [lval, v4]; ring
        · cases h
      · cases h
    · cases h
  · cases h

/-- an accepted reduction computes `X·W^(-sh) mod m` -/
theorem redOk_sound {p : Prog} {m sh : ℕ} {ex : LF} (h : redOk p m sh ex = true) (hm : m < W ^ 4) (x y : Limbs)
    (hX : ∀ σ : St, σ.arg1 = x → σ.arg2 = y → lval σ ex + m * (W ^ sh - 1) < 2 * m * W ^ sh) :
    (p.run x y).val < m ∧ ∃ σ : St, σ.arg1 = x ∧ σ.arg2 = y ∧ ((p.run x y).val * W ^ sh) % m = lval σ ex % m := by
  unfold redOk at h
  simp only [Bool.and_eq_true] at h
  obtain ⟨⟨hs, _⟩, h⟩ := h
  split at h
  · rename_i t _
    simp only [Bool.and_eq_true] at h
    obtain ⟨ht, h⟩ := h
    split at h
    · rename_i L hL
      split at h
      · rename_i L' hL'
        split at h
        · rename_i D hD
          split at h
          · rename_i q hq
            have hq' := nblt h
            have H := final_holds hs x y
            have hX' := hX (p.final x y) (final_arg1 hs x y) (final_arg2 hs x y)
            have e1 := target_val H hL
            have e2 := steps_val H _ _ _ (fun s hs => H s (List.mem_reverse.1 hs)) hL'
            have e3 := remove_val (σ := p.final x y) _ _ _ hD
            rw [lval_flat] at e3
            obtain ⟨Q, e4, e5⟩ := quot_val (σ := p.final x y) m _ _ hq
            have hT := e1
            rw [← e2, e3, e4] at hT
            have hWp : 0 < W ^ sh := Nat.pow_pos (by norm_num)
            have hlt : v4 (t.t0.nv (p.final x y)) (t.t1.nv (p.final x y)) (t.t2.nv (p.final x y)) (t.t3.nv (p.final x y))
                + W ^ 4 * t.t4.nv (p.final x y) < 2 * m := by
              have hmQ : m * Q ≤ m * (W ^ sh - 1) := Nat.mul_le_mul_left _ (by omega)
              have : W ^ sh * (v4 (t.t0.nv (p.final x y)) (t.t1.nv (p.final x y)) (t.t2.nv (p.final x y)) (t.t3.nv (p.final x y))
                + W ^ 4 * t.t4.nv (p.final x y)) < W ^ sh * (2 * m) := by
                rw [← hT]
                calc lval (p.final x y) ex + m * Q ≤ lval (p.final x y) ex + m * (W ^ sh - 1) := Nat.add_le_add_left hmQ _
                  _ < 2 * m * W ^ sh := hX'
                  _ = W ^ sh * (2 * m) := by ring
              exact Nat.lt_of_mul_lt_mul_left this
            have hr := tailOk_val hs ht hm x y hlt
            have hm0 : 0 < m := by
              rcases Nat.eq_zero_or_pos m with h0 | h0
              · rw [h0] at hlt; omega
              · exact h0
            refine ⟨by rw [hr]; exact Nat.mod_lt _ hm0, p.final x y, final_arg1 hs x y, final_arg2 hs x y, ?_⟩
            rw [hr, Nat.mod_mul_mod, Nat.mul_comm, ← hT, Nat.add_mul_mod_self_left]
          · cases h
        · cases h
      · cases h
    · cases h
  · cases h

/-- the arithmetic of a subtraction with conditional addition of the modulus -/
theorem sub_arith {X Y M D V B C U : ℕ} (h1 : D + Y = X + U * B) (h2 : V + U * C = D + (if B = 0 then 0 else M)) (hB : B ≤ 1)
    (hV : V < U) (hD : D < U) (hY : Y ≤ M) (hX : X < M) (hM : M < U) : V = if X < Y then X + M - Y else X - Y := by
  have hC : C ≤ 1 := by
    by_contra hc
    have : U * 2 ≤ U * C := Nat.mul_le_mul_left _ (by omega)
    split at h2 <;> omega
  rcases Nat.le_one_iff_eq_zero_or_eq_one.1 hB with rfl | rfl <;>
    rcases Nat.le_one_iff_eq_zero_or_eq_one.1 hC with rfl | rfl
  · simp at h1 h2; rw [if_neg (by omega)]; omega
  · simp at h1 h2; omega
  · simp at h1 h2; rw [if_pos (by omega)]; omega
  · simp at h1 h2; rw [if_pos (by omega)]; omega

theorem mask_nv {n w : ℕ} {e : E} (h : maskOk n w e = true) (hw : w < W) {c : Prop} [Decidable c]
    (hn : (E.r n).nv σ = if c then 0 else W - 1) : e.nv σ = if c then 0 else w := by
  have hn' : σ.reg n = if c then 0 else 0xffffffffffffffff := by
    apply UInt64.toNat_inj.1
    rw [show (σ.reg n).toNat = _ from hn]
    split <;> rfl
  unfold maskOk at h
  simp only [Bool.or_eq_true, Bool.and_eq_true] at h
  rcases h with (h | ⟨h, h'⟩) | ⟨h, h'⟩
  · rw [E.same_eq h]
    simp only [E.nv, E.eval, hn']
    split
    · simp
    · rw [show (0xffffffffffffffff : UInt64) = -1 by decide]
      simp only [UInt64.neg_one_and, UInt64.toNat_ofNat']
      exact Nat.mod_eq_of_lt hw
  · rw [E.same_eq h, nbeq h', hn]
  · rw [E.same_eq h, nbeq h', nv_k]; simp

/-- an accepted subtraction computes `X - Y mod m` -/
theorem subOk_sound {p : Prog} {m : ℕ} {x' y' : ℕ → E} (h : subOk p m x' y' = true) (hm : m < W ^ 4) (x y : Limbs) (X Y : ℕ)
    (hX : ∀ σ : St, σ.arg1 = x → σ.arg2 = y → v4 ((x' 0).nv σ) ((x' 1).nv σ) ((x' 2).nv σ) ((x' 3).nv σ) = X)
    (hY : ∀ σ : St, σ.arg1 = x → σ.arg2 = y → v4 ((y' 0).nv σ) ((y' 1).nv σ) ((y' 2).nv σ) ((y' 3).nv σ) = Y)
    (hXm : X < m) (hYm : Y ≤ m) :
    (p.run x y).val = if X < Y then X + m - Y else X - Y := by
  unfold subOk at h
  simp only [Bool.and_eq_true] at h
  obtain ⟨⟨hs, _⟩, h⟩ := h
  split at h
  · rename_i t _
    simp only [Bool.and_eq_true] at h
    obtain ⟨⟨⟨⟨⟨⟨⟨⟨⟨⟨⟨⟨⟨⟨hnz, s0⟩, s1⟩, s2⟩, s3⟩, cm⟩, a0⟩, a1⟩, a2⟩, a3⟩, m0⟩, m1⟩, m2⟩, m3⟩, ho⟩ := h
    have H := final_holds hs x y
    have hX := hX _ (final_arg1 hs x y) (final_arg2 hs x y)
    have hY := hY _ (final_arg1 hs x y) (final_arg2 hs x y)
    have hr := run_val (x := x) (y := y) ho
    generalize p.final x y = σ at *
    have hnz := nonzero_mem hnz
    simp only [List.mem_cons, List.not_mem_nil, or_false, forall_eq_or_imp, forall_eq] at hnz
    obtain ⟨n0, n1, n2, n3, nb0, nb1, nb2, nb3, nn, no0, no1, no2, no3, nc0, nc1, nc2⟩ := hnz
    have k0 : (E.k 0).nv σ = 0 := nv_k σ 0
    obtain ⟨e0, f0⟩ := sub_nv (isSub_holds H s0) n0 nb0 (by rw [k0]; exact Nat.zero_le _)
    obtain ⟨e1, f1⟩ := sub_nv (isSub_holds H s1) n1 nb1 f0
    obtain ⟨e2, f2⟩ := sub_nv (isSub_holds H s2) n2 nb2 f1
    obtain ⟨e3, f3⟩ := sub_nv (isSub_holds H s3) n3 nb3 f2
    have hn := cmov_holds_nv (isCmov_holds H cm) nn f3
    rw [k0, nv_k, Nat.mod_eq_of_lt (show W - 1 < W by norm_num)] at hn
    have g0 := add_nv (isAdd_holds H a0) no0 nc0
    have g1 := add_nv (isAdd_holds H a1) no1 nc1
    have g2 := add_nv (isAdd_holds H a2) no2 nc2
    obtain ⟨cc, g3⟩ := add_nv' (isAdd_holds H a3) no3
    rw [mask_nv m0 (word_lt m 0) hn, k0] at g0
    rw [mask_nv m1 (word_lt m 1) hn] at g1
    rw [mask_nv m2 (word_lt m 2) hn] at g2
    rw [mask_nv m3 (word_lt m 3) hn] at g3
    rw [k0] at e0
    rw [hr]
    have hD : v4 ((E.r t.d0).nv σ) ((E.r t.d1).nv σ) ((E.r t.d2).nv σ) ((E.r t.d3).nv σ) + Y = X + W ^ 4 * (E.r t.b3).nv σ := by
      rw [← hX, ← hY]; simp only [v4, W] at *; omega
    have hV : v4 ((E.r t.o0).nv σ) ((E.r t.o1).nv σ) ((E.r t.o2).nv σ) ((E.r t.o3).nv σ) + W ^ 4 * cc =
        v4 ((E.r t.d0).nv σ) ((E.r t.d1).nv σ) ((E.r t.d2).nv σ) ((E.r t.d3).nv σ) + (if (E.r t.b3).nv σ = 0 then 0 else m) := by
      split
      · rename_i hb
        simp only [hb, if_true] at g0 g1 g2 g3
        simp only [v4, W] at *; omega
      · rename_i hb
        simp only [hb, if_false] at g0 g1 g2 g3
        have hw := word_v4 hm
        simp only [v4, W] at *; omega
    exact sub_arith hD hV f3 (v4_lt (E.nv_lt _ _) (E.nv_lt _ _) (E.nv_lt _ _) (E.nv_lt _ _))
      (v4_lt (E.nv_lt _ _) (E.nv_lt _ _) (E.nv_lt _ _) (E.nv_lt _ _)) hYm hXm hm
  · cases h

/-- no `Add64` or `Sub64` of an accepted program gets a carry other than 0 or 1 -/
theorem carriesOk_sound (H : ∀ s ∈ code, Holds σ s) (h : carriesOk code = true) :
    ∀ s ∈ code, match s with
      | .add _ _ _ _ z => z.eval σ = 0 ∨ z.eval σ = 1
      | .sub _ _ _ _ z => z.eval σ = 0 ∨ z.eval σ = 1
      | .cmov _ c _ _ => c.eval σ = 0 ∨ c.eval σ = 1
      | _ => True := by
  have key : ∀ z : E, Nat.ble (bnd code fuel z) 1 = true → z.eval σ = 0 ∨ z.eval σ = 1 := fun z hz => by
    have : (z.eval σ).toNat ≤ 1 := (bnd_le H fuel z).trans (nble hz)
    rcases Nat.le_one_iff_eq_zero_or_eq_one.1 this with h | h
    · exact .inl (UInt64.toNat_inj.1 h)
    · exact .inr (UInt64.toNat_inj.1 h)
  intro s hs
  have := List.all_eq_true.1 h s hs
  cases s with
  | mul hi lo x y => trivial
  | add s c x y z => exact key z this
  | sub d b x y z => exact key z this
  | set n x => trivial
  | cmov n c x y => exact key c this

end Verif.Fiat
