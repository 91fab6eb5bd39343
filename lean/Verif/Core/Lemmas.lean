import Verif.Core.Model
import Mathlib.Data.List.GetD
import Mathlib.Tactic.IntervalCases
import Mathlib.Tactic.NormNum
import Mathlib.Logic.Function.Iterate

/-! # Lemmas about the model of `pkg/core` -/

set_option linter.unusedSectionVars false

namespace Verif.Core

/-! ## big integers -/

theorem intBytes_inj {a b : ℤ} (h : intBytes a = intBytes b) : a.natAbs = b.natAbs :=
  natBytes_injective h

theorem natBytes_length_le {b n : ℕ} : (natBytes b).length ≤ n ↔ b < 256 ^ n := by
  unfold natBytes
  rw [List.length_reverse, List.length_map, Nat.digits_length_le_iff (by norm_num)]

theorem beNat_replicate_zero (k : ℕ) (os : List UInt8) :
    beNat (List.replicate k 0 ++ os) = beNat os := by
  induction k with
  | zero => rfl
  | succ k ih =>
    have : beNat (0 :: (List.replicate k 0 ++ os)) = beNat (List.replicate k 0 ++ os) := by
      simp [beNat]
    rw [List.replicate_succ, List.cons_append, this, ih]

/-- `I2OSP` on representable integers is fixed-length big-endian. -/
theorem i2osp_ok {b n : ℕ} (h : b < 256 ^ n) : i2osp b n = .ok (beBytes n b) := by
  have hl : (natBytes b).length ≤ n := natBytes_length_le.2 h
  have key : ∀ bs : List UInt8, bs.length = n → beNat bs = b → bs = beBytes n b := by
    intro bs h1 h2
    rw [← h2, ← h1, beBytes_beNat]
  unfold i2osp intBytes
  simp only [Int.natAbs_natCast, Int.toNat_natCast]
  by_cases hlt : (natBytes b).length < n
  · rw [if_pos (by exact_mod_cast hlt)]
    congr 1
    apply key
    · simp; omega
    · rw [beNat_replicate_zero, beNat_natBytes]
  · rw [if_neg (by exact_mod_cast hlt), if_neg (by omega)]
    congr 1
    rw [List.take_of_length_le (by omega)]
    apply key
    · omega
    · rw [beNat_natBytes]

theorem i2osp_length {b n : ℤ} {os : List UInt8} (h : i2osp b n = .ok os) :
    0 ≤ n ∧ (os.length : ℤ) = n := by
  unfold i2osp at h
  simp only at h
  split at h
  · rename_i hn
    obtain rfl := Except.ok.inj h
    simp only [List.length_append, List.length_replicate]
    omega
  · split at h
    · exact absurd h (by simp)
    · obtain rfl := Except.ok.inj h
      simp only [List.length_take]
      omega

theorem i2osp_total {b n : ℤ} (h : 0 ≤ n) : ∃ os, i2osp b n = .ok os := by
  unfold i2osp
  simp only
  split
  · exact ⟨_, rfl⟩
  · rw [if_neg (by omega)]; exact ⟨_, rfl⟩

/-! ## the counter -/

theorem isZeroBit_eq (b : UInt8) : isZeroBit b = if b = 0 then 1 else 0 := by
  have h : ∀ n : Fin 256, isZeroBit (UInt8.ofFin n) = if UInt8.ofFin n = 0 then 1 else 0 := by
    decide +kernel
  exact h b.toFin

theorem or_neg_isZeroBit (b : UInt8) : (b ||| (0 - isZeroBit b)) = if b = 0 then 255 else b := by
  rw [isZeroBit_eq]
  split
  · rename_i h; subst h; rfl
  · have h : ∀ n : Fin 256, (UInt8.ofFin n ||| (0 - 0)) = UInt8.ofFin n := by decide +kernel
    exact h b.toFin

/-- The counter value: base-255 digits `1..255`, least significant first (specification). -/
def ctr : List UInt8 → ℕ
  | [] => 0
  | b :: bs => (b.toNat - 1) + 255 * ctr bs

/-- No zero digits. -/
def Good (bs : List UInt8) : Prop := ∀ b ∈ bs, b ≠ 0

theorem byteSub_zero {bs : List UInt8} (h : Good bs) : byteSub 0 bs = bs := by
  induction bs with
  | nil => rfl
  | cons b bs ih =>
    have hb : b ≠ 0 := h b (by simp)
    have ih' := ih fun x hx => h x (by simp [hx])
    simp only [byteSub, or_neg_isZeroBit, UInt8.sub_zero]
    rw [if_neg hb, isZeroBit_eq, if_neg hb, show (0 &&& 0 : UInt8) = 0 from rfl, ih']

theorem toNat_ne_zero {b : UInt8} (h : b ≠ 0) : b.toNat ≠ 0 := fun e =>
  h (UInt8.toNat_inj.1 (by simpa using e))

/-- One step of `ByteSub`: digits stay non-zero, the length is kept and the value drops by one. -/
theorem byteSub_step {bs : List UInt8} (h : Good bs) :
    Good (byteSub 1 bs) ∧ (byteSub 1 bs).length = bs.length ∧
      (0 < ctr bs → ctr (byteSub 1 bs) + 1 = ctr bs) := by
  induction bs with
  | nil => exact ⟨h, rfl, fun h => absurd h (by simp [ctr])⟩
  | cons b bs ih =>
    have hb : b ≠ 0 := h b (by simp)
    have hg : Good bs := fun x hx => h x (by simp [hx])
    obtain ⟨i1, i2, i3⟩ := ih hg
    have hbn := toNat_ne_zero hb
    simp only [byteSub, or_neg_isZeroBit]
    by_cases h1 : b - 1 = 0
    · have hb1 : b = 1 := by
        have := congrArg (· + 1) h1
        simpa using this
      subst hb1
      rw [if_pos h1, isZeroBit_eq, if_pos h1, show (1 &&& 1 : UInt8) = 1 from rfl]
      refine ⟨?_, by simp [i2], ?_⟩
      · intro x hx
        rcases List.mem_cons.1 hx with rfl | hx
        · decide
        · exact i1 x hx
      · intro hc
        simp only [ctr] at hc ⊢
        have e1 : (1 : UInt8).toNat = 1 := rfl
        have e2 : (255 : UInt8).toNat = 255 := rfl
        rw [e1] at hc ⊢
        rw [e2]
        have := i3 (by omega)
        omega
    · rw [if_neg h1, isZeroBit_eq, if_neg h1, show (0 &&& 1 : UInt8) = 0 from rfl,
        byteSub_zero hg]
      refine ⟨?_, by simp, ?_⟩
      · intro x hx
        rcases List.mem_cons.1 hx with rfl | hx
        · exact h1
        · exact hg x hx
      · intro _
        simp only [ctr]
        have e : (b - 1).toNat = b.toNat - 1 := by
          rw [UInt8.toNat_sub_of_le]
          · rfl
          · rw [UInt8.le_iff_toNat_le]; simp; omega
        have hne := toNat_ne_zero h1
        rw [e] at hne ⊢
        omega

/-- The counter bytes before step `k`. -/
def fAt (k : ℕ) : List UInt8 := (byteSub 1)^[k] f0

theorem fAt_succ (k : ℕ) : fAt (k + 1) = byteSub 1 (fAt k) := Function.iterate_succ_apply' _ _ _

theorem fAt_good (k : ℕ) : Good (fAt k) ∧ (fAt k).length = 32 := by
  induction k with
  | zero => exact ⟨by unfold Good fAt f0; decide, rfl⟩
  | succ k ih =>
    rw [fAt_succ]
    obtain ⟨a, b, _⟩ := byteSub_step ih.1
    exact ⟨a, b.trans ih.2⟩

theorem ctr_f0 : ctr f0 = 255 ^ 32 - 1 := by decide +kernel

theorem ctr_fAt (k : ℕ) (h : k < 255 ^ 32) : ctr (fAt k) + k = 255 ^ 32 - 1 := by
  induction k with
  | zero => simpa [fAt] using ctr_f0
  | succ k ih =>
    have i := ih (by omega)
    rw [fAt_succ]
    have := (byteSub_step (fAt_good k).1).2.2 (by omega)
    omega

theorem fAt_inj {i j : ℕ} (hi : i < 255 ^ 32) (hj : j < 255 ^ 32) (h : fAt i = fAt j) : i = j := by
  have a := ctr_fAt i hi
  have b := ctr_fAt j hj
  rw [h] at a
  omega

/-! ## the chain -/

theorem chain_append (kdf : List UInt8 → List UInt8) (f okm : List UInt8) (vs ws : List (List UInt8)) :
    chain kdf f okm (vs ++ ws) = chain kdf ((byteSub 1)^[vs.length] f) (chain kdf f okm vs) ws := by
  induction vs generalizing f okm with
  | nil => rfl
  | cons v vs ih => simp only [List.cons_append, chain, ih, List.length_cons, Function.iterate_succ,
      Function.comp]

theorem chain_snoc (kdf : List UInt8 → List UInt8) (vs : List (List UInt8)) (v : List UInt8) :
    chain kdf f0 okm0 (vs ++ [v]) = kdf (fAt vs.length ++ v ++ chain kdf f0 okm0 vs) := by
  rw [chain_append]; rfl

theorem chain_length (kdf : List UInt8 → List UInt8) (hk : ∀ x, (kdf x).length = 32)
    (vs : List (List UInt8)) : (chain kdf f0 okm0 vs).length = 32 := by
  rcases List.eq_nil_or_concat vs with rfl | ⟨ws, w, rfl⟩
  · rfl
  · rw [List.concat_eq_append, chain_snoc, hk]

theorem append_split {a a' v v' o o' : List UInt8} (ha : a.length = a'.length)
    (ho : o.length = o'.length) (h : a ++ v ++ o = a' ++ v' ++ o') : a = a' ∧ v = v' ∧ o = o' := by
  rw [List.append_assoc, List.append_assoc] at h
  obtain ⟨h1, h2⟩ := List.append_inj h ha
  obtain ⟨h3, h4⟩ := List.append_inj' h2 ho
  exact ⟨h1, h3, h4⟩

theorem mapM_id_some {α : Type} (l : List (Option α)) (vs : List α) :
    l.mapM id = some vs ↔ l = vs.map some := by
  induction l generalizing vs with
  | nil => cases vs <;> simp
  | cons a l ih =>
    rw [List.mapM_cons]
    cases a with
    | none => cases vs <;> simp
    | some a =>
      cases vs with
      | nil => cases l.mapM id <;> simp
      | cons v vs =>
        simp only [id, Option.pure_def, Option.bind_eq_bind, Option.bind_some, List.map_cons,
          List.cons.injEq, Option.some.injEq, Option.bind_eq_some_iff]
        rw [← ih vs]
        constructor
        · rintro ⟨b, hb, rfl, rfl⟩; exact ⟨rfl, hb⟩
        · rintro ⟨rfl, hb⟩; exact ⟨vs, hb, rfl, rfl⟩

theorem mapM_id_none {α : Type} (l : List (Option α)) : l.mapM id = none ↔ none ∈ l := by
  induction l with
  | nil => simp
  | cons a l ih =>
    rw [List.mapM_cons]
    cases a with
    | none => simp
    | some a =>
      simp only [id, Option.pure_def, Option.bind_eq_bind, Option.bind_some, List.mem_cons,
        reduceCtorEq, false_or]
      rw [← ih]
      cases l.mapM id <;> simp

/-! ## expand -/

theorem xmdBlocks_spec (H : List UInt8 → List UInt8) (b0 d : List UInt8) (B : ℕ → List UInt8)
    (hB : ∀ i, 1 ≤ i → i < 255 → B (i + 1) = H (xor b0 (B i) ++ [UInt8.ofNat (i + 1)] ++ d)) :
    ∀ k i : ℕ, 1 ≤ i → i + k ≤ 255 → xmdBlocks H b0 d k (i + 1) (B i) =
      .ok ((List.range k).map fun j => B (i + 1 + j)) := by
  intro k
  induction k with
  | zero => intro i _ _; rfl
  | succ k ih =>
    intro i h1 h2
    unfold xmdBlocks
    have e : i2osp ((i + 1 : ℕ) : ℤ) ((1 : ℕ) : ℤ) = .ok (beBytes 1 (i + 1)) := i2osp_ok (by omega)
    have e2 : beBytes 1 (i + 1) = [UInt8.ofNat (i + 1)] := by
      simp [beBytes, leBytes]
    rw [e2] at e
    rw [show ((1 : ℕ) : ℤ) = 1 from rfl] at e
    rw [e]
    simp only [Go.ok_bind]
    rw [← hB i h1 (by omega), ih (i + 1) (by omega) (by omega)]
    simp only [Go.ok_bind]
    rw [List.range_succ_eq_map, List.map_cons, List.map_map]
    simp only [add_zero]
    congr 2
    refine List.map_congr_left fun j _ => ?_
    simp only [Function.comp]
    congr 1
    omega

end Verif.Core
