import Verif.Bulletproof.Lemmas
import Verif.Common.Bytes
import Mathlib.Algebra.Module.BigOperators
import Mathlib.Data.List.Iterate

/-!
# Bulletproofs: lemmas for the range proofs
-/

set_option linter.unusedSectionVars false

open Finset

namespace Verif.Bulletproof

/-- the list `f 0, …, f (n-1)` -/
def vec {α : Type} (n : ℕ) (f : ℕ → α) : List α := (List.range n).map f

@[simp] theorem vec_length {α : Type} (n : ℕ) (f : ℕ → α) : (vec n f).length = n := by simp [vec]

theorem vec_ne_nil {α : Type} {n : ℕ} (h : n ≠ 0) (f : ℕ → α) : vec n f ≠ [] := by
  intro e
  have := congrArg List.length e
  simp at this
  exact h this

theorem vec_succ {α : Type} (n : ℕ) (f : ℕ → α) : vec (n + 1) f = vec n f ++ [f n] := by
  simp [vec, List.range_succ]

theorem vec_congr {α : Type} {n : ℕ} {f g : ℕ → α} (h : ∀ i < n, f i = g i) : vec n f = vec n g := by
  unfold vec
  apply List.map_congr_left
  intro i hi
  exact h i (List.mem_range.1 hi)

theorem vec_map {α β : Type} (n : ℕ) (f : ℕ → α) (k : α → β) : (vec n f).map k = vec n (k ∘ f) := by
  simp [vec]

theorem zipWith_vec {α β γ : Type} (k : α → β → γ) (n : ℕ) (f : ℕ → α) (g : ℕ → β) :
    List.zipWith k (vec n f) (vec n g) = vec n fun i => k (f i) (g i) := by
  simp [vec, List.zipWith_map]

theorem take_eq_vec {α : Type} (d : α) (l : List α) (n : ℕ) (h : n ≤ l.length) :
    l.take n = vec n fun i => l.getD i d := by
  apply List.ext_getElem
  · simp [h]
  · intro i h1 h2
    have : i < l.length := by simp at h1; omega
    simp [vec, List.getD_eq_getElem?_getD, this]

section
variable {F : Type} [Field F] [DecidableEq F]
variable {G : Type} [AddCommGroup G] [Module F G] [DecidableEq G]

theorem sum_vec {M : Type} [AddCommMonoid M] (n : ℕ) (f : ℕ → M) : (vec n f).sum = ∑ i ∈ range n, f i := by
  induction n with
  | zero => simp [vec]
  | succ n ih => rw [vec_succ, List.sum_append, ih, Finset.sum_range_succ]; simp

theorem msm_vec (n : ℕ) (f : ℕ → F) (g : ℕ → G) : msm (vec n f) (vec n g) = ∑ i ∈ range n, f i • g i := by
  unfold msm
  rw [zipWith_vec, sum_vec]

theorem dot_vec (n : ℕ) (f g : ℕ → F) : dot (vec n f) (vec n g) = ∑ i ∈ range n, f i * g i := by
  unfold dot
  rw [zipWith_vec, sum_vec]

/-! ### The helpers on such vectors -/

theorem addVec_vec (n : ℕ) (f g : ℕ → F) : addVec (vec n f) (vec n g) = .ok (vec n fun i => f i + g i) := by
  simp only [addVec, Go.guard_true (show (vec n f).length = (vec n g).length by simp), Go.ok_bind, zipWith_vec]

theorem subVec_vec (n : ℕ) (f g : ℕ → F) : subVec (vec n f) (vec n g) = .ok (vec n fun i => f i - g i) := by
  simp only [subVec, Go.guard_true (show (vec n f).length = (vec n g).length by simp), Go.ok_bind, zipWith_vec]

theorem hadamard_vec (n : ℕ) (f g : ℕ → F) : hadamard (vec n f) (vec n g) = .ok (vec n fun i => f i * g i) := by
  simp only [hadamard, Go.guard_true (show (vec n f).length = (vec n g).length by simp), Go.ok_bind, zipWith_vec]

theorem mulVec_vec (n : ℕ) (x : F) (f : ℕ → F) : mulVec x (vec n f) = vec n fun i => f i * x := by
  simp only [mulVec, vec_map]
  rfl

theorem innerProduct_vec {n : ℕ} (hn : n ≠ 0) (f g : ℕ → F) :
    innerProduct (vec n f) (vec n g) = .ok (∑ i ∈ range n, f i * g i) := by
  rw [innerProduct_eq (by simp) (vec_ne_nil hn f), dot_vec]

theorem sumOfProducts_vec (n : ℕ) (f : ℕ → F) (g : ℕ → G) :
    sumOfProducts (vec n g) (vec n f) = .ok (∑ i ∈ range n, f i • g i) := by
  rw [sumOfProducts_eq (by simp), msm_vec]

theorem get1nVector_eq (n : ℕ) : get1nVector F n = vec n fun _ => (1 : F) := by
  simp [get1nVector, vec]

theorem iterate_eq_vec (f : F → F) (a : F) (n : ℕ) : List.iterate f a n = vec n fun i => f^[i] a :=
  (List.range_map_iterate n f a).symm

theorem get2nVector_eq {n : ℕ} (hn : n ≠ 0) : get2nVector F n = .ok (vec n fun i => (2 : F) ^ i) := by
  unfold get2nVector
  rw [if_neg hn, iterate_eq_vec]
  congr 1
  apply vec_congr
  intro i _
  induction i with
  | zero => simp
  | succ i ih => rw [Function.iterate_succ_apply', ih (by omega)]; ring

theorem getknVector_eq {n : ℕ} (hn : 2 ≤ n) (k : F) : getknVector k n = .ok (vec n fun i => k ^ i) := by
  unfold getknVector
  rw [if_neg (by omega), iterate_eq_vec]
  congr 1
  obtain ⟨m, rfl⟩ : ∃ m, n = m + 1 := ⟨n - 1, by omega⟩
  have h : ∀ i, (fun x => x * k)^[i] k = k ^ (i + 1) := by
    intro i
    induction i with
    | zero => simp
    | succ i ih => rw [Function.iterate_succ_apply', ih, pow_succ k (i + 1)]
  simp [vec, List.range_succ_eq_map, h, Function.comp_def]

theorem gethPrime_eq {n : ℕ} (hn : 2 ≤ n) {y : F} (hy : y ≠ 0) (h : ℕ → G) :
    gethPrime (vec n h) y = .ok (vec n fun i => (y⁻¹) ^ i • h i) := by
  unfold gethPrime
  rw [if_neg hy, vec_length, getknVector_eq hn, Go.ok_bind, zipWith_vec]

theorem deltayz_eq {n : ℕ} (hn : 2 ≤ n) (y z : F) :
    deltayz y z n = .ok ((z - z * z) * ∑ i ∈ range n, y ^ i - z * z * z * ∑ i ∈ range n, (2 : F) ^ i) := by
  have h0 : n ≠ 0 := by omega
  simp only [deltayz, get1nVector_eq, getknVector_eq hn, Go.ok_bind, innerProduct_vec h0, get2nVector_eq h0, one_mul]

theorem getPhmu_eq {n : ℕ} (hn : 2 ≤ n) (g h' : ℕ → G) (h capA capS : G) (x y z mu : F) :
    getPhmu (vec n g) (vec n h') h capA capS x y z mu n =
      .ok (capA + x • capS + ∑ i ∈ range n, (-z) • g i +
        ∑ i ∈ range n, (y ^ i * z + (2 : F) ^ i * (z * z)) • h' i - mu • h) := by
  have h0 : n ≠ 0 := by omega
  simp only [getPhmu, get1nVector_eq, getknVector_eq hn, Go.ok_bind, get2nVector_eq h0, mulVec_vec, addVec_vec,
    sumOfProducts_vec, one_mul]

/-! ### The polynomial identity -/

theorem range_dot (n : ℕ) (a ζ sL sR : ℕ → F) (x y z : F) (ha : ∀ i < n, a i * (a i - 1) = 0) :
    ∑ i ∈ range n, (a i - 1 * z + sL i * x) *
        (y ^ i * (a i - 1 + 1 * z) + ζ i + y ^ i * sR i * x) =
      ∑ i ∈ range n, a i * ζ i - z * ∑ i ∈ range n, ζ i + (z - z * z) * ∑ i ∈ range n, y ^ i +
      (∑ i ∈ range n, sL i * (y ^ i * (a i - 1 + 1 * z) + ζ i) +
        ∑ i ∈ range n, y ^ i * sR i * (a i - 1 * z)) * x +
      (∑ i ∈ range n, sL i * (y ^ i * sR i)) * (x * x) := by
  simp only [Finset.mul_sum, Finset.sum_mul, ← Finset.sum_add_distrib, ← Finset.sum_sub_distrib]
  apply Finset.sum_congr rfl
  intro i hi
  linear_combination y ^ i * ha i (Finset.mem_range.1 hi)

theorem range_points (n : ℕ) (g h : ℕ → G) (a ζ sL sR : ℕ → F) (x y z alpha rho : F) (H : G) (hy : y ≠ 0) :
    alpha • H + ∑ i ∈ range n, a i • g i + ∑ i ∈ range n, (a i - 1) • h i +
        x • (rho • H + ∑ i ∈ range n, sL i • g i + ∑ i ∈ range n, sR i • h i) + ∑ i ∈ range n, (-z) • g i +
        ∑ i ∈ range n, (y ^ i * z + ζ i) • (y⁻¹) ^ i • h i - (alpha + rho * x) • H =
      ∑ i ∈ range n, (a i - 1 * z + sL i * x) • g i +
        ∑ i ∈ range n, (y ^ i * (a i - 1 + 1 * z) + ζ i + y ^ i * sR i * x) • (y⁻¹) ^ i • h i := by
  have e1 : ∑ i ∈ range n, (a i - 1) • h i = ∑ i ∈ range n, (y ^ i * (a i - 1)) • (y⁻¹) ^ i • h i := by
    apply Finset.sum_congr rfl
    intro i _
    rw [smul_smul]
    congr 1
    have : y ^ i * (y⁻¹) ^ i = 1 := by rw [← mul_pow, mul_inv_cancel₀ hy, one_pow]
    linear_combination -(a i - 1) * this
  have e2 : ∑ i ∈ range n, sR i • h i = ∑ i ∈ range n, (y ^ i * sR i) • (y⁻¹) ^ i • h i := by
    apply Finset.sum_congr rfl
    intro i _
    rw [smul_smul]
    congr 1
    have : y ^ i * (y⁻¹) ^ i = 1 := by rw [← mul_pow, mul_inv_cancel₀ hy, one_pow]
    linear_combination -(sR i) * this
  have e3 : ∀ A : G, alpha • H + A - (alpha + rho * x) • H = A - (rho * x) • H := by intro A; module
  rw [e1, e2]
  have e4 : ∑ i ∈ range n, (a i - 1 * z + sL i * x) • g i =
      ∑ i ∈ range n, a i • g i + ∑ i ∈ range n, (-z) • g i + x • ∑ i ∈ range n, sL i • g i := by
    rw [Finset.smul_sum, ← Finset.sum_add_distrib, ← Finset.sum_add_distrib]
    apply Finset.sum_congr rfl
    intro i _
    module
  have e5 : ∑ i ∈ range n, (y ^ i * (a i - 1 + 1 * z) + ζ i + y ^ i * sR i * x) • (y⁻¹) ^ i • h i =
      ∑ i ∈ range n, (y ^ i * (a i - 1)) • (y⁻¹) ^ i • h i +
        x • ∑ i ∈ range n, (y ^ i * sR i) • (y⁻¹) ^ i • h i +
        ∑ i ∈ range n, (y ^ i * z + ζ i) • (y⁻¹) ^ i • h i := by
    rw [Finset.smul_sum, ← Finset.sum_add_distrib, ← Finset.sum_add_distrib]
    apply Finset.sum_congr rfl
    intro i _
    rw [smul_smul x, ← add_smul, ← add_smul]
    congr 1
    ring
  rw [e4, e5]
  module

/-! ### The inner-product part -/

theorem rangeIPP {env : Env F G} {g h : List G} {l r : List F} {u : G} {t t' : Transcript} {ipp : IPP F G}
    (hp : rangeToIPP env g h l r u t = .ok (ipp, t')) (Q : G) (hQ : Q = msm l g + msm r h) (tHat : F) :
    verifyFromRangeProof env g h Q u tHat ipp t = .ok (decide ((tHat - dot l r) • u = 0)) := by
  obtain ⟨xs, ls, rs, e1, e2, e3, e4, e5, e6, e7, e8, e9, e10, e11⟩ := proveRecursive_spec _ _ _ _ _ hp
  simp only [List.nil_append] at e1 e2 e5 e6 e7 e8 e10 e11
  rw [← e1, ← e2] at e10 e11
  rw [← e1] at e3
  rw [← e2] at e4
  simp only [verifyFromRangeProof, e10, Go.ok_bind]
  rw [e3, gets_eq e9, Go.ok_bind, getLHS_eq (by rw [sVec_length, e7]) (by rw [sVec_length, e8])
    (sVec_ne_zero e9), Go.ok_bind, getRHS_eq _ _ _ _ e3 e4 e9, Go.ok_bind, e11]
  congr 1
  rw [decide_eq_decide, add_left_inj, hQ, add_right_inj, sub_smul, sub_eq_zero, eq_comm]

/-! ### Bits -/

theorem cmoveScalar_eq (env : Env F G) (hlen : (env.cd.enc 0).length = (env.cd.enc 1).length) (b : Bool) :
    cmoveScalar env 0 1 b.toNat = .ok (if b then 1 else 0) := by
  unfold cmoveScalar
  rw [Go.guard_true (by cases b <;> simp), Go.ok_bind]
  have z0 : ∀ (xs ys : List UInt8), xs.length = ys.length →
      List.zipWith (fun xb yb => xb ^^^ ((xb ^^^ yb) &&& (0 : UInt8))) xs ys = xs := by
    intro xs
    induction xs with
    | nil => simp
    | cons x xs ih =>
      intro ys h
      cases ys with
      | nil => simp at h
      | cons y ys => simp_all
  have z1 : ∀ (xs ys : List UInt8), xs.length = ys.length →
      List.zipWith (fun xb yb => xb ^^^ ((xb ^^^ yb) &&& (255 : UInt8))) xs ys = ys := by
    intro xs
    induction xs with
    | nil => intro ys h; simp [List.length_eq_zero_iff.1 h.symm]
    | cons x xs ih =>
      intro ys h
      cases ys with
      | nil => simp at h
      | cons y ys =>
        have e : ∀ a b : UInt8, a ^^^ ((a ^^^ b) &&& 255) = b := by
          intro a b
          have : ∀ c : UInt8, c &&& 255 = c := fun c => UInt8.and_neg_one
          rw [this, ← UInt8.xor_assoc, UInt8.xor_self, UInt8.zero_xor]
        rw [List.zipWith_cons_cons, e, ih ys (by simpa using h)]
  cases b
  · have e : (0 - UInt8.ofNat false.toNat) = (0 : UInt8) := by decide
    simp only [e, z0 _ _ hlen, env.cd.dec_enc]
    rfl
  · have e : (0 - UInt8.ofNat true.toNat) = (255 : UInt8) := by decide
    simp only [e, z1 _ _ hlen, env.cd.dec_enc]
    rfl

/-- bit `i` of a byte string read with the first byte as the lowest -/
def bit (bs : List UInt8) (i : ℕ) : Bool := (leNat bs).testBit i

theorem bit_eq (bs : List UInt8) (i : ℕ) :
    bit bs i = ((bs.getD (i / 8) 0).toNat).testBit (i % 8) := by
  unfold bit
  induction bs generalizing i with
  | nil => simp [leNat]
  | cons b bs ih =>
    have hb := b.toNat_lt
    have e : leNat (b :: bs) = 2 ^ 8 * leNat bs + b.toNat := by simp [leNat]; ring
    rw [e, Nat.testBit_two_pow_mul_add _ (by simpa using hb)]
    split
    · next h => simp [Nat.div_eq_of_lt h, Nat.mod_eq_of_lt h]
    · next h =>
      rw [ih]
      have h1 : i / 8 = (i - 8) / 8 + 1 := by omega
      have h2 : i % 8 = (i - 8) % 8 := by omega
      rw [h1, h2, List.getD_cons_succ]

/-- the bits the prover commits to -/
def aBits (env : Env F G) (v : F) (i : ℕ) : F := if bit (env.cd.enc v) i then 1 else 0

theorem getaL_eq (env : Env F G) (hlen : (env.cd.enc 0).length = (env.cd.enc 1).length) (v : F) (n : ℕ)
    (hn : n ≤ 8 * (env.cd.enc v).length) : getaL env v n = .ok (vec n (aBits env v)) := by
  unfold getaL vec
  rw [Go.mapM_eq_ok, List.forall₂_map_right_iff]
  refine List.forall₂_same.2 fun i hi => ?_
  have hi := List.mem_range.1 hi
  have hl : i / 8 < (env.cd.enc v).length := by omega
  simp only [List.getElem?_eq_getElem hl]
  have e : (env.cd.enc v)[i / 8].toNat >>> (i % 8) % 2 = (bit (env.cd.enc v) i).toNat := by
    rw [bit_eq, List.getD_eq_getElem?_getD, List.getElem?_eq_getElem hl, Option.getD_some,
      Nat.shiftRight_eq_div_pow, Nat.testBit_eq_decide_div_mod_eq]
    rcases Nat.mod_two_eq_zero_or_one ((env.cd.enc v)[i / 8].toNat / 2 ^ (i % 8)) with h | h <;> simp [h]
  rw [e, cmoveScalar_eq env hlen]
  rfl

theorem getaL_short (env : Env F G) (v : F) (n : ℕ) (a : List F)
    (h : getaL env v n = .ok a) : n ≤ 8 * (env.cd.enc v).length := by
  by_contra hn
  unfold getaL at h
  rw [Go.mapM_eq_ok] at h
  have h1 := h.length_eq
  have hi : 8 * (env.cd.enc v).length < (List.range n).length := by simp; omega
  have := (List.forall₂_iff_get.1 h).2 (8 * (env.cd.enc v).length) hi (by rw [← h1]; exact hi)
  simp at this

theorem getaL_long (env : Env F G) (hlen : (env.cd.enc 0).length = (env.cd.enc 1).length) (v : F) (n : ℕ)
    (hn : 8 * (env.cd.enc v).length < n) : getaL env v n = Go.crash := by
  obtain ⟨d, rfl⟩ := Nat.exists_eq_add_of_lt hn
  have e := getaL_eq env hlen v (8 * (env.cd.enc v).length) le_rfl
  unfold getaL at e ⊢
  simp only at e ⊢
  rw [add_assoc, List.range_add, List.mapM_append, e, List.range_succ_eq_map, List.map_cons, List.mapM_cons]
  simp

theorem aBits_bit (env : Env F G) (v : F) (i : ℕ) : aBits env v i * (aBits env v i - 1) = 0 := by
  unfold aBits
  split <;> simp

/-- the bits of a number below `2^n` add up to it -/
theorem sum_bits (m : ℕ) : ∀ n, ∑ i ∈ range n, (if m.testBit i then (1 : F) else 0) * 2 ^ i = ((m % 2 ^ n : ℕ) : F)
  | 0 => by simp [Nat.mod_one]
  | n + 1 => by
    rw [Finset.sum_range_succ, sum_bits m n, pow_succ 2 n, Nat.mod_mul, Nat.testBit_eq_decide_div_mod_eq]
    rcases Nat.mod_two_eq_zero_or_one (m / 2 ^ n) with h | h <;> simp [h]

theorem sum_aBits (env : Env F G) (v : F) (n : ℕ) :
    ∑ i ∈ range n, aBits env v i * 2 ^ i = ((leNat (env.cd.enc v) % 2 ^ n : ℕ) : F) :=
  sum_bits _ n

end
end Verif.Bulletproof
