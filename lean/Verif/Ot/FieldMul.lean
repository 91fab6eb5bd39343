import Verif.Ot.Bits
import Mathlib.Algebra.CharP.Two
import Mathlib.Algebra.BigOperators.Intervals
import Mathlib.Algebra.BigOperators.Ring.Finset
import Mathlib.Tactic.Ring
import Mathlib.Tactic.LinearCombination

/-!
# `binaryFieldMul` multiplies in characteristic two rings with `x^256 = x^10 + x^5 + x^2 + 1`

Lemmas; the property is stated in `Verif/Ot/FieldProps.lean`.
-/

set_option linter.unusedSectionVars false

namespace Verif.Ot

open Finset

/-- the bit of a packed vector: little-endian across and within bytes (independent of
`ExtractBitFromByteVector`) -/
def bitAt {n : ℕ} (v : Vector UInt8 n) (i : ℕ) : Bool := (v.toList.getD (i / 8) 0).toNat.testBit (i % 8)

section OrFold

variable {κ α W : Type} [DecidableEq κ] [OrOp W]

/-- accumulating values with `|=` into cells -/
theorem orFold (bit : W → ℕ → Bool) (hor : ∀ a b p, bit (a ||| b) p = (bit a p || bit b p))
    (key : α → κ) (val : α → W) (l : List α) (s : κ → W) (k : κ) (p : ℕ) :
    bit (l.foldl (fun s a => Function.update s (key a) (s (key a) ||| val a)) s k) p =
      (bit (s k) p || l.any fun a => decide (key a = k) && bit (val a) p) := by
  induction l generalizing s with
  | nil => simp
  | cons a l ih =>
    rw [List.foldl_cons, ih, List.any_cons]
    by_cases h : key a = k
    · subst h
      simp [hor, Bool.or_assoc]
    · rw [Function.update_of_ne (Ne.symm h)]
      simp [h]

end OrFold

theorem byteBit_lt {b : UInt8} {p : ℕ} (h : b.toNat.testBit p = true) : p < 8 := by
  by_contra hp
  have h2 := Nat.ge_two_pow_of_testBit h
  have := b.toNat_lt
  have : 2 ^ 8 ≤ 2 ^ p := Nat.pow_le_pow_right (by norm_num) (by omega)
  omega

/-- bits of the condensed words -/
theorem condense_bit (A : Digest) (j p : ℕ) (hj : j < 4) (hp : p < 64) :
    (condense A j).getLsbD p = bitAt A (64 * j + p) := by
  unfold condense
  rw [orFold (fun (w : BitVec 64) p => w.getLsbD p) (fun a b p => BitVec.getLsbD_or)
    (fun i : ℕ => i >>> 3) (fun i : ℕ => (A.toList.getD i 0).toBitVec.setWidth 64 <<< ((i &&& 0x07) <<< 3))]
  simp only [BitVec.getLsbD_zero, Bool.false_or]
  have e7 : ∀ i : ℕ, (i &&& 0x07) <<< 3 = 8 * (i % 8) := by
    intro i
    rw [show (0x07 : ℕ) = 2 ^ 3 - 1 from rfl, Nat.and_two_pow_sub_one_eq_mod, Nat.shiftLeft_eq]
    omega
  have e3 : ∀ i : ℕ, i >>> 3 = i / 8 := fun i => by rw [Nat.shiftRight_eq_div_pow]
  rw [Bool.eq_iff_iff, List.any_eq_true]
  unfold bitAt
  have d1 : (64 * j + p) / 8 = 8 * j + p / 8 := by omega
  have d2 : (64 * j + p) % 8 = p % 8 := by omega
  rw [d1, d2]
  constructor
  · rintro ⟨i, hi, h⟩
    rw [List.mem_range] at hi
    rw [Bool.and_eq_true, decide_eq_true_eq, e3, BitVec.getLsbD_shiftLeft, BitVec.getLsbD_setWidth, e7] at h
    obtain ⟨h1, h2⟩ := h
    simp only [Bool.and_eq_true, decide_eq_true_eq, Bool.not_eq_true', decide_eq_false_iff_not] at h2
    obtain ⟨⟨h3, h4⟩, h5, h6⟩ := h2
    have h7 : (A.toList.getD i 0).toNat.testBit (p - 8 * (i % 8)) = true := h6
    have h8 := byteBit_lt h7
    have ei : i = 8 * j + p / 8 := by omega
    have ep : p - 8 * (i % 8) = p % 8 := by omega
    rw [ep] at h7
    rw [← ei]; exact h7
  · intro h
    refine ⟨8 * j + p / 8, List.mem_range.2 (by omega), ?_⟩
    rw [Bool.and_eq_true, decide_eq_true_eq, e3, BitVec.getLsbD_shiftLeft, BitVec.getLsbD_setWidth, e7]
    refine ⟨by omega, ?_⟩
    simp only [Bool.and_eq_true, decide_eq_true_eq, Bool.not_eq_true', decide_eq_false_iff_not]
    refine ⟨⟨hp, by omega⟩, by omega, ?_⟩
    have ep : p - 8 * ((8 * j + p / 8) % 8) = p % 8 := by omega
    rw [ep]
    exact h

theorem condense_high (A : Digest) (j : ℕ) (hj : 4 ≤ j) : condense A j = 0#64 := by
  refine BitVec.eq_of_getLsbD_eq fun p hp => ?_
  unfold condense
  rw [orFold (fun (w : BitVec 64) p => w.getLsbD p) (fun a b p => BitVec.getLsbD_or)
    (fun i : ℕ => i >>> 3) (fun i : ℕ => (A.toList.getD i 0).toBitVec.setWidth 64 <<< ((i &&& 0x07) <<< 3))]
  simp only [BitVec.getLsbD_zero, Bool.false_or]
  rw [Bool.eq_false_iff, Ne, List.any_eq_true]
  rintro ⟨i, hi, h⟩
  rw [List.mem_range] at hi
  rw [Bool.and_eq_true, decide_eq_true_eq, Nat.shiftRight_eq_div_pow] at h
  omega

section Ring

variable {R : Type} [CommRing R] [CharP R 2] (x : R)

/-- value of a bit -/
def bv (R : Type) [CommRing R] (b : Bool) : R := if b then 1 else 0

theorem bv_xor (a b : Bool) : bv R (a ^^ b) = bv R a + bv R b := by
  cases a <;> cases b <;> simp [bv, CharTwo.add_self_eq_zero]

theorem bv_and (a b : Bool) : bv R (a && b) = bv R a * bv R b := by
  cases a <;> cases b <;> simp [bv]

theorem bv_false : bv R false = 0 := rfl

/-- value at `x` of the polynomial whose coefficients are the bits of a word -/
def word (w : BitVec 64) : R := ∑ i ∈ range 64, bv R (w.getLsbD i) * x ^ i

/-- value of `n` words -/
def words (n : ℕ) (c : ℕ → BitVec 64) : R := ∑ j ∈ range n, x ^ (64 * j) * word x (c j)

/-- value of a byte vector -/
def value {n : ℕ} (v : Vector UInt8 n) : R := ∑ i ∈ range (8 * n), bv R (bitAt v i) * x ^ i

theorem word_zero : word x 0#64 = 0 := by
  unfold word
  exact sum_eq_zero fun i _ => by simp [bv]

theorem word_xor (a b : BitVec 64) : word x (a ^^^ b) = word x a + word x b := by
  unfold word
  rw [← sum_add_distrib]
  refine sum_congr rfl fun i _ => ?_
  rw [BitVec.getLsbD_xor, bv_xor, add_mul]

/-- or of words with disjoint bits -/
theorem word_or (a b : BitVec 64) (h : ∀ i, (a.getLsbD i && b.getLsbD i) = false) :
    word x (a ||| b) = word x a + word x b := by
  unfold word
  rw [← sum_add_distrib]
  refine sum_congr rfl fun i _ => ?_
  rw [BitVec.getLsbD_or, ← add_mul]
  have := h i
  congr 1
  revert this
  cases a.getLsbD i <;> cases b.getLsbD i <;> simp [bv]

theorem split64 (s : ℕ) (hs : s ≤ 64) (f : ℕ → R) :
    ∑ i ∈ range 64, f i = ∑ i ∈ range s, f i + ∑ i ∈ range (64 - s), f (s + i) := by
  rw [← sum_range_add]; congr 2; omega

/-- the two parts of a shifted word -/
theorem word_shift (w : BitVec 64) (s : ℕ) (hs : s ≤ 64) :
    word x (w <<< s) + x ^ 64 * word x (w >>> (64 - s)) = x ^ s * word x w := by
  unfold word
  have h1 : ∑ i ∈ range 64, bv R ((w <<< s).getLsbD i) * x ^ i =
      ∑ i ∈ range (64 - s), bv R (w.getLsbD i) * x ^ (s + i) := by
    rw [split64 s hs, sum_eq_zero, zero_add]
    · refine sum_congr rfl fun i hi => ?_
      rw [mem_range] at hi
      rw [BitVec.getLsbD_shiftLeft]
      have a1 : decide (s + i < 64) = true := by simp; omega
      have a2 : decide (s + i < s) = false := by simp
      rw [a1, a2, Nat.add_sub_cancel_left]
      simp
    · intro i hi
      rw [mem_range] at hi
      rw [BitVec.getLsbD_shiftLeft]
      simp [hi, bv]
  have h2 : ∑ i ∈ range 64, bv R ((w >>> (64 - s)).getLsbD i) * x ^ i =
      ∑ i ∈ range s, bv R (w.getLsbD (64 - s + i)) * x ^ i := by
    rw [split64 s hs]
    simp only [BitVec.getLsbD_ushiftRight]
    rw [add_eq_left]
    refine sum_eq_zero fun i hi => ?_
    rw [BitVec.getLsbD_of_ge _ _ (by omega), bv_false, zero_mul]
  have h3 := split64 (64 - s) (by omega) (fun i => bv R (w.getLsbD i) * x ^ i)
  rw [show 64 - (64 - s) = s by omega] at h3
  rw [h1, h2, h3, mul_add, mul_sum, mul_sum, mul_sum]
  congr 1
  · exact sum_congr rfl fun i _ => by ring
  · refine sum_congr rfl fun i _ => ?_
    have : x ^ 64 * x ^ i = x ^ s * x ^ (64 - s + i) := by
      rw [← pow_add, ← pow_add]; congr 1; omega
    linear_combination bv R (w.getLsbD (64 - s + i)) * this

theorem words_update (n : ℕ) (c : ℕ → BitVec 64) (m : ℕ) (hm : m < n) (w : BitVec 64) :
    words x n (Function.update c m (c m ^^^ w)) = words x n c + x ^ (64 * m) * word x w := by
  unfold words
  have : ∀ j ∈ range n, x ^ (64 * j) * word x (Function.update c m (c m ^^^ w) j) =
      x ^ (64 * j) * word x (c j) + if j = m then x ^ (64 * m) * word x w else 0 := by
    intro j _
    by_cases h : j = m
    · subst h; simp [word_xor, mul_add]
    · simp [h]
  rw [sum_congr rfl this, sum_add_distrib]
  congr 1
  rw [sum_ite_eq' (range n) m]
  simp [hm]

theorem words_zero (n : ℕ) : words x n (fun _ => 0#64) = 0 := by
  unfold words; simp [word_zero]

/-- the mask of line 102 -/
theorem mask_bit (w : BitVec 64) (k i : ℕ) (hi : i < 64) :
    (-((w >>> k) &&& 0x01#64)).getLsbD i = w.getLsbD k := by
  have : (w >>> k) &&& 0x01#64 = if w.getLsbD k then 1#64 else 0#64 := by
    refine BitVec.eq_of_getLsbD_eq fun j hj => ?_
    rw [BitVec.getLsbD_and, BitVec.getLsbD_ushiftRight]
    by_cases h0 : j = 0
    · subst h0
      cases h : w.getLsbD k <;> simp
    · have : (0x01#64).getLsbD j = false := by
        simp [BitVec.getLsbD_one, h0]
      rw [this, Bool.and_false]
      split
      · rw [this]
      · simp
  rw [this]
  cases w.getLsbD k
  · simp
  · simp only [if_true]
    rw [show (-1#64) = BitVec.allOnes 64 from by decide, BitVec.getLsbD_allOnes]
    simpa using hi

theorem word_mask (b w : BitVec 64) (k : ℕ) :
    word x (b &&& -((w >>> k) &&& 0x01#64)) = bv R (w.getLsbD k) * word x b := by
  unfold word
  rw [mul_sum]
  refine sum_congr rfl fun i hi => ?_
  rw [BitVec.getLsbD_and, mask_bit w k i (mem_range.1 hi), bv_and]
  ring

theorem words_mulRow (a b c : ℕ → BitVec 64) (k j : ℕ) (hj : j < 4) :
    words x 8 (mulRow a b k c j) =
      words x 8 c + bv R ((a j).getLsbD k) * x ^ (64 * j) * words x 5 b := by
  have key : ∀ n ≤ 5, words x 8 ((List.range n).foldl (fun c i => Function.update c (j + i)
      (c (j + i) ^^^ (b i &&& -((a j >>> k) &&& 0x01#64)))) c) =
      words x 8 c + bv R ((a j).getLsbD k) * x ^ (64 * j) * words x n b := by
    intro n
    induction n with
    | zero => intro _; simp [words]
    | succ n ih =>
      intro hn
      rw [List.range_succ, List.foldl_append, List.foldl_cons, List.foldl_nil,
        words_update x 8 _ (j + n) (by omega), ih (by omega), word_mask]
      have : words x (n + 1) b = words x n b + x ^ (64 * n) * word x (b n) := by
        unfold words; rw [sum_range_succ]
      rw [this]
      ring
  exact key 5 le_rfl

theorem words_mulRows (a b c : ℕ → BitVec 64) (k : ℕ) :
    words x 8 ((List.range 4).foldl (mulRow a b k) c) = words x 8 c +
      (∑ j ∈ range 4, bv R ((a j).getLsbD k) * x ^ (64 * j)) * words x 5 b := by
  have key : ∀ n ≤ 4, words x 8 ((List.range n).foldl (mulRow a b k) c) = words x 8 c +
      (∑ j ∈ range n, bv R ((a j).getLsbD k) * x ^ (64 * j)) * words x 5 b := by
    intro n
    induction n with
    | zero => intro _; simp
    | succ n ih =>
      intro hn
      rw [List.range_succ, List.foldl_append, List.foldl_cons, List.foldl_nil,
        words_mulRow x a b _ k n (by omega), ih (by omega), sum_range_succ]
      ring
  exact key 4 le_rfl

theorem shiftWords_apply (b : ℕ → BitVec 64) :
    shiftWords b 0 = b 0 <<< 1 ∧ shiftWords b 1 = (b 1 <<< 1 ||| b 0 >>> 63) ∧
    shiftWords b 2 = (b 2 <<< 1 ||| b 1 >>> 63) ∧ shiftWords b 3 = (b 3 <<< 1 ||| b 2 >>> 63) ∧
    shiftWords b 4 = (b 4 <<< 1 ||| b 3 >>> 63) := by
  simp [shiftWords]

theorem word_shl1_or (a b : BitVec 64) :
    word x (a <<< 1 ||| b >>> 63) = word x (a <<< 1) + word x (b >>> 63) := by
  refine word_or x _ _ fun i => ?_
  rw [BitVec.getLsbD_shiftLeft, BitVec.getLsbD_ushiftRight]
  by_cases h : i = 0
  · subst h; simp
  · rw [BitVec.getLsbD_of_ge b _ (by omega)]; simp

theorem words_shift (b : ℕ → BitVec 64) (h4 : (b 4).getLsbD 63 = false) :
    words x 5 (shiftWords b) = x * words x 5 b := by
  obtain ⟨e0, e1, e2, e3, e4⟩ := shiftWords_apply b
  unfold words
  simp only [sum_range_succ, range_zero, sum_empty, e0, e1, e2, e3, e4, word_shl1_or]
  have s0 := word_shift x (b 0) 1 (by norm_num)
  have s1 := word_shift x (b 1) 1 (by norm_num)
  have s2 := word_shift x (b 2) 1 (by norm_num)
  have s3 := word_shift x (b 3) 1 (by norm_num)
  have s4 := word_shift x (b 4) 1 (by norm_num)
  have z4 : word x (b 4 >>> (64 - 1)) = 0 := by
    unfold word
    refine sum_eq_zero fun i _ => ?_
    rw [BitVec.getLsbD_ushiftRight]
    by_cases hi : i = 0
    · subst hi; rw [h4, bv_false, zero_mul]
    · rw [BitVec.getLsbD_of_ge _ _ (by omega), bv_false, zero_mul]
  rw [z4] at s4
  linear_combination s0 + x ^ 64 * s1 + x ^ 128 * s2 + x ^ 192 * s3 + x ^ 256 * s4

theorem mulLoop_succ (a b : ℕ → BitVec 64) (n : ℕ) :
    mulLoop a b (n + 1) = (shiftWords (mulLoop a b n).1,
      (List.range 4).foldl (mulRow a (mulLoop a b n).1 n) (mulLoop a b n).2) := by
  unfold mulLoop
  rw [List.range_succ (n := n), List.foldl_append, List.foldl_cons, List.foldl_nil]

theorem mulLoop_inv (a b : ℕ → BitVec 64) (hb : b 4 = 0#64) (n : ℕ) (hn : n ≤ 64) :
    words x 5 (mulLoop a b n).1 = x ^ n * words x 5 b ∧
    (∀ i, n ≤ i → ((mulLoop a b n).1 4).getLsbD i = false) ∧
    words x 8 (mulLoop a b n).2 =
      (∑ k ∈ range n, (∑ j ∈ range 4, bv R ((a j).getLsbD k) * x ^ (64 * j)) * x ^ k) *
        words x 5 b := by
  induction n with
  | zero =>
    refine ⟨by simp [mulLoop], fun i _ => ?_, by simp [mulLoop, words_zero]⟩
    simp [mulLoop, hb]
  | succ n ih =>
    obtain ⟨h1, h2, h3⟩ := ih (by omega)
    rw [mulLoop_succ]
    refine ⟨?_, fun i hi => ?_, ?_⟩
    · simp only
      rw [words_shift x _ (h2 63 (by omega)), h1, pow_succ]; ring
    · simp only
      rw [(shiftWords_apply _).2.2.2.2, BitVec.getLsbD_or, BitVec.getLsbD_shiftLeft,
        BitVec.getLsbD_ushiftRight, BitVec.getLsbD_of_ge _ (63 + i) (by omega), h2 (i - 1) (by omega)]
      simp
    · simp only
      rw [words_mulRows, h3, h1, sum_range_succ _ n]
      ring

theorem words_reduceStep (hx : x ^ 256 = x ^ 10 + x ^ 5 + x ^ 2 + 1) (c : ℕ → BitVec 64) (i : ℕ)
    (hi : 4 ≤ i) (hi8 : i < 8) : words x i (reduceStep c i) = words x (i + 1) c := by
  have hne4 : i ≠ i - 4 := by omega
  have hne3 : i ≠ i - 3 := by omega
  unfold reduceStep
  simp only [Function.update_of_ne hne4, Function.update_of_ne hne3]
  rw [words_update x i _ (i - 4) (by omega), words_update x i _ (i - 3) (by omega),
    words_update x i _ (i - 4) (by omega), words_update x i _ (i - 3) (by omega),
    words_update x i _ (i - 4) (by omega), words_update x i _ (i - 3) (by omega),
    words_update x i _ (i - 4) (by omega)]
  have e : words x (i + 1) c = words x i c + x ^ (64 * i) * word x (c i) := by
    unfold words; rw [sum_range_succ]
  rw [e]
  have p1 : x ^ (64 * (i - 3)) = x ^ (64 * (i - 4)) * x ^ 64 := by
    rw [← pow_add]; congr 1; omega
  have p2 : x ^ (64 * i) = x ^ (64 * (i - 4)) * x ^ 256 := by
    rw [← pow_add]; congr 1; omega
  have s10 := word_shift x (c i) 10 (by norm_num)
  have s5 := word_shift x (c i) 5 (by norm_num)
  have s2 := word_shift x (c i) 2 (by norm_num)
  simp only [show 64 - 10 = 54 from rfl, show 64 - 5 = 59 from rfl, show 64 - 2 = 62 from rfl] at s10 s5 s2
  rw [p1, p2, hx]
  linear_combination x ^ (64 * (i - 4)) * (s10 + s5 + s2)

theorem sum_blocks (f : ℕ → R) (m n : ℕ) :
    ∑ i ∈ range (m * n), f i = ∑ j ∈ range n, ∑ p ∈ range m, f (m * j + p) := by
  induction n with
  | zero => simp
  | succ n ih => rw [Nat.mul_succ, sum_range_add, ih, sum_range_succ]

theorem value_eq_words (A : Digest) (c : ℕ → BitVec 64)
    (h : ∀ j p, j < 4 → p < 64 → (c j).getLsbD p = bitAt A (64 * j + p)) :
    value x A = words x 4 c := by
  unfold value words word
  rw [show 8 * 32 = 64 * 4 from rfl, sum_blocks]
  refine sum_congr rfl fun j hj => ?_
  rw [mul_sum]
  refine sum_congr rfl fun p hp => ?_
  rw [h j p (mem_range.1 hj) (mem_range.1 hp), pow_add]
  ring

/-- the bits of the output bytes -/
theorem bytes_bit (c : ℕ → BitVec 64) (j p : ℕ) (hj : j < 4) (hp : p < 64) :
    (c j).getLsbD p = bitAt (Vector.ofFn (n := 32) fun i => UInt8.ofBitVec
      ((c (i.val >>> 3) >>> ((i.val &&& 0x07) <<< 3)).setWidth 8)) (64 * j + p) := by
  unfold bitAt
  have d1 : (64 * j + p) / 8 = 8 * j + p / 8 := by omega
  have d2 : (64 * j + p) % 8 = p % 8 := by omega
  have e7 : ((8 * j + p / 8) &&& 0x07) <<< 3 = 8 * (p / 8) := by
    rw [show (0x07 : ℕ) = 2 ^ 3 - 1 from rfl, Nat.and_two_pow_sub_one_eq_mod, Nat.shiftLeft_eq]
    omega
  have e3 : (8 * j + p / 8) >>> 3 = j := by rw [Nat.shiftRight_eq_div_pow]; omega
  rw [d1, d2]
  have hlt : 8 * j + p / 8 < 32 := by omega
  have e : ∀ (f : Fin 32 → UInt8) (i : ℕ) (hi : i < 32), (Vector.ofFn f).toList.getD i 0 = f ⟨i, hi⟩ := by
    intro f i hi
    rw [List.getD_eq_getElem?_getD, Vector.getElem?_toList, Vector.getElem?_eq_getElem hi,
      Vector.getElem_ofFn]
    rfl
  rw [e _ _ hlt]
  simp only [e7, e3]
  have : (UInt8.ofBitVec (BitVec.setWidth 8 (c j >>> (8 * (p / 8))))).toNat.testBit (p % 8) =
      (BitVec.setWidth 8 (c j >>> (8 * (p / 8)))).getLsbD (p % 8) := rfl
  rw [this, BitVec.getLsbD_setWidth, BitVec.getLsbD_ushiftRight]
  have a : decide (p % 8 < 8) = true := by simp; omega
  rw [a, Bool.true_and]
  congr 1
  omega

theorem value_mul (hx : x ^ 256 = x ^ 10 + x ^ 5 + x ^ 2 + 1) (A B : Digest) :
    value x (binaryFieldMul A B) = value x A * value x B := by
  have hA := value_eq_words x A (condense A) (fun j p hj hp => condense_bit A j p hj hp)
  have hB := value_eq_words x B (condense B) (fun j p hj hp => condense_bit B j p hj hp)
  have hB5 : words x 5 (condense B) = words x 4 (condense B) := by
    unfold words; rw [sum_range_succ, condense_high B 4 le_rfl, word_zero, mul_zero, add_zero]
  obtain ⟨-, -, h3⟩ := mulLoop_inv x (condense A) (condense B) (condense_high B 4 le_rfl) 64 le_rfl
  unfold binaryFieldMul
  simp only
  rw [value_eq_words x _ ([7, 6, 5, 4].foldl reduceStep (mulLoop (condense A) (condense B) 64).2)
    (fun j p hj hp => bytes_bit _ j p hj hp)]
  simp only [List.foldl_cons, List.foldl_nil]
  rw [words_reduceStep x hx _ 4 (by norm_num) (by norm_num),
    words_reduceStep x hx _ 5 (by norm_num) (by norm_num),
    words_reduceStep x hx _ 6 (by norm_num) (by norm_num),
    words_reduceStep x hx _ 7 (by norm_num) (by norm_num), h3, hA, hB, hB5]
  congr 1
  unfold words word
  simp only [sum_mul, mul_sum]
  rw [sum_comm]
  exact sum_congr rfl fun j _ => sum_congr rfl fun k _ => by ring

end Ring

end Verif.Ot
