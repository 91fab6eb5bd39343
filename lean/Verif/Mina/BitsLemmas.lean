import Mathlib.Data.Nat.Bitwise
import Mathlib.Data.ZMod.Basic
import Verif.Mina.BitVectorProps
import Verif.Mina.KeysModel

/-!
# Bits, bytes and chunks of the Mina random oracle input
-/

namespace Verif.Mina

theorem bitsOf_length (n k : ℕ) : (bitsOf n k).length = k := by simp [bitsOf]

theorem bitsOf_getD (n k i : ℕ) : (bitsOf n k).getD i false = (decide (i < k) && n.testBit i) := by
  unfold bitsOf
  rw [List.getD_eq_getElem?_getD, List.getElem?_map]
  by_cases h : i < k
  · rw [List.getElem?_range h]; simp [h]
  · rw [List.getElem?_eq_none (by simp; omega)]; simp [h]

theorem bitsNat_cons (b : Bool) (bs : List Bool) : bitsNat (b :: bs) = b.toNat + 2 * bitsNat bs := rfl

theorem bitsNat_testBit (bs : List Bool) (i : ℕ) : (bitsNat bs).testBit i = bs.getD i false := by
  induction bs generalizing i with
  | nil => simp [bitsNat]
  | cons b bs ih =>
    rw [bitsNat_cons]
    cases i with
    | zero =>
      rw [Nat.testBit_zero]
      cases b <;> simp
    | succ i =>
      rw [Nat.testBit_succ]
      have e : (b.toNat + 2 * bitsNat bs) / 2 = bitsNat bs := by cases b <;> simp; omega
      rw [e, ih]
      simp

theorem bitsNat_lt (bs : List Bool) : bitsNat bs < 2 ^ bs.length := by
  induction bs with
  | nil => simp [bitsNat]
  | cons b bs ih =>
    rw [bitsNat_cons, List.length_cons, pow_succ]
    cases b <;> simp <;> omega

theorem bitsNat_append (a b : List Bool) : bitsNat (a ++ b) = bitsNat a + 2 ^ a.length * bitsNat b := by
  induction a with
  | nil => simp [bitsNat]
  | cons x a ih =>
    rw [List.cons_append, bitsNat_cons, bitsNat_cons, ih, List.length_cons, pow_succ]
    ring

theorem bitsNat_bitsOf (n k : ℕ) : bitsNat (bitsOf n k) = n % 2 ^ k := by
  apply Nat.eq_of_testBit_eq
  intro i
  rw [bitsNat_testBit, bitsOf_getD, Nat.testBit_mod_two_pow]

/-- lists of bits of one length with one value are equal -/
theorem bits_ext {a b : List Bool} (hl : a.length = b.length) (h : bitsNat a = bitsNat b) : a = b := by
  apply List.ext_getElem hl
  intro i h1 h2
  have := congrArg (fun n => n.testBit i) h
  simpa [bitsNat_testBit, h1, h2] using this

theorem bitsOf_inj {n m k : ℕ} (hn : n < 2 ^ k) (hm : m < 2 ^ k) (h : bitsOf n k = bitsOf m k) :
    n = m := by
  have := congrArg bitsNat h
  rwa [bitsNat_bitsOf, bitsNat_bitsOf, Nat.mod_eq_of_lt hn, Nat.mod_eq_of_lt hm] at this

theorem byteBits_cons (b : UInt8) (bs : List UInt8) :
    byteBits (b :: bs) = bitsOf b.toNat 8 ++ byteBits bs := rfl

theorem byteBits_length (bs : List UInt8) : (byteBits bs).length = 8 * bs.length := by
  induction bs with
  | nil => rfl
  | cons b bs ih =>
    rw [byteBits_cons, List.length_append, bitsOf_length, ih, List.length_cons]; omega

theorem bitsNat_byteBits (bs : List UInt8) : bitsNat (byteBits bs) = leNat bs := by
  induction bs with
  | nil => rfl
  | cons b bs ih =>
    rw [byteBits_cons, bitsNat_append, bitsNat_bitsOf, bitsOf_length, ih, leNat_cons]
    have := b.toNat_lt
    omega

theorem leNat_testBit (bs : List UInt8) (i : ℕ) : (leNat bs).testBit i = dataBit bs i := by
  induction bs generalizing i with
  | nil => simp [leNat, dataBit_nil]
  | cons b bs ih =>
    rw [leNat_cons]
    have hb := b.toNat_lt
    by_cases h : i < 8
    · rw [dataBit_cons_lt _ _ h]
      have e : (b.toNat + 256 * leNat bs) % 2 ^ 8 = b.toNat := by omega
      have := Nat.testBit_mod_two_pow (b.toNat + 256 * leNat bs) 8 i
      rw [e] at this
      simpa [h] using this.symm
    · rw [dataBit_cons_ge _ _ (by omega), ← ih]
      have e : (b.toNat + 256 * leNat bs) / 2 ^ 8 = leNat bs := by omega
      calc _ = ((b.toNat + 256 * leNat bs) / 2 ^ 8).testBit (i - 8) := by
            rw [Nat.testBit_div_two_pow, Nat.sub_add_cancel (by omega)]
        _ = _ := by rw [e]

/-- byte strings of one length with the same bits are equal -/
theorem bytes_ext {a b : List UInt8} (hl : a.length = b.length) (h : ∀ i, dataBit a i = dataBit b i) :
    a = b := by
  induction a generalizing b with
  | nil => cases b with
    | nil => rfl
    | cons => simp at hl
  | cons x a ih =>
    cases b with
    | nil => simp at hl
    | cons y b =>
      have hx : x = y := by
        apply UInt8.toNat_inj.1
        apply Nat.eq_of_testBit_eq
        intro i
        by_cases hi : i < 8
        · have := h i
          rwa [dataBit_cons_lt _ _ hi, dataBit_cons_lt _ _ hi] at this
        · have hx := x.toNat_lt
          have hy := y.toNat_lt
          rw [Nat.testBit_lt_two_pow (lt_of_lt_of_le hx (Nat.pow_le_pow_right (by omega) (by omega : 8 ≤ i))),
            Nat.testBit_lt_two_pow (lt_of_lt_of_le hy (Nat.pow_le_pow_right (by omega) (by omega : 8 ≤ i)))]
      subst hx
      congr 1
      apply ih (by simpa using hl)
      intro i
      have := h (i + 8)
      rwa [dataBit_cons_ge _ _ (by omega), dataBit_cons_ge _ _ (by omega), Nat.add_sub_cancel] at this

theorem packBytes_length (n : ℕ) (bits : List Bool) : (packBytes n bits).length = n := by simp [packBytes]

theorem packBytes_bit (n : ℕ) (bits : List Bool) (i : ℕ) :
    dataBit (packBytes n bits) i = (decide (i < 8 * n) && bits.getD i false) := by
  by_cases h : i < 8 * n
  · unfold dataBit packBytes
    have h8 : i / 8 < n := by omega
    rw [List.getD_eq_getElem?_getD, List.getElem?_map, List.getElem?_range h8, Option.map_some,
      Option.getD_some]
    have hlt : bitsNat (List.take 8 (List.drop (8 * (i / 8)) bits)) < 256 := by
      refine lt_of_lt_of_le (bitsNat_lt _) ?_
      rw [show 256 = 2 ^ 8 from rfl]
      exact Nat.pow_le_pow_right (by omega) (by simp)
    rw [UInt8.toNat_ofNat', Nat.mod_eq_of_lt hlt, bitsNat_testBit, List.getD_eq_getElem?_getD,
      List.getElem?_take_of_lt (Nat.mod_lt _ (by omega)), List.getElem?_drop,
      show 8 * (i / 8) + i % 8 = i by omega]
    simp [h]
  · rw [dataBit_ge _ (by rw [packBytes_length]; omega)]
    simp [h]

/-- C79: the byte strings of the model are what repeated `Append` writes into a buffer of zeros that is
large enough -/
theorem C79_pack (n : ℕ) (bits : List Bool) (h : bits.length < 2 ^ 32) (hn : bits.length ≤ 8 * n) :
    ∃ v, bits.foldlM (fun v b => append v (bitByte b)) (newBitVector (List.replicate n 0) 0) = .ok v ∧
      v.data = packBytes n bits := by
  obtain ⟨v, h1, -, -, -, h5, h6⟩ := C79_appends n bits h
  refine ⟨v, h1, bytes_ext ?_ fun i => ?_⟩
  · rw [h5, packBytes_length]; omega
  · rw [h6, packBytes_bit]
    by_cases hi : i < 8 * n
    · simp [hi]
    · rw [List.getD_eq_getElem?_getD, List.getElem?_eq_none (by omega)]; simp [hi]

theorem packBytes_inj {n : ℕ} {a b : List Bool} (hl : a.length = b.length) (hn : a.length ≤ 8 * n)
    (h : packBytes n a = packBytes n b) : a = b := by
  apply List.ext_getElem hl
  intro i h1 h2
  have := congrArg (fun d => dataBit d i) h
  simp only [packBytes_bit] at this
  simpa [h1, h2, show i < 8 * n by omega] using this

/-! ### chunks -/

/-- the number written in base `2^254` -/
def chunkVal (l : List ℕ) : ℕ := l.foldr (fun n a => n + 2 ^ 254 * a) 0

theorem chunks_spec (n : ℕ) (bits : List Bool) (hn : bits.length ≤ n) :
    chunkVal (chunks n bits) = bitsNat bits ∧ (chunks n bits).length = (bits.length + 253) / 254 ∧
      ∀ c ∈ chunks n bits, c < 2 ^ 254 := by
  induction n generalizing bits with
  | zero =>
    have : bits = [] := List.length_eq_zero_iff.1 (by omega)
    subst this
    simp [chunks, chunkVal, bitsNat]
  | succ n ih =>
    cases hb : bits with
    | nil => simp [chunks, chunkVal, bitsNat]
    | cons b bs =>
      rw [← hb]
      have hu : chunks (n + 1) bits = bitsNat (bits.take 254) :: chunks n (bits.drop 254) := by
        rw [hb]; rfl
      have hpos : 0 < bits.length := by rw [hb]; simp
      obtain ⟨h1, h2, h3⟩ := ih (bits.drop 254) (by simp; omega)
      have ht : bitsNat (bits.take 254) < 2 ^ 254 :=
        lt_of_lt_of_le (bitsNat_lt _) (Nat.pow_le_pow_right (by omega) (by simp))
      rw [hu]
      refine ⟨?_, ?_, ?_⟩
      · show bitsNat (bits.take 254) + 2 ^ 254 * chunkVal (chunks n (bits.drop 254)) = _
        rw [h1]
        conv_rhs => rw [← List.take_append_drop 254 bits, bitsNat_append]
        by_cases hl : 254 ≤ bits.length
        · rw [List.length_take, min_eq_left hl]
        · rw [List.drop_eq_nil_of_le (by omega)]; simp [bitsNat]
      · simp only [List.length_cons, h2, List.length_drop]; omega
      · intro c hc
        rcases List.mem_cons.1 hc with rfl | hc
        · exact ht
        · exact h3 c hc

theorem chunkVal_append_zeros (l : List ℕ) (k : ℕ) : chunkVal (l ++ List.replicate k 0) = chunkVal l := by
  induction l with
  | nil =>
    induction k with
    | zero => rfl
    | succ k ih =>
      rw [List.nil_append] at ih ⊢
      rw [List.replicate_succ]
      show 0 + 2 ^ 254 * chunkVal (List.replicate k 0) = _
      rw [ih]
      rfl
  | cons a l ih =>
    show a + 2 ^ 254 * chunkVal (l ++ List.replicate k 0) = a + 2 ^ 254 * chunkVal l
    rw [ih]

theorem chunkVal_inj {a b : List ℕ} (hl : a.length = b.length) (ha : ∀ c ∈ a, c < 2 ^ 254)
    (hb : ∀ c ∈ b, c < 2 ^ 254) (h : chunkVal a = chunkVal b) : a = b := by
  induction a generalizing b with
  | nil => cases b with
    | nil => rfl
    | cons => simp at hl
  | cons x a ih =>
    cases b with
    | nil => simp at hl
    | cons y b =>
      have e : x + 2 ^ 254 * chunkVal a = y + 2 ^ 254 * chunkVal b := h
      have hx := ha x (by simp)
      have hy := hb y (by simp)
      have e1 : x = y := by omega
      have e2 : chunkVal a = chunkVal b := by omega
      rw [e1, ih (by simpa using hl) (fun c hc => ha c (by simp [hc])) (fun c hc => hb c (by simp [hc])) e2]

/-- two lists agree when both are extended by zeros -/
def SameUpToZeros {α : Type} [Zero α] (a b : List α) : Prop := ∀ i, a.getD i 0 = b.getD i 0

theorem leNat_eq_iff (a b : List UInt8) : leNat a = leNat b ↔ SameUpToZeros a b := by
  constructor
  · intro h i
    apply UInt8.toNat_inj.1
    apply Nat.eq_of_testBit_eq
    intro j
    by_cases hj : j < 8
    · have := congrArg (fun n => n.testBit (8 * i + j)) h
      simp only [leNat_testBit] at this
      unfold dataBit at this
      rwa [show (8 * i + j) / 8 = i by omega, show (8 * i + j) % 8 = j by omega] at this
    · have hx := (a.getD i 0).toNat_lt
      have hy := (b.getD i 0).toNat_lt
      rw [Nat.testBit_lt_two_pow (lt_of_lt_of_le hx (Nat.pow_le_pow_right (by omega) (by omega : 8 ≤ j))),
        Nat.testBit_lt_two_pow (lt_of_lt_of_le hy (Nat.pow_le_pow_right (by omega) (by omega : 8 ≤ j)))]
  · intro h
    apply Nat.eq_of_testBit_eq
    intro i
    rw [leNat_testBit, leNat_testBit]
    unfold dataBit
    rw [h]

theorem chunkVal_eq_of_same {a b : List ℕ} (h : SameUpToZeros a b) : chunkVal a = chunkVal b := by
  induction a generalizing b with
  | nil =>
    induction b with
    | nil => rfl
    | cons y b ih =>
      have h0 : y = 0 := (h 0).symm
      have hr : SameUpToZeros [] b := fun i => by simpa using h (i + 1)
      show chunkVal [] = y + 2 ^ 254 * chunkVal b
      rw [h0, ← ih hr]
      rfl
  | cons x a ih =>
    cases b with
    | nil =>
      have h0 : x = 0 := h 0
      have hr : SameUpToZeros a [] := fun i => by simpa using h (i + 1)
      show x + 2 ^ 254 * chunkVal a = chunkVal []
      rw [h0, ih hr]
      rfl
    | cons y b =>
      have h0 : x = y := h 0
      have hr : SameUpToZeros a b := fun i => by simpa using h (i + 1)
      show x + 2 ^ 254 * chunkVal a = y + 2 ^ 254 * chunkVal b
      rw [h0, ih hr]

theorem same_append_zeros {α : Type} [Zero α] (a : List α) (k : ℕ) :
    SameUpToZeros (a ++ List.replicate k 0) a := by
  intro i
  simp only [List.getD_eq_getElem?_getD, List.getElem?_append]
  split
  · rfl
  · next h =>
    rw [List.getElem?_eq_none (l := a) (by omega), List.getElem?_replicate]
    split <;> rfl

end Verif.Mina
