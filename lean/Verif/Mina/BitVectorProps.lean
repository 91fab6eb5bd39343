import Mathlib.Data.List.InsertIdx
import Mathlib.Data.List.Induction
import Mathlib.Tactic.NormNum
import Verif.Mina.BitVectorModel

/-!
# C79: the Mina bit vector behaves as a list of bits

`view v` is the list of bits a vector stands for. Each operation is the operation of the same name on
lists, and fails exactly when the index is outside the list.
-/

namespace Verif.Mina

set_option maxRecDepth 100000

/-- bit `i` of a byte string, least significant bit of each byte first; `false` past the end -/
def dataBit (d : List UInt8) (i : ℕ) : Bool := (d.getD (i / 8) 0).toNat.testBit (i % 8)

/-- the bits a vector stands for -/
def view (v : BitVector) : List Bool := (List.range v.length).map (dataBit v.data)

/-- the data holds the bits the length speaks of -/
def WF (v : BitVector) : Prop := v.length ≤ 8 * v.data.length

instance (v : BitVector) : Decidable (WF v) := inferInstanceAs (Decidable (_ ≤ _))

/-- a bit as a byte -/
def bitByte (b : Bool) : UInt8 := if b then 1 else 0

/-! ### single bytes, checked for all of them -/

theorem ofNat_toNat_fin (b : UInt8) : UInt8.ofNat (⟨b.toNat, b.toNat_lt⟩ : Fin 256) = b := by
  simp

theorem writeBit_fin : ∀ (b : Fin 256) (off j : Fin 8) (bit : Bool),
    (writeBit (UInt8.ofNat b) (bitByte bit) off).toNat.testBit j =
      if j = off then bit else (UInt8.ofNat b).toNat.testBit j := by
  decide +kernel

theorem writeBit_bit (b bit : UInt8) {off j : ℕ} (ho : off < 8) (hj : j < 8) :
    (writeBit b bit off).toNat.testBit j = if j = off then bit == 1 else b.toNat.testBit j := by
  have h := writeBit_fin ⟨b.toNat, b.toNat_lt⟩ ⟨off, ho⟩ ⟨j, hj⟩ (bit == 1)
  rw [ofNat_toNat_fin] at h
  have e : writeBit b (bitByte (bit == 1)) off = writeBit b bit off := by
    unfold writeBit bitByte
    by_cases hb : bit = 1
    · simp [hb]
    · simp [hb]
  simp only [e, Fin.mk.injEq] at h
  exact h

/-- the byte `Insert` writes -/
def insertByte (oldByte bit : UInt8) (off : ℕ) : UInt8 :=
  (if bit == 1 then oneAt off else 0) ||| (oldByte &&& (oneAt off - (1 : UInt8))) |||
    ((oldByte &&& ~~~(oneAt off - (1 : UInt8))) <<< 1)

theorem insertByte_fin : ∀ (b : Fin 256) (off j : Fin 8) (bit : Bool),
    (insertByte (UInt8.ofNat b) (bitByte bit) off).toNat.testBit j =
      if j.val < off.val then (UInt8.ofNat b).toNat.testBit j
      else if j = off then bit else (UInt8.ofNat b).toNat.testBit (j.val - 1) := by
  decide +kernel

theorem insertByte_bit (b bit : UInt8) {off j : ℕ} (ho : off < 8) (hj : j < 8) :
    (insertByte b bit off).toNat.testBit j =
      if j < off then b.toNat.testBit j else if j = off then bit == 1 else b.toNat.testBit (j - 1) := by
  have h := insertByte_fin ⟨b.toNat, b.toNat_lt⟩ ⟨off, ho⟩ ⟨j, hj⟩ (bit == 1)
  rw [ofNat_toNat_fin] at h
  have e : insertByte b (bitByte (bit == 1)) off = insertByte b bit off := by
    unfold insertByte bitByte
    by_cases hb : bit = 1
    · simp [hb]
    · simp [hb]
  simp only [e, Fin.mk.injEq] at h
  exact h

/-- the byte `Delete` writes -/
def deleteByte (oldByte bit : UInt8) (off : ℕ) : UInt8 :=
  ((oneAt off - (1 : UInt8)) &&& oldByte) ||| (((oldByte &&& ~~~(oneAfter off - (1 : UInt8))) >>> 1) ||| (bit <<< 7))

theorem deleteByte_fin : ∀ (b : Fin 256) (off j : Fin 8) (bit : Bool),
    (deleteByte (UInt8.ofNat b) (bitByte bit) off).toNat.testBit j =
      if j.val < off.val then (UInt8.ofNat b).toNat.testBit j
      else if j.val < 7 then (UInt8.ofNat b).toNat.testBit (j.val + 1) else bit := by
  decide +kernel

theorem deleteByte_bit (b : UInt8) (bit : Bool) {off j : ℕ} (ho : off < 8) (hj : j < 8) :
    (deleteByte b (bitByte bit) off).toNat.testBit j =
      if j < off then b.toNat.testBit j else if j < 7 then b.toNat.testBit (j + 1) else bit := by
  have h := deleteByte_fin ⟨b.toNat, b.toNat_lt⟩ ⟨off, ho⟩ ⟨j, hj⟩ bit
  rw [ofNat_toNat_fin] at h
  exact h

theorem shl_fin : ∀ (b : Fin 256) (j : Fin 8) (bit : Bool),
    (((UInt8.ofNat b) <<< 1) ||| bitByte bit).toNat.testBit j =
      if j.val = 0 then bit else (UInt8.ofNat b).toNat.testBit (j.val - 1) := by
  decide +kernel

theorem shl_bit (b : UInt8) (bit : Bool) {j : ℕ} (hj : j < 8) :
    ((b <<< 1) ||| bitByte bit).toNat.testBit j = if j = 0 then bit else b.toNat.testBit (j - 1) := by
  have h := shl_fin ⟨b.toNat, b.toNat_lt⟩ ⟨j, hj⟩ bit
  rw [ofNat_toNat_fin] at h
  exact h

theorem shr_fin : ∀ (b : Fin 256) (j : Fin 8) (bit : Bool),
    (((UInt8.ofNat b) >>> 1) ||| (bitByte bit <<< 7)).toNat.testBit j =
      if j.val = 7 then bit else (UInt8.ofNat b).toNat.testBit (j.val + 1) := by
  decide +kernel

theorem shr_bit (b : UInt8) (bit : Bool) {j : ℕ} (hj : j < 8) :
    ((b >>> 1) ||| (bitByte bit <<< 7)).toNat.testBit j =
      if j = 7 then bit else b.toNat.testBit (j + 1) := by
  have h := shr_fin ⟨b.toNat, b.toNat_lt⟩ ⟨j, hj⟩ bit
  rw [ofNat_toNat_fin] at h
  exact h

theorem top_fin : ∀ b : Fin 256,
    ((UInt8.ofNat b) &&& 0x80) >>> 7 = bitByte ((UInt8.ofNat b).toNat.testBit 7) := by
  decide +kernel

theorem top_bit (b : UInt8) : (b &&& 0x80) >>> 7 = bitByte (b.toNat.testBit 7) := by
  have h := top_fin ⟨b.toNat, b.toNat_lt⟩
  rw [ofNat_toNat_fin] at h
  exact h

theorem low_fin : ∀ b : Fin 256, (UInt8.ofNat b) &&& 1 = bitByte ((UInt8.ofNat b).toNat.testBit 0) := by
  decide +kernel

theorem low_bit (b : UInt8) : b &&& 1 = bitByte (b.toNat.testBit 0) := by
  have h := low_fin ⟨b.toNat, b.toNat_lt⟩
  rw [ofNat_toNat_fin] at h
  exact h

theorem elem_fin : ∀ (b : Fin 256) (j : Fin 8),
    ((UInt8.ofNat b) >>> UInt8.ofNat j) &&& 1 = bitByte ((UInt8.ofNat b).toNat.testBit j) := by
  decide +kernel

theorem elem_bit (b : UInt8) {j : ℕ} (hj : j < 8) :
    (b >>> UInt8.ofNat j) &&& 1 = bitByte (b.toNat.testBit j) := by
  have h := elem_fin ⟨b.toNat, b.toNat_lt⟩ ⟨j, hj⟩
  rw [ofNat_toNat_fin] at h
  exact h

theorem bitByte_shift (b : Bool) : bitByte b <<< 7 >>> 7 = bitByte b := by cases b <;> decide

theorem bitByte_beq (b : Bool) : (bitByte b == 1) = b := by cases b <;> decide

/-! ### bits of byte strings -/

theorem dataBit_nil (i : ℕ) : dataBit [] i = false := by simp [dataBit]

theorem dataBit_cons_lt (b : UInt8) (d : List UInt8) {i : ℕ} (h : i < 8) :
    dataBit (b :: d) i = b.toNat.testBit i := by
  unfold dataBit
  rw [Nat.div_eq_of_lt h, Nat.mod_eq_of_lt h]
  simp

theorem dataBit_cons_ge (b : UInt8) (d : List UInt8) {i : ℕ} (h : 8 ≤ i) :
    dataBit (b :: d) i = dataBit d (i - 8) := by
  unfold dataBit
  obtain ⟨k, rfl⟩ := Nat.exists_eq_add_of_le h
  have e1 : (8 + k) / 8 = k / 8 + 1 := by omega
  have e2 : (8 + k) % 8 = k % 8 := by omega
  rw [e1, e2]
  simp

theorem dataBit_set (d : List UInt8) {k : ℕ} (x : UInt8) (i : ℕ) (hk : k < d.length) :
    dataBit (d.set k x) i = if i / 8 = k then x.toNat.testBit (i % 8) else dataBit d i := by
  unfold dataBit
  rw [List.getD_eq_getElem?_getD, List.getElem?_set]
  split
  · next h => subst h; simp
  · next h => rw [if_neg (fun e => h e.symm), List.getD_eq_getElem?_getD]

theorem dataBit_append (a b : List UInt8) (i : ℕ) :
    dataBit (a ++ b) i = if i < 8 * a.length then dataBit a i else dataBit b (i - 8 * a.length) := by
  unfold dataBit
  split
  · next h =>
    have : i / 8 < a.length := by omega
    rw [List.getD_eq_getElem?_getD, List.getElem?_append_left this, List.getD_eq_getElem?_getD]
  · next h =>
    have h1 : a.length ≤ i / 8 := by omega
    rw [List.getD_eq_getElem?_getD, List.getElem?_append_right h1, List.getD_eq_getElem?_getD]
    have e1 : (i - 8 * a.length) / 8 = i / 8 - a.length := by omega
    have e2 : (i - 8 * a.length) % 8 = i % 8 := by omega
    rw [e1, e2]

theorem dataBit_take (d : List UInt8) (k i : ℕ) (h : i < 8 * k) :
    dataBit (d.take k) i = dataBit d i := by
  unfold dataBit
  have : i / 8 < k := by omega
  rw [List.getD_eq_getElem?_getD, List.getElem?_take_of_lt this, List.getD_eq_getElem?_getD]

theorem dataBit_drop (d : List UInt8) (k i : ℕ) : dataBit (d.drop k) i = dataBit d (8 * k + i) := by
  unfold dataBit
  have e1 : (8 * k + i) / 8 = k + i / 8 := by omega
  have e2 : (8 * k + i) % 8 = i % 8 := by omega
  rw [List.getD_eq_getElem?_getD, List.getElem?_drop, List.getD_eq_getElem?_getD, e1, e2]

theorem dataBit_ge (d : List UInt8) {i : ℕ} (h : 8 * d.length ≤ i) : dataBit d i = false := by
  unfold dataBit
  have : d.length ≤ i / 8 := by omega
  rw [List.getD_eq_getElem?_getD, List.getElem?_eq_none this]
  simp

theorem shiftHigher_length (c : UInt8) (bs : List UInt8) : (shiftHigher c bs).length = bs.length := by
  induction bs generalizing c with
  | nil => rfl
  | cons b bs ih => simp [shiftHigher, ih]

theorem dataBit_shiftHigher (c : Bool) (bs : List UInt8) (i : ℕ) (hi : i < 8 * bs.length) :
    dataBit (shiftHigher (bitByte c) bs) i = if i = 0 then c else dataBit bs (i - 1) := by
  induction bs generalizing c i with
  | nil => simp at hi
  | cons b bs ih =>
    unfold shiftHigher
    rw [top_bit]
    by_cases h8 : i < 8
    · rw [dataBit_cons_lt _ _ h8, shl_bit _ _ h8]
      split
      · rfl
      · rw [dataBit_cons_lt _ _ (by omega)]
    · have hi' : i - 8 < 8 * bs.length := by simp at hi; omega
      rw [dataBit_cons_ge _ _ (by omega), ih _ _ hi', if_neg (by omega : ¬ i = 0)]
      by_cases h9 : i = 8
      · subst h9; simp [dataBit_cons_lt]
      · rw [if_neg (by omega), dataBit_cons_ge _ _ (by omega)]
        congr 1

theorem shiftLowerLoop_spec (c : Bool) (bs : List UInt8) :
    (shiftLowerLoop (bitByte c <<< 7) bs).1.length = bs.length ∧
    (shiftLowerLoop (bitByte c <<< 7) bs).2 =
      bitByte (if bs = [] then c else dataBit bs 0) <<< 7 ∧
    ∀ i < 8 * bs.length, dataBit (shiftLowerLoop (bitByte c <<< 7) bs).1 i =
      if i + 1 < 8 * bs.length then dataBit bs (i + 1) else c := by
  induction bs with
  | nil => simp [shiftLowerLoop]
  | cons b bs ih =>
    obtain ⟨h1, h2, h3⟩ := ih
    refine ⟨by simp [shiftLowerLoop, h1], ?_, fun i hi => ?_⟩
    · simp [shiftLowerLoop, low_bit, dataBit_cons_lt]
    · unfold shiftLowerLoop
      simp only [h2]
      by_cases h8 : i < 8
      · rw [dataBit_cons_lt _ _ h8, shr_bit _ _ h8]
        by_cases h7 : i = 7
        · subst h7
          rw [if_pos rfl]
          by_cases hb : bs = []
          · subst hb; simp
          · have hl : 0 < bs.length := List.length_pos_iff.2 hb
            rw [if_neg hb, if_pos (by simp; omega), dataBit_cons_ge _ _ (by omega)]
        · rw [if_neg h7, if_pos (by simp at hi ⊢; omega), dataBit_cons_lt _ _ (by omega)]
      · have hi' : i - 8 < 8 * bs.length := by simp at hi; omega
        rw [dataBit_cons_ge _ _ (by omega), h3 _ hi']
        by_cases hl : i + 1 < 8 * (bs.length + 1)
        · rw [if_pos (by omega), List.length_cons, if_pos hl, dataBit_cons_ge _ _ (by omega)]
          congr 1
          omega
        · rw [if_neg (by omega), List.length_cons, if_neg hl]

theorem shiftLower_length (bs : List UInt8) : (shiftLower 0 bs).1.length = bs.length :=
  (shiftLowerLoop_spec false bs).1

theorem shiftLower_bit (bs : List UInt8) : (shiftLower 0 bs).2 = bitByte (dataBit bs 0) := by
  have h := (shiftLowerLoop_spec false bs).2.1
  have e : bitByte false <<< 7 = (0 : UInt8) <<< 7 := rfl
  unfold shiftLower
  rw [e] at h
  simp only [h, bitByte_shift]
  by_cases hb : bs = []
  · subst hb; simp [dataBit_nil]
  · rw [if_neg hb]

theorem dataBit_shiftLower (bs : List UInt8) (i : ℕ) :
    dataBit (shiftLower 0 bs).1 i = dataBit bs (i + 1) := by
  by_cases hi : i < 8 * bs.length
  · have h := (shiftLowerLoop_spec false bs).2.2 i hi
    have e : bitByte false <<< 7 = (0 : UInt8) <<< 7 := rfl
    rw [e] at h
    unfold shiftLower
    rw [h]
    split
    · rfl
    · rw [dataBit_ge _ (by omega)]
  · rw [dataBit_ge _ (by rw [shiftLower_length]; omega), dataBit_ge _ (by omega)]

theorem bytesLength_eq (n : ℕ) : bytesLength n = (n + 7) / 8 := by
  unfold bytesLength
  rw [Int.shiftRight_eq_div_pow]
  have h8 : ((2 ^ 3 : ℕ) : ℤ) = 8 := rfl
  rw [h8]
  omega

theorem growData_length (d : List UInt8) (n : ℕ) (h : n ≤ 8 * d.length) :
    n + 1 ≤ 8 * (growData d (n + 1)).length := by
  unfold growData
  rw [bytesLength_eq]
  split
  · simp; omega
  · omega

theorem dataBit_growData (d : List UInt8) (n i : ℕ) : dataBit (growData d n) i = dataBit d i := by
  unfold growData
  split
  · rw [dataBit_append]
    split
    · rfl
    · next h =>
      rw [dataBit_ge d (by omega)]
      by_cases h8 : i - 8 * d.length < 8
      · rw [dataBit_cons_lt _ _ h8]; simp
      · rw [dataBit_ge _ (by simp; omega)]
  · rfl

theorem byteAt_eq {d : List UInt8} {i : ℕ} (h : i < d.length) : byteAt d i = .ok (d.getD i 0) := by
  unfold byteAt
  rw [List.getElem?_eq_getElem h, List.getD_eq_getElem?_getD, List.getElem?_eq_getElem h]
  rfl

theorem view_length (v : BitVector) : (view v).length = v.length := by simp [view]

theorem view_getElem? (v : BitVector) (i : ℕ) :
    (view v)[i]? = if i < v.length then some (dataBit v.data i) else none := by
  unfold view
  rw [List.getElem?_map]
  split
  · next h => rw [List.getElem?_range h]; rfl
  · next h => rw [List.getElem?_eq_none (by simp; omega)]; rfl

/-! ### the operations -/

/-- a new vector over given bytes stands for their first bits -/
theorem C79_new (d : List UInt8) (n i : ℕ) :
    (view (newBitVector d n))[i]? = if i < n then some (dataBit d i) else none :=
  view_getElem? _ _

/-- C79: `Append` adds one bit at the end: a one for the byte 1 and a zero for every other byte. It
never fails on a vector with fewer than `2^32` bits, and what the data held beyond the length does not
matter. -/
theorem C79_append (v : BitVector) (bit : UInt8) (hv : WF v) (h32 : v.length < 2 ^ 32) :
    ∃ v', append v bit = .ok v' ∧ view v' = view v ++ [bit == 1] ∧ WF v' ∧
      v'.length = v.length + 1 ∧ v'.data.length = max v.data.length (bytesLength (v.length + 1)) ∧
      ∀ i, dataBit v'.data i = if i = v.length then bit == 1 else dataBit v.data i := by
  unfold append
  simp only [Nat.mod_eq_of_lt h32]
  have hg := growData_length v.data v.length hv
  have hk : v.length / 8 < (growData v.data (v.length + 1)).length := by omega
  rw [byteAt_eq hk]
  have hbit : ∀ i, dataBit ((growData v.data (v.length + 1)).set (v.length / 8)
      (writeBit ((growData v.data (v.length + 1)).getD (v.length / 8) 0) bit (v.length % 8))) i =
      if i = v.length then bit == 1 else dataBit v.data i := by
    intro i
    rw [dataBit_set _ _ _ hk]
    split
    · next h =>
      rw [writeBit_bit _ _ (Nat.mod_lt _ (by omega)) (Nat.mod_lt _ (by omega))]
      by_cases hi : i = v.length
      · rw [if_pos (by rw [hi]), if_pos hi]
      · rw [if_neg (by omega), if_neg hi, ← h]
        exact dataBit_growData _ _ _
    · next h =>
      rw [if_neg (by rintro rfl; exact h rfl), dataBit_growData]
  refine ⟨_, rfl, ?_, ?_, rfl, ?_, hbit⟩
  · apply List.ext_getElem?
    intro i
    rw [view_getElem?, List.getElem?_append, view_length, view_getElem?]
    simp only
    rw [hbit]
    by_cases h1 : i < v.length
    · rw [if_pos (by omega), if_neg (by omega), if_pos h1, if_pos h1]
    · rw [if_neg h1]
      by_cases h2 : i = v.length
      · subst h2; simp
      · rw [if_neg (by omega), List.getElem?_eq_none (by simp; omega)]
  · unfold WF
    simp only [List.length_set]
    exact hg
  · unfold WF at hv
    simp only [List.length_set]
    unfold growData
    rw [bytesLength_eq]
    split
    · simp; omega
    · omega

/-- C79: the index of `Append` is truncated to 32 bits: in a vector of `2^32` or more bits the new bit
overwrites an old one, and the bit at the end keeps whatever the data holds there -/
theorem C79_append_wrap (v : BitVector) (bit : UInt8) (hv : WF v) (h32 : 2 ^ 32 ≤ v.length) :
    ∃ v', append v bit = .ok v' ∧ v'.length = v.length + 1 ∧
      ∀ i, dataBit v'.data i = if i = v.length % 2 ^ 32 then bit == 1 else dataBit v.data i := by
  unfold append
  have hm : v.length % 2 ^ 32 < v.length := lt_of_lt_of_le (Nat.mod_lt _ (by norm_num)) h32
  have hg := growData_length v.data v.length hv
  generalize v.length % 2 ^ 32 = n at hm ⊢
  have hk : n / 8 < (growData v.data (v.length + 1)).length := by omega
  simp only
  rw [byteAt_eq hk]
  refine ⟨_, rfl, rfl, fun i => ?_⟩
  simp only
  rw [dataBit_set _ _ _ hk]
  split
  · next h =>
    rw [writeBit_bit _ _ (Nat.mod_lt _ (by omega)) (Nat.mod_lt _ (by omega))]
    by_cases hi : i = n
    · rw [if_pos (by rw [hi]), if_pos hi]
    · rw [if_neg (by omega), if_neg hi, ← h]
      exact dataBit_growData _ _ _
  · next h =>
    rw [if_neg (by rintro rfl; exact h rfl), dataBit_growData]

/-- C79: `Element` reads the bit at the index, and panics when the index is not one of the vector's -/
theorem C79_element (v : BitVector) (i : ℤ) (hv : WF v) :
    element v i = if i < 0 then Go.crash else
      match (view v)[i.toNat]? with
      | some b => .ok (bitByte b)
      | none => Go.crash := by
  unfold element indexAssert
  by_cases h0 : i < 0
  · rw [if_pos (Or.inl h0), if_pos h0]; rfl
  · rw [if_neg h0, view_getElem?]
    by_cases h1 : i.toNat < v.length
    · unfold WF at hv
      rw [if_neg (by omega), if_pos h1, Go.ok_bind, byteAt_eq (by omega), Go.ok_bind]
      simp only [Go.pure_eq_ok]
      rw [elem_bit _ (Nat.mod_lt _ (by omega))]
      rfl
    · rw [if_pos (Or.inr (by omega)), if_neg h1]; rfl

/-- C79: `Set` replaces the bit at the index and panics when there is none -/
theorem C79_set (v : BitVector) (bit : UInt8) (i : ℤ) (hv : WF v) (h32 : v.length < 2 ^ 32) :
    (0 ≤ i ∧ i < v.length → ∃ v', set v bit i = .ok v' ∧
      view v' = (view v).set i.toNat (bit == 1) ∧ WF v') ∧
    (i < 0 ∨ (v.length : ℤ) ≤ i → set v bit i = Go.crash) := by
  unfold set indexAssert
  refine ⟨fun h => ?_, fun h => by rw [if_pos h]; rfl⟩
  unfold WF at hv
  rw [if_neg (by omega), Go.ok_bind]
  have hm : i.toNat / 8 % 2 ^ 32 = i.toNat / 8 := Nat.mod_eq_of_lt (by omega)
  simp only [hm]
  have hk : i.toNat / 8 < v.data.length := by omega
  rw [byteAt_eq hk, Go.ok_bind]
  refine ⟨_, rfl, ?_, by simpa [WF] using hv⟩
  apply List.ext_getElem?
  intro j
  rw [view_getElem?, List.getElem?_set, view_length, view_getElem?]
  simp only
  rw [dataBit_set _ _ _ hk, writeBit_bit _ _ (Nat.mod_lt _ (by omega)) (Nat.mod_lt _ (by omega))]
  by_cases hj : i.toNat = j
  · subst hj; simp
  · rw [if_neg hj]
    split
    · split
      · next h8 => rw [if_neg (by omega), ← h8]; rfl
      · rfl
    · rfl

/-- C79: `Insert` puts a bit before the one at the index and moves the following ones up. It panics when
there is no bit at the index; in particular it cannot insert at the end. -/
theorem C79_insert (v : BitVector) (bit : UInt8) (i : ℤ) (hv : WF v) (h32 : v.length < 2 ^ 32) :
    (0 ≤ i ∧ i < v.length → ∃ v', insert v bit i = .ok v' ∧
      view v' = (view v).insertIdx i.toNat (bit == 1) ∧ WF v') ∧
    (i < 0 ∨ (v.length : ℤ) ≤ i → insert v bit i = Go.crash) := by
  unfold insert indexAssert
  refine ⟨fun h => ?_, fun h => by rw [if_pos h]; rfl⟩
  have hg := growData_length v.data v.length hv
  unfold WF at hv
  rw [if_neg (by omega), Go.ok_bind]
  obtain ⟨n, rfl⟩ := Int.eq_ofNat_of_zero_le h.1
  have hn : n < v.length := by omega
  have hm : n / 8 % 2 ^ 32 = n / 8 := Nat.mod_eq_of_lt (by omega)
  have hr : (n / 8 + 1) % 2 ^ 32 = n / 8 + 1 := Nat.mod_eq_of_lt (by omega)
  simp only [Int.toNat_natCast, hm, hr]
  set D := growData v.data (v.length + 1) with hD
  have hk : n / 8 < D.length := by omega
  rw [byteAt_eq hk, Go.ok_bind, top_bit]
  set x := insertByte (D.getD (n / 8) 0) bit (n % 8) with hx
  have hlen : ((D.set (n / 8) x).take (n / 8 + 1)).length = n / 8 + 1 := by simp; omega
  have hbit : ∀ j < 8 * D.length, dataBit ((D.set (n / 8) x).take (n / 8 + 1) ++
      shiftHigher (bitByte ((D.getD (n / 8) 0).toNat.testBit 7)) ((D.set (n / 8) x).drop (n / 8 + 1))) j =
      if j < n then dataBit v.data j else if j = n then bit == 1 else dataBit v.data (j - 1) := by
    intro j hj
    rw [dataBit_append, hlen]
    by_cases hc : j < 8 * (n / 8 + 1)
    · rw [if_pos hc, dataBit_take _ _ _ hc, dataBit_set _ _ _ hk]
      split
      · next h8 =>
        rw [hx, insertByte_bit _ _ (Nat.mod_lt _ (by omega)) (Nat.mod_lt _ (by omega))]
        by_cases h1 : j < n
        · rw [if_pos (by omega), if_pos h1, ← h8, ← dataBit_growData v.data (v.length + 1)]
          rfl
        · rw [if_neg (by omega), if_neg h1]
          by_cases h2 : j = n
          · rw [if_pos (by rw [h2]), if_pos h2]
          · rw [if_neg (by omega), if_neg h2, ← dataBit_growData v.data (v.length + 1)]
            unfold dataBit
            have e1 : (j - 1) / 8 = n / 8 := by omega
            have e2 : (j - 1) % 8 = j % 8 - 1 := by omega
            rw [e1, e2]
      · next h8 =>
        rw [if_pos (by omega), hD, dataBit_growData]
    · rw [if_neg hc, dataBit_shiftHigher _ _ _ (by simp; omega), if_neg (by omega : ¬ j < n),
        if_neg (by omega : ¬ j = n), ← dataBit_growData v.data (v.length + 1) (j - 1)]
      split
      · next h0 =>
        unfold dataBit
        have e1 : (j - 1) / 8 = n / 8 := by omega
        have e2 : (j - 1) % 8 = 7 := by omega
        rw [e1, e2]
      · next h0 =>
        rw [dataBit_drop, dataBit_set _ _ _ hk, if_neg (by omega)]
        congr 1
        omega
  refine ⟨_, rfl, ?_, ?_⟩
  · apply List.ext_getElem?
    intro j
    rw [view_getElem?, List.getElem?_insertIdx, view_length]
    simp only [view_getElem?]
    by_cases hj : j < v.length + 1
    · rw [if_pos hj]
      have := hbit j (by omega)
      rw [hx, insertByte] at this
      rw [this]
      by_cases h1 : j < n
      · rw [if_pos h1, if_pos h1, if_pos (by omega)]
      · rw [if_neg h1, if_neg h1]
        by_cases h2 : j = n
        · rw [if_pos h2, if_pos h2, if_pos (by omega)]
        · rw [if_neg h2, if_neg h2, if_pos (by omega)]
    · rw [if_neg hj, if_neg (by omega), if_neg (by omega), if_neg (by omega)]
  · unfold WF
    simp only [List.length_append, shiftHigher_length, List.length_take, List.length_drop,
      List.length_set]
    omega

/-- C79: `Delete` removes the bit at the index and moves the following ones down; it panics when there
is no bit at the index -/
theorem C79_delete (v : BitVector) (i : ℤ) (hv : WF v) (h32 : v.length < 2 ^ 32) :
    (0 ≤ i ∧ i < v.length → ∃ v', delete v i = .ok v' ∧
      view v' = (view v).eraseIdx i.toNat ∧ WF v') ∧
    (i < 0 ∨ (v.length : ℤ) ≤ i → delete v i = Go.crash) := by
  unfold delete indexAssert
  refine ⟨fun h => ?_, fun h => by rw [if_pos h]; rfl⟩
  unfold WF at hv
  rw [if_neg (by omega), Go.ok_bind]
  obtain ⟨n, rfl⟩ := Int.eq_ofNat_of_zero_le h.1
  have hn : n < v.length := by omega
  have hm : n / 8 % 2 ^ 32 = n / 8 := Nat.mod_eq_of_lt (by omega)
  have hr : (n / 8 + 1) % 2 ^ 32 = n / 8 + 1 := Nat.mod_eq_of_lt (by omega)
  simp only [Int.toNat_natCast, hm, hr]
  set D := v.data with hD
  have hk : n / 8 < D.length := by omega
  rw [byteAt_eq hk, Go.ok_bind, shiftLower_bit]
  set x := deleteByte (D.getD (n / 8) 0) (bitByte (dataBit (D.drop (n / 8 + 1)) 0)) (n % 8) with hx
  set S := shiftLower 0 (D.drop (n / 8 + 1)) with hS
  have hSl : S.1.length = D.length - (n / 8 + 1) := by rw [hS, shiftLower_length]; simp
  have hlen : (D.take (n / 8 + 1)).length = n / 8 + 1 := by simp; omega
  have hlen2 : (D.take (n / 8 + 1) ++ S.1).length = D.length := by simp [hSl]; omega
  have hbit : ∀ j, dataBit ((D.take (n / 8 + 1) ++ S.1).set (n / 8) x) j =
      if j < n then dataBit D j else dataBit D (j + 1) := by
    intro j
    rw [dataBit_set _ _ _ (by omega)]
    split
    · next h8 =>
      rw [hx, deleteByte_bit _ _ (Nat.mod_lt _ (by omega)) (Nat.mod_lt _ (by omega))]
      by_cases h1 : j < n
      · rw [if_pos (by omega), if_pos h1, ← h8]; rfl
      · rw [if_neg (by omega), if_neg h1]
        split
        · next h7 =>
          unfold dataBit
          have e1 : (j + 1) / 8 = n / 8 := by omega
          have e2 : (j + 1) % 8 = j % 8 + 1 := by omega
          rw [e1, e2]
        · next h7 =>
          rw [dataBit_drop]
          congr 1
          omega
    · next h8 =>
      rw [dataBit_append, hlen]
      by_cases hc : j < 8 * (n / 8 + 1)
      · rw [if_pos hc, dataBit_take _ _ _ hc, if_pos (by omega)]
      · rw [if_neg hc, if_neg (by omega), hS, dataBit_shiftLower, dataBit_drop]
        congr 1
        omega
  rw [deleteByte] at hx
  rw [← hx]
  set E := (D.take (n / 8 + 1) ++ S.1).set (n / 8) x with hE
  have hEl : E.length = D.length := by rw [hE, List.length_set, hlen2]
  have hbit2 : ∀ j < v.length - 1,
      dataBit (if bytesLength (v.length - 1) < E.length then E.take (bytesLength (v.length - 1)) else E) j
        = dataBit E j := by
    intro j hj
    split
    · rw [dataBit_take _ _ _ (by rw [bytesLength_eq]; omega)]
    · rfl
  refine ⟨_, rfl, ?_, ?_⟩
  · apply List.ext_getElem?
    intro j
    rw [view_getElem?, List.getElem?_eraseIdx]
    simp only [view_getElem?]
    by_cases hj : j < v.length - 1
    · rw [if_pos hj, hbit2 j hj, hbit j]
      by_cases h1 : j < n
      · rw [if_pos h1, if_pos h1, if_pos (by omega)]
      · rw [if_neg h1, if_neg h1, if_pos (by omega)]
    · rw [if_neg hj]
      by_cases h1 : j < n
      · omega
      · rw [if_neg h1, if_neg (by omega)]
  · unfold WF
    simp only
    split
    · next hb =>
      rw [List.length_take, bytesLength_eq]
      rw [bytesLength_eq] at hb
      omega
    · omega

/-- C79: bits appended one by one to an empty vector over zero bytes are the contents of the vector, and
all later bits of its data are zero -/
theorem C79_appends (n : ℕ) (bits : List Bool) (h : bits.length < 2 ^ 32) :
    ∃ v, bits.foldlM (fun v b => append v (bitByte b)) (newBitVector (List.replicate n 0) 0) = .ok v ∧
      view v = bits ∧ WF v ∧ v.length = bits.length ∧ v.data.length = max n ((bits.length + 7) / 8) ∧
      (∀ i, dataBit v.data i = bits.getD i false) := by
  induction bits using List.reverseRecOn with
  | nil =>
    refine ⟨_, rfl, rfl, Nat.zero_le _, rfl, by simp [newBitVector], fun i => ?_⟩
    unfold dataBit newBitVector
    simp only [List.getD_eq_getElem?_getD, List.getElem?_replicate]
    split <;> simp
  | append_singleton bits b ih =>
    simp only [List.length_append, List.length_singleton] at h
    obtain ⟨v, h1, h2, h3, h4, hl, h5⟩ := ih (by omega)
    obtain ⟨v', g1, g2, g3, g4, gl, g5⟩ := C79_append v (bitByte b) h3 (by omega)
    refine ⟨v', ?_, ?_, g3, ?_, ?_, fun i => ?_⟩
    · rw [List.foldlM_append, h1, Go.ok_bind]
      simp [g1]
    · rw [g2, h2, bitByte_beq]
    · simp [g4, h4]
    · rw [gl, hl, bytesLength_eq, h4]
      simp only [List.length_append, List.length_singleton]
      omega
    · rw [g5, h5, bitByte_beq, h4]
      simp only [List.getD_eq_getElem?_getD, List.getElem?_append]
      by_cases hi : i < bits.length
      · rw [if_neg (by omega), if_pos hi]
      · rw [if_neg hi]
        by_cases h2 : i = bits.length
        · subst h2; simp
        · rw [if_neg h2, List.getElem?_eq_none (by omega), List.getElem?_eq_none (by simp; omega)]

/-! ### examples -/

/-- eleven bits in two bytes with rubbish beyond the length -/
def exVec : BitVector := newBitVector [0xb5, 0xfe] 11

example : WF exVec ∧ exVec.length < 2 ^ 32 ∧
    view exVec = [true, false, true, false, true, true, false, true, false, true, true] := by
  decide +kernel

/-- inserting across a byte boundary -/
example : ∃ v', insert exVec 1 3 = .ok v' ∧
    view v' = [true, false, true, true, false, true, true, false, true, false, true, true] := by
  refine ⟨_, rfl, ?_⟩
  decide +kernel

/-- deleting across a byte boundary -/
example : ∃ v', delete exVec 3 = .ok v' ∧
    view v' = [true, false, true, true, true, false, true, false, true, true] := by
  refine ⟨_, rfl, ?_⟩
  decide +kernel

/-- appending a bit over rubbish, and one byte that is neither 0 nor 1 -/
example : ∃ v', append exVec 2 = .ok v' ∧ view v' = view exVec ++ [false] := by
  refine ⟨_, rfl, ?_⟩
  decide +kernel

/-- it is not possible to insert at the end, nor into an empty vector -/
example : insert exVec 1 11 = Go.crash ∧ insert (newBitVector [] 0) 1 0 = Go.crash := by
  exact ⟨rfl, rfl⟩

-- the hypotheses of `C79_append_wrap`: a vector of `2^32` bits
example : WF ⟨List.replicate (2 ^ 29) 0, 2 ^ 32⟩ ∧ 2 ^ 32 ≤ (⟨List.replicate (2 ^ 29) 0, 2 ^ 32⟩ :
    BitVector).length := by
  refine ⟨?_, le_rfl⟩
  unfold WF
  simp only [List.length_replicate]
  norm_num

end Verif.Mina
