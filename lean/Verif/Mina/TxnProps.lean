import Verif.Mina.TxnModel
import Verif.Mina.CodecProps

/-!
# C80, C132, C133, C134, C139: Mina transactions and addresses
-/

namespace Verif.Mina

open Primes

set_option exponentiation.threshold 600
set_option maxRecDepth 10000
set_option linter.unusedSectionVars false
set_option linter.unusedDecidableInType false

/-- what is needed of point decompression: it inverts taking the x-coordinate and the parity of the
y-coordinate, and returns only points with those -/
structure LiftLawful {G : Type} [AddCommGroup G] (E : Env pallasp pallasq G) (C : Codec G) : Prop where
  lift : ∀ P, P ≠ 0 → C.lift (E.x P) (isOdd (E.y P)) = some P
  sound : ∀ x b P, C.lift x b = some P → P ≠ 0 ∧ E.x P = x ∧ isOdd (E.y P) = b

/-! ### compressed points -/

theorem leBytes_getD (k n i : ℕ) (h : i < k) : (leBytes k n).getD i 0 = UInt8.ofNat (n / 256 ^ i) := by
  induction k generalizing n i with
  | zero => omega
  | succ k ih =>
    cases i with
    | zero => simp [leBytes]
    | succ i =>
      have := ih (n / 256) i (by omega)
      rw [leBytes, List.getD_cons_succ, this, Nat.div_div_eq_div_mul, pow_succ']

theorem byte_flag (b : UInt8) (hb : b.toNat < 128) (s : Bool) :
    ((b ||| ((boolByte s) <<< 7)) &&& 0x7f) = b ∧
      ((((b ||| ((boolByte s) <<< 7)) >>> 7) &&& 1) == 1) = s := by
  have key : ∀ f : Fin 128, ∀ s : Bool,
      ((UInt8.ofNat f.val ||| ((boolByte s) <<< 7)) &&& 0x7f) = UInt8.ofNat f.val ∧
      ((((UInt8.ofNat f.val ||| ((boolByte s) <<< 7)) >>> 7) &&& 1) == 1) = s := by decide +kernel
  have := key ⟨b.toNat, hb⟩ s
  simpa using this

theorem ofNat_and_one (n : ℕ) : (UInt8.ofNat n &&& 1) = boolByte (n % 2 == 1) := by
  have key : ∀ f : Fin 256, (UInt8.ofNat f.val &&& 1) = boolByte (f.val % 2 == 1) := by decide +kernel
  have h := key ⟨n % 256, Nat.mod_lt _ (by norm_num)⟩
  have e : UInt8.ofNat (n % 256) = UInt8.ofNat n := by
    apply UInt8.toNat_inj.1
    simp
  rw [e] at h
  rw [h]
  simp only
  rw [Nat.mod_mod_of_dvd n (by norm_num)]

section Txn
variable {G : Type} [AddCommGroup G] [Module (ZMod pallasq) G] [DecidableEq G]
  {E : Env pallasp pallasq G} {C : Codec G}

theorem parity_byte (f : ZMod pallasp) : ((fieldBytes f).getD 0 0 &&& 1) = boolByte (isOdd f) := by
  unfold fieldBytes
  rw [leBytes_getD _ _ _ (by norm_num), pow_zero, Nat.div_one, ofNat_and_one]
  rfl

theorem top_byte (f : ZMod pallasp) : ((fieldBytes f).getD 31 0).toNat < 128 := by
  unfold fieldBytes
  have hlt := ZMod.val_lt f
  rw [leBytes_getD _ _ _ (by norm_num), UInt8.toNat_ofNat']
  have h : f.val / 256 ^ 31 < 128 := by
    rw [Nat.div_lt_iff_lt_mul (by positivity)]
    unfold pallasp at hlt
    omega
  exact lt_of_le_of_lt (Nat.mod_le _ _) h

theorem set_getD_self {α : Type} (l : List α) (i : ℕ) (d : α) : l.set i (l.getD i d) = l := by
  apply List.ext_getElem?
  intro j
  rw [List.getElem?_set]
  split
  · next h =>
    subst h
    split
    · next h => rw [List.getD_eq_getElem?_getD, List.getElem?_eq_getElem h]; rfl
    · next h => rw [List.getElem?_eq_none (by omega)]
  · rfl

theorem decompress_flag (x : ZMod pallasp) (s : Bool) :
    decompress C ((fieldBytes x).set 31 ((fieldBytes x).getD 31 0 ||| (boolByte s <<< 7))) =
      if Gap Native.pastaFp x.val then Go.err else Go.ofOption (C.lift x s) := by
  have hl : (fieldBytes x).length = 32 := leBytes_length _ _
  obtain ⟨h1, h2⟩ := byte_flag _ (top_byte x) s
  unfold decompress
  have hg : ∀ v : UInt8, ((fieldBytes x).set 31 v).getD 31 0 = v := by
    intro v
    rw [List.getD_eq_getElem?_getD, List.getElem?_set_self (by rw [hl]; norm_num)]
    rfl
  rw [Go.guard_true (by rw [List.length_set, hl]), Go.ok_bind]
  simp only [hg, List.set_set]
  rw [h1, h2, set_getD_self, fieldOfBytes_fieldBytes Native.pastaFp_shape fp_modulus]
  split_ifs <;> rfl

theorem decompress_compress (hC : LiftLawful E C) (P : G) (hP : P ≠ 0)
    (hg : ¬ Gap Native.pastaFp (E.x P).val) : decompress C (compress E P) = .ok P := by
  unfold compress
  rw [parity_byte, decompress_flag, if_neg hg, hC.lift P hP]
  rfl

theorem compress_length (P : G) : (compress E P).length = 32 := by
  unfold compress
  rw [List.length_set]
  exact leBytes_length _ _

/-! ### C80: the binary encoding -/

theorem slice_skip {l m : List UInt8} {a b : ℕ} (h : l.length ≤ a) :
    slice (l ++ m) a b = slice m (a - l.length) (b - l.length) := by
  unfold slice
  by_cases hb : l.length ≤ b
  · obtain ⟨c, rfl⟩ := Nat.exists_eq_add_of_le hb
    rw [List.take_length_add_append, List.drop_append, List.drop_eq_nil_of_le h,
      Nat.add_sub_cancel_left]
    rfl
  · rw [List.drop_eq_nil_of_le, List.drop_eq_nil_of_le]
    · simp; omega
    · simp; omega

theorem slice_here {l m : List UInt8} {b : ℕ} (h : l.length = b) : slice (l ++ m) 0 b = l := by
  unfold slice
  rw [List.take_left' h, List.drop_zero]

theorem slice_at {l m : List UInt8} {a b : ℕ} (ha : a = 0) (hb : b = l.length) :
    slice (l ++ m) a b = l := by
  rw [ha]
  exact slice_here hb.symm

/-- the regions of 175 bytes in the order of `MarshalBinary` -/
theorem layout {a b c d e m s r k n : List UInt8} {x0 x1 t0 t1 t2 l w : UInt8}
    (ha : a.length = 8) (hb : b.length = 8) (hc : c.length = 32) (hd : d.length = 4)
    (he : e.length = 4) (hm : m.length = 32) (hs : s.length = 32) (hr : r.length = 32)
    (hk : k.length = 8) (hn : n.length = 8) :
    let i := a ++ b ++ c ++ d ++ e ++ [x0, x1] ++ m ++ [t0, t1, t2] ++ s ++ r ++ k ++ n ++ [l, w]
    i.length = 175 ∧ slice i 0 8 = a ∧ slice i 8 16 = b ∧ slice i 16 48 = c ∧ slice i 48 52 = d ∧
    slice i 52 56 = e ∧ i.getD 56 0 = x0 ∧ i.getD 57 0 = x1 ∧
    (∀ h, slice i 58 (58 + h) = slice (m ++ ([t0, t1, t2] ++ (s ++ (r ++ (k ++ (n ++ [l, w])))))) 0 h) ∧
    i.getD 90 0 = t0 ∧ i.getD 91 0 = t1 ∧ i.getD 92 0 = t2 ∧ slice i 93 125 = s ∧
    slice i 125 157 = r ∧ slice i 157 165 = k ∧ slice i 165 173 = n ∧ i.getD 173 0 = l ∧
    i.getD 174 0 = w := by
  have h2 : ([x0, x1] : List UInt8).length = 2 := rfl
  have h3 : ([t0, t1, t2] : List UInt8).length = 3 := rfl
  simp only [List.append_assoc]
  refine ⟨by simp [ha, hb, hc, hd, he, hm, hs, hr, hk, hn], slice_here ha, ?_⟩
  refine ⟨?_, ?_, ?_, ?_, ?_, ?_, ?_, ?_, ?_, ?_, ?_, ?_, ?_, ?_, ?_, ?_⟩
  · iterate 1 rw [slice_skip (by omega)]
    exact slice_at (by omega) (by omega)
  · iterate 2 rw [slice_skip (by omega)]
    exact slice_at (by omega) (by omega)
  · iterate 3 rw [slice_skip (by omega)]
    exact slice_at (by omega) (by omega)
  · iterate 4 rw [slice_skip (by omega)]
    exact slice_at (by omega) (by omega)
  · iterate 5 rw [List.getD_append_right _ _ _ _ (by omega)]
    simp [ha, hb, hc, hd, he]
  · iterate 5 rw [List.getD_append_right _ _ _ _ (by omega)]
    simp [ha, hb, hc, hd, he]
  · intro h
    iterate 6 rw [slice_skip (by omega)]
    congr 1 <;> omega
  · iterate 7 rw [List.getD_append_right _ _ _ _ (by omega)]
    simp [ha, hb, hc, hd, he, hm]
  · iterate 7 rw [List.getD_append_right _ _ _ _ (by omega)]
    simp [ha, hb, hc, hd, he, hm]
  · iterate 7 rw [List.getD_append_right _ _ _ _ (by omega)]
    simp [ha, hb, hc, hd, he, hm]
  · iterate 8 rw [slice_skip (by omega)]
    exact slice_at (by omega) (by omega)
  · iterate 9 rw [slice_skip (by omega)]
    exact slice_at (by omega) (by omega)
  · iterate 10 rw [slice_skip (by omega)]
    exact slice_at (by omega) (by omega)
  · iterate 11 rw [slice_skip (by omega)]
    exact slice_at (by omega) (by omega)
  · iterate 12 rw [List.getD_append_right _ _ _ _ (by omega)]
    simp [ha, hb, hc, hd, he, hm, hs, hr, hk, hn]
  · iterate 12 rw [List.getD_append_right _ _ _ _ (by omega)]
    simp [ha, hb, hc, hd, he, hm, hs, hr, hk, hn]

theorem ofInt_natCast (n : ℕ) : UInt8.ofInt (n : ℤ) = UInt8.ofNat n := by
  apply UInt8.toNat_inj.1
  unfold UInt8.ofInt
  rw [UInt8.toNat_ofNat', UInt8.toNat_ofNat']
  omega

/-- keys that survive compression -/
def Encodable (E : Env pallasp pallasq G) (P : G) : Prop :=
  P ≠ 0 ∧ ¬ Gap Native.pastaFp (E.x P).val

/-- the three keys of a transaction survive compression -/
def Txn.Encodable (E : Env pallasp pallasq G) (t : Txn G) : Prop :=
  Mina.Encodable E t.feePayerPk ∧ Mina.Encodable E t.sourcePk ∧ Mina.Encodable E t.receiverPk

theorem copyInto_length (n : ℕ) (src : List UInt8) : (copyInto n src).length = n := by
  unfold copyInto
  simp
  omega

theorem byteBool_boolByte (b : Bool) : byteBool (boolByte b) = b := by cases b <;> rfl

theorem leNat64 (x : UInt64) : UInt64.ofNat (leNat (leBytes 8 x.toNat)) = x := by
  rw [leNat_leBytes _ _ (by have := x.toNat_lt; norm_num at this ⊢; exact this)]
  exact UInt64.ofNat_toNat

theorem leNat32 (x : UInt32) : UInt32.ofNat (leNat (leBytes 4 x.toNat)) = x := by
  rw [leNat_leBytes _ _ (by have := x.toNat_lt; norm_num at this ⊢; exact this)]
  exact UInt32.ofNat_toNat

/-- C80: an encoding has 175 bytes -/
theorem C80_length (t : Txn G) : (t.marshal E).length = 175 :=
  (layout (leBytes_length 8 _) (leBytes_length 8 _) (compress_length _) (leBytes_length 4 _)
    (leBytes_length 4 _) (copyInto_length 32 _) (compress_length _) (compress_length _)
    (leBytes_length 8 _) (leBytes_length 8 _)).1

/-- decoding an encoding, up to the memo and the network -/
theorem unmarshal_marshal (hC : LiftLawful E C) (t : Txn G) (ht : t.Encodable E) :
    Txn.unmarshal C (t.marshal E) = (memoSlice (t.marshal E)).map (fun m =>
      { t with memo := m, networkId := (UInt8.ofInt t.networkId).toNat }) := by
  obtain ⟨h1, h2, h3, h4, h5, h6, -, -, -, h10, h11, h12, h13, h14, h15, h16, h17, h18⟩ :=
    layout (x0 := 0x01) (x1 := UInt8.ofNat t.memo.length) (t0 := boolByte t.tag0)
      (t1 := boolByte t.tag1) (t2 := boolByte t.tag2) (l := boolByte t.locked)
      (w := UInt8.ofInt t.networkId) (leBytes_length 8 t.fee.toNat) (leBytes_length 8 t.feeToken.toNat)
      (compress_length (E := E) t.feePayerPk) (leBytes_length 4 t.nonce.toNat)
      (leBytes_length 4 t.validUntil.toNat) (copyInto_length 32 t.memo)
      (compress_length (E := E) t.sourcePk) (compress_length (E := E) t.receiverPk)
      (leBytes_length 8 t.tokenId.toNat) (leBytes_length 8 t.amount.toNat)
  obtain ⟨⟨a1, a2⟩, ⟨b1, b2⟩, c1, c2⟩ := ht
  rw [← Txn.marshal] at h1 h2 h3 h4 h5 h6 h10 h11 h12 h13 h14 h15 h16 h17 h18
  unfold Txn.unmarshal
  rw [Go.guard_true (by rw [h1]), Go.ok_bind, h4, decompress_compress hC _ a1 a2, Go.ok_bind, h13,
    decompress_compress hC _ b1 b2, Go.ok_bind, h14, decompress_compress hC _ c1 c2, Go.ok_bind,
    h2, h3, h5, h6, h10, h11, h12, h15, h16, h17, h18, leNat64, leNat64, leNat64, leNat64, leNat32,
    leNat32, byteBool_boolByte, byteBool_boolByte, byteBool_boolByte, byteBool_boolByte]
  cases memoSlice (t.marshal E) <;> rfl

/-- the memo that is read back from an encoding -/
theorem memoSlice_marshal (t : Txn G) :
    memoSlice (t.marshal E) = if t.memo.length % 256 ≤ 117 then
      .ok (slice (t.marshal E) 58 (58 + t.memo.length % 256)) else Go.crash := by
  have h7 := (layout (x0 := 0x01) (x1 := UInt8.ofNat t.memo.length) (t0 := boolByte t.tag0)
      (t1 := boolByte t.tag1) (t2 := boolByte t.tag2) (l := boolByte t.locked)
      (w := UInt8.ofInt t.networkId) (leBytes_length 8 t.fee.toNat) (leBytes_length 8 t.feeToken.toNat)
      (compress_length (E := E) t.feePayerPk) (leBytes_length 4 t.nonce.toNat)
      (leBytes_length 4 t.validUntil.toNat) (copyInto_length 32 t.memo)
      (compress_length (E := E) t.sourcePk) (compress_length (E := E) t.receiverPk)
      (leBytes_length 8 t.tokenId.toNat) (leBytes_length 8 t.amount.toNat)).2.2.2.2.2.2.2.1
  rw [← Txn.marshal] at h7
  unfold memoSlice
  simp only [h7, C80_length, UInt8.toNat_add, UInt8.toNat_ofNat']
  rw [show ((58 : UInt8).toNat) = 58 from rfl]
  have := Nat.mod_lt t.memo.length (show 0 < 256 by norm_num)
  by_cases h : t.memo.length % 256 ≤ 117
  · rw [if_pos h, Nat.mod_eq_of_lt (by omega), if_pos (by omega)]
  · rw [if_neg h, if_neg (by omega)]

theorem slice_marshal (t : Txn G) (h : ℕ) (hh : h ≤ 32) :
    slice (t.marshal E) 58 (58 + h) = (copyInto 32 t.memo).take h := by
  have h9 := (layout (x0 := 0x01) (x1 := UInt8.ofNat t.memo.length) (t0 := boolByte t.tag0)
      (t1 := boolByte t.tag1) (t2 := boolByte t.tag2) (l := boolByte t.locked)
      (w := UInt8.ofInt t.networkId) (leBytes_length 8 t.fee.toNat) (leBytes_length 8 t.feeToken.toNat)
      (compress_length (E := E) t.feePayerPk) (leBytes_length 4 t.nonce.toNat)
      (leBytes_length 4 t.validUntil.toNat) (copyInto_length 32 t.memo)
      (compress_length (E := E) t.sourcePk) (compress_length (E := E) t.receiverPk)
      (leBytes_length 8 t.tokenId.toNat) (leBytes_length 8 t.amount.toNat)).2.2.2.2.2.2.2.2.1 h
  rw [← Txn.marshal] at h9
  rw [h9]
  unfold slice
  rw [List.drop_zero, List.take_append_of_le_length (by rw [copyInto_length]; exact hh)]

/-- C80: transactions with memos of at most 32 bytes, a network that fits into a byte and keys that
survive compression are the same after encoding and decoding -/
theorem C80_roundtrip (hC : LiftLawful E C) (t : Txn G) (ht : t.Encodable E)
    (hm : t.memo.length ≤ 32) (hn : 0 ≤ t.networkId ∧ t.networkId < 256) :
    Txn.unmarshal C (t.marshal E) = .ok t := by
  rw [unmarshal_marshal hC t ht, memoSlice_marshal, Nat.mod_eq_of_lt (by omega), if_pos (by omega),
    slice_marshal _ _ hm]
  have h1 : (copyInto 32 t.memo).take t.memo.length = t.memo := by
    unfold copyInto
    rw [List.take_of_length_le hm, List.take_left]
  have h2 : ((UInt8.ofInt t.networkId).toNat : ℤ) = t.networkId := by
    obtain ⟨n, hn'⟩ := Int.eq_ofNat_of_zero_le hn.1
    rw [hn'] at hn ⊢
    have e : UInt8.ofInt (n : ℤ) = UInt8.ofNat n := ofInt_natCast n
    rw [e, UInt8.toNat_ofNat', Nat.mod_eq_of_lt (by omega)]
  rw [h1]
  show Except.ok _ = Except.ok _
  rw [h2]

/-- C80: longer memos are silently cut by the encoding, and decoding it panics when the length, reduced to
a byte, exceeds 117 -/
theorem C80_long_memo_panics (hC : LiftLawful E C) (t : Txn G) (ht : t.Encodable E)
    (hm : 117 < t.memo.length % 256) : Txn.unmarshal C (t.marshal E) = Go.crash := by
  rw [unmarshal_marshal hC t ht, memoSlice_marshal, if_neg (by omega)]
  rfl

/-- C80: a memo of 33 to 117 bytes comes back as its first 32 bytes followed by bytes of the other fields
(the tags and the keys) -/
theorem C80_long_memo_garbled (hC : LiftLawful E C) (t : Txn G) (ht : t.Encodable E)
    (hm : 32 < t.memo.length ∧ t.memo.length ≤ 117) :
    Txn.unmarshal C (t.marshal E) = .ok { t with
      memo := t.memo.take 32 ++ slice (t.marshal E) 90 (58 + t.memo.length)
      networkId := (UInt8.ofInt t.networkId).toNat } := by
  rw [unmarshal_marshal hC t ht, memoSlice_marshal, Nat.mod_eq_of_lt (by omega), if_pos hm.2]
  have key : slice (t.marshal E) 58 (58 + t.memo.length) =
      t.memo.take 32 ++ slice (t.marshal E) 90 (58 + t.memo.length) := by
    have h1 := slice_marshal (E := E) t 32 le_rfl
    have h2 : (copyInto 32 t.memo).take 32 = t.memo.take 32 := by
      unfold copyInto
      rw [Nat.sub_eq_zero_of_le (by omega)]
      simp
    rw [← h2, ← h1]
    unfold slice
    obtain ⟨n, hn⟩ := Nat.exists_eq_add_of_le (show 90 ≤ 58 + t.memo.length by omega)
    rw [hn]
    generalize t.marshal E = l
    rw [← List.take_append_drop 32 (List.drop 58 (l.take (90 + n))), List.drop_drop]
    congr 1
    rw [List.take_drop, List.take_take]
    congr 2
    omega
  rw [key]
  rfl

theorem bind_no_panic {α β : Type} {x : Go α} {f : α → Go β} (hx : x ≠ Go.crash)
    (hf : ∀ a, f a ≠ Go.crash) : (x >>= f) ≠ Go.crash := by
  rcases x with e | a
  · exact fun h => hx (congrArg Except.error (Except.error.inj h))
  · exact hf a

theorem decompress_no_panic (l : List UInt8) : decompress C l ≠ Go.crash := by
  unfold decompress
  refine bind_no_panic ?_ fun _ => bind_no_panic ?_ fun _ => ?_
  · unfold Go.guard; split_ifs <;> exact fun h => by cases h
  · unfold fieldOfBytes
    refine bind_no_panic ?_ fun _ => fun h => by cases h
    rw [Native.pastaSetBytes_eq]
    split_ifs <;> exact fun h => by cases h
  · unfold Go.ofOption
    split <;> exact fun h => by cases h

/-- C80: decoding panics on exactly these inputs. For 175 bytes, the length of an encoding, the condition is
that the byte with the length of the memo exceeds 117 while the three keys decode. -/
theorem C80_unmarshal_panics (input : List UInt8) (hl : input.length = 175) :
    Txn.unmarshal C input = Go.crash ↔
      117 < (input.getD 57 0).toNat ∧ (∃ P, decompress C (slice input 16 48) = .ok P) ∧
        (∃ P, decompress C (slice input 93 125) = .ok P) ∧
        ∃ P, decompress C (slice input 125 157) = .ok P := by
  unfold Txn.unmarshal
  rw [Go.guard_true (by omega), Go.ok_bind]
  have hm : memoSlice input = Go.crash ↔ 117 < (input.getD 57 0).toNat := by
    unfold memoSlice
    have := (input.getD 57 0).toNat_lt
    simp only [UInt8.toNat_add, hl]
    rw [show ((58 : UInt8).toNat) = 58 from rfl]
    by_cases h : (input.getD 57 0).toNat ≤ 117
    · rw [Nat.mod_eq_of_lt (by omega), if_pos (by omega)]
      exact ⟨fun h => (by cases h), fun h => (by omega)⟩
    · rw [if_neg (by omega)]
      exact ⟨fun _ => by omega, fun _ => rfl⟩
  have hd := decompress_no_panic (C := C)
  rcases h1 : decompress C (slice input 16 48) with e1 | P1
  · have := hd (slice input 16 48)
    rw [h1] at this
    exact ⟨fun h => absurd (congrArg Except.error
      (Except.error.inj (show (Except.error e1 : Go (Txn G)) = Go.crash from h))) this, fun ⟨_, ⟨_, h⟩, _⟩ => by cases h⟩
  rw [Go.ok_bind]
  rcases h2 : decompress C (slice input 93 125) with e2 | P2
  · have := hd (slice input 93 125)
    rw [h2] at this
    exact ⟨fun h => absurd (congrArg Except.error
      (Except.error.inj (show (Except.error e2 : Go (Txn G)) = Go.crash from h))) this, fun ⟨_, _, ⟨_, h⟩, _⟩ => by cases h⟩
  rw [Go.ok_bind]
  rcases h3 : decompress C (slice input 125 157) with e3 | P3
  · have := hd (slice input 125 157)
    rw [h3] at this
    exact ⟨fun h => absurd (congrArg Except.error
      (Except.error.inj (show (Except.error e3 : Go (Txn G)) = Go.crash from h))) this, fun ⟨_, _, _, ⟨_, h⟩⟩ => by cases h⟩
  rw [Go.ok_bind, ← hm]
  have : ∀ {α β : Type} (x : Go α) (f : α → β), (do let a ← x; pure (f a)) = (Go.crash : Go β) ↔
      x = Go.crash := by
    intro α β x f
    rcases x with e | a
    · exact ⟨fun h => congrArg Except.error (Except.error.inj h),
        fun h => congrArg Except.error (Except.error.inj h)⟩
    · exact ⟨fun h => (by cases h), fun h => (by cases h)⟩
  rw [this]
  exact ⟨fun h => ⟨h, ⟨_, rfl⟩, ⟨_, rfl⟩, ⟨_, rfl⟩⟩, fun h => h.1⟩

/-- C80: bytes after the first 175 are ignored, except that they can turn a panic over the length of the
memo into a longer memo -/
theorem C80_trailing (input extra : List UInt8) (hl : input.length = 175)
    (hm : (input.getD 57 0).toNat ≤ 117) :
    Txn.unmarshal C (input ++ extra) = Txn.unmarshal C input := by
  have hs : ∀ a b, b ≤ 175 → slice (input ++ extra) a b = slice input a b := by
    intro a b hb
    unfold slice
    rw [List.take_append_of_le_length (by omega)]
  have hg : ∀ i, i < 175 → (input ++ extra).getD i 0 = input.getD i 0 := by
    intro i hi
    rw [List.getD_append _ _ _ _ (by omega)]
  unfold Txn.unmarshal memoSlice
  simp only [hs _ _ (show 48 ≤ 175 by norm_num), hs _ _ (show 125 ≤ 175 by norm_num),
    hs _ _ (show 157 ≤ 175 by norm_num), hs _ _ (show 8 ≤ 175 by norm_num),
    hs _ _ (show 16 ≤ 175 by norm_num), hs _ _ (show 52 ≤ 175 by norm_num),
    hs _ _ (show 56 ≤ 175 by norm_num), hs _ _ (show 165 ≤ 175 by norm_num),
    hs _ _ (show 173 ≤ 175 by norm_num), hg _ (show 57 < 175 by norm_num),
    hg _ (show 90 < 175 by norm_num), hg _ (show 91 < 175 by norm_num),
    hg _ (show 92 < 175 by norm_num), hg _ (show 173 < 175 by norm_num),
    hg _ (show 174 < 175 by norm_num)]
  have h1 : (58 + input.getD 57 0 : UInt8).toNat = 58 + (input.getD 57 0).toNat := by
    rw [UInt8.toNat_add, show ((58 : UInt8).toNat) = 58 from rfl, Nat.mod_eq_of_lt (by omega)]
  rw [Go.guard_true (show 175 ≤ (input ++ extra).length by rw [List.length_append]; omega),
    Go.guard_true (show 175 ≤ input.length by omega), h1, hs _ _ (by omega),
    if_pos (show 58 ≤ 58 + (input.getD 57 0).toNat ∧
      58 + (input.getD 57 0).toNat ≤ (input ++ extra).length by rw [List.length_append]; omega),
    if_pos (show 58 ≤ 58 + (input.getD 57 0).toNat ∧
      58 + (input.getD 57 0).toNat ≤ input.length by omega)]

/-- C80: byte 56 is written but never read, so encodings are not unique -/
theorem C80_tag_byte (input : List UInt8) (v : UInt8) :
    Txn.unmarshal C (input.set 56 v) = Txn.unmarshal C input := by
  have hs : ∀ a b, (b ≤ 56 ∨ 56 < a) → slice (input.set 56 v) a b = slice input a b := by
    intro a b hab
    unfold slice
    apply List.ext_getElem?
    intro i
    rw [List.getElem?_drop, List.getElem?_drop, List.getElem?_take, List.getElem?_take]
    split_ifs
    · rw [List.getElem?_set_ne (by omega)]
    · rfl
  have hg : ∀ i, i ≠ 56 → (input.set 56 v).getD i 0 = input.getD i 0 := by
    intro i hi
    rw [List.getD_eq_getElem?_getD, List.getD_eq_getElem?_getD, List.getElem?_set_ne (Ne.symm hi)]
  unfold Txn.unmarshal memoSlice
  simp only [hs _ _ (Or.inl (show 48 ≤ 56 by norm_num)), hs _ _ (Or.inr (show 56 < 93 by norm_num)),
    hs _ _ (Or.inr (show 56 < 125 by norm_num)), hs _ _ (Or.inl (show 8 ≤ 56 by norm_num)),
    hs _ _ (Or.inl (show 16 ≤ 56 by norm_num)), hs _ _ (Or.inl (show 52 ≤ 56 by norm_num)),
    hs _ _ (Or.inl (show 56 ≤ 56 by norm_num)), hs _ _ (Or.inr (show 56 < 157 by norm_num)),
    hs _ _ (Or.inr (show 56 < 165 by norm_num)), hs _ _ (Or.inr (show 56 < 58 by norm_num)),
    hg _ (show 57 ≠ 56 by norm_num), hg _ (show 90 ≠ 56 by norm_num), hg _ (show 91 ≠ 56 by norm_num),
    hg _ (show 92 ≠ 56 by norm_num), hg _ (show 173 ≠ 56 by norm_num),
    hg _ (show 174 ≠ 56 by norm_num), List.length_set]

/-! ### C132: what a signature of a transaction binds -/

/-- inputs with as many fields and bits are determined by the list the sponge absorbs -/
theorem toFields_inj {p : ℕ} (hpp : 2 ^ 254 < p) (i i' : RoInput p)
    (hf : i.fields.length = i'.fields.length) (hb : i.bits.length = i'.bits.length)
    (h : i.toFields = i'.toFields) : i = i' := by
  unfold RoInput.toFields at h
  obtain ⟨h1, h2⟩ := List.append_inj h hf
  obtain ⟨a1, a2, a3⟩ := chunks_spec _ i.bits le_rfl
  obtain ⟨b1, b2, b3⟩ := chunks_spec _ i'.bits le_rfl
  have h3 : chunks i.bits.length i.bits = chunks i'.bits.length i'.bits := by
    generalize chunks i.bits.length i.bits = l at *
    generalize chunks i'.bits.length i'.bits = l' at *
    have key : ∀ l l' : List ℕ, (∀ c ∈ l, c < 2 ^ 254) → (∀ c ∈ l', c < 2 ^ 254) →
        l.map (fun n : ℕ => (n : ZMod p)) = l'.map (fun n : ℕ => (n : ZMod p)) → l = l' := by
      intro l
      induction l with
      | nil => intro l' _ _ h; cases l' with
        | nil => rfl
        | cons => simp at h
      | cons a l ih =>
        intro l' ha hb h
        cases l' with
        | nil => simp at h
        | cons b l' =>
          rw [List.map_cons, List.map_cons] at h
          obtain ⟨h1, h2⟩ := List.cons.inj h
          rw [ih l' (fun c hc => ha c (List.mem_cons_of_mem _ hc))
            (fun c hc => hb c (List.mem_cons_of_mem _ hc)) h2]
          congr 1
          have hlt := ha a List.mem_cons_self
          have hlt' := hb b List.mem_cons_self
          have := congrArg ZMod.val h1
          rwa [ZMod.val_natCast_of_lt (by omega), ZMod.val_natCast_of_lt (by omega)] at this
    exact key l l' a3 b3 h2
  obtain ⟨f, b⟩ := i
  obtain ⟨f', b'⟩ := i'
  simp only at *
  rw [h1, bits_ext hb (by rw [← a1, ← b1, h3])]

theorem pallasp_big : 2 ^ 254 < pallasp := by decide

theorem copyInto_inj {a b : List UInt8} (ha : a.length ≤ 32) (hb : b.length ≤ 32)
    (h : memoField a = memoField b) : a = b := by
  unfold memoField at h
  simp only [List.cons_append, List.nil_append, List.cons.injEq, true_and] at h
  obtain ⟨h1, h2⟩ := h
  have hl : a.length = b.length := by
    have := congrArg UInt8.toNat h1
    rwa [UInt8.toNat_ofNat', UInt8.toNat_ofNat', Nat.mod_eq_of_lt (by omega),
      Nat.mod_eq_of_lt (by omega)] at this
  unfold copyInto at h2
  rw [List.take_of_length_le ha, List.take_of_length_le hb] at h2
  exact (List.append_inj h2 hl).1

theorem memoField_length (m : List UInt8) : (memoField m).length = 34 := by
  unfold memoField
  rw [List.length_append, copyInto_length]
  rfl

theorem roInput_length (t : Txn G) : (t.roInput E).fields.length = 3 ∧ (t.roInput E).bits.length = 599 := by
  constructor
  · rfl
  · simp [Txn.roInput, RoInput.addFp, RoInput.addUint64, RoInput.addUint32, RoInput.addBit,
      RoInput.addBytes, RoInput.init, bitsOf_length, byteBits_length, memoField_length]

theorem key_inj (hE : Lawful E) {P Q : G} (hP : P ≠ 0) (hQ : Q ≠ 0) (hx : E.x P = E.x Q)
    (ho : isOdd (E.y P) = isOdd (E.y Q)) : P = Q := by
  rcases hE.x_eq P Q hP hQ hx with h | h
  · exact h
  · exfalso
    have h1 := isOdd_neg (by decide : pallasp ≠ 2) (hE.y_ne Q hQ)
    rw [h, hE.y_neg] at ho
    rw [ho] at h1
    revert h1
    cases isOdd (E.y Q) <;> simp

/-- the input of the hash determines the transaction apart from its network -/
theorem roInput_inj (hE : Lawful E) (t t' : Txn G) (hm : t.memo.length ≤ 32) (hm' : t'.memo.length ≤ 32)
    (h1 : t.feePayerPk ≠ 0 ∧ t.sourcePk ≠ 0 ∧ t.receiverPk ≠ 0)
    (h2 : t'.feePayerPk ≠ 0 ∧ t'.sourcePk ≠ 0 ∧ t'.receiverPk ≠ 0)
    (h : t.roInput E = t'.roInput E) : t = { t' with networkId := t.networkId } := by
  have hf := congrArg RoInput.fields h
  have hb := congrArg RoInput.bits h
  simp only [Txn.roInput, RoInput.addFp, RoInput.addUint64, RoInput.addUint32, RoInput.addBit,
    RoInput.addBytes, RoInput.init, List.nil_append, List.cons_append, List.cons.injEq, and_true]
    at hf hb
  obtain ⟨f1, f2, f3⟩ := hf
  obtain ⟨hb, b1⟩ := List.append_inj' hb rfl
  obtain ⟨hb, b2⟩ := List.append_inj' hb (by simp only [bitsOf_length])
  obtain ⟨hb, b3⟩ := List.append_inj' hb (by simp only [bitsOf_length])
  obtain ⟨hb, b4⟩ := List.append_inj' hb rfl
  obtain ⟨hb, b5⟩ := List.append_inj' hb rfl
  obtain ⟨hb, b6⟩ := List.append_inj' hb rfl
  obtain ⟨hb, b7⟩ := List.append_inj' hb rfl
  obtain ⟨hb, b8⟩ := List.append_inj' hb rfl
  obtain ⟨hb, b9⟩ := List.append_inj' hb (by simp only [byteBits_length, memoField_length])
  obtain ⟨hb, b10⟩ := List.append_inj' hb (by simp only [bitsOf_length])
  obtain ⟨hb, b11⟩ := List.append_inj' hb (by simp only [bitsOf_length])
  obtain ⟨hb, b12⟩ := List.append_inj' hb rfl
  obtain ⟨b14, b13⟩ := List.append_inj' hb (by simp only [bitsOf_length])
  have i64 : ∀ a b : UInt64, bitsOf a.toNat 64 = bitsOf b.toNat 64 → a = b := fun a b hab =>
    UInt64.toNat_inj.1 (bitsOf_inj a.toNat_lt b.toNat_lt hab)
  have i32 : ∀ a b : UInt32, bitsOf a.toNat 32 = bitsOf b.toNat 32 → a = b := fun a b hab =>
    UInt32.toNat_inj.1 (bitsOf_inj a.toNat_lt b.toNat_lt hab)
  have hmemo := copyInto_inj hm hm' (flatMap_bits_inj (fun b : UInt8 => b.toNat) 8
    (fun a b hab => UInt8.toNat_inj.1 hab) (fun a => a.toNat_lt) _ _
    (by rw [memoField_length, memoField_length]) b9)
  have k1 := key_inj hE h1.1 h2.1 f1 (List.cons.inj b12).1
  have k2 := key_inj hE h1.2.1 h2.2.1 f2 (List.cons.inj b5).1
  have k3 := key_inj hE h1.2.2 h2.2.2 f3 (List.cons.inj b4).1
  obtain ⟨a1, a2, a3, a4, a5, a6, a7, a8, a9, a10, a11, a12, a13, a14, a15⟩ := t
  obtain ⟨c1, c2, c3, c4, c5, c6, c7, c8, c9, c10, c11, c12, c13, c14, c15⟩ := t'
  simp only at *
  rw [i64 _ _ b14, i64 _ _ b13, k1, i32 _ _ b11, i32 _ _ b10, hmemo, (List.cons.inj b8).1,
    (List.cons.inj b7).1, (List.cons.inj b6).1, k2, k3, i64 _ _ b3, i64 _ _ b2, (List.cons.inj b1).1]

/-- C132: a signature accepted for two transactions under one key means that they are equal, or that the
sponge of one of the networks maps one named list of field elements to the same challenge as that of the
other network another named list, the pairs of network and list being different -/
theorem C132_binding (hE : Lawful E) (pk : G) (sig : Sig pallasp pallasq) (t t' : Txn G)
    (hm : t.memo.length ≤ 32) (hm' : t'.memo.length ≤ 32)
    (h1 : t.feePayerPk ≠ 0 ∧ t.sourcePk ≠ 0 ∧ t.receiverPk ≠ 0)
    (h2 : t'.feePayerPk ≠ 0 ∧ t'.sourcePk ≠ 0 ∧ t'.receiverPk ≠ 0)
    (h : verifyTransaction E pk sig t = .ok ()) (h' : verifyTransaction E pk sig t' = .ok ()) :
    t = t' ∨
      ((t.networkId, (hashInput E pk sig.R (t.roInput E)).toFields) ≠
          (t'.networkId, (hashInput E pk sig.R (t'.roInput E)).toFields) ∧
        spongeHash pallasq E.params .threeW t.networkId (hashInput E pk sig.R (t.roInput E)).toFields =
          spongeHash pallasq E.params .threeW t'.networkId
            (hashInput E pk sig.R (t'.roInput E)).toFields) := by
  obtain ⟨e, he, he'⟩ := C136_same_challenge hE (by decide) pk sig _ _ _ _ h h'
  by_cases hs : (t.networkId, (hashInput E pk sig.R (t.roInput E)).toFields) =
          (t'.networkId, (hashInput E pk sig.R (t'.roInput E)).toFields)
  · left
    obtain ⟨hn, hl⟩ := Prod.mk.inj hs
    have hi := toFields_inj pallasp_big _ _
      (by simp [hashInput, RoInput.addFp, (roInput_length t).1, (roInput_length t').1])
      (by simp [hashInput, RoInput.addFp, (roInput_length t).2, (roInput_length t').2]) hl
    have hr : t.roInput E = t'.roInput E := by
      have hf := congrArg RoInput.fields hi
      have hb := congrArg RoInput.bits hi
      simp only [hashInput, RoInput.addFp, List.append_assoc] at hf hb
      have := (List.append_inj hf (by rw [(roInput_length t).1, (roInput_length t').1])).1
      cases ht : t.roInput E
      cases ht' : t'.roInput E
      rw [ht, ht'] at this hb
      simp only at this hb
      rw [this, hb]
    have := roInput_inj hE t t' hm hm' h1 h2 hr
    rw [this, hn]
  · right
    unfold msgHash at he he'
    exact ⟨hs, by rw [he, he']⟩

/-- C132: memos of 32 and more bytes are not bound beyond their first 32 bytes and their length modulo
256: a signature of one transaction is accepted for the other -/
theorem C132_long_memo (pk : G) (sig : Sig pallasp pallasq) (t : Txn G) (memo : List UInt8)
    (h1 : 32 ≤ t.memo.length) (h2 : 32 ≤ memo.length) (hp : memo.take 32 = t.memo.take 32)
    (hl : memo.length % 256 = t.memo.length % 256) :
    verifyTransaction E pk sig { t with memo := memo } = verifyTransaction E pk sig t := by
  have : memoField memo = memoField t.memo := by
    unfold memoField copyInto
    rw [hp, Nat.sub_eq_zero_of_le h1, Nat.sub_eq_zero_of_le h2]
    congr 3
    apply UInt8.toNat_inj.1
    rw [UInt8.toNat_ofNat', UInt8.toNat_ofNat', hl]
  unfold verifyTransaction Txn.roInput
  simp only [this]

/-! ### C134: threshold signatures of transactions -/

/-- C134: the challenge of the threshold signature does not depend on the network of the transaction -/
theorem C134_network_ignored (msg msg' : List UInt8) (t t' : Txn G) (pk r : G)
    (h : Txn.unmarshal C msg = .ok t) (h' : Txn.unmarshal C msg' = .ok t')
    (ht : t' = { t with networkId := t'.networkId }) :
    deriveChallenge E C msg pk r = deriveChallenge E C msg' pk r := by
  unfold deriveChallenge
  rw [h, h', Go.ok_bind, Go.ok_bind, ht]
  rfl

/-- C134: a threshold signature, that is a commitment `R` and a response `z` with `z G = R + c PK` for the
derived challenge, is accepted for a main network transaction exactly when the y-coordinate of `R` is even
(and none of the key, the x-coordinate of `R` and the response is zero). The signing protocol does not look
at that coordinate. -/
theorem C134_verifies_iff (msg : List UInt8) (t : Txn G) (pk r : G) (z c : ZMod pallasq)
    (h : Txn.unmarshal C msg = .ok t) (hn : t.networkId = mainNet)
    (hc : deriveChallenge E C msg pk r = .ok c) (hz : z • E.gen = r + c • pk) :
    verifyTransaction E pk ⟨E.x r, z⟩ t = .ok () ↔
      pk ≠ 0 ∧ E.x r ≠ 0 ∧ z ≠ 0 ∧ (E.y r).val % 2 = 0 := by
  unfold deriveChallenge at hc
  rw [h, Go.ok_bind] at hc
  unfold verifyTransaction
  rw [C77_verify_iff, hn, hc]
  have hr : z • E.gen - c • pk = r := by rw [hz]; abel
  constructor
  · rintro ⟨h1, h2, h3, e, he, h4, h5⟩
    obtain rfl := Except.ok.inj he
    simp only [hr] at h5
    exact ⟨h1, h2, h3, h5⟩
  · rintro ⟨h1, h2, h3, h4⟩
    refine ⟨h1, h2, h3, c, rfl, ?_, ?_⟩
    · simp only [hr]
    · simp only [hr]; exact h4

/-- C134: for a transaction of another network the same signature is accepted only if the sponges of the
two networks give the same challenge for the named list -/
theorem C134_other_network (hE : Lawful E) (msg : List UInt8) (t : Txn G) (pk r : G)
    (z c : ZMod pallasq) (h : Txn.unmarshal C msg = .ok t)
    (hc : deriveChallenge E C msg pk r = .ok c) (hz : z • E.gen = r + c • pk)
    (hr : (E.y r).val % 2 = 0)
    (hv : verifyTransaction E pk ⟨E.x r, z⟩ t = .ok ()) :
    spongeHash pallasq E.params .threeW t.networkId (hashInput E pk (E.x r) (t.roInput E)).toFields =
      spongeHash pallasq E.params .threeW mainNet (hashInput E pk (E.x r) (t.roInput E)).toFields := by
  have hd : deriveChallenge E C msg pk r = msgHash E pk (E.x r) (t.roInput E) mainNet := by
    unfold deriveChallenge
    rw [h, Go.ok_bind]
  obtain ⟨h1, h2, h3, -⟩ := (C77_verify_iff _ _ _ _).1 hv
  have hm : finishVerify E pk ⟨E.x r, z⟩ (t.roInput E) mainNet = .ok () := by
    rw [C77_verify_iff]
    have he : z • E.gen - c • pk = r := by rw [hz]; abel
    exact ⟨h1, h2, h3, c, by rw [← hd, hc], by simp only [he], by simp only [he]; exact hr⟩
  obtain ⟨e, he, he'⟩ := C136_same_challenge hE (by decide) pk _ _ _ _ _ hv hm
  unfold msgHash at he he'
  exact he.trans he'.symm

/-! ### C139: addresses -/

theorem payload_facts (x s : List UInt8) (c : UInt8) (hx : x.length = 32) (hs : s.length = 4)
    (b : List UInt8) (hb : b = [0xcb, 0x01, 0x01] ++ x ++ [c] ++ s) :
    b.length = 40 ∧ b.getD 0 0 = 0xcb ∧ b.getD 1 0 = 0x01 ∧ b.getD 2 0 = 0x01 ∧
      b.take 36 = [0xcb, 0x01, 0x01] ++ x ++ [c] ∧ b.drop 36 = s ∧ (b.drop 3).take 32 = x ∧
      b.getD 35 0 = c := by
  subst hb
  have h36 : ([0xcb, 0x01, 0x01] ++ x ++ [c]).length = 36 := by simp [hx]
  have h35 : ([0xcb, 0x01, 0x01] ++ x : List UInt8).length = 35 := by simp [hx]
  refine ⟨by simp [hx, hs], rfl, rfl, rfl, List.take_left' h36, List.drop_left' h36, ?_, ?_⟩
  · simp only [List.append_assoc]
    rw [List.drop_left' (by rfl), List.take_left' hx]
  · rw [List.append_assoc, List.getD_append_right _ _ _ _ (by omega), h35]
    rfl

/-- C139: the address of a key parses to the key -/
theorem C139_roundtrip (hC : LiftLawful E C) (h58 : ∀ b, C.b58dec (C.b58enc b) = b)
    (hsha : ∀ b, 4 ≤ (C.sha256 b).length) (pk : G) (hk : Encodable E pk) :
    parseAddress C (generateAddress E C pk) = .ok pk := by
  unfold generateAddress parseAddress
  rw [h58]
  obtain ⟨h1, h2, h3, h4, h5, h6, h7, h8⟩ := payload_facts (fieldBytes (E.x pk))
    ((C.sha256 (C.sha256 ([0xcb, 0x01, 0x01] ++ fieldBytes (E.x pk) ++
      [(fieldBytes (E.y pk)).getD 0 0 &&& 1]))).take 4) ((fieldBytes (E.y pk)).getD 0 0 &&& 1)
    (leBytes_length _ _) (by rw [List.length_take, min_eq_left (hsha _)]) (addressPayload E C pk) rfl
  simp only [h5, h6, h7, h8]
  rw [Go.guard_true h1, Go.ok_bind, Go.guard_true h2, Go.ok_bind, Go.guard_true h3, Go.ok_bind,
    Go.guard_true h4, Go.ok_bind, Go.guard_true trivial, Go.ok_bind, parity_byte, decompress_flag,
    if_neg hk.2, hC.lift pk hk.1]
  rfl

/-- C139: addresses are not unique: of the byte with the parity only the lowest bit is read, so any string
whose payload differs in the others and carries a matching checksum parses to the same key -/
theorem C139_malleable (hC : LiftLawful E C) (h58 : ∀ b, C.b58dec (C.b58enc b) = b)
    (hsha : ∀ b, 4 ≤ (C.sha256 b).length) (pk : G) (hk : Encodable E pk) (c : UInt8)
    (hc : c &&& 1 = boolByte (isOdd (E.y pk))) :
    parseAddress C (C.b58enc ([0xcb, 0x01, 0x01] ++ fieldBytes (E.x pk) ++ [c] ++
      (C.sha256 (C.sha256 ([0xcb, 0x01, 0x01] ++ fieldBytes (E.x pk) ++ [c]))).take 4)) = .ok pk := by
  unfold parseAddress
  rw [h58]
  obtain ⟨h1, h2, h3, h4, h5, h6, h7, h8⟩ := payload_facts (fieldBytes (E.x pk))
    ((C.sha256 (C.sha256 ([0xcb, 0x01, 0x01] ++ fieldBytes (E.x pk) ++ [c]))).take 4) c
    (leBytes_length _ _) (by rw [List.length_take, min_eq_left (hsha _)]) _ rfl
  have hsh : c <<< 7 = boolByte (isOdd (E.y pk)) <<< 7 := by
    rw [← hc]
    have key : ∀ f : Fin 256, UInt8.ofNat f.val <<< 7 = (UInt8.ofNat f.val &&& 1) <<< 7 := by
      decide +kernel
    have := key ⟨c.toNat, c.toNat_lt⟩
    simpa using this
  simp only [h5, h6, h7, h8]
  rw [Go.guard_true h1, Go.ok_bind, Go.guard_true h2, Go.ok_bind, Go.guard_true h3, Go.ok_bind,
    Go.guard_true h4, Go.ok_bind, Go.guard_true trivial, Go.ok_bind, hsh, decompress_flag,
    if_neg hk.2, hC.lift pk hk.1]
  rfl

/-- C139: what parses has the three bytes of the version and the checksum, and the key is not the
identity -/
theorem C139_sound (hC : LiftLawful E C) (s : String) (pk : G) (h : parseAddress C s = .ok pk) :
    (C.b58dec s).length = 40 ∧ (C.b58dec s).take 3 = [0xcb, 0x01, 0x01] ∧
      (C.sha256 (C.sha256 ((C.b58dec s).take 36))).take 4 = (C.b58dec s).drop 36 ∧ pk ≠ 0 := by
  unfold parseAddress at h
  simp only [Go.guard_bind_eq_ok] at h
  obtain ⟨h1, h2, h3, h4, h5, h6⟩ := h
  refine ⟨h1, ?_, h5, ?_⟩
  · generalize C.b58dec s = b at *
    match b, h1 with
    | x :: y :: z :: l, _ =>
      have e2 : x = 0xcb := h2
      have e3 : y = 0x01 := h3
      have e4 : z = 0x01 := h4
      rw [e2, e3, e4]
      rfl
  · unfold decompress at h6
    rw [Go.guard_bind_eq_ok] at h6
    simp only [Go.bind_eq_ok, Go.ofOption_eq_ok] at h6
    obtain ⟨-, x, -, hx⟩ := h6
    exact (hC.sound _ _ _ hx).1

end Txn

/-! ### C133 -/

/-- C133: decoding a transaction from JSON fails for every input: the values that `json.Unmarshal` stores
in the body never have the types that are asserted -/
theorem C133_json_fails {T : Type} (body0 body1 : Json) (memo : Option (List UInt8))
    (second : Json → Json) (cont : Json → Go T) :
    unmarshalJSON body0 body1 memo second cont = Go.err := by
  have h1 : ∀ j : Json, j.hasType .payment = false := by intro j; cases j <;> rfl
  have h2 : ∀ j : Json, j.hasType .pair = false := by intro j; cases j <;> rfl
  unfold unmarshalJSON
  cases body0 <;> try rfl
  cases memo with
  | none => rfl
  | some m =>
    have g1 : Go.guard (body1.hasType .payment = true) = Go.err :=
      Go.guard_false (by rw [h1]; simp)
    have g2 : Go.guard (body1.hasType .pair = true) = Go.err := Go.guard_false (by rw [h2]; simp)
    simp only [g1, g2, Go.ofOption, Go.ok_bind, Go.err, Go.error_bind, ite_self]

-- a payment body as the decoder delivers it
example : unmarshalJSON (T := ℕ) (.string "Payment") (.object [("source_pk", .string "B62")]) (some [1, 0])
    id (fun _ => .ok 1) = Go.err := C133_json_fails _ _ _ _ _

/-! ### examples -/

/-- decompression for the environment of the examples, a stand-in for SHA-256, and base 58 -/
def exCodec : Codec (ZMod pallasq) where
  sha256 b := leBytes 32 (leNat b)
  b58enc b := String.ofList (b.map (fun c => Char.ofNat c.toNat))
  b58dec s := s.toList.map (fun c => UInt8.ofNat c.toNat)
  lift x b := if 0 < x.val ∧ x.val ≤ pallasq / 2 then
    some (if b then (x.val : ZMod pallasq) else -(x.val : ZMod pallasq)) else none

theorem exEnv_x (P : ZMod pallasq) : (exEnv.x P).val = min P.val (pallasq - P.val) :=
  ZMod.val_natCast_of_lt (ex_min_lt P)

theorem exEnv_odd {P : ZMod pallasq} (h : P ≠ 0) :
    isOdd (exEnv.y P) = decide (P.val ≤ pallasq / 2) := by
  show isOdd (if P = 0 then (0 : ZMod pallasp) else if P.val ≤ pallasq / 2 then 1 else -1) = _
  rw [if_neg h]
  split_ifs with h2
  · rw [decide_eq_true h2]; decide +kernel
  · rw [decide_eq_false h2]; decide +kernel

theorem exLift : LiftLawful exEnv exCodec where
  lift P h := by
    have h1 : P.val < pallasq := ZMod.val_lt P
    have h2 := ex_val_pos h
    show (if 0 < (exEnv.x P).val ∧ (exEnv.x P).val ≤ pallasq / 2 then some _ else none) = _
    rw [exEnv_x, exEnv_odd h, if_pos (by omega)]
    by_cases h3 : P.val ≤ pallasq / 2
    · rw [if_pos (by simpa using h3), min_eq_left (by omega), ZMod.natCast_zmod_val]
    · rw [if_neg (by simpa using h3), min_eq_right (by omega), Nat.cast_sub h1.le, ZMod.natCast_self,
        ZMod.natCast_zmod_val, zero_sub, neg_neg]
  sound x b P h := by
    have h' : (if 0 < x.val ∧ x.val ≤ pallasq / 2 then
      some (if b then (x.val : ZMod pallasq) else -(x.val : ZMod pallasq)) else none) = some P := h
    split_ifs at h' with hx hb
    all_goals have hP := Option.some.inj h'
    all_goals have hq : pallasq / 2 < pallasq := by decide
    all_goals have hq1 : pallasq % 2 = 1 := by decide
    all_goals have hv : (x.val : ZMod pallasq).val = x.val := ZMod.val_natCast_of_lt (by omega)
    · have h0 : P ≠ 0 := by
        rintro rfl
        rw [hP, ZMod.val_zero] at hv
        omega
      refine ⟨h0, ZMod.val_injective _ ?_, ?_⟩
      · rw [exEnv_x, ← hP, hv, min_eq_left (by omega)]
      · rw [exEnv_odd h0, ← hP, hv, hb]; simpa using hx.2
    · have hn : (x.val : ZMod pallasq) ≠ 0 := by
        intro h0
        rw [h0, ZMod.val_zero] at hv
        omega
      have h0 : P ≠ 0 := by
        rintro rfl
        exact hn (neg_eq_zero.1 hP)
      have hvn : P.val = pallasq - x.val := by
        rw [← hP, ZMod.neg_val, if_neg hn, hv]
      refine ⟨h0, ZMod.val_injective _ ?_, ?_⟩
      · rw [exEnv_x, hvn, min_eq_right (by omega), Nat.sub_sub_self (by omega)]
      · rw [exEnv_odd h0, hvn]
        rw [show b = false by simpa using hb]
        simp
        omega

/-- a payment on the main network -/
def exTxn : Txn (ZMod pallasq) where
  fee := 3
  feeToken := 1
  feePayerPk := 1234567
  nonce := 200
  validUntil := 10000
  memo := [116, 104, 105, 115]
  tag0 := false
  tag1 := false
  tag2 := true
  sourcePk := 1234567
  receiverPk := -99
  tokenId := 1
  amount := 42
  locked := false
  networkId := mainNet

theorem exEncodable : exTxn.Encodable exEnv := by
  refine ⟨⟨?_, ?_⟩, ⟨?_, ?_⟩, ?_, ?_⟩ <;> decide +kernel

example : Txn.unmarshal exCodec (exTxn.marshal exEnv) = .ok exTxn :=
  C80_roundtrip exLift exTxn exEncodable (by decide) (by decide)
example : Txn.unmarshal exCodec (exTxn.marshal exEnv) = .ok exTxn := by decide +kernel
example : Txn.unmarshal exCodec ({ exTxn with memo := List.replicate 118 7 }.marshal exEnv) = Go.crash :=
  C80_long_memo_panics exLift _ exEncodable (by simp)
example : Txn.unmarshal exCodec ({ exTxn with memo := List.replicate 35 7 }.marshal exEnv) =
    .ok { exTxn with memo := List.replicate 32 7 ++ [0, 0, 1] } := by decide +kernel
example : (Txn.unmarshal exCodec ((exTxn.marshal exEnv).set 57 118)) = Go.crash := by decide +kernel
example : Txn.unmarshal exCodec (exTxn.marshal exEnv ++ [1, 2, 3]) =
    Txn.unmarshal exCodec (exTxn.marshal exEnv) :=
  C80_trailing _ _ (C80_length _) (by decide +kernel)

/-- its signature -/
def exTxnSig : Sig pallasp pallasq := match signTransaction exEnv 1234567 exTxn with
  | .ok s => s
  | .error _ => ⟨0, 0⟩

theorem exTxnSig_ok : signTransaction exEnv 1234567 exTxn = .ok exTxnSig := by decide +kernel

example : verifyTransaction exEnv (publicKey exEnv 1234567) exTxnSig exTxn = .ok () :=
  C77_sign_verifies exLawful (by decide) _ _ _ _ exTxnSig_ok
example : verifyTransaction exEnv 1234567 exTxnSig { exTxn with amount := 43 } = Go.err := by
  decide +kernel
example : verifyTransaction exEnv 1234567 exTxnSig { exTxn with networkId := testNet } = Go.err := by
  decide +kernel
example : verifyTransaction exEnv 1234567 exTxnSig { exTxn with receiverPk := 99 } = Go.err := by
  decide +kernel
-- the hypotheses of `C132_long_memo`: a memo of 33 bytes and one of 289
example : let t := { exTxn with memo := List.replicate 33 7 }
    (List.replicate 32 7 ++ List.replicate 257 (9 : UInt8)).take 32 = t.memo.take 32 ∧
    (List.replicate 32 7 ++ List.replicate 257 (9 : UInt8)).length % 256 = t.memo.length % 256 := by
  decide +kernel

/-- the challenge of a threshold signature of the transaction with commitment `R` -/
def exChallenge (r : ZMod pallasq) : ZMod pallasq :=
  match deriveChallenge exEnv exCodec (exTxn.marshal exEnv) 1234567 r with
  | .ok c => c
  | .error _ => 0

-- `R = -5` has an even y-coordinate and its signature is accepted, `R = 5` has an odd one and is not
example : verifyTransaction exEnv 1234567
    ⟨exEnv.x (-5), -5 + exChallenge (-5) * 1234567⟩ exTxn = .ok () := by decide +kernel
example : verifyTransaction exEnv 1234567
    ⟨exEnv.x 5, 5 + exChallenge 5 * 1234567⟩ exTxn = Go.err := by decide +kernel
example : deriveChallenge exEnv exCodec (exTxn.marshal exEnv) 1234567 5 =
    deriveChallenge exEnv exCodec ({ exTxn with networkId := testNet }.marshal exEnv) 1234567 5 :=
  C134_network_ignored _ _ exTxn { exTxn with networkId := testNet } _ _
    (by decide +kernel) (by decide +kernel) rfl

example : parseAddress exCodec (generateAddress exEnv exCodec 77) = .ok 77 := by decide +kernel
-- another payload, with the parity byte 3 in place of 1
example : parseAddress exCodec (exCodec.b58enc ([0xcb, 0x01, 0x01] ++ fieldBytes (exEnv.x 77) ++ [3] ++
    (exCodec.sha256 (exCodec.sha256 ([0xcb, 0x01, 0x01] ++ fieldBytes (exEnv.x 77) ++ [3]))).take 4)) =
    .ok 77 := by decide +kernel

end Verif.Mina
