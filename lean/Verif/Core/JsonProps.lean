import Verif.Core.JsonModel
import Verif.Core.Props
import Mathlib.Data.Nat.Digits.Lemmas

/-!
# C220: JSON of field elements
-/

namespace Verif.Core

/-! ## Decimal texts -/

/-- a text of digits, most significant first, and its value -/
inductive Digits : List UInt8 → ℕ → Prop
  | one (c : UInt8) (d : ℕ) : d < 10 → c.toNat = 48 + d → Digits [c] d
  | more (t : List UInt8) (c : UInt8) (n d : ℕ) : Digits t n → d < 10 → c.toNat = 48 + d → Digits (t ++ [c]) (10 * n + d)

/-- a decimal integer: digits after no sign, a plus or a minus -/
inductive Decimal : List UInt8 → ℤ → Prop
  | none (t : List UInt8) (n : ℕ) : Digits t n → Decimal t n
  | plus (t : List UInt8) (n : ℕ) : Digits t n → Decimal (43 :: t) n
  | minus (t : List UInt8) (n : ℕ) : Digits t n → Decimal (45 :: t) (-(n : ℤ))

theorem isDigit {c : UInt8} : (48 ≤ c ∧ c ≤ 57) ↔ ∃ d, d < 10 ∧ c.toNat = 48 + d := by
  rw [UInt8.le_iff_toNat_le, UInt8.le_iff_toNat_le]
  constructor
  · intro ⟨h1, h2⟩
    refine ⟨c.toNat - 48, ?_, ?_⟩
    · have : (57 : UInt8).toNat = 57 := rfl
      have : (48 : UInt8).toNat = 48 := rfl
      omega
    · have : (48 : UInt8).toNat = 48 := rfl
      omega
  · rintro ⟨d, h1, h2⟩
    have h3 : (57 : UInt8).toNat = 57 := rfl
    have h4 : (48 : UInt8).toNat = 48 := rfl
    omega

theorem readDigits_append (acc : ℕ) (t u : List UInt8) :
    readDigits acc (t ++ u) = (readDigits acc t).bind fun a => readDigits a u := by
  induction t generalizing acc with
  | nil => rfl
  | cons c t ih =>
    simp only [List.cons_append, readDigits]
    split
    · exact ih _
    · rfl

theorem readDigits_one {acc : ℕ} {c : UInt8} {n : ℕ} :
    readDigits acc [c] = some n ↔ ∃ d, d < 10 ∧ c.toNat = 48 + d ∧ n = 10 * acc + d := by
  simp only [readDigits]
  constructor
  · intro h
    split at h
    · rename_i hc
      obtain ⟨d, h1, h2⟩ := isDigit.1 hc
      refine ⟨d, h1, h2, ?_⟩
      rw [h2] at h
      have := Option.some.inj h
      omega
    · cases h
  · rintro ⟨d, h1, h2, rfl⟩
    rw [if_pos (isDigit.2 ⟨d, h1, h2⟩), h2]
    congr 2
    omega

theorem readNat_iff (t : List UInt8) (n : ℕ) : readNat t = some n ↔ Digits t n := by
  constructor
  · induction t using List.reverseRecOn generalizing n with
    | nil => intro h; cases h
    | append_singleton t c ih =>
      intro h
      rw [readNat, if_neg (by simp), readDigits_append] at h
      obtain ⟨a, ha, h⟩ := Option.bind_eq_some_iff.1 h
      obtain ⟨d, h1, h2, rfl⟩ := readDigits_one.1 h
      by_cases ht : t = []
      · subst ht
        obtain rfl : 0 = a := Option.some.inj ha
        simpa using Digits.one c d h1 h2
      · exact .more t c a d (ih a (by rw [readNat, if_neg ht]; exact ha)) h1 h2
  · intro h
    induction h with
    | one c d h1 h2 =>
      rw [readNat, if_neg (by simp)]
      exact readDigits_one.2 ⟨d, h1, h2, by omega⟩
    | more t c n d ht h1 h2 ih =>
      rw [readNat, if_neg (by simp), readDigits_append]
      rw [readNat] at ih
      split at ih
      · cases ih
      · rw [ih]
        exact readDigits_one.2 ⟨d, h1, h2, rfl⟩

theorem digits_ne {t : List UInt8} {n : ℕ} {c : UInt8} (h : Digits (c :: t) n) : c ≠ 45 ∧ c ≠ 43 := by
  have := (readNat_iff _ _).2 h
  rw [readNat, if_neg (by simp), readDigits] at this
  split at this
  · rename_i hc
    constructor <;> rintro rfl <;> exact absurd hc (by decide)
  · cases this

/-- `SetString` reads exactly the decimal integers -/
theorem readInt_iff (t : List UInt8) (z : ℤ) : readInt t = some z ↔ Decimal t z := by
  constructor
  · intro h
    unfold readInt at h
    split at h
    · obtain ⟨n, hn, rfl⟩ := Option.map_eq_some_iff.1 h
      exact .minus _ _ ((readNat_iff _ _).1 hn)
    · obtain ⟨n, hn, rfl⟩ := Option.map_eq_some_iff.1 h
      exact .plus _ _ ((readNat_iff _ _).1 hn)
    · obtain ⟨n, hn, rfl⟩ := Option.map_eq_some_iff.1 h
      exact .none _ _ ((readNat_iff _ _).1 hn)
  · intro h
    rcases h with ⟨t, n, hd⟩ | ⟨t, n, hd⟩ | ⟨t, n, hd⟩
    · rcases t with _ | ⟨c, t⟩
      · exact absurd ((readNat_iff _ _).2 hd) (by simp [readNat])
      · obtain ⟨h1, h2⟩ := digits_ne hd
        unfold readInt
        split
        · rename_i e; exact absurd (List.cons.inj e).1 h1
        · rename_i e; exact absurd (List.cons.inj e).1 h2
        · rw [(readNat_iff _ _).2 hd]; rfl
    · rw [readInt, (readNat_iff _ _).2 hd]; rfl
    · rw [readInt, (readNat_iff _ _).2 hd]; rfl

theorem showNat_digits (n : ℕ) : Digits (showNat n) n := by
  induction n using Nat.strongRecOn with
  | ind n ih =>
    have hc : ∀ d, d < 10 → (UInt8.ofNat (48 + d)).toNat = 48 + d := by decide
    by_cases h0 : n = 0
    · subst h0; exact .one 48 0 (by omega) rfl
    · have hd : Nat.digits 10 n = n % 10 :: Nat.digits 10 (n / 10) := Nat.digits_def' (by omega) (by omega)
      by_cases h1 : n < 10
      · rw [showNat, if_neg h0, hd, show n / 10 = 0 by omega, Nat.digits_zero, Nat.mod_eq_of_lt h1]
        exact .one _ _ h1 (hc _ h1)
      · have e : showNat n = showNat (n / 10) ++ [UInt8.ofNat (48 + n % 10)] := by
          rw [showNat, if_neg h0, hd, showNat, if_neg (by omega)]
          simp
        rw [e]
        have := Digits.more _ _ _ _ (ih (n / 10) (by omega)) (Nat.mod_lt n (by omega)) (hc _ (Nat.mod_lt n (by omega)))
        rwa [Nat.div_add_mod] at this

theorem showInt_decimal (z : ℤ) : Decimal (showInt z) z := by
  unfold showInt
  split
  · have := Decimal.minus _ _ (showNat_digits z.natAbs)
    rwa [show -((z.natAbs : ℕ) : ℤ) = z by omega] at this
  · have := Decimal.none _ _ (showNat_digits z.natAbs)
    rwa [show ((z.natAbs : ℕ) : ℤ) = z by omega] at this

/-! ## C220 -/

/-- every element comes back from its document -/
theorem C220_roundtrip (r : Receiver) (x : Element) :
    unmarshalJson r x.marshalJson = (⟨some x.modulus, some x.value⟩, .ok ()) := by
  unfold unmarshalJson Element.marshalJson
  simp only [(readInt_iff _ _).2 (showInt_decimal _)]

/-- a document is accepted exactly if both strings are decimal integers, and it is not asked whether the element is valid: any value
with any modulus is accepted, prime or not -/
theorem C220_accepted (r : Receiver) (d : ElementJson) :
    ((unmarshalJson r d).2 = .ok () ↔ ∃ m v, Decimal d.modulus m ∧ Decimal d.value v) ∧
    (∀ m v, Decimal d.modulus m → Decimal d.value v → (unmarshalJson r d).1.get = .ok ⟨m, v⟩) ∧
    (unmarshalJson r d).2 ≠ Go.crash := by
  unfold unmarshalJson
  refine ⟨⟨?_, ?_⟩, ?_, ?_⟩
  · intro h
    rcases hm : readInt d.modulus with _ | m
    · rw [hm] at h; cases h
    · rcases hv : readInt d.value with _ | v
      · rw [hm, hv] at h; cases h
      · exact ⟨m, v, (readInt_iff _ _).1 hm, (readInt_iff _ _).1 hv⟩
  · rintro ⟨m, v, hm, hv⟩
    rw [(readInt_iff _ _).2 hm, (readInt_iff _ _).2 hv]
  · intro m v hm hv
    rw [(readInt_iff _ _).2 hm, (readInt_iff _ _).2 hv]; rfl
  · rcases readInt d.modulus with _ | m
    · exact fun h => nomatch h
    · rcases readInt d.value with _ | v <;> exact fun h => nomatch h

/-- a value that cannot be read leaves the receiver with the new modulus and without a value: every use of it panics -/
theorem C220_receiver (x : Element) (d : ElementJson) (m : ℤ) (hm : Decimal d.modulus m) (hv : ∀ v, ¬ Decimal d.value v) :
    (unmarshalJson ⟨some x.modulus, some x.value⟩ d).2 = Go.err ∧
    (unmarshalJson ⟨some x.modulus, some x.value⟩ d).1.get = Go.crash := by
  have h : readInt d.value = none := by
    rcases h : readInt d.value with _ | v
    · rfl
    · exact absurd ((readInt_iff _ _).1 h) (hv v)
  unfold unmarshalJson
  rw [(readInt_iff _ _).2 hm, h]
  exact ⟨rfl, rfl⟩

/-- a value has many texts: zeros and a plus sign can be put in front -/
theorem C220_texts (t : List UInt8) (n k : ℕ) (h : Digits t n) :
    Decimal (List.replicate k 48 ++ t) n ∧ Decimal (43 :: (List.replicate k 48 ++ t)) n := by
  have hd : Digits (List.replicate k 48 ++ t) n := by
    rw [← readNat_iff] at h ⊢
    have ht : t ≠ [] := by rintro rfl; simp [readNat] at h
    rw [readNat, if_neg ht] at h
    rw [readNat, if_neg (by simp [ht])]
    have hz : readDigits 0 (List.replicate k 48) = some 0 := by
      induction k with
      | zero => rfl
      | succ k ih => rw [List.replicate_succ, readDigits, if_pos (by decide)]; exact ih
    rw [readDigits_append, hz]; exact h
  exact ⟨.none _ _ hd, .plus _ _ hd⟩

variable {p : ℕ} [hp : Fact p.Prime]

/-- what an accepted value outside the range does: the ring operations reduce it, `IsEqual` takes it for different from the element
that it stands for, `Clone` panics for a large one and drops the sign of a negative one -/
theorem C220_out_of_range (v : ℤ) (b : ZMod p) :
    (Element.mk p v).add (ofZ p b) = .ok (ofZ p (v + b)) ∧
    (Element.mk p v).sub (ofZ p b) = .ok (ofZ p (v - b)) ∧
    (Element.mk p v).mul (ofZ p b) = .ok (ofZ p (v * b)) ∧
    (Element.mk p v).neg = .ok (ofZ p (-v)) ∧
    ((Element.mk p v).isEqual (ofZ p (v : ZMod p)) = true ↔ 0 ≤ v ∧ v < p) ∧
    ((p : ℤ) ≤ |v| → (Element.mk p v).clone = Go.crash) ∧
    (v < 0 → -v < p → (Element.mk p v).clone = .ok (ofZ p (-v))) := by
  have hval : validateFields (Element.mk p v) (ofZ p b) = .ok () := by simp [validateFields, ofZ]
  have hp0 : (p : ℤ) ≠ 0 := by exact_mod_cast hp.out.ne_zero
  have hpos : (0 : ℤ) < p := by exact_mod_cast hp.out.pos
  have : NeZero p := ⟨hp.out.ne_zero⟩
  refine ⟨?_, ?_, ?_, ?_, ?_, ?_, ?_⟩
  · unfold Element.add; rw [hval]; simp only [ofZ, mod_p, Go.ok_bind]
    exact newElement_ofZ _ _ (by push_cast; simp)
  · unfold Element.sub; rw [hval]; simp only [ofZ, mod_p, Go.ok_bind]
    exact newElement_ofZ _ _ (by push_cast; simp)
  · unfold Element.mul; rw [hval]; simp only [ofZ, mod_p, Go.ok_bind]
    exact newElement_ofZ _ _ (by push_cast; simp)
  · unfold Element.neg; simp only [mod_p, Go.ok_bind]
    exact newElement_ofZ _ _ (by push_cast; simp)
  · unfold Element.isEqual ofZ
    rw [if_pos rfl, decide_eq_true_iff]
    dsimp only
    rw [ZMod.val_intCast]
    constructor
    · intro h
      rw [h]
      exact ⟨Int.emod_nonneg _ hp0, Int.emod_lt_of_pos _ hpos⟩
    · rintro ⟨h1, h2⟩
      exact (Int.emod_eq_of_lt h1 h2).symm
  · intro h
    unfold Element.clone elementFromBytes Element.bytes intBytes newElement
    simp only [beNat_natBytes]
    rw [if_neg]
    rw [Int.natCast_natAbs]
    omega
  · intro h1 h2
    unfold Element.clone elementFromBytes Element.bytes intBytes
    simp only [beNat_natBytes]
    have h3 := newElement_ofZ (p := p) (-v) (-v : ZMod p) (by push_cast; rfl)
    rw [Int.emod_eq_of_lt (by omega) h2] at h3
    rw [show ((v.natAbs : ℕ) : ℤ) = -v by omega]
    exact h3

/-! ## Examples -/

/-- the document of 5 modulo 7, the other texts of 5, and documents that are refused -/
example : (Element.mk 7 5).marshalJson = ⟨[55], [53]⟩ ∧ readInt [43, 48, 53] = some 5 ∧ readInt [45, 49, 50] = some (-12) ∧
    readInt [] = none ∧ readInt [45] = none ∧ readInt [48, 120, 53] = none ∧ readInt [32, 53] = none := by decide +kernel

/-- the modulus zero and a negative value are accepted; addition then panics -/
example : (unmarshalJson ⟨none, none⟩ ⟨[48], [45, 51]⟩).1.get = .ok ⟨0, -3⟩ ∧ (Element.mk 0 (-3)).add ⟨0, -3⟩ = Go.crash := by
  decide +kernel

/-- `Clone` of -3 modulo 7 is 3, although its value is 4 -/
example : (Element.mk 7 (-3)).clone = .ok ⟨7, 3⟩ ∧ (Element.mk 7 (-3)).add ⟨7, 0⟩ = .ok ⟨7, 4⟩ ∧
    (Element.mk 7 (-3)).isEqual ⟨7, 4⟩ = false ∧ (Element.mk 7 11).clone = Go.crash := by decide +kernel

/-- a value that is no number -/
example : (unmarshalJson ⟨some 7, some 5⟩ ⟨[49, 49], [120]⟩) = (⟨some 11, none⟩, Go.err) := by decide +kernel

end Verif.Core
