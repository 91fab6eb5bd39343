import Verif.Bls381.LimbLemmas
import Mathlib.Data.Nat.ModEq

/-!
# What the loops over limbs compute
-/

namespace Verif.Bls381

theorem powW (n : ℕ) : ((2 ^ 64) ^ (n + 1) : ℕ) = (2 ^ 64) ^ n * 2 ^ 64 := pow_succ _ _

@[simp] theorem limbVal_nil : limbVal [] = 0 := rfl

@[simp] theorem limbVal_cons (w : UInt64) (l : List UInt64) :
    limbVal (w :: l) = w.toNat + 2 ^ 64 * limbVal l := rfl

theorem limbVal_append (a b : List UInt64) :
    limbVal (a ++ b) = limbVal a + (2 ^ 64) ^ a.length * limbVal b := by
  induction a with
  | nil => simp
  | cons x xs ih =>
    rw [List.cons_append, limbVal_cons, limbVal_cons, ih, List.length_cons]
    ring

theorem limbVal_lt (l : List UInt64) : limbVal l < (2 ^ 64) ^ l.length := by
  induction l with
  | nil => simp
  | cons x xs ih =>
    rw [limbVal_cons, List.length_cons, powW]
    have := toNat_lt x
    generalize ((2 ^ 64) ^ xs.length : ℕ) = P at ih ⊢
    omega

theorem limbVal_zeros (l : List UInt64) : limbVal (l.map fun _ => (0 : UInt64)) = 0 := by
  induction l with
  | nil => rfl
  | cons x xs ih => rw [List.map_cons, limbVal_cons, ih]; rfl

theorem limbVal_inj {a b : List UInt64} (hl : a.length = b.length) (h : limbVal a = limbVal b) :
    a = b := by
  induction a generalizing b with
  | nil =>
    cases b with
    | nil => rfl
    | cons y ys => cases hl
  | cons x xs ih =>
    cases b with
    | nil => cases hl
    | cons y ys =>
      rw [limbVal_cons, limbVal_cons] at h
      have hx := toNat_lt x
      have hy := toNat_lt y
      have h1 : x.toNat = y.toNat := by omega
      have h2 : limbVal xs = limbVal ys := by omega
      rw [UInt64.toNat_inj.mp h1, ih (by simpa using hl) h2]

theorem macRow_length (k : UInt64) (r b : List UInt64) (c : UInt64) (h : r.length = b.length) :
    (macRow k r b c).1.length = b.length := by
  induction r generalizing b c with
  | nil => cases b with
    | nil => rfl
    | cons y ys => cases h
  | cons x xs ih => cases b with
    | nil => cases h
    | cons y ys => simp only [macRow, List.length_cons, ih ys _ (by simpa using h)]

theorem macRow_eq (k : UInt64) (r b : List UInt64) (c : UInt64) (h : r.length = b.length) :
    limbVal (macRow k r b c).1 + (2 ^ 64) ^ b.length * (macRow k r b c).2.toNat
      = limbVal r + k.toNat * limbVal b + c.toNat := by
  induction r generalizing b c with
  | nil => cases b with
    | nil => simp [macRow]
    | cons y ys => cases h
  | cons x xs ih => cases b with
    | nil => cases h
    | cons y ys =>
      have hm := mac_eq x k y c
      have hi := ih ys (mac x k y c).2 (by simpa using h)
      simp only [macRow, limbVal_cons, List.length_cons, powW]
      calc _ = (mac x k y c).1.toNat + 2 ^ 64 *
            (limbVal (macRow k xs ys (mac x k y c).2).1 + (2 ^ 64) ^ ys.length *
              (macRow k xs ys (mac x k y c).2).2.toNat) := by ring
        _ = ((mac x k y c).1.toNat + 2 ^ 64 * (mac x k y c).2.toNat) +
            2 ^ 64 * (limbVal xs + k.toNat * limbVal ys) := by rw [hi]; ring
        _ = _ := by rw [hm]; ring

theorem adcRow_length (x y : List UInt64) (c : UInt64) (h : x.length = y.length) :
    (adcRow x y c).1.length = y.length := by
  induction x generalizing y c with
  | nil => cases y with
    | nil => rfl
    | cons y ys => cases h
  | cons x xs ih => cases y with
    | nil => cases h
    | cons y ys => simp only [adcRow, List.length_cons, ih ys _ (by simpa using h)]

theorem adcRow_eq (x y : List UInt64) (c : UInt64) (h : x.length = y.length) (hc : c.toNat ≤ 1) :
    limbVal (adcRow x y c).1 + (2 ^ 64) ^ y.length * (adcRow x y c).2.toNat
      = limbVal x + limbVal y + c.toNat ∧ (adcRow x y c).2.toNat ≤ 1 := by
  induction x generalizing y c with
  | nil => cases y with
    | nil => simp [adcRow, hc]
    | cons y ys => cases h
  | cons x xs ih => cases y with
    | nil => cases h
    | cons y ys =>
      obtain ⟨hm, hm1⟩ := adc_eq x y c (Or.inr (Or.inr hc))
      obtain ⟨hi, hi1⟩ := ih ys (adc x y c).2 (by simpa using h) hm1
      simp only [adcRow, limbVal_cons, List.length_cons, powW]
      refine ⟨?_, hi1⟩
      calc _ = (adc x y c).1.toNat + 2 ^ 64 *
            (limbVal (adcRow xs ys (adc x y c).2).1 + (2 ^ 64) ^ ys.length *
              (adcRow xs ys (adc x y c).2).2.toNat) := by ring
        _ = ((adc x y c).1.toNat + 2 ^ 64 * (adc x y c).2.toNat) +
            2 ^ 64 * (limbVal xs + limbVal ys) := by rw [hi]; ring
        _ = _ := by rw [hm]; ring

theorem sbbRow_length (x y : List UInt64) (c : UInt64) (h : x.length = y.length) :
    (sbbRow x y c).1.length = y.length := by
  induction x generalizing y c with
  | nil => cases y with
    | nil => rfl
    | cons y ys => cases h
  | cons x xs ih => cases y with
    | nil => cases h
    | cons y ys => simp only [sbbRow, List.length_cons, ih ys _ (by simpa using h)]

theorem sbbRow_eq (x y : List UInt64) (c : UInt64) (h : x.length = y.length) (hc : c.toNat ≤ 1) :
    limbVal (sbbRow x y c).1 + limbVal y + c.toNat
      = limbVal x + (2 ^ 64) ^ y.length * (sbbRow x y c).2.toNat ∧ (sbbRow x y c).2.toNat ≤ 1 := by
  induction x generalizing y c with
  | nil => cases y with
    | nil => simp [sbbRow, hc]
    | cons y ys => cases h
  | cons x xs ih => cases y with
    | nil => cases h
    | cons y ys =>
      obtain ⟨hm, hm1⟩ := sbb_eq x y c hc
      obtain ⟨hi, hi1⟩ := ih ys (sbb x y c).2 (by simpa using h) hm1
      simp only [sbbRow, limbVal_cons, List.length_cons, powW]
      refine ⟨?_, hi1⟩
      have e1 : (sbb x y c).1.toNat + 2 ^ 64 * limbVal (sbbRow xs ys (sbb x y c).2).1 +
            (y.toNat + 2 ^ 64 * limbVal ys) + c.toNat + 2 ^ 64 * (sbb x y c).2.toNat
          = ((sbb x y c).1.toNat + y.toNat + c.toNat) + 2 ^ 64 *
            (limbVal (sbbRow xs ys (sbb x y c).2).1 + limbVal ys + (sbb x y c).2.toNat) := by ring
      rw [hm, hi] at e1
      have e2 : x.toNat + 2 ^ 64 * limbVal xs + (2 ^ 64) ^ ys.length * 2 ^ 64 *
            (sbbRow xs ys (sbb x y c).2).2.toNat + 2 ^ 64 * (sbb x y c).2.toNat
          = x.toNat + 2 ^ 64 * (sbb x y c).2.toNat +
            2 ^ 64 * (limbVal xs + (2 ^ 64) ^ ys.length * (sbbRow xs ys (sbb x y c).2).2.toNat) := by
        ring
      generalize (2 ^ 64) ^ ys.length * 2 ^ 64 * (sbbRow xs ys (sbb x y c).2).2.toNat = P at e2 ⊢
      generalize (2 ^ 64) ^ ys.length * (sbbRow xs ys (sbb x y c).2).2.toNat = Q at e1 e2
      omega

/-- the borrow says which number is smaller -/
theorem sbbRow_borrow (x y : List UInt64) (h : x.length = y.length) :
    (sbbRow x y 0).2 = if limbVal x < limbVal y then 1 else 0 := by
  obtain ⟨h1, h2⟩ := sbbRow_eq x y 0 h (by decide)
  have hlt := limbVal_lt (sbbRow x y 0).1
  rw [sbbRow_length x y 0 h] at hlt
  have hz : (0 : UInt64).toNat = 0 := rfl
  rw [hz, Nat.add_zero] at h1
  apply UInt64.toNat_inj.mp
  rcases Nat.le_one_iff_eq_zero_or_eq_one.mp h2 with h3 | h3
  · rw [h3, Nat.mul_zero] at h1
    rw [if_neg (by omega), h3]; rfl
  · rw [h3, Nat.mul_one] at h1
    rw [if_pos (by omega), h3]; rfl

theorem map_and_zero (m : List UInt64) : m.map (· &&& (0 : UInt64)) = m.map fun _ => 0 := by
  apply List.map_congr_left; intro a _; simp

theorem map_and_ones (m : List UInt64) : m.map (· &&& ((0 : UInt64) - 1)) = m := by
  conv_rhs => rw [← List.map_id m]
  apply List.map_congr_left
  intro a _
  have : (0 : UInt64) - 1 = -1 := by decide
  rw [this, UInt64.and_neg_one]; rfl

theorem subMod_length (m x y : List UInt64) (h : x.length = y.length) (hm : y.length = m.length) :
    (subMod m x y).length = m.length := by
  simp only [subMod]
  rw [adcRow_length _ _ _ (by rw [List.length_map, sbbRow_length _ _ _ h, hm]), List.length_map]

theorem subMod_eq (m x y : List UInt64) (h : x.length = y.length) (hm : y.length = m.length)
    (hle : limbVal y ≤ limbVal x + limbVal m) :
    limbVal (subMod m x y)
      = if limbVal x < limbVal y then limbVal x + limbVal m - limbVal y else limbVal x - limbVal y := by
  have hb := sbbRow_borrow x y h
  obtain ⟨h1, -⟩ := sbbRow_eq x y 0 h (by decide)
  have hl := sbbRow_length x y 0 h
  have hz : (0 : UInt64).toNat = 0 := rfl
  have ho : (1 : UInt64).toNat = 1 := rfl
  rw [hz, Nat.add_zero] at h1
  have hlt := limbVal_lt m
  have hdl := limbVal_lt (sbbRow x y 0).1
  rw [hl, hm] at hdl
  simp only [subMod]
  split
  · rename_i hxy
    rw [if_pos hxy] at hb
    rw [hb, map_and_ones]
    obtain ⟨h2, h3⟩ := adcRow_eq (sbbRow x y 0).1 m 0 (by rw [hl, hm]) (by decide)
    have hr := limbVal_lt (adcRow (sbbRow x y 0).1 m 0).1
    rw [adcRow_length _ _ _ (by rw [hl, hm])] at hr
    rw [hz, Nat.add_zero] at h2
    rw [hb, ho, hm, Nat.mul_one] at h1
    rcases Nat.le_one_iff_eq_zero_or_eq_one.mp h3 with h4 | h4
    · rw [h4] at h2; omega
    · rw [h4] at h2; omega
  · rename_i hxy
    rw [if_neg hxy] at hb
    rw [hb, UInt64.sub_self, map_and_zero]
    obtain ⟨h2, h3⟩ := adcRow_eq (sbbRow x y 0).1 (m.map fun _ => 0) 0
      (by rw [hl, hm, List.length_map]) (by decide)
    have hr := limbVal_lt (adcRow (sbbRow x y 0).1 (m.map fun _ => 0) 0).1
    rw [adcRow_length _ _ _ (by rw [hl, hm, List.length_map]), List.length_map] at hr
    rw [hz, Nat.add_zero, limbVal_zeros, List.length_map] at h2
    rw [hb, hz] at h1
    rcases Nat.le_one_iff_eq_zero_or_eq_one.mp h3 with h4 | h4
    · rw [h4] at h2; omega
    · rw [h4] at h2; omega

theorem addMod_length (m x y : List UInt64) (h : x.length = y.length) (hm : y.length = m.length) :
    (addMod m x y).length = m.length := by
  simp only [addMod]
  exact subMod_length _ _ _ (by rw [adcRow_length _ _ _ h, hm]) rfl

theorem addMod_eq (m x y : List UInt64) (h : x.length = y.length) (hm : y.length = m.length)
    (hlt : limbVal x + limbVal y < (2 ^ 64) ^ m.length) :
    limbVal (addMod m x y) = if limbVal x + limbVal y < limbVal m then limbVal x + limbVal y
      else limbVal x + limbVal y - limbVal m := by
  obtain ⟨h1, h2⟩ := adcRow_eq x y 0 h (by decide)
  have hz : (0 : UInt64).toNat = 0 := rfl
  rw [hz, Nat.add_zero, hm] at h1
  have h3 : limbVal (adcRow x y 0).1 = limbVal x + limbVal y := by
    rcases Nat.le_one_iff_eq_zero_or_eq_one.mp h2 with h4 | h4
    · rw [h4] at h1; omega
    · rw [h4] at h1; omega
  simp only [addMod]
  rw [subMod_eq _ _ _ (by rw [adcRow_length _ _ _ h, hm]) rfl (by omega), h3]
  split <;> omega

theorem mulRows_length (b xs acc : List UInt64) (h : acc.length = b.length) :
    (mulRows b xs acc).length = b.length + xs.length := by
  induction xs generalizing acc with
  | nil => simpa [mulRows] using h
  | cons x xs ih =>
    have hl := macRow_length x acc b 0 h
    simp only [mulRows]
    split
    · rename_i he; simp at he
    · rename_i low rest he
      have hr : rest.length = b.length := by
        have := congrArg List.length he
        rw [List.length_append, List.length_cons, hl] at this
        simpa using this.symm
      rw [List.length_cons, ih rest hr, List.length_cons]; omega

theorem mulRows_eq (b xs acc : List UInt64) (h : acc.length = b.length) :
    limbVal (mulRows b xs acc) = limbVal acc + limbVal xs * limbVal b := by
  induction xs generalizing acc with
  | nil => simp [mulRows]
  | cons x xs ih =>
    have hl := macRow_length x acc b 0 h
    have he' := macRow_eq x acc b 0 h
    simp only [mulRows]
    split
    · rename_i he; simp at he
    · rename_i low rest he
      have hr : rest.length = b.length := by
        have := congrArg List.length he
        rw [List.length_append, List.length_cons, hl] at this
        simpa using this.symm
      have hv := congrArg limbVal he
      rw [limbVal_append, hl, limbVal_cons, limbVal_cons, limbVal_nil, Nat.mul_zero, Nat.add_zero,
        he'] at hv
      rw [limbVal_cons, ih rest hr, limbVal_cons]
      have hz : (0 : UInt64).toNat = 0 := rfl
      rw [hz, Nat.add_zero] at hv
      calc _ = (low.toNat + 2 ^ 64 * limbVal rest) + 2 ^ 64 * (limbVal xs * limbVal b) := by ring
        _ = _ := by rw [← hv]; ring

theorem mulWide_eq (x y : List UInt64) : limbVal (mulWide x y) = limbVal x * limbVal y := by
  rw [mulWide, mulRows_eq _ _ _ (by rw [List.length_map]), limbVal_zeros, Nat.zero_add]

theorem mulWide_length (x y : List UInt64) : (mulWide x y).length = y.length + x.length := by
  rw [mulWide, mulRows_length _ _ _ (by rw [List.length_map])]

/-- the sum of the products of different limbs, divided by the base -/
def offVal : List UInt64 → ℕ
  | [] => 0
  | x :: xs => x.toNat * limbVal xs + (2 ^ 64) ^ 2 * offVal xs

/-- the sum of the squares of the limbs -/
def sqVal : List UInt64 → ℕ
  | [] => 0
  | x :: xs => x.toNat * x.toNat + (2 ^ 64) ^ 2 * sqVal xs

theorem sq_split (xs : List UInt64) :
    limbVal xs * limbVal xs = sqVal xs + 2 ^ 64 * (2 * offVal xs) := by
  induction xs with
  | nil => rfl
  | cons x xs ih =>
    simp only [limbVal_cons, sqVal, offVal]
    calc _ = x.toNat * x.toNat + 2 ^ 64 * (2 * (x.toNat * limbVal xs)) +
          (2 ^ 64) ^ 2 * (limbVal xs * limbVal xs) := by ring
      _ = _ := by rw [ih]; ring

theorem offDiag_spec (xs acc : List UInt64) (h : acc.length + 1 = xs.length) :
    (offDiag xs acc).length = 2 * acc.length ∧
      limbVal (offDiag xs acc) = limbVal acc + offVal xs := by
  induction xs generalizing acc with
  | nil => cases h
  | cons x xs ih =>
    cases xs with
    | nil =>
      have : acc = [] := by simpa using h
      subst this
      simp [offDiag, offVal]
    | cons y ys =>
      have hlen : acc.length = (y :: ys).length := by simpa using h
      have hl := macRow_length x acc (y :: ys) 0 hlen
      have he' := macRow_eq x acc (y :: ys) 0 hlen
      simp only [offDiag]
      split
      · rename_i u v rest he
        have hr : rest.length + 1 = (y :: ys).length := by
          have := congrArg List.length he
          rw [List.length_append, List.length_cons, List.length_cons, hl] at this
          simp only [List.length_cons, List.length_nil] at this ⊢
          omega
        obtain ⟨i1, i2⟩ := ih rest hr
        have hv := congrArg limbVal he
        rw [limbVal_append, hl, limbVal_cons, limbVal_cons, limbVal_cons, limbVal_nil, Nat.mul_zero,
          Nat.add_zero, he'] at hv
        have hz : (0 : UInt64).toNat = 0 := rfl
        rw [hz, Nat.add_zero] at hv
        constructor
        · simp only [List.length_cons, i1] at *
          omega
        · rw [limbVal_cons, limbVal_cons, i2]
          show _ = limbVal acc + (x.toNat * limbVal (y :: ys) + (2 ^ 64) ^ 2 * offVal (y :: ys))
          calc _ = (u.toNat + 2 ^ 64 * (v.toNat + 2 ^ 64 * limbVal rest)) +
                (2 ^ 64) ^ 2 * offVal (y :: ys) := by ring
            _ = _ := by rw [← hv]; ring
      · rename_i short hno
        exfalso
        rcases hs : (macRow x acc (y :: ys) 0).1 with _ | ⟨u, _ | ⟨v, r⟩⟩
        · rw [hs] at hl; simp at hl
        · exact hno _ _ _ (by rw [hs]; rfl)
        · exact hno _ _ _ (by rw [hs]; rfl)

theorem shl1_word (r below : UInt64) :
    ((r <<< 1) ||| (below >>> 63)).toNat = 2 * r.toNat % 2 ^ 64 + below.toNat / 2 ^ 63 := by
  have h1 : (r <<< 1).toNat = 2 * r.toNat % 2 ^ 64 := by
    rw [UInt64.toNat_shiftLeft, Nat.shiftLeft_eq, Nat.mul_comm]; rfl
  have hb : below.toNat / 2 ^ 63 < 2 ^ 1 := by have := toNat_lt below; omega
  rw [UInt64.toNat_or, h1, top_eq]
  have h2 : 2 * r.toNat % 2 ^ 64 = 2 ^ 1 * (r.toNat % 2 ^ 63) := by omega
  rw [h2, ← Nat.two_pow_add_eq_or_of_lt hb]

theorem shl1_spec (rs : List UInt64) (below : UInt64) :
    (shl1 below rs).length = rs.length + 1 ∧
      limbVal (shl1 below rs) = 2 * limbVal rs + below.toNat / 2 ^ 63 := by
  induction rs generalizing below with
  | nil => exact ⟨rfl, by rw [shl1, limbVal_cons, top_eq, limbVal_nil]; ring⟩
  | cons r rs ih =>
    obtain ⟨i1, i2⟩ := ih r
    refine ⟨by rw [shl1, List.length_cons, i1, List.length_cons], ?_⟩
    rw [shl1, limbVal_cons, i2, shl1_word, limbVal_cons]
    have := toNat_lt r
    omega

theorem addSquares_spec (xs rs : List UInt64) (c : UInt64) (h : rs.length = 2 * xs.length) :
    (addSquares xs rs c).length = 2 * xs.length ∧
      ∃ c', limbVal (addSquares xs rs c) + (2 ^ 64) ^ (2 * xs.length) * c'
        = limbVal rs + sqVal xs + c.toNat := by
  induction xs generalizing rs c with
  | nil =>
    have : rs = [] := by simpa using h
    subst this
    exact ⟨rfl, c.toNat, by simp [addSquares, sqVal]⟩
  | cons x xs ih =>
    match rs, h with
    | [], h => simp at h
    | [_], h => simp only [List.length_cons, List.length_nil] at h; omega
    | r0 :: r1 :: rs, h =>
      have hm := mac_eq r0 x x c
      obtain ⟨ha, -⟩ := adc_eq 0 r1 (mac r0 x x c).2 (Or.inl (by decide))
      obtain ⟨i1, c', i2⟩ := ih rs (adc 0 r1 (mac r0 x x c).2).2
        (by simp only [List.length_cons] at h; omega)
      have hz : (0 : UInt64).toNat = 0 := rfl
      rw [hz, Nat.zero_add] at ha
      simp only [addSquares, List.length_cons]
      refine ⟨by rw [i1]; ring, c', ?_⟩
      simp only [limbVal_cons, sqVal]
      generalize adc 0 r1 (mac r0 x x c).2 = A at ha i2 ⊢
      generalize mac r0 x x c = M at hm ha ⊢
      have e : 2 * (xs.length + 1) = 2 * xs.length + 2 := by ring
      rw [e, pow_add]
      calc _ = M.1.toNat + 2 ^ 64 * (A.1.toNat) + (2 ^ 64) ^ 2 *
            (limbVal (addSquares xs rs A.2) + (2 ^ 64) ^ (2 * xs.length) * c') := by ring
        _ = M.1.toNat + 2 ^ 64 * (A.1.toNat + 2 ^ 64 * A.2.toNat) +
            (2 ^ 64) ^ 2 * (limbVal rs + sqVal xs) := by rw [i2]; ring
        _ = (M.1.toNat + 2 ^ 64 * M.2.toNat) + 2 ^ 64 * r1.toNat +
            (2 ^ 64) ^ 2 * (limbVal rs + sqVal xs) := by rw [ha]; ring
        _ = _ := by rw [hm]; ring

theorem squareWide_spec (x : List UInt64) (hx : x ≠ []) :
    (squareWide x).length = 2 * x.length ∧ limbVal (squareWide x) = limbVal x * limbVal x := by
  have hpos : 0 < x.length := List.length_pos_iff.mpr hx
  have h0 : (List.map (fun _ => (0 : UInt64)) (List.drop 1 x)).length + 1 = x.length := by
    rw [List.length_map, List.length_drop]; omega
  obtain ⟨o1, o2⟩ := offDiag_spec x _ h0
  obtain ⟨s1, s2⟩ := shl1_spec (offDiag x (x.drop 1 |>.map fun _ => 0)) 0
  have hl : ((0 : UInt64) :: shl1 0 (offDiag x (x.drop 1 |>.map fun _ => 0))).length
      = 2 * x.length := by
    rw [List.length_cons, s1, o1]
    omega
  obtain ⟨a1, c', a2⟩ := addSquares_spec x _ 0 hl
  refine ⟨a1, ?_⟩
  have hlt := limbVal_lt x
  have hq : limbVal x * limbVal x < (2 ^ 64) ^ (2 * x.length) := by
    rw [two_mul, pow_add]
    exact Nat.mul_lt_mul_of_lt_of_lt hlt hlt
  rw [limbVal_cons, s2, o2, limbVal_zeros, Nat.zero_add] at a2
  have hz : (0 : UInt64).toNat = 0 := rfl
  rw [hz, Nat.zero_add, Nat.add_zero, Nat.zero_div, Nat.add_zero] at a2
  rw [sq_split] at hq ⊢
  rw [squareWide]
  generalize limbVal (addSquares x (0 :: shl1 0 (offDiag x (x.drop 1 |>.map fun _ => 0))) 0) = V
    at a2 ⊢
  generalize ((2 ^ 64) ^ (2 * x.length) : ℕ) = P at a2 hq
  rcases Nat.eq_zero_or_pos c' with h | h
  · subst h; omega
  · exfalso
    have : P * 1 ≤ P * c' := Nat.mul_le_mul_left _ h
    omega

/-- the factor of a round clears the lowest limb -/
theorem mont_factor (inv w m0 : UInt64) (hinv : inv * m0 = (0 : UInt64) - 1) :
    (w.toNat + (w * inv).toNat * m0.toNat) % 2 ^ 64 = 0 := by
  have h1 : w + w * inv * m0 = 0 := by
    rw [UInt64.mul_assoc, hinv]
    have : (0 : UInt64) - 1 = -1 := by decide
    rw [this, UInt64.mul_neg, UInt64.mul_one]
    exact UInt64.add_right_neg w
  have h2 := congrArg UInt64.toNat h1
  rw [UInt64.toNat_add, UInt64.toNat_mul] at h2
  have hz : (0 : UInt64).toNat = 0 := rfl
  rw [hz] at h2
  rw [Nat.add_mod, ← h2, Nat.add_mod (w.toNat)]
  simp

theorem montRounds_spec (inv : UInt64) (m0 : UInt64) (ms : List UInt64)
    (hinv : inv * m0 = (0 : UInt64) - 1) (w hi : List UInt64) (c2 : UInt64)
    (hw : w.length = (m0 :: ms).length) (hc : c2.toNat ≤ 1) :
    (montRounds inv (m0 :: ms) w hi c2).length = (m0 :: ms).length ∧
    ∃ c' K, K < (2 ^ 64) ^ hi.length ∧
      (2 ^ 64) ^ hi.length *
          (limbVal (montRounds inv (m0 :: ms) w hi c2) + (2 ^ 64) ^ (m0 :: ms).length * c')
        = limbVal w + (2 ^ 64) ^ (m0 :: ms).length * (limbVal hi + c2.toNat)
          + K * limbVal (m0 :: ms) := by
  induction hi generalizing w c2 with
  | nil =>
    refine ⟨by rw [montRounds, hw], c2.toNat, 0, by simp, ?_⟩
    rw [montRounds]; simp
  | cons h hs ih =>
    obtain ⟨w0, ws, rfl⟩ := List.exists_cons_of_ne_nil (l := w) (by intro h; rw [h] at hw; simp at hw)
    have hws : ws.length = ms.length := by simpa using hw
    -- the row
    set k : UInt64 := w0 * inv with hk
    have hrow := macRow_eq k (w0 :: ws) (m0 :: ms) 0 hw
    have hrl := macRow_length k (w0 :: ws) (m0 :: ms) 0 hw
    have hz : (0 : UInt64).toNat = 0 := rfl
    rw [hz, Nat.add_zero] at hrow
    rcases hr : macRow k (w0 :: ws) (m0 :: ms) 0 with ⟨row, cr⟩
    rw [hr] at hrow hrl
    obtain ⟨r0, rs, rfl⟩ := List.exists_cons_of_ne_nil (l := row)
      (by intro h; rw [h] at hrl; simp at hrl)
    have hrs : rs.length = ms.length := by simpa using hrl
    -- its lowest limb is zero
    have hr0 : r0.toNat = 0 := by
      have hf := mont_factor inv w0 m0 hinv
      rw [← hk] at hf
      simp only [limbVal_cons, List.length_cons, powW] at hrow
      have e : k.toNat * (m0.toNat + 2 ^ 64 * limbVal ms)
          = k.toNat * m0.toNat + 2 ^ 64 * (k.toNat * limbVal ms) := by ring
      have e2 : (2 ^ 64) ^ ms.length * 2 ^ 64 * cr.toNat
          = 2 ^ 64 * ((2 ^ 64) ^ ms.length * cr.toNat) := by ring
      rw [e, e2] at hrow
      have := toNat_lt r0
      omega
    obtain ⟨ha, ha1⟩ := adc_eq h c2 cr (Or.inr (Or.inl hc))
    have hstep : montRounds inv (m0 :: ms) (w0 :: ws) (h :: hs) c2
        = montRounds inv (m0 :: ms) (rs ++ [(adc h c2 cr).1]) hs (adc h c2 cr).2 := by
      simp only [montRounds, List.headD_cons, ← hk, hr, List.drop_one, List.tail_cons]
    obtain ⟨i1, c', K, hK, i2⟩ := ih (rs ++ [(adc h c2 cr).1]) (adc h c2 cr).2
      (by simp [hrs]) ha1
    rw [hstep]
    refine ⟨i1, c', k.toNat + 2 ^ 64 * K, ?_, ?_⟩
    · have := toNat_lt k
      rw [List.length_cons, powW]
      omega
    · rw [List.length_cons, pow_succ, Nat.mul_comm ((2 ^ 64) ^ hs.length) (2 ^ 64), Nat.mul_assoc, i2]
      generalize adc h c2 cr = A at ha
      rw [limbVal_append, limbVal_cons A.1, limbVal_nil, Nat.mul_zero, Nat.add_zero, hrs]
      rw [limbVal_cons r0, hr0, Nat.zero_add] at hrow
      have hlen : (m0 :: ms).length = ms.length + 1 := rfl
      rw [hlen, powW] at hrow ⊢
      rw [limbVal_cons h]
      calc _ = (2 ^ 64 * limbVal rs) + (2 ^ 64) ^ ms.length * 2 ^ 64 *
            (A.1.toNat + 2 ^ 64 * A.2.toNat) + (2 ^ 64) ^ ms.length * 2 ^ 64 * (2 ^ 64 * limbVal hs)
            + 2 ^ 64 * K * limbVal (m0 :: ms) := by ring
        _ = (2 ^ 64 * limbVal rs + (2 ^ 64) ^ ms.length * 2 ^ 64 * cr.toNat) +
            (2 ^ 64) ^ ms.length * 2 ^ 64 * (h.toNat + c2.toNat + 2 ^ 64 * limbVal hs)
            + 2 ^ 64 * K * limbVal (m0 :: ms) := by rw [ha]; ring
        _ = _ := by rw [hrow]; ring

/-- what the loops need to know about the modulus -/
structure GoodMod (inv : UInt64) (m : List UInt64) : Prop where
  inv : ∃ m0 ms, m = m0 :: ms ∧ inv * m0 = (0 : UInt64) - 1
  small : 2 * limbVal m ≤ (2 ^ 64) ^ m.length

theorem montReduce_spec (inv : UInt64) (m r : List UInt64) (hg : GoodMod inv m)
    (hl : r.length = 2 * m.length) (hr : limbVal r < limbVal m * (2 ^ 64) ^ m.length) :
    (montReduce inv m r).length = m.length ∧ limbVal (montReduce inv m r) < limbVal m ∧
      (2 ^ 64) ^ m.length * limbVal (montReduce inv m r) ≡ limbVal r [MOD limbVal m] := by
  obtain ⟨⟨m0, ms, rfl, hinv⟩, hsmall⟩ := hg
  set M := m0 :: ms with hM
  have ht : (r.take M.length).length = M.length := by rw [List.length_take]; omega
  have hd : (r.drop M.length).length = M.length := by rw [List.length_drop]; omega
  obtain ⟨l1, c', K, hK, e⟩ := montRounds_spec inv m0 ms hinv (r.take M.length) (r.drop M.length) 0
    ht (by decide)
  have hz : (0 : UInt64).toNat = 0 := rfl
  have hrv : limbVal r = limbVal (r.take M.length) + (2 ^ 64) ^ M.length * limbVal (r.drop M.length) := by
    conv_lhs => rw [← List.take_append_drop M.length r]
    rw [limbVal_append, ht]
  rw [hz, Nat.add_zero, hd, ← hM, ← hrv] at e
  rw [← hM] at l1
  rw [hd] at hK
  set v := limbVal (montRounds inv M (r.take M.length) (r.drop M.length) 0) with hv
  set B := (2 ^ 64) ^ M.length with hB
  have hBpos : 0 < B := by positivity
  have hsum : v + B * c' < 2 * limbVal M := by
    have h1 : K * limbVal M ≤ B * limbVal M := Nat.mul_le_mul_right _ hK.le
    have h2 : B * (v + B * c') < B * (2 * limbVal M) := by
      rw [e]
      calc limbVal r + K * limbVal M < limbVal M * B + B * limbVal M := by omega
        _ = B * (2 * limbVal M) := by ring
    exact Nat.lt_of_mul_lt_mul_left h2
  have hc0 : c' = 0 := by
    rcases Nat.eq_zero_or_pos c' with h | h
    · exact h
    · exfalso
      have : B * 1 ≤ B * c' := Nat.mul_le_mul_left _ h
      omega
  rw [hc0, Nat.mul_zero, Nat.add_zero] at hsum e
  have hs := subMod_eq M (montRounds inv M (r.take M.length) (r.drop M.length) 0) M l1 rfl (by omega)
  rw [← hv] at hs
  refine ⟨subMod_length _ _ _ l1 rfl, ?_, ?_⟩
  · rw [montReduce, hs]; split <;> omega
  · have hmod : B * v ≡ limbVal r [MOD limbVal M] := by
      rw [e]
      exact (Nat.ModEq.refl _).add_right_cancel' 0 |>.trans (by simp [Nat.ModEq])
    rw [montReduce, hs]
    split
    · rwa [Nat.add_sub_cancel]
    · rename_i hlt
      have h1 : B * v = B * (v - limbVal M) + B * limbVal M := by
        rw [← Nat.mul_add, Nat.sub_add_cancel (by omega)]
      refine Nat.ModEq.trans ?_ hmod
      rw [h1]
      simp [Nat.ModEq]

theorem mulMod_spec (inv : UInt64) (m x y : List UInt64) (hg : GoodMod inv m)
    (hx : x.length = m.length) (hy : y.length = m.length)
    (hlt : limbVal x * limbVal y < limbVal m * (2 ^ 64) ^ m.length) :
    (mulMod inv m x y).length = m.length ∧ limbVal (mulMod inv m x y) < limbVal m ∧
      (2 ^ 64) ^ m.length * limbVal (mulMod inv m x y) ≡ limbVal x * limbVal y [MOD limbVal m] := by
  have h := montReduce_spec inv m (mulWide x y) hg (by rw [mulWide_length, hx, hy]; ring)
    (by rw [mulWide_eq]; exact hlt)
  rwa [mulWide_eq] at h

theorem squareMod_spec (inv : UInt64) (m x : List UInt64) (hg : GoodMod inv m)
    (hx : x.length = m.length)
    (hlt : limbVal x * limbVal x < limbVal m * (2 ^ 64) ^ m.length) :
    (squareMod inv m x).length = m.length ∧ limbVal (squareMod inv m x) < limbVal m ∧
      (2 ^ 64) ^ m.length * limbVal (squareMod inv m x) ≡ limbVal x * limbVal x [MOD limbVal m] := by
  have hne : x ≠ [] := by
    obtain ⟨⟨m0, ms, rfl, -⟩, -⟩ := hg
    intro h; rw [h] at hx; simp at hx
  obtain ⟨s1, s2⟩ := squareWide_spec x hne
  have h := montReduce_spec inv m (squareWide x) hg (by rw [s1, hx])
    (by rw [s2]; exact hlt)
  rwa [s2] at h

theorem fromMontgomery_spec (inv : UInt64) (m a : List UInt64) (hg : GoodMod inv m)
    (ha : a.length = m.length) :
    (fromMontgomery inv m a).length = m.length ∧ limbVal (fromMontgomery inv m a) < limbVal m ∧
      (2 ^ 64) ^ m.length * limbVal (fromMontgomery inv m a) ≡ limbVal a [MOD limbVal m] := by
  have hv : limbVal (a ++ m.map fun _ => (0 : UInt64)) = limbVal a := by
    rw [limbVal_append, limbVal_zeros, Nat.mul_zero, Nat.add_zero]
  have hmpos : 1 ≤ limbVal m := by
    obtain ⟨⟨m0, ms, rfl, hi⟩, -⟩ := hg
    rw [limbVal_cons]
    rcases Nat.eq_zero_or_pos m0.toNat with h | h
    · exfalso
      have : m0 = 0 := UInt64.toNat_inj.mp h
      rw [this, UInt64.mul_zero] at hi
      exact absurd hi (by decide)
    · omega
  have h := montReduce_spec inv m (a ++ m.map fun _ => 0) hg
    (by rw [List.length_append, List.length_map, ha]; ring)
    (by
      rw [hv]
      calc limbVal a < (2 ^ 64) ^ m.length := by rw [← ha]; exact limbVal_lt a
        _ ≤ limbVal m * (2 ^ 64) ^ m.length := Nat.le_mul_of_pos_left _ hmpos)
  rwa [hv] at h

end Verif.Bls381
