import Verif.Ed25519.PointProps

/-!
# Hashing to edwards25519, sums of products and mangled keys

* C181 `Hash` never returns nil and lands in the prime-order subgroup
* C182 `SumOfProducts`, `VarTimeDoubleScalarBaseMult`, `MangleScalarBits…`
-/

set_option exponentiation.threshold 1000

namespace Verif.Ed25519

open Primes Verif.Curves.Ed

/-! ## C181 -/

theorem montA_eq : montA = 486662 := by
  rw [montA, show limbs51 [486662, 0, 0, 0, 0] = 486662 by decide +kernel]; norm_cast

theorem montANeg_eq : montANeg = -486662 := by
  have h : ((limbs51 [2251799813198567, 2251799813685247, 2251799813685247, 2251799813685247, 2251799813685247] + 486662 : ℕ) : Fp)
      = 0 := (ZMod.natCast_eq_zero_iff _ _).2 (Nat.dvd_of_mod_eq_zero (by decide +kernel))
  rw [Nat.cast_add] at h
  rw [montANeg]
  exact eq_neg_of_add_eq_zero_left (by exact_mod_cast h)

theorem two_nonsq : ¬ IsSquare (2 : Fp) := by
  have := nonsquare_of_pow 2 (by decide +kernel)
  rwa [Nat.cast_two] at this

/-- the right-hand side of the Montgomery curve -/
def montF (u : Fp) : Fp := u ^ 3 + 486662 * u ^ 2 + u

theorem montF_neg_one : ¬ IsSquare (montF (-1)) := by
  have := nonsquare_of_pow 486660 (by decide +kernel)
  rwa [show ((486660 : ℕ) : Fp) = montF (-1) by unfold montF; push_cast; ring] at this

/-- the denominator of the map does not vanish -/
theorem den_elligator (r : Fp) : 1 + 2 * r ^ 2 ≠ 0 := by
  intro h
  have hr : r ≠ 0 := by rintro rfl; simp at h
  refine two_nonsq ⟨iEd / r, ?_⟩
  rw [div_mul_div_comm, eq_div_iff (mul_ne_zero hr hr)]
  linear_combination h - iEd_sq

/-- Elligator 2 for curve25519 (RFC 9380, section 6.7.1): the first of `-A/(1+2r²)` and `-A - (-A/(1+2r²))` whose right-hand side is a square -/
def Elligator (r u : Fp) : Prop :=
  let x := -486662 / (1 + 2 * r ^ 2)
  (IsSquare (montF x) ∧ u = x) ∨ (¬ IsSquare (montF x) ∧ u = -486662 - x)

/-- C181: `elligatorEncode` is the Elligator 2 map. -/
theorem C181_elligator (r : Fp) : Elligator r (elligatorEncode r) := by
  unfold Elligator elligatorEncode
  simp only []
  rw [montANeg_eq, montA_eq, ← div_eq_mul_inv]
  generalize (-486662 : Fp) / (1 + 2 * r ^ 2) = x
  have he : x * (x ^ 2 + 486662 * x + 1) = montF x := by unfold montF; ring
  rw [he]
  obtain ⟨-, h, -⟩ := sqrtRatio_spec (montF x) 1 one_ne_zero
  rw [div_one] at h
  by_cases hs : IsSquare (montF x)
  · left
    rw [h.2 hs]
    exact ⟨hs, by simp⟩
  · right
    have hb : (sqrtRatio (montF x) 1).2 = false := by
      rw [← Bool.not_eq_true, h]; exact hs
    rw [hb]
    refine ⟨hs, ?_⟩
    simp only [Bool.false_eq_true, if_false]
    ring

/-- C181: its value is always the abscissa of a point of the Montgomery curve, so never `-1`. -/
theorem C181_elligator_on_curve (r : Fp) :
    IsSquare (montF (elligatorEncode r)) ∧ elligatorEncode r ≠ -1 := by
  have h : IsSquare (montF (elligatorEncode r)) := by
    rcases C181_elligator r with ⟨hs, e⟩ | ⟨hs, e⟩
    · rw [e]; exact hs
    · rw [e]
      have hd := den_elligator r
      generalize hx : (-486662 : Fp) / (1 + 2 * r ^ 2) = x at hs
      rw [div_eq_iff hd] at hx
      have e2 : montF (-486662 - x) = 2 * montF x * r ^ 2 := by
        have e3 : -486662 - x = 2 * r ^ 2 * x := by linear_combination hx
        have e4 : montF (-486662 - x) = (-486662 - x) * (x ^ 2 + 486662 * x + 1) := by unfold montF; ring
        rw [e4, e3]
        unfold montF; ring
      rw [e2]
      exact (isSquare_mul_of_not two_nonsq hs).mul ⟨r, pow_two r⟩
  refine ⟨h, fun e => ?_⟩
  rw [e] at h
  exact montF_neg_one h

/-- a root of `-(A + 2)` -/
def sqrtA2 : Fp := (6853475219497561581579357271197624642482790079785650197046958215289687604742 : ℕ)

theorem sqrtA2_sq : sqrtA2 ^ 2 = -486664 := by
  have h : ((6853475219497561581579357271197624642482790079785650197046958215289687604742 ^ 2 + 486664 : ℕ) : Fp) = 0 :=
    (ZMod.natCast_eq_zero_iff _ _).2 (Nat.dvd_of_mod_eq_zero (by decide +kernel))
  rw [Nat.cast_add, Nat.cast_pow] at h
  rw [sqrtA2]
  exact eq_neg_of_add_eq_zero_left (by exact_mod_cast h)

theorem dEd_eq' : (486664 : Fp) * dEd = -486660 := by
  have h := dEd_eq
  linear_combination 4 * h

/-- the birational map sends points of the Montgomery curve to points of the Edwards curve -/
theorem mont_to_ed {u : Fp} (hu : u ≠ -1) (hs : IsSquare (montF u)) :
    IsSquare ((((u - 1) * (u + 1)⁻¹) ^ 2 - 1) / (dEd * ((u - 1) * (u + 1)⁻¹) ^ 2 + 1)) := by
  have h1 : u + 1 ≠ 0 := fun h => hu (by linear_combination h)
  obtain ⟨w, hw⟩ := hs
  have hd := den_ne ((u - 1) * (u + 1)⁻¹)
  generalize hy : (u - 1) * (u + 1)⁻¹ = y at hd
  have hy' : y * (u + 1) = u - 1 := by rw [← hy, mul_assoc, inv_mul_cancel₀ h1, mul_one]
  have key : 486664 * (dEd * y ^ 2 + 1) * (u + 1) ^ 2 = 4 * (u ^ 2 + 486662 * u + 1) := by
    linear_combination (486664 * dEd) * (y * (u + 1) + (u - 1)) * hy' + (u - 1) ^ 2 * dEd_eq'
  have hA : (486664 : Fp) ≠ 0 := by
    have : ((486664 : ℕ) : Fp) ≠ 0 := cast_ne_zero (by decide +kernel)
    exact_mod_cast this
  have hq : u ^ 2 + 486662 * u + 1 ≠ 0 := by
    intro h0
    rw [h0, mul_zero] at key
    exact mul_ne_zero (mul_ne_zero hA hd) (pow_ne_zero 2 h1) key
  refine ⟨sqrtA2 * w / (u ^ 2 + 486662 * u + 1), ?_⟩
  rw [div_mul_div_comm, div_eq_div_iff hd (mul_ne_zero hq hq)]
  have hnum : (y ^ 2 - 1) * (u + 1) ^ 2 = -4 * u := by linear_combination (y * (u + 1) + (u - 1)) * hy'
  have hc : (486664 : Fp) * (u + 1) ^ 2 ≠ 0 := mul_ne_zero hA (pow_ne_zero 2 h1)
  refine mul_left_cancel₀ hc ?_
  unfold montF at hw
  linear_combination 486664 * (u ^ 2 + 486662 * u + 1) ^ 2 * hnum - sqrtA2 ^ 2 * w ^ 2 * key
    - 4 * (u ^ 2 + 486662 * u + 1) * w ^ 2 * sqrtA2_sq + 4 * 486664 * (u ^ 2 + 486662 * u + 1) * hw * (-1)

/-- C181: the conversion succeeds on every abscissa of a point of the Montgomery curve, and multiplies by the cofactor the
point whose ordinate is `(u-1)/(u+1)` and whose abscissa has the given parity, or is zero. -/
theorem C181_toEdwards {u : Fp} (hu : u ≠ -1) (hs : IsSquare (montF u)) {sign : ℕ} (hb : sign < 2) :
    ∃ P : EdPt, toEdwards u sign = some (8 • P) ∧ P.y = (u - 1) / (u + 1) ∧ (P.x = 0 ∨ P.x.val % 2 = sign) := by
  obtain ⟨x, hx⟩ := mont_to_ed hu hs
  unfold toEdwards
  rw [if_neg hu]
  simp only []
  rw [div_eq_mul_inv]
  generalize (u - 1) * (u + 1)⁻¹ = y at hx
  rw [div_eq_iff (den_ne y)] at hx
  obtain ⟨h1, -, h3, h4⟩ := enc_nat y hb
  have hx0 : -x ^ 2 + y ^ 2 = 1 + dEd * x ^ 2 * y ^ 2 := root_on_curve (by rw [hx]; ring)
  have hx1 : -(-x) ^ 2 + y ^ 2 = 1 + dEd * (-x) ^ 2 * y ^ 2 := by rw [neg_sq]; exact hx0
  obtain ⟨P, hPy, hPx⟩ : ∃ P : EdPt, P.y = y ∧ (P.x = 0 ∨ P.x.val % 2 = sign) := by
    by_cases h0 : x = 0
    · exact ⟨⟨x, y, hx0⟩, rfl, Or.inl h0⟩
    · by_cases hp : x.val % 2 = sign
      · exact ⟨⟨x, y, hx0⟩, rfl, Or.inr hp⟩
      · refine ⟨⟨-x, y, hx1⟩, rfl, Or.inr ?_⟩
        show (-x).val % 2 = sign
        rw [neg_parity h0]
        omega
  have hd : libPointSetBytes (leBytes 32 (y.val + 2 ^ 255 * sign)) = .ok P :=
    libPointSetBytes_eq_ok.2 ⟨h1, by rw [h3, hPy], by rw [h4]; exact hPx⟩
  rw [hd]
  exact ⟨P, rfl, hPy, hPx⟩

/-- C181: what `Hash` returns, for every hash function and message. -/
theorem C181_hash (H : List UInt8 → List UInt8) (bytes : List UInt8) (hH : 32 ≤ (H bytes).length) :
    ∃ (u : Fp) (P : EdPt), Elligator ((leNat ((H bytes).take 32) % 2 ^ 255 : ℕ) : Fp) u ∧
      ptHash H bytes = some (8 • P) ∧ P.y = (u - 1) / (u + 1) ∧
      (P.x = 0 ∨ P.x.val % 2 = leNat ((H bytes).take 32) / 2 ^ 255) := by
  have hl : ((H bytes).take 32).length = 32 := by rw [List.length_take]; omega
  obtain ⟨h1, h2⟩ := C181_elligator_on_curve (feSetBytes ((H bytes).take 32))
  have hb : leNat ((H bytes).take 32) / 2 ^ 255 < 2 := by rcases sign_lt hl with h | h <;> rw [h] <;> decide
  obtain ⟨P, a, b, c⟩ := C181_toEdwards h2 h1 hb
  exact ⟨_, P, C181_elligator _, a, b, c⟩

/-- C181: `Hash` and `Random` never return nil, and land in the prime-order subgroup. -/
theorem C181_hash_subgroup (H : List UInt8 → List UInt8) (hH : ∀ b, 32 ≤ (H b).length) (bytes : List UInt8) :
    (∃ Q ∈ primeSub, ptHash H bytes = some Q) ∧ (∃ Q ∈ primeSub, ptRandom H bytes = some Q) := by
  have h : ∀ b, ∃ Q ∈ primeSub, ptHash H b = some Q := fun b => by
    obtain ⟨u, P, -, h, -⟩ := C181_hash H b (hH b)
    exact ⟨8 • P, mem_primeSub.2 (C179_cofactor P), h⟩
  exact ⟨h bytes, h _⟩

theorem montF_neg_A : ¬ IsSquare (montF (-486662)) := by
  have := nonsquare_of_pow (edp - 486662) (by decide +kernel)
  rwa [show ((edp - 486662 : ℕ) : Fp) = montF (-486662) by
    rw [Nat.cast_sub (by decide +kernel), ZMod.natCast_self]; unfold montF; push_cast; ring] at this

/-- C181: opposite field elements give the same point, and the field element zero gives the identity. -/
theorem C181_hash_symmetric (r : Fp) : elligatorEncode (-r) = elligatorEncode r ∧
    (elligatorEncode 0 = 0 ∧ ∀ sign < 2, toEdwards 0 sign = some 0) := by
  refine ⟨?_, ?_, ?_⟩
  · unfold elligatorEncode; rw [neg_sq]
  · rcases C181_elligator 0 with ⟨h, -⟩ | ⟨-, h⟩
    · refine absurd h ?_
      have e : (-486662 : Fp) / (1 + 2 * 0 ^ 2) = -486662 := by norm_num
      rw [e]; exact montF_neg_A
    · rw [h]; norm_num
  · intro sign hb
    have h1 : (0 : Fp) ≠ -1 := fun h => one_ne_zero (α := Fp) (by linear_combination h)
    obtain ⟨P, h, hy, -⟩ := C181_toEdwards h1 ⟨0, by unfold montF; ring⟩ hb
    rw [h]
    have hyy : P.y = -1 := by rw [hy]; norm_num
    have hx : P.x = 0 := by
      have := x_sq' P
      rw [hyy] at this
      exact pow_eq_zero_iff (two_ne_zero) |>.1 (by rw [this]; norm_num)
    have hPP : P = twoTors := Pt.ext (by rw [hx]; simp [twoTors, mkPt])
      (by rw [hyy]; exact (cast_neg_one _ (by decide +kernel)).symm)
    have h2 : 2 • twoTors = 0 := by rw [← four_tors, ← mul_nsmul']; exact eight_tors
    rw [hPP, show (8 : ℕ) = 2 * 4 by rfl, mul_nsmul, h2, nsmul_zero]

/-! ## C182 -/

theorem libSetCanonical_libBytes (s : Fl) : libSetCanonical (libBytes s) = .ok s := by
  have hl : leNat (leBytes 32 s.val) = s.val := leNat_leBytes 32 _ (lt_trans (ZMod.val_lt s) (by decide +kernel))
  unfold libSetCanonical libBytes
  rw [Go.guard_true (leBytes_length _ _), Go.ok_bind, Go.guard_true (by rw [hl]; exact ZMod.val_lt s), Go.ok_bind, hl,
    ZMod.natCast_zmod_val]

theorem mapM_canonical (ss : List Fl) : (ss.map libBytes).mapM libSetCanonical = .ok ss := by
  induction ss with
  | nil => rfl
  | cons s ss ih =>
    rw [List.map_cons, List.mapM_cons, libSetCanonical_libBytes, Go.ok_bind, ih, Go.ok_bind]
    rfl

theorem mapM_some {α : Type} (l : List α) : (l.map some).mapM id = some l := by
  induction l with
  | nil => rfl
  | cons a l ih => rw [List.map_cons, List.mapM_cons, ih]; rfl

/-- C182: `SumOfProducts` of scalars and points of this curve is the sum of the products; it panics exactly when the
lengths differ. -/
theorem C182_sumOfProducts (ps : List EdPt) (ss : List Fl) :
    (ss.length = ps.length → ptSumOfProducts (ps.map some) (ss.map libBytes) =
      .ok (some ((List.zip ss ps).map fun sp => sp.1.val • sp.2).sum)) ∧
    (ss.length ≠ ps.length → ptSumOfProducts (ps.map some) (ss.map libBytes) = Go.crash) := by
  unfold ptSumOfProducts
  rw [mapM_canonical, mapM_some]
  simp only []
  constructor
  · intro h
    rw [if_pos h, List.zip_eq_zipWith, List.map_zipWith]
  · intro h
    rw [if_neg h]

theorem smul_coe (P : primeSub) (s : Fl) : s.val • (P : EdPt) = ((s • P : primeSub) : EdPt) :=
  Option.some.inj (C179_mul_smul P s)

/-- C182: on points of the subgroup it is the sum over the scalar field. -/
theorem C182_sum_subgroup (l : List (Fl × primeSub)) :
    ptSumOfProducts (l.map fun sp => some (sp.2 : EdPt)) (l.map fun sp => libBytes sp.1) =
      .ok (some (((l.map fun sp => sp.1 • sp.2).sum : primeSub) : EdPt)) := by
  have h := (C182_sumOfProducts (l.map fun sp => (sp.2 : EdPt)) (l.map Prod.fst)).1 (by simp)
  rw [List.map_map, List.map_map] at h
  refine Eq.trans h (congrArg (fun P => Except.ok (some P)) ?_)
  clear h
  induction l with
  | nil => rfl
  | cons sp l ih =>
    simp only [List.map_cons, List.zip_cons_cons, List.sum_cons] at ih ⊢
    rw [ih, smul_coe]
    rfl

/-- C182: the scalars may be of any type, only their bytes count: 32 bytes that are a number below the order in little-endian
order are accepted.  So the big-endian bytes of a scalar of another curve are read backwards without an error. -/
theorem C182_foreign_scalar (P : EdPt) (b : List UInt8) (hl : b.length = 32) (hb : leNat b < edl) :
    ptSumOfProducts [some P] [b] = .ok (some (leNat b • P)) := by
  have h : libSetCanonical b = .ok ((leNat b : ℕ) : Fl) := by
    unfold libSetCanonical
    rw [Go.guard_true hl, Go.ok_bind, Go.guard_true hb, Go.ok_bind]
  unfold ptSumOfProducts
  rw [List.mapM_cons, h, Go.ok_bind]
  show (if _ then _ else _) = _
  rw [if_pos (by rfl)]
  have hv : ((leNat b : ℕ) : Fl).val = leNat b := ZMod.val_cast_of_lt hb
  simp [hv]

/-- C182: nil or a foreign point gives nil, and so does a scalar whose bytes are not canonical. -/
theorem C182_sum_nil (ps : List (Option EdPt)) (bs : List (List UInt8))
    (h : none ∈ ps ∨ ∃ b ∈ bs, b.length ≠ 32 ∨ edl ≤ leNat b) : ptSumOfProducts ps bs = .ok none := by
  unfold ptSumOfProducts
  have hbs : ∀ bs : List (List UInt8), (∃ b ∈ bs, b.length ≠ 32 ∨ edl ≤ leNat b) → ∃ e, bs.mapM libSetCanonical = .error e := by
    intro bs
    induction bs with
    | nil => rintro ⟨b, hb, -⟩; cases hb
    | cons a bs ih =>
      rintro ⟨b, hb, hbad⟩
      rw [List.mapM_cons]
      rcases hc : libSetCanonical a with e | s
      · exact ⟨e, rfl⟩
      · rw [Go.ok_bind]
        rcases List.mem_cons.1 hb with rfl | hb
        · exfalso
          unfold libSetCanonical at hc
          rw [Go.guard_bind_eq_ok, Go.guard_bind_eq_ok] at hc
          rcases hbad with hbad | hbad
          · exact hbad hc.1
          · exact absurd hc.2.1 (not_lt.2 hbad)
        · obtain ⟨e, he⟩ := ih ⟨b, hb, hbad⟩
          rw [he]; exact ⟨e, rfl⟩
  rcases hm : bs.mapM libSetCanonical with e | ss
  · rfl
  · rcases h with h | h
    · have hps : ∀ ps : List (Option EdPt), none ∈ ps → ps.mapM id = none := by
        intro ps
        induction ps with
        | nil => intro h; cases h
        | cons a ps ih =>
          intro h
          rw [List.mapM_cons]
          rcases List.mem_cons.1 h with rfl | h
          · rfl
          · rw [ih h]; cases a <;> rfl
      rw [hps ps h]
    · obtain ⟨e, he⟩ := hbs bs h
      rw [he] at hm; cases hm

/-- C182: `VarTimeDoubleScalarBaseMult` is `a•A + b•B`; nil arguments give nil. -/
theorem C182_double (a b : Fl) (A : EdPt) (oa ob : Option Fl) (oA : Option EdPt) :
    ptVarTimeDouble (some a) (some A) (some b) = some (a.val • A + b.val • base) ∧
    ptVarTimeDouble none oA ob = none ∧ ptVarTimeDouble oa none ob = none ∧ ptVarTimeDouble oa oA none = none := by
  refine ⟨rfl, ?_, ?_, ?_⟩
  · cases oA <;> rfl
  · rfl
  · cases oA <;> cases oa <;> rfl

/-- C182: the mangled key is the multiple of the base point by the clamped bytes of the scalar, as a number: the key of RFC 8032
for these bytes.  It is a different key from `s•B` unless the clamped number and the scalar agree modulo the order. -/
theorem C182_mangle (s : Fl) : ptMangle s = some (leNat (clamp (libBytes s)) • base) ∧
    (ptMangle s = some (s.val • base) ↔ ((leNat (clamp (libBytes s)) : ℕ) : Fl) = s) := by
  have h : ptMangle s = some (leNat (clamp (libBytes s)) • base) := by
    unfold ptMangle libSetClamped
    rw [Go.guard_true (show (libBytes s).length = 32 from leBytes_length _ _), Go.ok_bind]
    simp only []
    rw [val_mod_nsmul base_mem]
  refine ⟨h, ?_⟩
  rw [h, Option.some.injEq, nsmul_eq_nsmul_iff_modEq, C179_base_order, ← ZMod.natCast_eq_natCast_iff, ZMod.natCast_zmod_val]

/-- the key for the scalar one is not the base point -/
example : ptMangle 1 ≠ some base := by
  intro h
  have h1 : ptMangle 1 = some ((1 : Fl).val • base) := by rw [h, ZMod.val_one, one_nsmul]
  have h2 := (C182_mangle 1).2.1 h1
  have e : libBytes 1 = leBytes 32 1 := by rw [libBytes, ZMod.val_one]
  rw [e] at h2
  have h3 : ((leNat (clamp (leBytes 32 1)) : ℕ) : Fl) = ((1 : ℕ) : Fl) := by rw [h2, Nat.cast_one]
  rw [ZMod.natCast_eq_natCast_iff] at h3
  revert h3
  unfold Nat.ModEq
  decide +kernel

/-- the bytes of a foreign scalar one, big-endian, are the number `2^248` -/
example : ptSumOfProducts [some base] [beBytes 32 1] = .ok (some (2 ^ 248 • base)) := by
  have h := C182_foreign_scalar base (beBytes 32 1) (by decide +kernel) (by decide +kernel)
  rw [h, show leNat (beBytes 32 1) = 2 ^ 248 by decide +kernel]

/-- hypotheses of the hash theorems are met -/
example : ∃ H : List UInt8 → List UInt8, (∀ b, 32 ≤ (H b).length) ∧ ptHash H [] = some 0 := by
  refine ⟨fun _ => List.replicate 64 0, fun _ => by simp, ?_⟩
  have h0 : feSetBytes (List.replicate 32 0) = 0 := by decide +kernel
  have h1 : leNat (List.replicate 32 0) / 2 ^ 255 = 0 := by decide +kernel
  unfold ptHash
  simp only []
  rw [show (List.replicate 64 (0 : UInt8)).take 32 = List.replicate 32 0 by decide +kernel, h0, h1, (C181_hash_symmetric 0).2.1]
  exact (C181_hash_symmetric 0).2.2 0 (by decide)

end Verif.Ed25519
