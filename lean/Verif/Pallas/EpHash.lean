import Verif.Native.MapHash
import Verif.Pallas.EpEncode

/-!
# Hashing to Pallas

* C173 `mapSswu` is the simplified SWU map, `isoMap` the isogeny to Pallas, `Hash` the sum of two mapped points
-/

set_option linter.unusedSectionVars false
set_option exponentiation.threshold 600

namespace Verif.Pallas

open Primes Native WeierstrassCurve.Affine

/-! ## The constants -/

/-- the coefficient `A` of the isogenous curve -/
def isoAN : ℕ := 0x18354a2eb0ea8c9c49be2d7258370742b74134581a27a59f92bb4b0b657a014b

/-- the coefficients of the isogeny, lowest first -/
def isoN : IsogenyParams ℕ where
  xNum := [0x1c71c71c71c71c71c71c71c71c71c71c8102eea8e7b06eb6eebec06955555580,
    0x17329b9ec525375398c7d7ac3d98fd13380af066cfeb6d690eb64faef37ea4f7,
    0x3509afd51872d88e267c7ffa51cf412a0f93b82ee4b994958cf863b02814fb76,
    0xe38e38e38e38e38e38e38e38e38e38e4081775473d8375b775f6034aaaaaaab]
  xDen := [0x325669becaecd5d11d13bf2a7f22b105b4abf9fb9a1fc81c2aa3af1eae5b6604,
    0x1d572e7ddc099cff5a607fcce0494a799c434ac1c96b6980c47f2ab668bcd71f, 1]
  yNum := [0x25ed097b425ed097b425ed097b425ed0ac03e8e134eb3e493e53ab371c71c4f,
    0x3fb98ff0d2ddcadd303216cce1db9ff11765e924f745937802e2be87d225b234,
    0x1a84d7ea8c396c47133e3ffd28e7a09507c9dc17725cca4ac67c31d8140a7dbb,
    0x1a12f684bda12f684bda12f684bda12f7642b01ad461bad25ad985b5e38e38e4]
  yDen := [0x40000000000000000000000000000000224698fc094cf91b992d30ecfffffde5,
    0x17033d3c60c68173573b3d7f7d681310d976bbfabbc5661d4d90ab820b12320a,
    0xc02c5bcca0e6b7f0790bfb3506defb65941a3a4a97aa1b35a28279b1d1b42ae, 1]

theorem raw_eq {l : Limbs} {n : ℕ} (h : l.val = n) : raw l = ((n : ℕ) : Fp) := by rw [raw, h]

theorem isoa_eq : isoa = ((isoAN : ℕ) : Fp) := raw_eq (by decide +kernel)
theorem isob_eq : isob = ((1265 : ℕ) : Fp) := raw_eq (by decide +kernel)
theorem sswuZ_eq : sswuZ = -((13 : ℕ) : Fp) := by
  rw [sswuZ, raw_eq (n := pallasp - 13) (by decide +kernel), Nat.cast_sub (by decide +kernel), CharP.cast_eq_zero, zero_sub]

theorem isoa_ne : isoa ≠ 0 := by rw [isoa_eq]; exact natCast_ne_zero_of_mod (by decide +kernel)

theorem sswuZ_nonsquare : ¬ IsSquare sswuZ := by
  have := not_isSquare_of_powMod (p := pallasp) (fuel := 256) (a := pallasp - 13) (by decide +kernel) (by decide +kernel)
    (by decide +kernel)
  rw [sswuZ, raw_eq (n := pallasp - 13) (by decide +kernel)]
  exact this

theorem sswuC1_eq : sswuC1 = -isob / isoa := by
  have h : sswuC1 = ((0x3d115d87af7b3324d97cab452a13c1eb7612d2d7211b7b101c3006d89470d7f8 : ℕ) : Fp) :=
    unMont_eq (p := pallasp) (by decide) _ _ (by decide +kernel)
  refine eq_div_of_mul_eq isoa_ne ?_
  rw [eq_neg_iff_add_eq_zero, h, isoa_eq, isob_eq, ← Nat.cast_mul, ← Nat.cast_add]
  rw [show (0 : Fp) = ((0 : ℕ) : Fp) by simp]
  exact natCast_eq_of_mod (by decide +kernel)

theorem sswuC2_eq : sswuC2 = -1 / sswuZ := by
  have hz : sswuZ ≠ 0 := by intro h; exact sswuZ_nonsquare (h ▸ IsSquare.zero)
  have h : sswuC2 = ((0x189d89d89d89d89d89d89d89d89d89d8aab8b0fe79bb24bbd873d7bd9d89d89e : ℕ) : Fp) :=
    unMont_eq (p := pallasp) (by decide) _ _ (by decide +kernel)
  refine eq_div_of_mul_eq hz ?_
  rw [h, sswuZ_eq, mul_neg, ← Nat.cast_mul, neg_inj]
  rw [show (1 : Fp) = ((1 : ℕ) : Fp) by simp]
  exact natCast_eq_of_mod (by decide +kernel)

theorem sswuEx : IsSquare ((isob / (sswuZ * isoa)) ^ 3 + isoa * (isob / (sswuZ * isoa)) + isob) := by
  have hz : sswuZ ≠ 0 := by intro h; exact sswuZ_nonsquare (h ▸ IsSquare.zero)
  have hx : isob / (sswuZ * isoa) = ((0x2c150731d26bf03de9585bf1a0c67160f6ca6e5ce0e2b674af333253bca63800 : ℕ) : Fp) := by
    rw [div_eq_iff (mul_ne_zero hz isoa_ne), sswuZ_eq, isoa_eq, isob_eq, neg_mul, mul_neg, eq_neg_iff_add_eq_zero,
      ← Nat.cast_mul, ← Nat.cast_mul, ← Nat.cast_add]
    rw [show (0 : Fp) = ((0 : ℕ) : Fp) by simp]
    exact natCast_eq_of_mod (by decide +kernel)
  rw [hx, isoa_eq, isob_eq]
  refine ⟨((0x333fa3f8cb3bbd6e18f2fba2717db760fa5b179f0e2993f73395bb94a9eabe4 : ℕ) : Fp), ?_⟩
  rw [← Nat.cast_pow, ← Nat.cast_mul, ← Nat.cast_add, ← Nat.cast_add, ← Nat.cast_mul]
  exact natCast_eq_of_mod (by decide +kernel)

/-! ## The map to the isogenous curve -/

theorem fpSqrt_flag (a : Fp) : (fpSqrt a).2 = true ↔ IsSquare a := by
  obtain ⟨y, h1, h2⟩ := fpSqrt_spec a
  rw [h1]
  simpa using h2

theorem fpSqrt_root {a : Fp} (h : IsSquare a) : (fpSqrt a).1 ^ 2 = a := by
  obtain ⟨y, h1, h2⟩ := fpSqrt_spec a
  rw [h1]
  exact h2.2 h

theorem lowBit_neg (y : Fp) (h : y ≠ 0) : lowBitOf (-y) = !lowBitOf y := lowBitOf_neg (by decide +kernel) h

theorem isSquare_mul_of_not {a b : Fp} (ha : ¬ IsSquare a) (hb : ¬ IsSquare b) : IsSquare (a * b) := by
  have ha0 : a ≠ 0 := by rintro rfl; exact ha IsSquare.zero
  have hb0 : b ≠ 0 := by rintro rfl; exact hb IsSquare.zero
  rw [ZMod.euler_criterion pallasp (mul_ne_zero ha0 hb0), mul_pow]
  rw [ZMod.euler_criterion pallasp ha0] at ha
  rw [ZMod.euler_criterion pallasp hb0] at hb
  rw [(ZMod.pow_div_two_eq_neg_one_or_one pallasp ha0).resolve_left ha,
    (ZMod.pow_div_two_eq_neg_one_or_one pallasp hb0).resolve_left hb]
  norm_num

theorem fix_sign {A B u x y : Fp} (hxy : y ^ 2 = x ^ 3 + A * x + B) :
    (if (lowBitOf u == lowBitOf y) = true then y else -y) ^ 2 = x ^ 3 + A * x + B ∧
      ((if (lowBitOf u == lowBitOf y) = true then y else -y) ≠ 0 →
        lowBitOf (if (lowBitOf u == lowBitOf y) = true then y else -y) = lowBitOf u) := by
  split_ifs with h
  · exact ⟨hxy, fun _ => (beq_iff_eq.1 h).symm⟩
  · refine ⟨by rw [neg_sq, hxy], fun h0 => ?_⟩
    rw [lowBit_neg y (neg_ne_zero.1 h0)]
    revert h
    cases lowBitOf u <;> cases lowBitOf y <;> simp

/-- C173: on every field element `mapSswu` is the simplified SWU map of RFC 9380 for the isogenous curve
`y² = x³ + A x + 1265` with `Z = -13`. -/
theorem C173_map (u : Fp) : (mapSswu u).z = 1 ∧
    IsSwu ((isoAN : ℕ) : Fp) (1265 : ℕ) (-(13 : ℕ)) lowBitOf u (mapSswu u).x (mapSswu u).y := by
  refine ⟨rfl, ?_⟩
  rw [← isoa_eq, ← isob_eq, ← sswuZ_eq]
  have hgen : ∀ Z A B C1 C2 : Fp, ¬ IsSquare Z → A ≠ 0 → C1 = -B / A → C2 = -1 / Z →
      IsSquare ((B / (Z * A)) ^ 3 + A * (B / (Z * A)) + B) → sswuZ = Z → isoa = A → isob = B → sswuC1 = C1 →
      sswuC2 = C2 → IsSwu A B Z lowBitOf u (mapSswu u).x (mapSswu u).y := by
    intro Z A B C1 C2 hZ hA h1 h2 hex eZ eA eB e1 e2
    have hZ0 : Z ≠ 0 := by rintro rfl; exact hZ IsSquare.zero
    generalize ht : Z * (u * u) = t
    have hs : Z ^ 2 * u ^ 4 + Z * u ^ 2 = t + t * t := by rw [← ht]; ring
    generalize hx1 : (if (t + t * t)⁻¹ = 0 then C2 else (t + t * t)⁻¹ + 1) * C1 = x1
    have key : mapSswu u =
        let x := if (fpSqrt (x1 ^ 3 + A * x1 + B)).2 then x1 else t * x1
        let y := if (fpSqrt (x1 ^ 3 + A * x1 + B)).2 then (fpSqrt (x1 ^ 3 + A * x1 + B)).1
          else (fpSqrt ((x1 ^ 3 + A * x1 + B) * (t * (t * t)))).1
        ⟨x, if (lowBitOf u == lowBitOf y) = true then y else -y, 1⟩ := by
      have hg : (x1 * x1 + A) * x1 + B = x1 ^ 3 + A * x1 + B := by ring
      rw [mapSswu]
      simp only [eZ, eA, eB, e1, e2, ht, fpInvert_eq, decide_eq_true_eq, hx1, hg]
    have hspec : (t + t * t = 0 → x1 = B / (Z * A)) ∧ (t + t * t ≠ 0 → x1 = -B / A * (1 + 1 / (t + t * t))) := by
      constructor
      · intro h0
        rw [← hx1, h0, inv_zero, if_pos rfl, h1, h2]
        field_simp
      · intro h0
        rw [← hx1, if_neg (inv_ne_zero h0), h1, one_div]; ring
    rw [key]
    have hzt : t * x1 = Z * u ^ 2 * x1 := by rw [← ht]; ring
    by_cases hq : IsSquare (x1 ^ 3 + A * x1 + B)
    · have hf := (fpSqrt_flag _).2 hq
      simp only [hf, if_true]
      have := fix_sign (u := u) (x := x1) (A := A) (B := B) (fpSqrt_root hq)
      exact ⟨⟨x1, by rw [hs]; exact hspec.1, by rw [hs]; exact hspec.2, fun _ => rfl, fun h => absurd hq h⟩, this.1, this.2⟩
    · have hf : (fpSqrt (x1 ^ 3 + A * x1 + B)).2 = false := by
        rw [Bool.eq_false_iff]; exact fun h => hq ((fpSqrt_flag _).1 h)
      simp only [hf, Bool.false_eq_true, if_false]
      have hs0 : t + t * t ≠ 0 := by
        intro h0
        rw [hspec.1 h0] at hq
        exact hq hex
      have ht0 : t ≠ 0 := by rintro rfl; exact hs0 (by ring)
      have htn : ¬ IsSquare t := by
        rintro ⟨s, hs⟩
        have hu : u ≠ 0 := by rintro rfl; exact ht0 (by rw [← ht]; ring)
        exact hZ ⟨s / u, by field_simp; linear_combination ht + hs⟩
      have hg2 : (x1 ^ 3 + A * x1 + B) * (t * (t * t)) = (t * x1) ^ 3 + A * (t * x1) + B := by
        rw [hspec.2 hs0]
        have : 1 + t ≠ 0 := by intro h; exact hs0 (by linear_combination t * h)
        field_simp
        ring
      have hq2 : IsSquare ((x1 ^ 3 + A * x1 + B) * (t * (t * t))) := by
        refine isSquare_mul_of_not hq ?_
        rintro ⟨s, hs⟩
        exact htn ⟨s / t, by field_simp; linear_combination hs⟩
      have hr := fpSqrt_root hq2
      generalize (fpSqrt ((x1 ^ 3 + A * x1 + B) * (t * (t * t)))).1 = r at hr ⊢
      rw [hg2] at hr
      have := fix_sign (u := u) hr
      exact ⟨⟨x1, by rw [hs]; exact hspec.1, by rw [hs]; exact hspec.2, fun h => absurd h hq, fun _ => hzt⟩, this.1, this.2⟩
  exact hgen _ _ _ _ _ sswuZ_nonsquare isoa_ne sswuC1_eq sswuC2_eq sswuEx rfl rfl rfl rfl rfl

/-! ## The isogeny -/

/-- the abscissa of the kernel -/
def kernelX : ℕ := 0x115468c111fb318052cfc0198fdb5ac34301a71d1ff0c7cd6a57031b4ba19471

theorem xDen_eq (x : Fp) : evalL (castL pallasp isoN.xDen) x = (x - (kernelX : ℕ)) ^ 2 := by
  have h1 : ((0x1d572e7ddc099cff5a607fcce0494a799c434ac1c96b6980c47f2ab668bcd71f + 2 * kernelX : ℕ) : Fp)
    = (0 : ℕ) := natCast_eq_of_mod (by decide +kernel)
  have h0 : ((0x325669becaecd5d11d13bf2a7f22b105b4abf9fb9a1fc81c2aa3af1eae5b6604 : ℕ) : Fp)
    = (kernelX * kernelX : ℕ) := natCast_eq_of_mod (by decide +kernel)
  simp only [isoN, evalL_castL_cons, h0]
  rw [Nat.cast_add, Nat.cast_mul, Nat.cast_zero, Nat.cast_ofNat (n := 2)] at h1
  rw [Nat.cast_mul, Nat.cast_one]
  simp only [castL, List.map_nil, evalL_nil]
  linear_combination x * h1

theorem yDen_eq (x : Fp) : evalL (castL pallasp isoN.yDen) x = (x - (kernelX : ℕ)) ^ 3 := by
  have h2 : ((0xc02c5bcca0e6b7f0790bfb3506defb65941a3a4a97aa1b35a28279b1d1b42ae + 3 * kernelX : ℕ) : Fp)
    = (0 : ℕ) := natCast_eq_of_mod (by decide +kernel)
  have h1 : ((0x17033d3c60c68173573b3d7f7d681310d976bbfabbc5661d4d90ab820b12320a : ℕ) : Fp)
    = (3 * kernelX ^ 2 : ℕ) := natCast_eq_of_mod (by decide +kernel)
  have h0 : ((0x40000000000000000000000000000000224698fc094cf91b992d30ecfffffde5 + kernelX ^ 3 : ℕ) : Fp)
    = (0 : ℕ) := natCast_eq_of_mod (by decide +kernel)
  simp only [isoN, evalL_castL_cons, h1]
  rw [Nat.cast_add, Nat.cast_mul, Nat.cast_zero, Nat.cast_ofNat (n := 3)] at h2
  rw [Nat.cast_add, Nat.cast_pow, Nat.cast_zero] at h0
  rw [Nat.cast_mul, Nat.cast_pow, Nat.cast_one, Nat.cast_ofNat (n := 3)]
  simp only [castL, List.map_nil, evalL_nil]
  linear_combination h0 + x ^ 2 * h2

/-- no point of the isogenous curve has the abscissa of the kernel -/
theorem kernel_ne {x y : Fp} (h : y ^ 2 = x ^ 3 + (isoAN : ℕ) * x + (1265 : ℕ)) : x - (kernelX : ℕ) ≠ 0 := by
  intro h0
  rw [sub_eq_zero] at h0
  have e : ((kernelX ^ 3 + isoAN * kernelX + 1265 : ℕ) : Fp) = (5 : ℕ) := natCast_eq_of_mod (by decide +kernel)
  rw [Nat.cast_add, Nat.cast_add, Nat.cast_mul, Nat.cast_pow] at e
  rw [h0, e] at h
  exact not_square_five ⟨y, by push_cast at h; rw [← h, sq]⟩

theorem iso_identity (x : Fp) :
    evalL (castL pallasp isoN.yNum) x ^ 2 * ((x ^ 3 + (isoAN : ℕ) * x + (1265 : ℕ)) * evalL (castL pallasp isoN.xDen) x ^ 3)
    = evalL (castL pallasp isoN.yDen) x ^ 2 * (evalL (castL pallasp isoN.xNum) x ^ 3
      + (5 : ℕ) * evalL (castL pallasp isoN.xDen) x ^ 3) := by
  have key : mulN pallasp (mulN pallasp isoN.yNum isoN.yNum) (mulN pallasp [1265, isoAN, 0, 1]
      (mulN pallasp isoN.xDen (mulN pallasp isoN.xDen isoN.xDen)))
      = mulN pallasp (mulN pallasp isoN.yDen isoN.yDen) (addN pallasp
        (mulN pallasp isoN.xNum (mulN pallasp isoN.xNum isoN.xNum))
        (smulN pallasp 5 (mulN pallasp isoN.xDen (mulN pallasp isoN.xDen isoN.xDen)))) := by decide +kernel
  have h := congrArg (fun l => evalL (castL pallasp l) x) key
  simp only [evalL_mulN, evalL_addN, evalL_smulN] at h
  have e : evalL (castL pallasp [1265, isoAN, 0, 1]) x = x ^ 3 + (isoAN : ℕ) * x + (1265 : ℕ) := by
    simp only [evalL_castL_cons, Nat.cast_zero, Nat.cast_one]
    simp only [castL, List.map_nil, evalL_nil]
    ring
  rw [e] at h
  linear_combination h

theorem isomapper_eq : isomapper = castL pallasp
    (isoN.xNum.reverse ++ [isoN.xDen.getD 1 0, isoN.xDen.getD 0 0] ++ isoN.yNum.reverse ++
      [isoN.yDen.getD 2 0, isoN.yDen.getD 1 0, isoN.yDen.getD 0 0]) := by
  have h : ∀ {l : List Limbs} {k : List ℕ}, l.map Limbs.val = k → l.map raw = castL pallasp k := by
    rintro l k rfl
    rw [castL, List.map_map]
    rfl
  exact h (l := [⟨0x775f6034aaaaaaab, 0x4081775473d8375b, 0xe38e38e38e38e38e, 0x0e38e38e38e38e38⟩,
    ⟨0x8cf863b02814fb76, 0x0f93b82ee4b99495, 0x267c7ffa51cf412a, 0x3509afd51872d88e⟩,
    ⟨0x0eb64faef37ea4f7, 0x380af066cfeb6d69, 0x98c7d7ac3d98fd13, 0x17329b9ec5253753⟩,
    ⟨0xeebec06955555580, 0x8102eea8e7b06eb6, 0xc71c71c71c71c71c, 0x1c71c71c71c71c71⟩,
    ⟨0xc47f2ab668bcd71f, 0x9c434ac1c96b6980, 0x5a607fcce0494a79, 0x1d572e7ddc099cff⟩,
    ⟨0x2aa3af1eae5b6604, 0xb4abf9fb9a1fc81c, 0x1d13bf2a7f22b105, 0x325669becaecd5d1⟩,
    ⟨0x5ad985b5e38e38e4, 0x7642b01ad461bad2, 0x4bda12f684bda12f, 0x1a12f684bda12f68⟩,
    ⟨0xc67c31d8140a7dbb, 0x07c9dc17725cca4a, 0x133e3ffd28e7a095, 0x1a84d7ea8c396c47⟩,
    ⟨0x02e2be87d225b234, 0x1765e924f7459378, 0x303216cce1db9ff1, 0x3fb98ff0d2ddcadd⟩,
    ⟨0x93e53ab371c71c4f, 0x0ac03e8e134eb3e4, 0x7b425ed097b425ed, 0x025ed097b425ed09⟩,
    ⟨0x5a28279b1d1b42ae, 0x5941a3a4a97aa1b3, 0x0790bfb3506defb6, 0x0c02c5bcca0e6b7f⟩,
    ⟨0x4d90ab820b12320a, 0xd976bbfabbc5661d, 0x573b3d7f7d681310, 0x17033d3c60c68173⟩,
    ⟨0x992d30ecfffffde5, 0x224698fc094cf91b, 0x0000000000000000, 0x4000000000000000⟩]) (by decide +kernel)

/-- entry `i` of the table -/
abbrev iso (i : ℕ) : Fp := isomapper.getD i 0

theorem xNum_iso (x : Fp) : evalL (castL pallasp isoN.xNum) x = iso 3 + x * (iso 2 + x * (iso 1 + x * iso 0)) := by
  simp only [iso, isomapper_eq, isoN, evalL_castL_cons]
  simp only [castL, List.map_nil, evalL_nil, mul_zero, add_zero]
  rfl
theorem xDen_iso (x : Fp) : evalL (castL pallasp isoN.xDen) x = iso 5 + x * (iso 4 + x) := by
  simp only [iso, isomapper_eq, isoN, evalL_castL_cons]
  simp only [castL, List.map_nil, evalL_nil, mul_zero, add_zero, Nat.cast_one, mul_one]
  rfl
theorem yNum_iso (x : Fp) : evalL (castL pallasp isoN.yNum) x = iso 9 + x * (iso 8 + x * (iso 7 + x * iso 6)) := by
  simp only [iso, isomapper_eq, isoN, evalL_castL_cons]
  simp only [castL, List.map_nil, evalL_nil, mul_zero, add_zero]
  rfl
theorem yDen_iso (x : Fp) : evalL (castL pallasp isoN.yDen) x = iso 12 + x * (iso 11 + x * (iso 10 + x)) := by
  simp only [iso, isomapper_eq, isoN, evalL_castL_cons]
  simp only [castL, List.map_nil, evalL_nil, mul_zero, add_zero, Nat.cast_one, mul_one]
  rfl

/-- the homogeneous formulas in affine terms -/
theorem isoMap_eq (x y z : Fp) : isoMap ⟨x * z ^ 2, y * z ^ 3, z⟩ =
    let N := evalL (castL pallasp isoN.xNum) x
    let D := evalL (castL pallasp isoN.xDen) x
    let M := evalL (castL pallasp isoN.yNum) x
    let E := evalL (castL pallasp isoN.yDen) x
    ⟨N * D * E ^ 2 * z ^ 30, M * y * D ^ 3 * E ^ 2 * z ^ 45, D * E * z ^ 15⟩ := by
  simp only [xNum_iso, xDen_iso, yNum_iso, yDen_iso, isoMap, iso]
  generalize isomapper.getD 0 0 = i0
  generalize isomapper.getD 1 0 = i1
  generalize isomapper.getD 2 0 = i2
  generalize isomapper.getD 3 0 = i3
  generalize isomapper.getD 4 0 = i4
  generalize isomapper.getD 5 0 = i5
  generalize isomapper.getD 6 0 = i6
  generalize isomapper.getD 7 0 = i7
  generalize isomapper.getD 8 0 = i8
  generalize isomapper.getD 9 0 = i9
  generalize isomapper.getD 10 0 = i10
  generalize isomapper.getD 11 0 = i11
  generalize isomapper.getD 12 0 = i12
  simp only [Proj.mk.injEq]
  have hD : ((z * z * (x * z ^ 2) + i4 * (z * z * (z * z))) * (x * z ^ 2) + i5 * (z * z * z * (z * z * z)))
      = (i5 + x * (i4 + x)) * z ^ 6 := by ring
  have hE : ((((x * z ^ 2 + i10 * (z * z)) * (x * z ^ 2) + i11 * (z * z * (z * z))) * (x * z ^ 2)
      + i12 * (z * z * z * (z * z * z))) * (z * z * z)) = (i12 + x * (i11 + x * (i10 + x))) * z ^ 9 := by ring
  have hN : (((i0 * (x * z ^ 2) + i1 * (z * z)) * (x * z ^ 2) + i2 * (z * z * (z * z))) * (x * z ^ 2)
      + i3 * (z * z * z * (z * z * z))) = (i3 + x * (i2 + x * (i1 + x * i0))) * z ^ 6 := by ring
  have hM : ((((i6 * (x * z ^ 2) + i7 * (z * z)) * (x * z ^ 2) + i8 * (z * z * (z * z))) * (x * z ^ 2)
      + i9 * (z * z * z * (z * z * z))) * (y * z ^ 3)) = (i9 + x * (i8 + x * (i7 + x * i6))) * y * z ^ 9 := by ring
  rw [hD, hE, hN, hM]
  generalize i5 + x * (i4 + x) = D
  generalize i12 + x * (i11 + x * (i10 + x)) = E
  generalize i3 + x * (i2 + x * (i1 + x * i0)) = N
  generalize i9 + x * (i8 + x * (i7 + x * i6)) = M
  refine ⟨?_, ?_, ?_⟩ <;> ring

theorem point_of_equation {x y : Fp} (h : y ^ 2 = x ^ 3 + 5) : (curve (0 : Fp) 5).Nonsingular x y :=
  nonsingular_curve two_ne (ne_zero_of_sq h) (by linear_combination h)

/-- `P` is where the isogeny takes the point `(x, y)` of the isogenous curve -/
def IsImage (x y : Fp) (P : Group) : Prop :=
  evalL (castL pallasp isoN.xDen) x ≠ 0 ∧ evalL (castL pallasp isoN.yDen) x ≠ 0 ∧
  ∃ h, P = .some (evalL (castL pallasp isoN.xNum) x / evalL (castL pallasp isoN.xDen) x)
    (evalL (castL pallasp isoN.yNum) x / evalL (castL pallasp isoN.yDen) x * y) h

/-- C173: `isoMap` takes any Jacobian coordinates of a point of the isogenous curve to coordinates of its image, a point
of Pallas other than the identity; the kernel has no rational points. -/
theorem C173_isogeny {x y z : Fp} (hz : z ≠ 0) (h : y ^ 2 = x ^ 3 + (isoAN : ℕ) * x + (1265 : ℕ)) :
    ∃ P : Group, IsImage x y P ∧ JRep (isoMap ⟨x * z ^ 2, y * z ^ 3, z⟩) P := by
  have hk := kernel_ne h
  have h1 : evalL (castL pallasp isoN.xDen) x ≠ 0 := by rw [xDen_eq]; exact pow_ne_zero _ hk
  have h2 : evalL (castL pallasp isoN.yDen) x ≠ 0 := by rw [yDen_eq]; exact pow_ne_zero _ hk
  have he := iso_equation h1 h2 (iso_identity x) h
  refine ⟨.some _ _ (point_of_equation (by push_cast at he; exact he)), ⟨h1, h2, _, rfl⟩, ?_⟩
  rw [isoMap_eq]
  refine ⟨mul_ne_zero (mul_ne_zero h1 h2) (pow_ne_zero _ hz), ?_, ?_⟩
  · show _ = _ * (_ * _ * z ^ 15) ^ 2
    field_simp
  · show _ = _ * (_ * _ * z ^ 15) ^ 3
    field_simp

/-! ## `Hash` -/

/-- `P` is the image of the field element `u` -/
def IsMap (u : Fp) (P : Group) : Prop :=
  ∃ x y, IsSwu ((isoAN : ℕ) : Fp) (1265 : ℕ) (-(13 : ℕ)) lowBitOf u x y ∧ IsImage x y P

/-- C173: a field element has one image. -/
theorem IsMap.unique {u : Fp} {P Q : Group} (hP : IsMap u P) (hQ : IsMap u Q) : P = Q := by
  obtain ⟨x, y, h1, -, -, h2, rfl⟩ := hP
  obtain ⟨x', y', h1', -, -, h2', rfl⟩ := hQ
  obtain ⟨rfl, rfl⟩ := IsSwu.unique lowBit_neg h1 h1'
  rfl

/-- C173: every field element is mapped to a point of Pallas. -/
theorem C173_point (u : Fp) : ∃ P : Group, IsMap u P ∧ P ≠ 0 ∧ JRep (isoMap (mapSswu u)) P := by
  obtain ⟨hz, hs⟩ := C173_map u
  obtain ⟨P, hP, hr⟩ := C173_isogeny (z := 1) one_ne_zero hs.equation
  refine ⟨P, ⟨_, _, hs, hP⟩, ?_, ?_⟩
  · obtain ⟨-, -, h, rfl⟩ := hP
    intro h; cases h
  · have : (⟨(mapSswu u).x * 1 ^ 2, (mapSswu u).y * 1 ^ 3, 1⟩ : Ep) = mapSswu u := by
      rw [one_pow, one_pow, mul_one, mul_one, ← hz]
    rw [this] at hr
    exact hr

theorem fpSetBytesWide_eq {l : List UInt8} (hl : l.length = 64) : fpSetBytesWide l = ((leNat l : ℕ) : Fp) := by
  rw [fpSetBytesWide, C57_wide fp_ok l hl]
  exact unMont_encode fp_ok (p := pallasp) (by decide) fp_modulus _

/-- C173: `Hash` is a point of Pallas for every message: the sum of the images of the two halves of the 128 bytes of
`expand_message_xmd`, read as little-endian numbers. -/
theorem C173_hash {H : List UInt8 → List UInt8} (hH : ∀ l, (H l).length = 64) (msg : List UInt8) {P Q : Group}
    (hP : IsMap ((leNat ((expandMsgXmd H 64 128 msg hashDst 128).take 64) : ℕ) : Fp) P)
    (hQ : IsMap ((leNat ((expandMsgXmd H 64 128 msg hashDst 128).drop 64) : ℕ) : Fp) Q) :
    (expandMsgXmd H 64 128 msg hashDst 128).length = 128 ∧ JRep (epHash H msg) (P + Q) := by
  have hlen : (expandMsgXmd H 64 128 msg hashDst 128).length = 128 :=
    C162_expandXmd_length H 64 128 (by norm_num) hH msg hashDst (by norm_num)
  refine ⟨hlen, ?_⟩
  unfold epHash
  simp only []
  rw [fpSetBytesWide_eq (by simp [hlen]), fpSetBytesWide_eq (by simp [hlen])]
  obtain ⟨P', h1, -, h2⟩ := C173_point ((leNat ((expandMsgXmd H 64 128 msg hashDst 128).take 64) : ℕ) : Fp)
  obtain ⟨Q', h3, -, h4⟩ := C173_point ((leNat ((expandMsgXmd H 64 128 msg hashDst 128).drop 64) : ℕ) : Fp)
  rw [hP.unique h1, hQ.unique h3]
  exact jrep_add h2 h4

/-- The hypotheses on the points can always be met. -/
theorem C173_hash_exists {H : List UInt8 → List UInt8} (hH : ∀ l, (H l).length = 64) (msg : List UInt8) :
    ∃ P : Group, JRep (epHash H msg) P := by
  obtain ⟨P, h1, -⟩ := C173_point ((leNat ((expandMsgXmd H 64 128 msg hashDst 128).take 64) : ℕ) : Fp)
  obtain ⟨Q, h3, -⟩ := C173_point ((leNat ((expandMsgXmd H 64 128 msg hashDst 128).drop 64) : ℕ) : Fp)
  exact ⟨_, (C173_hash hH msg h1 h3).2⟩

/-- The exceptional input. -/
example : (mapSswu 0).x = ((0x2c150731d26bf03de9585bf1a0c67160f6ca6e5ce0e2b674af333253bca63800 : ℕ) : Fp) := by
  decide +kernel

example : ∃ P : Group, JRep (epHash (fun _ => List.replicate 64 1) [1, 2, 3]) P :=
  C173_hash_exists (fun _ => by simp) _

end Verif.Pallas
