import Mathlib.GroupTheory.Coset.Card
import Mathlib.GroupTheory.SpecificGroups.Cyclic
import Mathlib.Algebra.Module.ZMod
import Mathlib.Data.Fintype.Prod
import Mathlib.Data.ZMod.ValMinAbs
import Verif.Common.Primes
import Verif.Ed25519.Group

/-!
# The order of edwards25519

* C179 the curve has exactly `8·l` points, is cyclic, and the multiples of the base point are the points killed by `l`
-/

set_option exponentiation.threshold 1000

namespace Verif.Ed25519

open Primes
open Verif.Pock (force force_eq)

/-- the base field -/
abbrev Fp := ZMod edp

/-- `d = -121665/121666` -/
def dN : ℕ := 37095705934669439343138083508754565189542113879843219016388785533085940283555
/-- a square root of `-1` -/
def iN : ℕ := 19681161376707505956807079304988542015446066515923890162744021073123829784752

/-- the constant of the curve -/
def dEd : Fp := (dN : ℕ)
/-- `√-1` -/
def iEd : Fp := (iN : ℕ)

theorem cast_eq_of_mod {n a b : ℕ} (h : a % n = b % n) : (a : ZMod n) = b := by
  rw [← ZMod.natCast_mod a n, h, ZMod.natCast_mod]

theorem cast_ne_zero {n a : ℕ} (h : a % n ≠ 0) : (a : ZMod n) ≠ 0 := by
  rw [Ne, ZMod.natCast_eq_zero_iff, Nat.dvd_iff_mod_eq_zero]; exact h

theorem cast_neg_one (a : ℕ) (h : (a + 1) % edp = 0) : (a : Fp) = -1 := by
  have h1 : ((a + 1 : ℕ) : Fp) = 0 := (ZMod.natCast_eq_zero_iff _ _).2 (Nat.dvd_of_mod_eq_zero h)
  push_cast at h1
  linear_combination h1

/-- the constant is the one of RFC 8032 -/
theorem dEd_eq : (121666 : Fp) * dEd = -121665 := by
  have h : ((121666 * dN + 121665 : ℕ) : Fp) = 0 := (ZMod.natCast_eq_zero_iff _ _).2
    (Nat.dvd_of_mod_eq_zero (by decide +kernel))
  rw [dEd]
  push_cast at h
  linear_combination h

theorem iEd_sq : iEd ^ 2 = -1 := by
  rw [iEd, ← Nat.cast_pow]
  exact cast_neg_one _ (by decide +kernel)

theorem two_ne : (2 : Fp) ≠ 0 := by
  have : ((2 : ℕ) : Fp) ≠ 0 := cast_ne_zero (by decide +kernel)
  simpa using this

/-- powers, by the kernel -/
theorem pow_eq (a e r : ℕ) (he : e < 2 ^ 256) (h : Pock.powMod edp 256 a e 1 = r) : (a : Fp) ^ e = (r : ℕ) := by
  have h2 := Pock.powMod_eq edp 256 a e 1 he
  rw [h] at h2
  rw [h2]
  simp

theorem nonsquare_of_pow (a : ℕ) (h : Pock.powMod edp 256 a ((edp - 1) / 2) 1 = edp - 1) : ¬ IsSquare (a : Fp) := by
  rintro ⟨r, hr⟩
  have h1 := pow_eq a _ _ (by decide +kernel) h
  have hm : ((edp - 1 : ℕ) : Fp) = -1 := cast_neg_one _ (by decide +kernel)
  rw [hm] at h1
  have hr0 : r ≠ 0 := by
    rintro rfl
    rw [hr, mul_zero, zero_pow (by decide +kernel)] at h1
    have h0 : (1 : Fp) = 0 := by linear_combination h1
    exact one_ne_zero h0
  rw [hr, ← pow_two, ← pow_mul, show 2 * ((edp - 1) / 2) = edp - 1 by decide +kernel,
    ZMod.pow_card_sub_one_eq_one hr0] at h1
  exact two_ne (by linear_combination h1)

theorem dEd_nonsq : ¬ IsSquare dEd := nonsquare_of_pow dN (by decide +kernel)

instance : Good dEd := ⟨two_ne, ⟨iEd, iEd_sq⟩, dEd_nonsq⟩

/-- the points of edwards25519 -/
abbrev EdPt := Pt dEd

/-! ## Counting -/

section
variable {F : Type} [Field F] {d : F}

theorem den_x [h : Good d] (y : F) : 1 + d * y ^ 2 ≠ 0 := by
  intro h0
  obtain ⟨i, hi⟩ := h.sqrt
  have hy : y ≠ 0 := by rintro rfl; simp at h0
  refine h.nonsq ⟨i / y, ?_⟩
  field_simp
  linear_combination h0 - hi

/-- `x` is a root of a number that `y` determines -/
theorem x_sq [Good d] (P : Pt d) : P.x ^ 2 = (P.y ^ 2 - 1) / (1 + d * P.y ^ 2) := by
  rw [eq_div_iff (den_x P.y)]
  linear_combination -P.eq

theorem x_eq_or [Good d] {P Q : Pt d} (h : P.y = Q.y) : P.x = Q.x ∨ P.x = -Q.x :=
  sq_eq_sq_iff_eq_or_eq_neg.1 (by rw [x_sq, x_sq, h])

/-- at most two points for every ordinate -/
theorem card_le [Good d] [Fintype F] [DecidableEq F] : Finite (Pt d) ∧ Nat.card (Pt d) ≤ 2 * Fintype.card F := by
  classical
  let root : F → F := fun y => if h : ∃ P : Pt d, P.y = y then h.choose.x else 0
  let f : Pt d → F × Bool := fun P => (P.y, decide (P.x = root P.y))
  have hroot : ∀ P : Pt d, P.x = root P.y ∨ P.x = -root P.y := by
    intro P
    have h : ∃ Q : Pt d, Q.y = P.y := ⟨P, rfl⟩
    have : root P.y = h.choose.x := by simp only [root, dif_pos h]
    rw [this]
    exact x_eq_or h.choose_spec.symm
  have hf : Function.Injective f := by
    intro P Q h
    obtain ⟨h1, h2⟩ := Prod.mk.injEq _ _ _ _ ▸ h
    have hQ := hroot Q
    have hP := hroot P
    rw [← h1] at hQ h2
    refine Pt.ext ?_ h1
    rcases hP with h3 | h3 <;> rcases hQ with h4 | h4
    · rw [h3, h4]
    · have : Q.x = root P.y := by simpa [h3] using h2
      rw [h3, this]
    · have : P.x = root P.y := by simpa [h4] using h2
      rw [h4, this]
    · rw [h3, h4]
  refine ⟨Finite.of_injective f hf, ?_⟩
  have := Nat.card_le_card_of_injective f hf
  rwa [Nat.card_eq_fintype_card (α := F × Bool), Fintype.card_prod, Fintype.card_bool, mul_comm] at this

theorem card_le_zmod {p : ℕ} [hp : Fact p.Prime] {d : ZMod p} [Good d] : Finite (Pt d) ∧ Nat.card (Pt d) ≤ 2 * p := by
  have : NeZero p := ⟨hp.out.pos.ne'⟩
  have h := card_le (d := d)
  rwa [ZMod.card] at h

/-! ## Multiples of a point by projective coordinates -/

/-- projective coordinates of a point -/
def Rep (t : F × F × F) (P : Pt d) : Prop := t.2.2 ≠ 0 ∧ P.x * t.2.2 = t.1 ∧ P.y * t.2.2 = t.2.1

/-- the complete projective addition -/
def projAdd (d : F) (s t : F × F × F) : F × F × F :=
  let a := s.2.2 * t.2.2
  let b := a ^ 2
  let c := s.1 * t.1
  let e := s.2.1 * t.2.1
  let m := d * c * e
  (a * (b - m) * (s.1 * t.2.1 + s.2.1 * t.1), a * (b + m) * (e + c), (b - m) * (b + m))

theorem rep_add [Good d] {s t : F × F × F} {P Q : Pt d} (hs : Rep s P) (ht : Rep t Q) :
    Rep (projAdd d s t) (P + Q) := by
  obtain ⟨x1, y1, z1⟩ := s
  obtain ⟨x2, y2, z2⟩ := t
  obtain ⟨n1, a1, b1⟩ := hs
  obtain ⟨n2, a2, b2⟩ := ht
  simp only at n1 a1 b1 n2 a2 b2
  subst a1 b1 a2 b2
  have p1 := den_pos P Q
  have m1 := den_neg P Q
  have hx : (P + Q).x * (1 + d * P.x * Q.x * P.y * Q.y) = P.x * Q.y + P.y * Q.x := by rw [add_x, div_mul_cancel₀ _ p1]
  have hy : (P + Q).y * (1 - d * P.x * Q.x * P.y * Q.y) = P.y * Q.y + P.x * Q.x := by rw [add_y, div_mul_cancel₀ _ m1]
  refine ⟨?_, ?_, ?_⟩
  · simp only [projAdd]
    have e : ((z1 * z2) ^ 2 - d * (P.x * z1 * (Q.x * z2)) * (P.y * z1 * (Q.y * z2))) *
        ((z1 * z2) ^ 2 + d * (P.x * z1 * (Q.x * z2)) * (P.y * z1 * (Q.y * z2))) =
        (z1 * z2) ^ 4 * ((1 - d * P.x * Q.x * P.y * Q.y) * (1 + d * P.x * Q.x * P.y * Q.y)) := by ring
    rw [e]
    exact mul_ne_zero (pow_ne_zero _ (mul_ne_zero n1 n2)) (mul_ne_zero m1 p1)
  · simp only [projAdd]
    linear_combination (z1 * z2) ^ 4 * (1 - d * P.x * Q.x * P.y * Q.y) * hx
  · simp only [projAdd]
    linear_combination (z1 * z2) ^ 4 * (1 + d * P.x * Q.x * P.y * Q.y) * hy

end

/-- `projAdd` on representatives -/
def projAddN (p d : ℕ) (s t : ℕ × ℕ × ℕ) : ℕ × ℕ × ℕ :=
  match s, t with
  | (x1, y1, z1), (x2, y2, z2) =>
    force (z1 * z2 % p) fun a => force (a * a % p) fun b => force (x1 * x2 % p) fun c => force (y1 * y2 % p) fun e =>
    force (d * c * e % p) fun m => force (b + (p - m)) fun f => force (b + m) fun g =>
    force (a * f * (x1 * y2 + y1 * x2) % p) fun x => force (a * g * (e + c) % p) fun y =>
    force (f * g % p) fun z => (x, y, z)

/-- the residues -/
def castT (p : ℕ) (t : ℕ × ℕ × ℕ) : ZMod p × ZMod p × ZMod p := (t.1, t.2.1, t.2.2)

theorem cast_sub_mod {p : ℕ} (hp : 0 < p) (c : ℕ) : ((p - c % p : ℕ) : ZMod p) = -c := by
  rw [Nat.cast_sub (Nat.mod_lt _ hp).le, ZMod.natCast_mod]; simp

theorem castT_projAddN {p : ℕ} [hf : Fact p.Prime] (d : ℕ) (s t : ℕ × ℕ × ℕ) :
    castT p (projAddN p d s t) = projAdd (d : ZMod p) (castT p s) (castT p t) := by
  have hp := hf.out.pos
  obtain ⟨x1, y1, z1⟩ := s
  obtain ⟨x2, y2, z2⟩ := t
  simp only [projAddN, force_eq, castT, projAdd, ZMod.natCast_mod, Prod.mk.injEq]
  refine ⟨?_, ?_, ?_⟩ <;>
  · simp only [Nat.cast_add, Nat.cast_mul, cast_sub_mod hp, ZMod.natCast_mod]
    push_cast
    ring

/-- `acc + n • base` -/
def ladder (p d : ℕ) : (fuel : ℕ) → (base : ℕ × ℕ × ℕ) → (n : ℕ) → (acc : ℕ × ℕ × ℕ) → ℕ × ℕ × ℕ
  | 0, _, _, acc => acc
  | fuel + 1, base, n, acc =>
    match (if n % 2 = 1 then projAddN p d acc base else acc), projAddN p d base base with
    | (a0, a1, a2), (u0, u1, u2) =>
      force (n / 2) fun n => ladder p d fuel (u0, u1, u2) n (a0, a1, a2)

theorem rep_ladder {p d : ℕ} [hp : Fact p.Prime] [Good (d : ZMod p)] (fuel : ℕ) :
    ∀ (base acc : ℕ × ℕ × ℕ) (n : ℕ) (B A : Pt (d : ZMod p)), n < 2 ^ fuel →
      Rep (castT p base) B → Rep (castT p acc) A → Rep (castT p (ladder p d fuel base n acc)) (A + n • B) := by
  induction fuel with
  | zero =>
    intro base acc n B A hn _ hA
    have : n = 0 := by simpa using hn
    subst this
    simpa [ladder] using hA
  | succ fuel ih =>
    intro base acc n B A hn hB hA
    have hlt : n / 2 < 2 ^ fuel := by rw [pow_succ] at hn; omega
    simp only [ladder, force_eq]
    have hd : Rep (castT p (projAddN p d base base)) (B + B) := by
      rw [castT_projAddN]; exact rep_add hB hB
    rcases Nat.mod_two_eq_zero_or_one n with h | h
    · rw [if_neg (by omega)]
      have := ih _ _ _ _ _ hlt hd hA
      rw [← two_nsmul, ← mul_nsmul] at this
      convert this using 2
      congr 1
      omega
    · rw [if_pos h]
      have ha : Rep (castT p (projAddN p d acc base)) (A + B) := by
        rw [castT_projAddN]; exact rep_add hA hB
      have := ih _ _ _ _ _ hlt hd ha
      rw [← two_nsmul, ← mul_nsmul, add_assoc] at this
      convert this using 2
      rw [← succ_nsmul']
      congr 1
      omega

/-- the multiple computed by the ladder, compared with known coordinates -/
theorem nsmul_eq {p d : ℕ} [hp : Fact p.Prime] [Good (d : ZMod p)] (fuel n : ℕ) (hn : n < 2 ^ fuel) (g : ℕ × ℕ)
    {B C : Pt (d : ZMod p)} (hB : B.x = (g.1 : ℕ) ∧ B.y = (g.2 : ℕ)) (c : ℕ × ℕ)
    (hC : C.x = (c.1 : ℕ) ∧ C.y = (c.2 : ℕ))
    (h : let r := ladder p d fuel (g.1, g.2, 1) n (0, 1, 1)
      c.1 * r.2.2 % p = r.1 % p ∧ c.2 * r.2.2 % p = r.2.1 % p) : n • B = C := by
  have hr := rep_ladder (p := p) (d := d) fuel (g.1, g.2, 1) (0, 1, 1) n B 0 hn
    (by simp [Rep, castT, hB.1, hB.2]) (by simp [Rep, castT])
  rw [zero_add] at hr
  simp only at h
  generalize ladder p d fuel (g.1, g.2, 1) n (0, 1, 1) = r at h hr
  obtain ⟨h0, h1, h2⟩ := hr
  have e1 : ((c.1 * r.2.2 : ℕ) : ZMod p) = (r.1 : ℕ) := cast_eq_of_mod h.1
  have e2 : ((c.2 * r.2.2 : ℕ) : ZMod p) = (r.2.1 : ℕ) := cast_eq_of_mod h.2
  rw [Nat.cast_mul] at e1 e2
  simp only [castT] at h0 h1 h2
  refine Pt.ext (mul_right_cancel₀ h0 ?_) (mul_right_cancel₀ h0 ?_)
  · rw [h1, hC.1, e1]
  · rw [h2, hC.2, e2]

/-! ## The base point and a point of order eight -/

/-- the point with the given coordinates -/
def mkPt (x y : ℕ) (h : (y * y) % edp = (1 + dN * (x * x) * (y * y) + x * x) % edp) : EdPt where
  x := (x : ℕ)
  y := (y : ℕ)
  eq := by
    have h := cast_eq_of_mod h
    push_cast at h
    rw [dEd]
    linear_combination h

def gxN : ℕ := 15112221349535400772501151409588531511454012693041857206046113283949847762202
def gyN : ℕ := 46316835694926478169428394003475163141307993866256225615783033603165251855960

/-- the base point of RFC 8032 -/
def base : EdPt := mkPt gxN gyN (by decide +kernel)

/-- the ordinate of the base point is `4/5`, its abscissa is even -/
theorem base_spec : 5 * base.y = 4 ∧ base.x.val % 2 = 0 := by
  constructor
  · have h : ((5 * gyN : ℕ) : Fp) = (4 : ℕ) := cast_eq_of_mod (by decide +kernel)
    push_cast at h
    exact h
  · show ((gxN : ℕ) : Fp).val % 2 = 0
    rw [ZMod.val_cast_of_lt (by decide +kernel)]
    decide +kernel

def txN : ℕ := 14399317868200118260347934320527232580618823971194345261214217575416788799818
def tyN : ℕ := 55188659117513257062467267217118295137698188065244968500265048394206261417927

/-- a point of order eight -/
def tors : EdPt := mkPt txN tyN (by decide +kernel)

/-- the point of order two -/
def twoTors : EdPt := mkPt 0 (edp - 1) (by decide +kernel)

instance : Good ((dN : ℕ) : ZMod edp) := inferInstanceAs (Good dEd)

theorem l_base : edl • base = 0 :=
  nsmul_eq (d := dN) 256 edl (by decide +kernel) (gxN, gyN) ⟨rfl, rfl⟩ (0, 1) ⟨by simp, by simp⟩ (by decide +kernel)

theorem four_tors : 4 • tors = twoTors :=
  nsmul_eq (d := dN) 3 4 (by decide +kernel) (txN, tyN) ⟨rfl, rfl⟩ (0, edp - 1) ⟨rfl, rfl⟩ (by decide +kernel)

theorem eight_tors : 8 • tors = 0 :=
  nsmul_eq (d := dN) 4 8 (by decide +kernel) (txN, tyN) ⟨rfl, rfl⟩ (0, 1) ⟨by simp, by simp⟩ (by decide +kernel)

theorem twoTors_ne : twoTors ≠ 0 := by
  intro h
  have h1 : ((edp - 1 : ℕ) : Fp) = 1 := congrArg Pt.y h
  rw [cast_neg_one _ (by decide +kernel)] at h1
  exact two_ne (by linear_combination -h1)

theorem base_ne : base ≠ 0 := by
  intro h
  have h1 : ((gxN : ℕ) : Fp) = 0 := congrArg Pt.x h
  exact cast_ne_zero (by decide +kernel) h1

/-- C179: the base point has order `l`. -/
theorem C179_base_order : addOrderOf base = edl := by
  have := fact_edl.out
  exact addOrderOf_eq_prime l_base base_ne

theorem tors_order : addOrderOf tors = 8 := by
  have h : addOrderOf tors = 2 ^ (2 + 1) := addOrderOf_eq_prime_pow (p := 2) (n := 2)
    (by show ¬ 4 • tors = 0; rw [four_tors]; exact twoTors_ne) eight_tors
  exact h

/-- a generator of the whole group -/
def gen : EdPt := base + tors

theorem gen_order : addOrderOf gen = 8 * edl := by
  have hc : Nat.Coprime (addOrderOf base) (addOrderOf tors) := by
    rw [C179_base_order, tors_order]
    decide +kernel
  rw [gen, (AddCommute.all base tors).addOrderOf_add_eq_mul_addOrderOf_of_coprime hc, C179_base_order, tors_order, mul_comm]

theorem eq_of_lt_two_mul {c n m k : ℕ} (hle : c ≤ 2 * n) (h2 : 2 * n < m * 2) (hpos : 0 < c) (hk : c = m * k) : c = m := by
  have hk2 : k < 2 := by
    by_contra h
    have : m * 2 ≤ m * k := Nat.mul_le_mul_left _ (by omega)
    omega
  have hk0 : k ≠ 0 := by rintro rfl; omega
  have : k = 1 := by omega
  rw [hk, this, mul_one]

/-- C179: edwards25519 has exactly `8·l` points. -/
theorem C179_card : Finite EdPt ∧ Nat.card EdPt = 8 * edl := by
  obtain ⟨hfin, hle⟩ := card_le_zmod (d := dEd)
  refine ⟨hfin, ?_⟩
  obtain ⟨k, hk⟩ : 8 * edl ∣ Nat.card EdPt := gen_order ▸ addOrderOf_dvd_natCard gen
  exact eq_of_lt_two_mul hle (by decide +kernel) Nat.card_pos hk

/-- C179: the group is cyclic: every point is a multiple of one point. -/
theorem C179_cyclic (P : EdPt) : ∃ k : ℕ, P = k • gen := by
  have := C179_card.1
  have htop : AddSubgroup.zmultiples gen = ⊤ := by
    apply AddSubgroup.eq_top_of_card_eq
    rw [Nat.card_zmultiples, gen_order, C179_card.2]
  have hm : P ∈ AddSubgroup.zmultiples gen := by rw [htop]; trivial
  rw [← mem_multiples_iff_mem_zmultiples] at hm
  obtain ⟨k, rfl⟩ := (AddSubmonoid.mem_multiples_iff _ _).1 hm
  exact ⟨k, rfl⟩

/-- C179: the multiples of the base point are the points killed by `l`. -/
theorem C179_subgroup (P : EdPt) : edl • P = 0 ↔ ∃ k : ℕ, P = k • base := by
  constructor
  · intro h
    obtain ⟨k, rfl⟩ := C179_cyclic P
    rw [← mul_nsmul', ← addOrderOf_dvd_iff_nsmul_eq_zero, gen_order, mul_comm 8] at h
    obtain ⟨j, rfl⟩ := Nat.dvd_of_mul_dvd_mul_left (by decide +kernel) h
    refine ⟨8 * j, ?_⟩
    rw [gen, nsmul_add, mul_nsmul tors, eight_tors, nsmul_zero, add_zero]
  · rintro ⟨k, rfl⟩
    rw [← mul_nsmul', mul_comm, mul_nsmul', l_base, nsmul_zero]

/-- C179: multiplication by the cofactor lands in the subgroup. -/
theorem C179_cofactor (P : EdPt) : edl • (8 • P) = 0 := by
  rw [← mul_nsmul', mul_comm, ← C179_card.2]
  exact card_nsmul_eq_zero'

/-- the subgroup of prime order -/
def primeSub : AddSubgroup EdPt where
  carrier := {P | edl • P = 0}
  zero_mem' := nsmul_zero _
  add_mem' {P Q} hP hQ := by
    show edl • (P + Q) = 0
    rw [nsmul_add, show edl • P = 0 from hP, show edl • Q = 0 from hQ, add_zero]
  neg_mem' {P} hP := by
    show edl • (-P) = 0
    rw [neg_nsmul, show edl • P = 0 from hP, neg_zero]

theorem mem_primeSub {P : EdPt} : P ∈ primeSub ↔ edl • P = 0 := Iff.rfl

/-- C179: on the subgroup the scalars modulo `l` act: the structure the protocol models assume. -/
instance primeSub.module : Module (ZMod edl) primeSub :=
  AddCommGroup.zmodModule fun P => Subtype.ext P.2

/-- the point of order two is outside the subgroup -/
example : twoTors ∉ primeSub ∧ 8 • twoTors = 0 := by
  have h2 : 2 • twoTors = 0 := by rw [← four_tors, ← mul_nsmul']; exact eight_tors
  refine ⟨fun h => twoTors_ne ?_, ?_⟩
  · have h1 : (2 * (edl / 2) + 1) • twoTors = 0 := by
      rw [show 2 * (edl / 2) + 1 = edl by decide +kernel]; exact h
    rwa [add_nsmul, mul_nsmul, h2, nsmul_zero, zero_add, one_nsmul] at h1
  · rw [show (8 : ℕ) = 2 * 4 by rfl, mul_nsmul, h2, nsmul_zero]

end Verif.Ed25519
