import Verif.Bls381.GLemmas
import Mathlib.GroupTheory.Index
import Mathlib.Data.ZMod.Basic
import Mathlib.GroupTheory.Coset.Card
import Mathlib.Data.Fintype.Card

/-!
# Endomorphisms of the curves, their number of points, and multiples computed by the kernel

Nothing here is specific to the repository: maps `(x, y) ↦ (c·σ x, d·σ y)` of `y² = x³ + b` are homomorphisms,
a finite curve has at most two points for every abscissa and one more, subgroups with independent points of
prime order are large, and a ladder on representatives in `ℕ` computes multiples.
-/

set_option linter.unusedSectionVars false

namespace Verif.Bls381

open Verif.Primes Verif.Native WeierstrassCurve.Affine

section Generic
variable {F : Type} [Field F] [DecidableEq F] {b : F} {m3b : F → F}

/-- the data of a map `(x, y) ↦ (cx·σ x, cy·σ y)` of the curve to itself -/
structure Twist (b : F) where
  σ : F →+* F
  cx : F
  cy : F
  cube : cx ^ 3 = cy ^ 2
  coeff : cy ^ 2 * σ b = b
  ne : cy ≠ 0

namespace Twist

/-- on coordinates -/
def proj (T : Twist b) (p : Proj F) : Proj F := ⟨T.cx * T.σ p.x, T.cy * T.σ p.y, T.σ p.z⟩

theorem equation (T : Twist b) {x y : F} (h : y ^ 2 = x ^ 3 + 0 * x + b) :
    (T.cy * T.σ y) ^ 2 = (T.cx * T.σ x) ^ 3 + 0 * (T.cx * T.σ x) + b := by
  have h1 := congrArg T.σ h
  simp only [map_add, map_mul, map_pow, map_zero] at h1
  linear_combination T.cy ^ 2 * h1 - (T.σ x) ^ 3 * T.cube + T.coeff

theorem ordinate_ne (T : Twist b) (h : GOk b m3b) {x y : F} (he : y ^ 2 = x ^ 3 + 0 * x + b) :
    T.cy * T.σ y ≠ 0 := by
  refine mul_ne_zero T.ne ?_
  rw [Ne, map_eq_zero]
  rintro rfl
  exact h.no x (by rw [← he]; ring)

/-- on points -/
def pt (T : Twist b) (h : GOk b m3b) : (curve 0 b).Point → (curve 0 b).Point
  | .zero => 0
  | .some _ _ hn => .some _ _ (nonsingular_curve h.two (T.ordinate_ne h (equation_curve.1 hn.1))
      (T.equation (equation_curve.1 hn.1)))

theorem rep (T : Twist b) (h : GOk b m3b) {p : Proj F} {P : (curve 0 b).Point} (hp : GRep p P) :
    GRep (T.proj p) (T.pt h P) := by
  rcases P with _ | ⟨x, y, hn⟩
  · obtain ⟨hx, hy, hz⟩ := gRep_zero.1 hp
    exact gRep_zero.2 ⟨by simp [proj, hx], mul_ne_zero T.ne (by simpa using hy), by simp [proj, hz]⟩
  · obtain ⟨hz, hx, hy⟩ := gRep_some.1 hp
    refine gRep_some.2 ⟨by simpa [proj] using hz, ?_, ?_⟩
    · simp only [proj, hx, map_mul]; ring
    · simp only [proj, hy, map_mul]; ring

end Twist

theorem GRep.scale {p : Proj F} {P : (curve 0 b).Point} (hp : GRep p P) {c : F} (hc : c ≠ 0) :
    GRep ⟨c * p.x, c * p.y, c * p.z⟩ P := by
  rcases P with _ | ⟨x, y, hn⟩
  · obtain ⟨hx, hy, hz⟩ := gRep_zero.1 hp
    exact gRep_zero.2 ⟨by simp [hx], mul_ne_zero hc hy, by simp [hz]⟩
  · obtain ⟨hz, hx, hy⟩ := gRep_some.1 hp
    exact gRep_some.2 ⟨mul_ne_zero hc hz, by simp only [hx]; ring, by simp only [hy]; ring⟩

/-- the map is a homomorphism -/
def Twist.hom (T : Twist b) (h : GOk b m3b) : (curve 0 b).Point →+ (curve 0 b).Point where
  toFun := T.pt h
  map_zero' := rfl
  map_add' P Q := by
    obtain ⟨p, hp⟩ := GRep.exists P
    obtain ⟨q, hq⟩ := GRep.exists Q
    have h1 := T.rep h (gRep_add h hp hq)
    have h2 := gRep_add h (T.rep h hp) (T.rep h hq)
    have e : gAdd m3b (T.proj p) (T.proj q) = ⟨T.cy ^ 3 * (T.proj (gAdd m3b p q)).x,
        T.cy ^ 3 * (T.proj (gAdd m3b p q)).y, T.cy ^ 3 * (T.proj (gAdd m3b p q)).z⟩ := by
      rw [gAdd_eq h, gAdd_eq h]
      have hc := T.cube
      have hb := T.coeff
      simp only [Twist.proj, K256.raw, map_sub, map_add, map_mul, map_ofNat, Proj.mk.injEq]
      generalize T.σ p.x = px
      generalize T.σ p.y = py
      generalize T.σ p.z = pz
      generalize T.σ q.x = qx
      generalize T.σ q.y = qy
      generalize T.σ q.z = qz
      refine ⟨?_, ?_, ?_⟩
      · linear_combination (3 * T.cx * T.cy * ((px * qy + py * qx) * (pz * qz)
          + (py * qz + pz * qy) * (px * qz + pz * qx))) * hb
      · linear_combination (9 * (pz * qz) ^ 2 * (T.cy ^ 2 * T.σ b + b)
          - 9 * (px * qx * (px * qz + pz * qx)) * T.cy ^ 2) * hb
          + (9 * (px * qx * (px * qz + pz * qx)) * b) * hc
      · linear_combination (-(3 * T.cy * (py * qz + pz * qy) * (pz * qz))) * hb
          + (3 * T.cy * (px * qx) * (px * qy + py * qx)) * hc
    rw [e] at h2
    exact (h1.scale (pow_ne_zero 3 T.ne)).unique h2

theorem Twist.hom_rep (T : Twist b) (h : GOk b m3b) {p : Proj F} {P : (curve 0 b).Point} (hp : GRep p P) :
    GRep (T.proj p) (T.hom h P) := T.rep h hp

/-! ## The number of points -/

/-- at most two points for every abscissa -/
theorem card_le [Fintype F] : Finite (curve 0 b).Point ∧ Nat.card (curve 0 b).Point ≤ 2 * Fintype.card F + 1 := by
  classical
  let root : F → F := fun x => if h : ∃ y, y ^ 2 = x ^ 3 + 0 * x + b then h.choose else 0
  let f : (curve 0 b).Point → Option (F × Bool)
    | .zero => none
    | .some x y _ => some (x, decide (y = root x))
  have hf : Function.Injective f := by
    rintro (_ | ⟨x, y, hn⟩) (_ | ⟨x', y', hn'⟩) h
    · rfl
    · cases h
    · cases h
    · have h := Option.some.inj h
      obtain ⟨rfl, h2⟩ := Prod.mk.injEq _ _ _ _ ▸ h
      have e1 := equation_curve.1 hn.1
      have e2 := equation_curve.1 hn'.1
      have hr : (root x) ^ 2 = x ^ 3 + 0 * x + b := by
        have h : ∃ y, y ^ 2 = x ^ 3 + 0 * x + b := ⟨y, e1⟩
        simp only [root, dif_pos h]
        exact h.choose_spec
      have hy : y = y' := by
        rcases sq_eq_sq_iff_eq_or_eq_neg.1 (e1.trans hr.symm) with h3 | h3 <;>
        rcases sq_eq_sq_iff_eq_or_eq_neg.1 (e2.trans hr.symm) with h4 | h4
        · rw [h3, h4]
        · have : y' = root x := by simpa [h3] using h2
          rw [h3, this]
        · have : y = root x := by simpa [h4] using h2
          rw [h4, this]
        · rw [h3, h4]
      subst hy
      rfl
  refine ⟨Finite.of_injective f hf, ?_⟩
  have := Nat.card_le_card_of_injective f hf
  rwa [Nat.card_eq_fintype_card (α := Option (F × Bool)), Fintype.card_option, Fintype.card_prod, Fintype.card_bool, mul_comm] at this

/-! ## Multiples -/

/-- `acc + n • base` on representatives; `eval` brings a value into normal form -/
def glad {T : Type} (eval : T → (T → T) → T) (add : T → T → T) : (fuel : ℕ) → T → ℕ → T → T
  | 0, _, _, acc => acc
  | fuel + 1, base, n, acc =>
    eval (if n % 2 = 1 then add acc base else acc) fun acc =>
      eval (add base base) fun base => Pock.force (n / 2) fun n => glad eval add fuel base n acc

theorem gRep_glad (h : GOk b m3b) {T : Type} {eval : T → (T → T) → T} {add : T → T → T} {cast : T → Proj F}
    (he : ∀ t k, eval t k = k t) (ha : ∀ s t, cast (add s t) = K256.raw b (cast s) (cast t)) (fuel : ℕ) :
    ∀ (base : T) (n : ℕ) (acc : T) (B A : (curve 0 b).Point), n < 2 ^ fuel → GRep (cast base) B →
      GRep (cast acc) A → GRep (cast (glad eval add fuel base n acc)) (A + n • B) := by
  have hadd : ∀ {s t : T} {P Q : (curve 0 b).Point}, GRep (cast s) P → GRep (cast t) Q →
      GRep (cast (add s t)) (P + Q) := by
    intro s t P Q hs ht
    rw [ha, ← gAdd_eq h]
    exact gRep_add h hs ht
  induction fuel with
  | zero =>
    intro base n acc B A hn _ hA
    have : n = 0 := by simpa using hn
    subst this
    simpa [glad] using hA
  | succ fuel ih =>
    intro base n acc B A hn hB hA
    have hlt : n / 2 < 2 ^ fuel := by rw [pow_succ] at hn; omega
    simp only [glad, he, Pock.force_eq]
    have hd := hadd hB hB
    rcases Nat.mod_two_eq_zero_or_one n with h | h
    · rw [if_neg (by omega)]
      have := ih _ _ _ _ _ hlt hd hA
      rw [← two_nsmul, ← mul_nsmul] at this
      convert this using 2
      congr 1
      omega
    · rw [if_pos h]
      have := ih _ _ _ _ _ hlt hd (hadd hA hB)
      rw [← two_nsmul, ← mul_nsmul, add_assoc] at this
      convert this using 2
      rw [← succ_nsmul']
      congr 1
      omega

end Generic

/-! ## Independent points -/

section Groups
variable {A : Type} [AddCommGroup A] [Finite A] {l : ℕ}

theorem dvd_card_of_point (hl : l.Prime) {K : AddSubgroup A} {P : A} (hP : P ∈ K) (h0 : P ≠ 0)
    (hlP : l • P = 0) : l ∣ Nat.card K := by
  have h1 : addOrderOf (⟨P, hP⟩ : K) = l := by
    have : Fact l.Prime := ⟨hl⟩
    refine addOrderOf_eq_prime ?_ ?_
    · exact Subtype.ext hlP
    · intro h; exact h0 (congrArg Subtype.val h)
  rw [← h1]
  exact addOrderOf_dvd_natCard _

/-- no relation between the two points but the trivial ones -/
def Indep (l : ℕ) (P Q : A) : Prop := ∀ a b : ℤ, a • P + b • Q = 0 → (l : ℤ) ∣ a ∧ (l : ℤ) ∣ b

theorem sq_dvd_card_of_indep [NeZero l] {K : AddSubgroup A} {P Q : A} (hP : P ∈ K) (hQ : Q ∈ K)
    (hlP : l • P = 0) (hlQ : l • Q = 0) (h : Indep l P Q) : l ^ 2 ∣ Nat.card K := by
  let f : ZMod l →+ K := ZMod.lift l ⟨zmultiplesHom K ⟨P, hP⟩, by
    refine Subtype.ext ?_; simpa using hlP⟩
  let g : ZMod l →+ K := ZMod.lift l ⟨zmultiplesHom K ⟨Q, hQ⟩, by
    refine Subtype.ext ?_; simpa using hlQ⟩
  have hinj : Function.Injective (f.coprod g) := by
    rw [injective_iff_map_eq_zero]
    rintro ⟨a, b⟩ hab
    obtain ⟨a, rfl⟩ := ZMod.intCast_surjective a
    obtain ⟨b, rfl⟩ := ZMod.intCast_surjective b
    have h1 : a • P + b • Q = 0 := by
      have := congrArg Subtype.val hab
      simpa [f, g, ZMod.lift_coe] using this
    obtain ⟨ha, hb⟩ := h a b h1
    rw [Prod.mk_eq_zero]
    exact ⟨(ZMod.intCast_zmod_eq_zero_iff_dvd _ _).2 ha, (ZMod.intCast_zmod_eq_zero_iff_dvd _ _).2 hb⟩
  have := AddSubgroup.card_dvd_of_injective _ hinj
  rwa [Nat.card_prod, Nat.card_zmod, ← pow_two] at this

theorem zsmul_eq_zero_iff_dvd (hl : l.Prime) {P : A} (h0 : P ≠ 0) (hlP : l • P = 0) (a : ℤ) :
    a • P = 0 ↔ (l : ℤ) ∣ a := by
  have : Fact l.Prime := ⟨hl⟩
  rw [← addOrderOf_eq_prime hlP h0, addOrderOf_dvd_iff_zsmul_eq_zero]

/-- points that an endomorphism multiplies by different numbers -/
theorem indep_of_eigen (hl : l.Prime) (φ : A →+ A) {P Q : A} (hP : P ≠ 0) (hQ : Q ≠ 0) (hlP : l • P = 0)
    (hlQ : l • Q = 0) {u v : ℕ} (hu : φ P = u • P) (hv : φ Q = v • Q) (huv : ¬ (l : ℤ) ∣ (u : ℤ) - v) :
    Indep l P Q := by
  have hp' : Prime (l : ℤ) := Nat.prime_iff_prime_int.1 hl
  intro a b h
  have h2 := congrArg φ h
  rw [map_add, map_zsmul, map_zsmul, hu, hv, map_zero] at h2
  have hb : (b * ((u : ℤ) - v)) • Q = 0 := by
    have h3 : (u : ℤ) • (a • P + b • Q) = 0 := by rw [h, zsmul_zero]
    have h4 : (u : ℤ) • (a • P + b • Q) - (a • u • P + b • v • Q) = (b * ((u : ℤ) - v)) • Q := by
      simp only [← natCast_zsmul]
      module
    rw [h3, h2, sub_zero] at h4
    exact h4.symm
  have hb' : (l : ℤ) ∣ b :=
    (hp'.dvd_or_dvd ((zsmul_eq_zero_iff_dvd hl hQ hlQ _).1 hb)).resolve_right huv
  have hbQ := (zsmul_eq_zero_iff_dvd hl hQ hlQ _).2 hb'
  rw [hbQ, add_zero] at h
  exact ⟨(zsmul_eq_zero_iff_dvd hl hP hlP _).1 h, hb'⟩

/-- no root of `c² + c + 1` modulo a prime of the form `3k + 2` -/
theorem no_cube_root (hl : l.Prime) (h3 : l % 3 = 2) (c : ZMod l) : c ^ 2 + c + 1 ≠ 0 := by
  have : Fact l.Prime := ⟨hl⟩
  intro h
  have hc3 : c ^ 3 = 1 := by linear_combination (c - 1) * h
  have hc0 : c ≠ 0 := by rintro rfl; simp at h
  have hc1 : c = 1 := by
    have h4 := ZMod.pow_card_sub_one_eq_one hc0
    obtain ⟨k, hk⟩ : ∃ k, l - 1 = 3 * k + 1 := ⟨l / 3, by omega⟩
    rw [hk, pow_add, pow_mul, hc3, one_pow, one_mul, pow_one] at h4
    exact h4
  subst hc1
  have h5 : ((3 : ℕ) : ZMod l) = 0 := by push_cast; linear_combination h
  rw [ZMod.natCast_eq_zero_iff] at h5
  have := (Nat.prime_dvd_prime_iff_eq hl Nat.prime_three).1 h5
  omega

/-- a point and its image under an endomorphism with `φ² + φ + 1 = 0` -/
theorem indep_of_inert (hl : l.Prime) (h3 : l % 3 = 2) (φ : A →+ A)
    (hφ : ∀ P, φ (φ P) + φ P + P = 0) {P : A} (hP : P ≠ 0) (hlP : l • P = 0) : Indep l P (φ P) := by
  have : Fact l.Prime := ⟨hl⟩
  have hp' : Prime (l : ℤ) := Nat.prime_iff_prime_int.1 hl
  intro a b h
  have key : (l : ℤ) ∣ a ^ 2 - a * b + b ^ 2 := by
    rw [← zsmul_eq_zero_iff_dvd hl hP hlP]
    have h1 := congrArg φ h
    rw [map_add, map_zsmul, map_zsmul, map_zero] at h1
    have h4 : (a ^ 2 - a * b + b ^ 2) • P
        = (a - b) • (a • P + b • φ P) - b • (a • φ P + b • φ (φ P)) + b ^ 2 • (φ (φ P) + φ P + P) := by
      module
    rw [h4, h, h1, hφ]; simp
  have hb : (l : ℤ) ∣ b := by
    by_contra hb
    rw [← ZMod.intCast_zmod_eq_zero_iff_dvd] at hb key
    push_cast at key
    refine no_cube_root hl h3 (-(a : ZMod l) / b) ?_
    field_simp
    linear_combination key
  refine ⟨?_, hb⟩
  have hbP : b • φ P = 0 := by
    obtain ⟨k, rfl⟩ := hb
    rw [mul_comm, mul_zsmul, natCast_zsmul, ← map_nsmul, hlP, map_zero, zsmul_zero]
  rw [hbP, add_zero] at h
  exact (zsmul_eq_zero_iff_dvd hl hP hlP _).1 h

/-- a subgroup whose order is a multiple of more than half of a bound on the order of the group is everything -/
theorem eq_top_of_dvd {K : AddSubgroup A} {n m : ℕ} (hn : n ∣ Nat.card K) (hm : Nat.card A ≤ m) (h : m < 2 * n) :
    K = ⊤ ∧ Nat.card A = n := by
  have hA : 0 < Nat.card A := Nat.card_pos
  have hd := hn.trans (AddSubgroup.card_addSubgroup_dvd_card K)
  obtain ⟨k, hk⟩ := hd
  have hk1 : k = 1 := by
    have : k ≠ 0 := by rintro rfl; omega
    by_contra h1
    have : 2 ≤ k := by omega
    have : n * 2 ≤ n * k := Nat.mul_le_mul_left _ this
    omega
  rw [hk1, mul_one] at hk
  refine ⟨?_, hk⟩
  apply AddSubgroup.eq_top_of_card_eq
  have h1 := Nat.le_of_dvd Nat.card_pos hn
  have h2 := Nat.le_of_dvd hA (AddSubgroup.card_addSubgroup_dvd_card K)
  omega

end Groups

end Verif.Bls381
