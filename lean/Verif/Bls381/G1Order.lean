import Verif.Bls381.Endo
import Verif.Bls381.GProps

/-!
# The order of the curve of `G1`

The curve `y² = x³ + 4` over the field of `fp` has `r (1 - x)² / 3` points, where `x` is the (negative)
parameter: there are independent points of the prime orders dividing this number, found outside Lean and
checked by the kernel, and twice as many points would be more than two for every abscissa.
-/

set_option exponentiation.threshold 1000
set_option linter.unusedSectionVars false

namespace Verif.Bls381

open Verif.Primes Verif.Native Verif.Native.Facts WeierstrassCurve.Affine

/-! ## The map `(x, y) ↦ (β x, y)` -/

section Generic
variable {F : Type} [Field F] [DecidableEq F] {b : F} {m3b : F → F}

/-- `(x, y) ↦ (β x, y)` for a cube root of one -/
def cubeTwist (b β : F) (h : β ^ 2 + β + 1 = 0) : Twist b where
  σ := RingHom.id F
  cx := β
  cy := 1
  cube := by linear_combination (β - 1) * h
  coeff := by simp
  ne := one_ne_zero

theorem cubeTwist_sum (h : GOk b m3b) {β : F} (hβ : β ^ 2 + β + 1 = 0) (P : (curve 0 b).Point) :
    (cubeTwist b β hβ).hom h ((cubeTwist b β hβ).hom h P) + (cubeTwist b β hβ).hom h P + P = 0 := by
  rcases hP : P with _ | ⟨x, y, hn⟩
  · change (cubeTwist b β hβ).hom h ((cubeTwist b β hβ).hom h 0) + (cubeTwist b β hβ).hom h 0 + 0 = 0
    simp
  · have he := equation_curve.1 hn.1
    rw [← hP]
    have hp : GRep (⟨x, y, 1⟩ : Proj F) P := by rw [hP]; exact gRep_some.2 ⟨one_ne_zero, by simp, by simp⟩
    have h1 := (cubeTwist b β hβ).hom_rep h hp
    have h2 := (cubeTwist b β hβ).hom_rep h h1
    have h3 := gRep_neg h2
    have h4 := gRep_add h h1 hp
    set d := -(y * (y ^ 2 - 9 * b)) with hd
    have e : gAdd m3b ((cubeTwist b β hβ).proj ⟨x, y, 1⟩) ⟨x, y, 1⟩ = ⟨d * (β ^ 2 * x), d * -y, d * 1⟩ := by
      rw [gAdd_eq h]
      simp only [K256.raw, Twist.proj, cubeTwist, RingHom.id_apply, Proj.mk.injEq, hd]
      have hx : y ^ 2 = x ^ 3 + b := by linear_combination he
      refine ⟨?_, ?_, ?_⟩
      · linear_combination (x * y * (y ^ 2 - 9 * b)) * hβ
      · linear_combination (9 * b * x ^ 3) * hβ + (9 * b) * hx
      · linear_combination (3 * x ^ 3 * y) * hβ + (3 * y) * hx
    have e3 : gNeg ((cubeTwist b β hβ).proj ((cubeTwist b β hβ).proj ⟨x, y, 1⟩)) = ⟨β ^ 2 * x, -y, 1⟩ := by
      simp only [gNeg, Twist.proj, cubeTwist, RingHom.id_apply, sel, one_ne_zero, decide_false, Bool.not_false,
        if_true, one_mul, Proj.mk.injEq, and_true]
      ring
    rw [e] at h4
    rw [e3] at h3
    have hd0 : d ≠ 0 := fun h0 => h4.y_ne h (by simp [h0])
    have := (h3.scale hd0).unique h4
    rw [add_assoc, ← this, add_neg_cancel]

end Generic

/-! ## Coordinates in `ℕ` -/

def eval3 (t : ℕ × ℕ × ℕ) (k : ℕ × ℕ × ℕ → ℕ × ℕ × ℕ) : ℕ × ℕ × ℕ :=
  match t with
  | (a, b, c) => k (a, b, c)

theorem eval3_eq (t : ℕ × ℕ × ℕ) (k : ℕ × ℕ × ℕ → ℕ × ℕ × ℕ) : eval3 t k = k t := rfl

/-- coordinates of a point -/
def on1 (g : ℕ × ℕ) : Bool := g.2 * g.2 % blsp == (g.1 * g.1 * g.1 + 4) % blsp

theorem on1_rep {g : ℕ × ℕ} (h : on1 g = true) : ∃ P : E1, GRep (⟨g.1, g.2, 1⟩ : Proj Fq) P := by
  refine (gIsOnCurve_iff g1Ok _ ?_).1 ?_
  · intro h0
    have : (1 : Fq) = 0 := congrArg Proj.z h0
    exact one_ne_zero this
  · have h1 : ((g.2 * g.2 : ℕ) : Fq) = ((g.1 * g.1 * g.1 + 4 : ℕ) : Fq) := by
      rw [ZMod.natCast_eq_natCast_iff]
      exact beq_iff_eq.1 h
    push_cast at h1
    rw [gIsOnCurve, decide_eq_true_eq, curveG1B_eq]
    linear_combination h1

open Classical in
/-- the point with the coordinates -/
noncomputable def mk1 (g : ℕ × ℕ) : E1 := if h : on1 g = true then (on1_rep h).choose else 0

theorem mk1_rep {g : ℕ × ℕ} (h : on1 g = true) : GRep (⟨g.1, g.2, 1⟩ : Proj Fq) (mk1 g) := by
  rw [mk1, dif_pos h]
  exact (on1_rep h).choose_spec

theorem mk1_ne {g : ℕ × ℕ} (h : on1 g = true) : mk1 g ≠ 0 := fun h0 =>
  absurd ((mk1_rep h).z_eq_zero.2 h0) one_ne_zero

theorem eq_mk1 {g : ℕ × ℕ} (h : on1 g = true) {p : Proj Fq} {P : E1} (hp : GRep p P) (hz : p.z ≠ 0)
    (hx : p.x = g.1 * p.z) (hy : p.y = g.2 * p.z) : P = mk1 g := by
  have h1 := (mk1_rep h).scale hz
  refine hp.unique (?_ : GRep p (mk1 g))
  convert h1 using 1
  obtain ⟨a, b, c⟩ := p
  simp only at hx hy
  rw [hx, hy]
  simp only [Proj.mk.injEq]
  refine ⟨?_, ?_, ?_⟩ <;> ring

/-- multiples of `g` -/
def lad1 (fuel : ℕ) (g : ℕ × ℕ) (n : ℕ) : ℕ × ℕ × ℕ := glad eval3 (k256Raw blsp 4) fuel (g.1, g.2, 1) n (0, 1, 0)

theorem lad1_rep {fuel n : ℕ} {g : ℕ × ℕ} (h : on1 g = true) (hn : n < 2 ^ fuel) :
    GRep (castP blsp (lad1 fuel g n)) (n • mk1 g) := by
  have := gRep_glad g1Ok (cast := castP blsp) eval3_eq (add := k256Raw blsp 4) (fun s t => by
    rw [castP_k256Raw, curveG1B_eq]; rfl) fuel (g.1, g.2, 1) n (0, 1, 0) (mk1 g) 0 hn (by
      have := mk1_rep h
      simpa [castP] using this) (by
      have := gRep_identity (F := Fq) (b := curveG1B)
      simpa [castP, gIdentity] using this)
  rwa [zero_add] at this

def zero1 (fuel : ℕ) (g : ℕ × ℕ) (n : ℕ) : Bool :=
  on1 g && Nat.blt n (2 ^ fuel) && (lad1 fuel g n).2.2 % blsp == 0

theorem zero1_ok {fuel n : ℕ} {g : ℕ × ℕ} (h : zero1 fuel g n = true) : n • mk1 g = 0 := by
  simp only [zero1, Bool.and_eq_true, beq_iff_eq, Nat.blt_eq] at h
  obtain ⟨⟨h1, h2⟩, h3⟩ := h
  refine (lad1_rep h1 h2).z_eq_zero.1 ?_
  exact (ZMod.natCast_eq_zero_iff _ _).2 (Nat.dvd_of_mod_eq_zero h3)

def is1 (fuel : ℕ) (g : ℕ × ℕ) (n : ℕ) (q : ℕ × ℕ) : Bool :=
  on1 g && on1 q && Nat.blt n (2 ^ fuel) &&
    match lad1 fuel g n with
    | (x, y, z) => !(z % blsp == 0) && x % blsp == q.1 * z % blsp && y % blsp == q.2 * z % blsp

theorem is1_ok {fuel n : ℕ} {g q : ℕ × ℕ} (h : is1 fuel g n q = true) : n • mk1 g = mk1 q := by
  rw [is1] at h
  rcases hl : lad1 fuel g n with ⟨x, y, z⟩
  rw [hl] at h
  simp only [Bool.and_eq_true, beq_iff_eq, Nat.blt_eq, Bool.not_eq_true', beq_eq_false_iff_ne] at h
  obtain ⟨⟨⟨h1, h2⟩, h3⟩, ⟨h4, h5⟩, h6⟩ := h
  have hr := lad1_rep h1 h3
  rw [hl] at hr
  refine eq_mk1 h2 hr ?_ ?_ ?_
  · intro h0
    exact h4 (Nat.mod_eq_zero_of_dvd ((ZMod.natCast_eq_zero_iff _ _).1 h0))
  · have : ((x : ℕ) : Fq) = ((q.1 * z : ℕ) : Fq) := (ZMod.natCast_eq_natCast_iff _ _ _).2 h5
    simpa [castP] using this
  · have : ((y : ℕ) : Fq) = ((q.2 * z : ℕ) : Fq) := (ZMod.natCast_eq_natCast_iff _ _ _).2 h6
    simpa [castP] using this

/-! ## Points of prime order -/

/-- a cube root of one -/
def beta : ℕ :=
  0x5f19672fdf76ce51ba69c6076a0f77eaddb3a93be6f89688de17d813620a00022e01fffffffefffe

/-- a point of order 11 -/
def q11a : ℕ × ℕ :=
  (0x1522a8a5693443e2de416c49d0f4db7938a4eb083ee190f332969d0e3996bdd74b67d8e0b46f3cd6e7fecd72e60c4bb8,
    0x1b6a2096f8c3e7106980dbc969493472e94e3e961d8659b6c9bfa056b81f68b921d18d89dd77c885ad4b37f56f94dd0)

/-- a point of order 10177 -/
def q10177a : ℕ × ℕ :=
  (0x168233109f7665a4da3b23280d8c172eb8380f4b1f2fbc7ab496e34c867a8762e6afd759b1acf8adfb2175d02ffae9bf,
    0xc897d67b9a0e360416495b1c3a2bc1013852539b2d0f2b38200b6a8ddc293ab16aae2cb1d22d40da6016f02e306ce14)

/-- a point of order 10177 -/
def q10177b : ℕ × ℕ :=
  (0x17d6adfea40f0ee583d889bf3171e40d2e9c8865eae910cdbd5e70a2adf04390f2343ae75c43ac79cd82987ec37bf0c,
    0xee4180b56d192a589ab827ae9802caf97a8e2bbe5f76c1348dc0443cff7a092ad834e811e2ed68e12d6fc7c809c9220)

/-- a point of order 859267 -/
def q859267a : ℕ × ℕ :=
  (0x6959dc4754c567ae031d943b2d76185afdc91f60d3ee7f555807e20717867673267065e8cd99119ba7d5b3e2423dbdc,
    0x17f02e2f3d868dd33cd78aed0b48d99c90b41f000f2daaa2cb0810c8acbb1f62e1345a7e1399655b50e63112df64eec5)

/-- a point of order 859267 -/
def q859267b : ℕ × ℕ :=
  (0x1699cf9aa72c1b924dcc31ada651385245a03701243cc260d2d8d07035033426fbac77a1c80551ddaff34bc713b61a12,
    0x17b7d0459ff55547c4afe1f48bd166f33b5489dc409c8ef9c7b5c4eac42ec803a0fa8fe0078adaa4e8396b82d0c73bf8)

/-- a point of order 52437899 -/
def q52437899a : ℕ × ℕ :=
  (0xe41aceb46625ab43531764a1c071125987d65b87c9c00e96dc84d43ef267eb28b752d2b5d93c11b3b45d3c87bbe182b,
    0x887b598004071bdc4bf02c4811336c2a329bc36ff18b3cf961be99cd46fe8e76b284c3beddb00f3ad36dd5f56c0e66a)

theorem beta_root : ((beta : ℕ) : Fq) ^ 2 + (beta : Fq) + 1 = 0 := by
  have : ((beta * beta + beta + 1 : ℕ) : Fq) = 0 := (ZMod.natCast_eq_zero_iff _ _).2 (by decide +kernel)
  push_cast at this
  linear_combination this

/-- `(x, y) ↦ (β x, y)` -/
noncomputable def phi1 : E1 →+ E1 := (cubeTwist curveG1B (beta : Fq) beta_root).hom g1Ok

theorem phi1_mk1 {g q : ℕ × ℕ} (hg : on1 g = true) (hq : on1 q = true)
    (h : (beta * g.1 % blsp == q.1 % blsp && g.2 % blsp == q.2 % blsp) = true) : phi1 (mk1 g) = mk1 q := by
  simp only [Bool.and_eq_true, beq_iff_eq] at h
  have h1 : ((beta * g.1 : ℕ) : Fq) = (q.1 : Fq) := (ZMod.natCast_eq_natCast_iff _ _ _).2 h.1
  have h2 : ((g.2 : ℕ) : Fq) = (q.2 : Fq) := (ZMod.natCast_eq_natCast_iff _ _ _).2 h.2
  push_cast at h1
  refine eq_mk1 hq ((cubeTwist curveG1B (beta : Fq) beta_root).hom_rep g1Ok (mk1_rep hg)) ?_ ?_ ?_
  · simp [Twist.proj]
  · simp [Twist.proj, cubeTwist, h1]
  · simp [Twist.proj, cubeTwist, h2]

/-- an eigenvector of `phi1` -/
theorem phi1_eigen {fuel u : ℕ} {g : ℕ × ℕ} (h : is1 fuel g u (beta * g.1 % blsp, g.2) = true) :
    phi1 (mk1 g) = u • mk1 g := by
  rw [is1_ok h]
  simp only [is1, Bool.and_eq_true] at h
  exact phi1_mk1 h.1.1.1 h.1.1.2 (by simp)

theorem prime_10177 : Nat.Prime 10177 := by norm_num
theorem prime_859267 : Nat.Prime 859267 := by norm_num
theorem prime_52437899 : Nat.Prime 52437899 := by norm_num

/-- the number of points -/
def order1 : ℕ := 3 * (11 * 10177 * 859267 * 52437899) ^ 2 * blsr

/-- the generator of `G1`, `(0, 2)`, and the points above -/
def gen1 : ℕ × ℕ := (g1GenX, g1GenY)

theorem order_dvd (K : AddSubgroup E1) (h3 : mk1 (0, 2) ∈ K) (h11 : mk1 q11a ∈ K) (h11' : phi1 (mk1 q11a) ∈ K)
    (ha : mk1 q10177a ∈ K) (hb : mk1 q10177b ∈ K) (hc : mk1 q859267a ∈ K) (hd : mk1 q859267b ∈ K)
    (he : mk1 q52437899a ∈ K) (he' : phi1 (mk1 q52437899a) ∈ K) (hg : mk1 gen1 ∈ K) :
    order1 ∣ Nat.card K := by
  have : Fintype (ZMod blsp) := ZMod.fintype blsp
  have : Finite E1 := card_le.1
  have d3 : 3 ∣ Nat.card K :=
    dvd_card_of_point Nat.prime_three h3 (mk1_ne (by decide +kernel)) (zero1_ok (fuel := 2) (by decide +kernel))
  have z11 : 11 • mk1 q11a = 0 := zero1_ok (fuel := 4) (by decide +kernel)
  have d11 : 11 ^ 2 ∣ Nat.card K := sq_dvd_card_of_indep h11 h11' z11 (by rw [← map_nsmul, z11, map_zero])
    (indep_of_inert (by norm_num) (by norm_num) phi1 (cubeTwist_sum g1Ok beta_root) (mk1_ne (by decide +kernel)) z11)
  have za : 10177 • mk1 q10177a = 0 := zero1_ok (fuel := 14) (by decide +kernel)
  have zb : 10177 • mk1 q10177b = 0 := zero1_ok (fuel := 14) (by decide +kernel)
  have da : 10177 ^ 2 ∣ Nat.card K := sq_dvd_card_of_indep ha hb za zb
    (indep_of_eigen prime_10177 phi1 (mk1_ne (by decide +kernel)) (mk1_ne (by decide +kernel)) za zb
      (phi1_eigen (fuel := 14) (u := 4773) (by decide +kernel)) (phi1_eigen (fuel := 14) (u := 5403) (by decide +kernel)) (by decide))
  have zc : 859267 • mk1 q859267a = 0 := zero1_ok (fuel := 20) (by decide +kernel)
  have zd : 859267 • mk1 q859267b = 0 := zero1_ok (fuel := 20) (by decide +kernel)
  have dc : 859267 ^ 2 ∣ Nat.card K := sq_dvd_card_of_indep hc hd zc zd
    (indep_of_eigen prime_859267 phi1 (mk1_ne (by decide +kernel)) (mk1_ne (by decide +kernel)) zc zd
      (phi1_eigen (fuel := 20) (u := 119571) (by decide +kernel)) (phi1_eigen (fuel := 20) (u := 739695) (by decide +kernel)) (by decide))
  have ze : 52437899 • mk1 q52437899a = 0 := zero1_ok (fuel := 26) (by decide +kernel)
  have de : 52437899 ^ 2 ∣ Nat.card K := sq_dvd_card_of_indep he he' ze (by rw [← map_nsmul, ze, map_zero])
    (indep_of_inert prime_52437899 (by norm_num) phi1 (cubeTwist_sum g1Ok beta_root) (mk1_ne (by decide +kernel)) ze)
  have dg : blsr ∣ Nat.card K :=
    dvd_card_of_point fact_blsr.out hg (mk1_ne (by decide +kernel)) (zero1_ok (fuel := 255) (by decide +kernel))
  have c1 := Nat.Coprime.mul_dvd_of_dvd_of_dvd (by decide +kernel) d3 d11
  have c2 := Nat.Coprime.mul_dvd_of_dvd_of_dvd (by decide +kernel) c1 da
  have c3 := Nat.Coprime.mul_dvd_of_dvd_of_dvd (by decide +kernel) c2 dc
  have c4 := Nat.Coprime.mul_dvd_of_dvd_of_dvd (by decide +kernel) c3 de
  have c5 := Nat.Coprime.mul_dvd_of_dvd_of_dvd (by decide +kernel) c4 dg
  have e : order1 = 3 * 11 ^ 2 * 10177 ^ 2 * 859267 ^ 2 * 52437899 ^ 2 * blsr := by
    rw [order1]; congr 1
  rw [e]
  exact c5

theorem finite_E1 : Finite E1 :=
  have : Fintype (ZMod blsp) := ZMod.fintype blsp
  card_le.1

/-- a subgroup with these points is everything -/
theorem top_of_points (K : AddSubgroup E1) (h3 : mk1 (0, 2) ∈ K) (h11 : mk1 q11a ∈ K) (h11' : phi1 (mk1 q11a) ∈ K)
    (ha : mk1 q10177a ∈ K) (hb : mk1 q10177b ∈ K) (hc : mk1 q859267a ∈ K) (hd : mk1 q859267b ∈ K)
    (he : mk1 q52437899a ∈ K) (he' : phi1 (mk1 q52437899a) ∈ K) (hg : mk1 gen1 ∈ K) :
    K = ⊤ ∧ Nat.card E1 = order1 := by
  have : Fintype (ZMod blsp) := ZMod.fintype blsp
  have := finite_E1
  refine eq_top_of_dvd (order_dvd K h3 h11 h11' ha hb hc hd he he' hg) card_le.2 ?_
  rw [ZMod.card]
  decide +kernel

/-! ## C159: the order of `G1` -/

/-- the number of points of the curve of `G1` is `p + 1 - t` with the trace `t = x + 1`, for the parameter
`x = -0xd201000000010000` -/
theorem C159_g1_card : (Nat.card E1 : ℤ) = blsp + 1 - (-0xd201000000010000 + 1) := by
  rw [(top_of_points ⊤ trivial trivial trivial trivial trivial trivial trivial trivial trivial trivial).2]
  decide +kernel

theorem C159_g1_order : Nat.card E1 = 0xd201000000010001 ^ 2 / 3 * blsr := by
  rw [(top_of_points ⊤ trivial trivial trivial trivial trivial trivial trivial trivial trivial trivial).2]
  decide +kernel

/-- every point is killed by `(1 - x) r` -/
theorem C159_g1_exponent (P : E1) : (blsr * 0xd201000000010001) • P = 0 := by
  have h := (top_of_points (nsmulAddMonoidHom (α := E1) (blsr * 0xd201000000010001)).ker ?_ ?_ ?_ ?_ ?_ ?_ ?_ ?_ ?_ ?_).1
  · have : P ∈ (nsmulAddMonoidHom (α := E1) (blsr * 0xd201000000010001)).ker := by rw [h]; trivial
    exact this
  all_goals rw [AddMonoidHom.mem_ker, nsmulAddMonoidHom_apply]
  · rw [show blsr * 0xd201000000010001 = blsr * (0xd201000000010001 / 3) * 3 by decide +kernel, mul_nsmul',
      zero1_ok (fuel := 2) (by decide +kernel), nsmul_zero]
  · rw [show blsr * 0xd201000000010001 = blsr * (0xd201000000010001 / 11) * 11 by decide +kernel, mul_nsmul',
      zero1_ok (fuel := 4) (by decide +kernel), nsmul_zero]
  · rw [← map_nsmul, show blsr * 0xd201000000010001 = blsr * (0xd201000000010001 / 11) * 11 by decide +kernel, mul_nsmul',
      zero1_ok (fuel := 4) (by decide +kernel), nsmul_zero, map_zero]
  · rw [show blsr * 0xd201000000010001 = blsr * (0xd201000000010001 / 10177) * 10177 by decide +kernel, mul_nsmul',
      zero1_ok (fuel := 14) (by decide +kernel), nsmul_zero]
  · rw [show blsr * 0xd201000000010001 = blsr * (0xd201000000010001 / 10177) * 10177 by decide +kernel, mul_nsmul',
      zero1_ok (fuel := 14) (by decide +kernel), nsmul_zero]
  · rw [show blsr * 0xd201000000010001 = blsr * (0xd201000000010001 / 859267) * 859267 by decide +kernel, mul_nsmul',
      zero1_ok (fuel := 20) (by decide +kernel), nsmul_zero]
  · rw [show blsr * 0xd201000000010001 = blsr * (0xd201000000010001 / 859267) * 859267 by decide +kernel, mul_nsmul',
      zero1_ok (fuel := 20) (by decide +kernel), nsmul_zero]
  · rw [show blsr * 0xd201000000010001 = blsr * (0xd201000000010001 / 52437899) * 52437899 by decide +kernel, mul_nsmul',
      zero1_ok (fuel := 26) (by decide +kernel), nsmul_zero]
  · rw [← map_nsmul, show blsr * 0xd201000000010001 = blsr * (0xd201000000010001 / 52437899) * 52437899 by decide +kernel,
      mul_nsmul', zero1_ok (fuel := 26) (by decide +kernel), nsmul_zero, map_zero]
  · rw [show blsr * 0xd201000000010001 = 0xd201000000010001 * blsr by decide +kernel, mul_nsmul',
      zero1_ok (fuel := 255) (by decide +kernel), nsmul_zero]

/-- `ClearCofactor` maps every point of the curve into the subgroup -/
theorem C159_g1_clearCofactor {p : Proj Fq} {P : E1} (hp : GRep p P) :
    gInSubgroup mulBy3b1 (g1ClearCofactor p) = true := by
  rw [C156_inSubgroup.1 (C156_g1_clearCofactor hp), ← mul_nsmul']
  exact C159_g1_exponent P

theorem gen1_rep : GRep g1Generator (mk1 gen1) := by
  rw [g1Generator_eq]
  exact mk1_rep (g := gen1) (by decide +kernel)

theorem gen1_order : addOrderOf (mk1 gen1) = blsr :=
  have := fact_blsr
  addOrderOf_eq_prime (zero1_ok (fuel := 255) (by decide +kernel)) (mk1_ne (by decide +kernel))

/-- in a group of order `r h` the points killed by `r` are the multiples of a point of order `r` -/
theorem mem_multiples {A : Type} [AddCommGroup A] [Finite A] {r h : ℕ} (hc : Nat.card A = h * r)
    (hrh : Nat.Coprime h r) {G : A} (hG : addOrderOf G = r) (h0 : 0 < r) {P : A} (hP : r • P = 0) :
    ∃ k < r, P = k • G := by
  let H := AddSubgroup.zmultiples G
  have hH : Nat.card H = r := by rw [← hG]; exact Nat.card_zmultiples G
  have hq : Nat.card (A ⧸ H) = h := by
    have := AddSubgroup.card_eq_card_quotient_mul_card_addSubgroup H
    rw [hc, hH] at this
    exact (Nat.eq_of_mul_eq_mul_right h0 this).symm
  have h1 : r • (QuotientAddGroup.mk P : A ⧸ H) = 0 := by
    rw [← QuotientAddGroup.mk_nsmul, hP]; rfl
  have h2 : h • (QuotientAddGroup.mk P : A ⧸ H) = 0 := by
    rw [← hq]; exact card_nsmul_eq_zero'
  have h3 : addOrderOf (QuotientAddGroup.mk P : A ⧸ H) ∣ Nat.gcd h r :=
    Nat.dvd_gcd (addOrderOf_dvd_of_nsmul_eq_zero h2) (addOrderOf_dvd_of_nsmul_eq_zero h1)
  rw [hrh, Nat.dvd_one, AddMonoid.addOrderOf_eq_one_iff, QuotientAddGroup.eq_zero_iff] at h3
  obtain ⟨z, e⟩ := AddSubgroup.mem_zmultiples_iff.1 h3
  have hz0 : 0 ≤ z % (r : ℤ) := Int.emod_nonneg _ (by omega)
  have hz1 : z % (r : ℤ) < r := Int.emod_lt_of_pos _ (by omega)
  refine ⟨(z % (r : ℤ)).toNat, by omega, ?_⟩
  rw [← natCast_zsmul, Int.toNat_of_nonneg hz0, ← hG, mod_addOrderOf_zsmul, e]

/-- the generator of `G1` has order `r`, and the points `InCorrectSubgroup` accepts are its multiples -/
theorem C159_g1_subgroup : ∃ G : E1, GRep g1Generator G ∧ addOrderOf G = blsr ∧
    ∀ {p : Proj Fq} {P : E1}, GRep p P → (gInSubgroup mulBy3b1 p = true ↔ ∃ k < blsr, P = k • G) := by
  have := finite_E1
  refine ⟨mk1 gen1, gen1_rep, gen1_order, fun {p P} hp => ?_⟩
  rw [C156_inSubgroup.1 hp]
  constructor
  · exact mem_multiples C159_g1_order (by decide +kernel) gen1_order (by decide +kernel)
  · rintro ⟨k, -, rfl⟩
    rw [← mul_nsmul', mul_nsmul, ← gen1_order, addOrderOf_nsmul_eq_zero, nsmul_zero]

/-- concretely: a point of order three that is not in the subgroup, and its image -/
example : ∃ P : E1, GRep (⟨0, 2, 1⟩ : Proj Fq) P ∧ gInSubgroup mulBy3b1 (⟨0, 2, 1⟩ : Proj Fq) = false ∧
    gInSubgroup mulBy3b1 (g1ClearCofactor ⟨0, 2, 1⟩) = true := by
  obtain ⟨P, h, h0⟩ := torsion3_not
  refine ⟨P, h, ?_, C159_g1_clearCofactor h⟩
  rw [Bool.eq_false_iff]
  exact fun h1 => h0 ((C156_inSubgroup.1 h).1 h1)

/-- the round trips hold for the generator -/
example : ∃ G : E1, (∃ q, g1FromCompressed (g1ToCompressed g1Generator) = .ok q ∧ GRep q G) ∧
    ∃ q, g1SetBigInt (g1BigInt g1Generator).1 (g1BigInt g1Generator).2 = .ok q ∧ GRep q G := by
  have h : blsr • mk1 gen1 = 0 := by rw [← gen1_order]; exact addOrderOf_nsmul_eq_zero _
  exact ⟨_, (C157_g1_roundtrip gen1_rep h).1, C158_g1_roundtrip gen1_rep h⟩

end Verif.Bls381
