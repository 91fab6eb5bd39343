import Verif.Curves.PointModel
import Verif.Native.EncodeProps
import Verif.Bls381.GProps

/-!
# Points of secp256k1, P-256 and BLS12-381 behind the interfaces (C216)
-/

set_option exponentiation.threshold 1000
set_option linter.unusedSectionVars false

namespace Verif.Curves.Pt
open Native Bls381 Primes

/-- the operations are those of a group in which the generator `G` lies and the scalars act by their least residues -/
structure Lawful {α A : Type} [AddCommGroup A] (N : Native' α) (rep : α → A → Prop) (G : A) : Prop where
  q_le : N.q ≤ 256 ^ 32
  q_pos : 0 < N.q
  identity : rep N.identity 0
  generator : rep N.generator G
  isIdentity : ∀ {p P}, rep p P → (N.isIdentity p = true ↔ P = 0)
  double : ∀ {p P}, rep p P → rep (N.double p) (P + P)
  neg : ∀ {p P}, rep p P → rep (N.neg p) (-P)
  add : ∀ {p q P Q}, rep p P → rep q Q → rep (N.add p q) (P + Q)
  sub : ∀ {p q P Q}, rep p P → rep q Q → rep (N.sub p q) (P - Q)
  mul : ∀ {p P} (b : List UInt8), rep p P → b.length = 32 → rep (N.mul p b) (leNat b • P)
  equal : ∀ {p q P Q}, rep p P → rep q Q → (N.equal p q = true ↔ P = Q)
  sum : ∀ {ps Ps} (ss : List (List UInt8)), List.Forall₂ rep ps Ps → ps.length = ss.length → (∀ s ∈ ss, s.length = 32) →
    ∃ r, N.sum ps ss = .ok r ∧ rep r (List.zipWith (fun s P => leNat s • P) ss Ps).sum
  sum_err : ∀ (ps : List α) (ss : List (List UInt8)), ps.length ≠ ss.length → N.sum ps ss = Go.err

section
variable {α A : Type} [AddCommGroup A] {N : Native' α} {rep : α → A → Prop} {G : A}

theorem Lawful.leNat_val (L : Lawful N rep G) (s : ZMod N.q) : leNat (leBytes 32 s.val) = s.val := by
  have : NeZero N.q := ⟨L.q_pos.ne'⟩
  exact leNat_leBytes _ _ (lt_of_lt_of_le (ZMod.val_lt s) L.q_le)

/-- C216: the methods are the operations of the group, for every implementation whose native operations are. -/
theorem C216_group (L : Lawful N rep G) {p q : α} {P Q : A} (hp : rep p P) (hq : rep q Q) (s : ZMod N.q) :
    (∃ r, add N p (.mine q) = some r ∧ rep r (P + Q)) ∧ (∃ r, sub N p (.mine q) = some r ∧ rep r (P - Q)) ∧
    (∃ r, mul N p (.mine s) = some r ∧ rep r (s.val • P)) ∧ (equal N p (.mine q) = true ↔ P = Q) ∧
    (∃ r, scalarBaseMult N (.mine s) = some r ∧ scalarBaseMultPairing N (.mine s) = .ok r ∧ rep r (s.val • G)) := by
  have hm : ∀ {p P}, rep p P → rep (N.mul p (leBytes 32 s.val)) (s.val • P) := by
    intro p P h
    have := L.mul (leBytes 32 s.val) h (leBytes_length _ _)
    rwa [L.leNat_val s] at this
  exact ⟨⟨_, rfl, L.add hp hq⟩, ⟨_, rfl, L.sub hp hq⟩, ⟨_, rfl, hm hp⟩, L.equal hp hq, ⟨_, rfl, rfl, hm L.generator⟩⟩

/-- C216: nil and foreign arguments give nil, are equal to nothing, and make `ScalarG1BaseMult` and `ScalarG2BaseMult` panic. -/
theorem C216_foreign (N : Native' α) (p : α) :
    add N p .nil = none ∧ add N p .foreign = none ∧ sub N p .nil = none ∧ sub N p .foreign = none ∧ mul N p .nil = none ∧
    mul N p .foreign = none ∧ equal N p .nil = false ∧ equal N p .foreign = false ∧ scalarBaseMult N .nil = none ∧
    scalarBaseMult N .foreign = none ∧ scalarBaseMultPairing N .nil = Go.crash ∧ scalarBaseMultPairing N .foreign = Go.crash :=
  ⟨rfl, rfl, rfl, rfl, rfl, rfl, rfl, rfl, rfl, rfl, rfl, rfl⟩

theorem allMine_map {β : Type} (l : List β) : allMine (l.map .mine) = some l := by
  induction l with
  | nil => rfl
  | cons a l ih => simp [allMine, ih]

theorem allMine_none {β : Type} {l : List (Arg β)} {a : Arg β} (ha : a ∈ l) (h : ∀ b, a ≠ .mine b) : allMine l = none := by
  induction l with
  | nil => cases ha
  | cons c l ih =>
    rcases List.mem_cons.1 ha with rfl | h'
    · cases a with
      | nil => rfl
      | foreign => rfl
      | mine b => exact absurd rfl (h b)
    · cases c with
      | nil => rfl
      | foreign => rfl
      | mine b => simp [allMine, ih h']

/-- C216: `SumOfProducts` is the sum of the products; it is nil exactly for lists of different lengths or with a nil or foreign element. -/
theorem C216_sum (L : Lawful N rep G) {ps : List α} {Ps : List A} (hp : List.Forall₂ rep ps Ps) (ss : List (ZMod N.q)) :
    (ps.length = ss.length → ∃ r, sum N (ps.map .mine) (ss.map .mine) = some r ∧
      rep r (List.zipWith (fun s P => s.val • P) ss Ps).sum) ∧
    (ps.length ≠ ss.length → sum N (ps.map .mine) (ss.map .mine) = none) ∧
    (∀ pts scs a, a ∈ pts → (∀ b, a ≠ .mine b) → sum N pts scs = none) ∧
    (∀ pts scs a, a ∈ scs → (∀ b, a ≠ .mine b) → sum N pts scs = none) := by
  refine ⟨fun hl => ?_, fun hl => ?_, fun pts scs a ha h => ?_, fun pts scs a ha h => ?_⟩
  · obtain ⟨r, h1, h2⟩ := L.sum (ss.map fun s => leBytes 32 s.val) hp (by simpa using hl) (by simp [leBytes_length])
    refine ⟨r, ?_, ?_⟩
    · unfold sum
      rw [allMine_map, allMine_map]
      simp only [h1]
    · rw [List.zipWith_map_left] at h2
      simpa only [L.leNat_val] using h2
  · unfold sum
    rw [allMine_map, allMine_map]
    simp only [L.sum_err ps (ss.map fun s => leBytes 32 s.val) (by simpa using hl)]
  · unfold sum
    rw [allMine_none ha h]
  · unfold sum
    rw [allMine_none ha h]
    cases allMine pts <;> rfl

end

theorem zip_linComb {A : Type} [AddCommGroup A] (ss : List (List UInt8)) (Ps : List A) :
    linComb (ss.map fun s => (leNat s : ℤ)) Ps = (List.zipWith (fun s P => leNat s • P) ss Ps).sum := by
  rw [linComb, List.zipWith_map_left]
  simp

/-- C216: secp256k1: the group of the curve, with a generator of order `q`. -/
theorem C216_k256 : ∃ G : K256.Group, Lawful k256 Rep G ∧ addOrderOf G = k256.q := by
  obtain ⟨G, hG, ho⟩ := C111_k256_generator
  refine ⟨G, ?_, ho⟩
  exact {
    q_le := by decide
    q_pos := by decide
    identity := rfl
    generator := hG
    isIdentity := fun {p P} h => by
      rw [show k256.isIdentity p = decide (p.z = 0) from rfl, decide_eq_true_iff]
      rcases P with _ | ⟨x, y, hn⟩
      · exact ⟨fun _ => rfl, fun _ => h⟩
      · exact ⟨fun e => absurd e h.1, fun e => by cases e⟩
    double := C56_k256.double
    neg := C56_neg
    add := C56_k256.add
    sub := fun hp hq => by rw [sub_eq_add_neg]; exact C56_k256.add hp (C56_neg hq)
    mul := fun b hp hl => C52_k256 hp b hl
    equal := C110_equal
    sum := fun ss hp hl h32 => by
      obtain ⟨r, h1, h2⟩ := C51_sumOfProducts C56_k256 hp ss hl h32
      exact ⟨r, h1, by rw [← zip_linComb]; exact h2⟩
    sum_err := fun ps ss h => C51_mismatch ps ss h }

/-- C216: P-256. -/
theorem C216_p256 : ∃ G : P256.Group, Lawful p256 Rep G ∧ addOrderOf G = p256.q := by
  obtain ⟨G, hG, ho⟩ := C111_p256_generator
  refine ⟨G, ?_, ho⟩
  exact {
    q_le := by decide
    q_pos := by decide
    identity := rfl
    generator := hG
    isIdentity := fun {p P} h => by
      rw [show p256.isIdentity p = decide (p.z = 0) from rfl, decide_eq_true_iff]
      rcases P with _ | ⟨x, y, hn⟩
      · exact ⟨fun _ => rfl, fun _ => h⟩
      · exact ⟨fun e => absurd e h.1, fun e => by cases e⟩
    double := C56_p256.double
    neg := C56_neg
    add := C56_p256.add
    sub := fun hp hq => by rw [sub_eq_add_neg]; exact C56_p256.add hp (C56_neg hq)
    mul := fun b hp hl => C52_p256 hp b hl
    equal := C110_equal
    sum := fun ss hp hl h32 => by
      obtain ⟨r, h1, h2⟩ := C51_sumOfProducts C56_p256 hp ss hl h32
      exact ⟨r, h1, by rw [← zip_linComb]; exact h2⟩
    sum_err := fun ps ss h => C51_mismatch ps ss h }

/-- C216: the first group of BLS12-381: the points of the whole curve. -/
theorem C216_g1 : ∃ G : E1, Lawful g1 GRep G ∧ G ≠ 0 := by
  obtain ⟨G, hG, h0⟩ := C155_generators.1
  refine ⟨G, ?_, h0⟩
  exact {
    q_le := by decide
    q_pos := by decide
    identity := C155_g1_predicates.1
    generator := hG
    isIdentity := fun h => by
      rw [← C155_g1_predicates.2.1 h]; exact decide_eq_true_iff
    double := C155_g1_double
    neg := fun h => (C155_g1_neg_sub h h).1
    add := C155_g1_add
    sub := fun hp hq => (C155_g1_neg_sub hp hq).2
    mul := fun b hp hl => C156_g1_mul hp hl
    equal := C155_g1_predicates.2.2.1
    sum := fun ss hp hl h32 => C156_g1_sumOfProducts hp ss hl h32
    sum_err := fun ps ss h => C51_mismatch ps ss h }

/-- C216: the second group of BLS12-381. -/
theorem C216_g2 : ∃ G : E2, Lawful g2 GRep G ∧ G ≠ 0 := by
  obtain ⟨G, hG, h0⟩ := C155_generators.2
  refine ⟨G, ?_, h0⟩
  exact {
    q_le := by decide
    q_pos := by decide
    identity := C155_g2_predicates.1
    generator := hG
    isIdentity := fun h => by
      rw [← C155_g2_predicates.2.1 h]; exact decide_eq_true_iff
    double := C155_g2_double
    neg := fun h => (C155_g2_neg_sub h h).1
    add := C155_g2_add
    sub := fun hp hq => (C155_g2_neg_sub hp hq).2
    mul := fun b hp hl => C156_g2_mul hp hl
    equal := C155_g2_predicates.2.2.1
    sum := fun ss hp hl h32 => C156_g2_sumOfProducts hp ss hl h32
    sum_err := fun ps ss h => C51_mismatch ps ss h }

/-- `2 G + 5 G` through the interface -/
example : ∃ (G : K256.Group) (r : Proj (ZMod k256p)), Lawful k256 Rep G ∧
    sum k256 [.mine k256.generator, .mine k256.generator] [.mine 2, .mine 5] = some r ∧ Rep r (7 • G) ∧ (7 • G ≠ 0) := by
  obtain ⟨G, L, ho⟩ := C216_k256
  obtain ⟨r, h1, h2⟩ := (C216_sum L (.cons L.generator (.cons L.generator .nil)) ([2, 5] : List (ZMod k256.q))).1 rfl
  refine ⟨G, r, L, h1, ?_, ?_⟩
  · have e : (List.zipWith (fun (s : ZMod k256.q) P => s.val • P) [2, 5] [G, G]).sum = 7 • G := by
      rw [show (List.zipWith (fun (s : ZMod k256.q) P => s.val • P) [2, 5] [G, G]).sum =
        (2 : ZMod k256.q).val • G + ((5 : ZMod k256.q).val • G + 0) from rfl,
        show (2 : ZMod k256.q).val = 2 by decide, show (5 : ZMod k256.q).val = 5 by decide, add_zero, ← add_nsmul]
    rwa [e] at h2
  · intro h
    have := addOrderOf_dvd_of_nsmul_eq_zero h
    rw [ho] at this
    exact absurd (Nat.le_of_dvd (by norm_num) this) (by decide)

/-! ## Signs -/

theorem low_bit (a : UInt64) : (a &&& 1 == 1) = true ↔ a.toNat % 2 = 1 := by
  have h : (a &&& 1).toNat = a.toNat % 2 := by
    rw [UInt64.toNat_and]
    exact Nat.and_one_is_mod _
  rw [beq_iff_eq, ← UInt64.toNat_inj, h]
  rfl

theorem ofNat_low (n : ℕ) : (Limbs.ofNat n).l0.toNat % 2 = n % 2 := by
  show (UInt64.ofNat _).toNat % 2 = _
  rw [UInt64.toNat_ofNat']
  omega

section
variable {C : EncCurve} {a b : C.P.Ring} [hf : Fact C.P.modulus.val.Prime] (hC : C.Ok a b)
include hC

/-- C216: `IsNegative` on secp256k1 and P-256 is the parity of `2^256 y`, false for the identity; of a point other than the identity
and its negative exactly one is negative. -/
theorem C216_isNegative {p : Proj C.P.Ring} {Q : (curve a b).Point} (hp : Rep p Q) :
    (Q = 0 → isNegative C.P p = false) ∧ (Q ≠ 0 → isNegative C.P (neg p) = !isNegative C.P p) ∧
    (∀ x y hn, Q = .some x y hn → (isNegative C.P p = true ↔ (y * 2 ^ 256 : C.P.Ring).val % 2 = 1)) := by
  have key : ∀ x y hn (p : Proj C.P.Ring), Rep p (.some x y hn : (curve a b).Point) →
      (isNegative C.P p = true ↔ (y * 2 ^ 256 : C.P.Ring).val % 2 = 1) := by
    intro x y hn p hp
    unfold isNegative
    rw [toAffine_some hC hp, low_bit]
    show (Limbs.ofNat _).l0.toNat % 2 = 1 ↔ _
    rw [ofNat_low]
  refine ⟨?_, ?_, ?_⟩
  · rintro rfl
    have hz : p.z = 0 := hp
    have hy : (toAffine p).y = 0 := by simp [toAffine, invert, hz]
    rw [isNegative, hy, ← zero_encode hC.ok]
    rfl
  · intro h0
    rcases Q with _ | ⟨x, y, hn⟩
    · exact absurd rfl h0
    · have h1 := key x y hn p hp
      have hneg := C56_neg hp
      rw [WeierstrassCurve.Affine.Point.neg_some] at hneg
      have h2 := key _ _ _ _ hneg
      rw [negY_curve, neg_mul] at h2
      have hy : y ≠ 0 := by
        rintro rfl
        have he := (equation_curve.1 hn.1)
        exact hC.noRoot x (by rw [← he]; ring)
      have hne : (y * 2 ^ 256 : C.P.Ring) ≠ 0 := by
        intro h
        have := hC.ok.cancel y
        rw [h, zero_mul] at this
        exact hy this.symm
      rw [val_neg_parity hC.ok hne] at h2
      cases h3 : isNegative C.P p <;> cases h4 : isNegative C.P (neg p) <;> simp_all
  · rintro x y hn rfl
    exact key x y hn p hp

end

theorem affine_one {F : Type} [Field F] [DecidableEq F] (x y : F) : toAffine (⟨x, y, 1⟩ : Proj F) = ⟨x, y, 1⟩ := by
  simp [toAffine, invert]

/-- sign and sign byte of a point with given coordinates, as numbers -/
theorem signs_of {C : EncCurve} {a b : C.P.Ring} [hf : Fact C.P.modulus.val.Prime] (hC : C.Ok a b) (x : C.P.Ring) (y : ℕ)
    (hy : y < C.P.modulus.val) :
    (isNegative C.P ⟨x, (y : C.P.Ring), 1⟩ = true ↔ y * 2 ^ 256 % C.P.modulus.val % 2 = 1) ∧
    (toAffineCompressed C.P ⟨x, (y : C.P.Ring), 1⟩).headD 0 = if y % 2 = 1 then 3 else 2 := by
  constructor
  · unfold isNegative
    rw [affine_one, low_bit]
    show (Limbs.ofNat _).l0.toNat % 2 = 1 ↔ _
    rw [ofNat_low, show ((y : C.P.Ring) * 2 ^ 256) = ((y * 2 ^ 256 : ℕ) : C.P.Ring) by
      rw [Nat.cast_mul, Nat.cast_pow, Nat.cast_ofNat], ZMod.val_natCast]
  · rw [toAffineCompressed_eq hC, affine_one]
    show (if (y : C.P.Ring).val % 2 = 1 then (3 : UInt8) else 2) = _
    rw [ZMod.val_natCast, Nat.mod_eq_of_lt hy]

/-- the primes of the two fields, for the definitions on residues -/
theorem k256_prime : Fact k256Enc.P.modulus.val.Prime := ⟨k256Enc_ok.prime⟩
theorem p256_prime : Fact p256Enc.P.modulus.val.Prime := ⟨p256Enc_ok.prime⟩

/-- the ordinate of a point of secp256k1 with abscissa one -/
def oneY : ℕ := 0x4218f20ae6c646b363db68605822fb14264ca8d2587fdd6fbc750d587e76a7ee

/-- C216, refuted: `IsNegative` is not the sign in the compressed encoding: a point of secp256k1 with sign byte 2 is negative, the generator of
P-256 has sign byte 3 and is not. -/
theorem C216_isNegative_not_sign :
    (haveI := k256_prime
     (∃ Q : (curve (0 : k256Enc.P.Ring) (7 : ℕ)).Point, Rep (⟨1, oneY, 1⟩ : Proj k256Enc.P.Ring) Q ∧ Q ≠ 0) ∧
     isNegative k256Enc.P ⟨1, oneY, 1⟩ = true ∧ (toAffineCompressed k256Enc.P ⟨1, oneY, 1⟩).headD 0 = 2) ∧
    (haveI := p256_prime
     isNegative p256Enc.P ⟨P256.gxN, P256.gyN, 1⟩ = false ∧ (toAffineCompressed p256Enc.P ⟨P256.gxN, P256.gyN, 1⟩).headD 0 = 3) := by
  have := k256_prime
  have := p256_prime
  have h1 := signs_of k256Enc_ok 1 oneY (by decide +kernel)
  have h2 := signs_of p256Enc_ok (P256.gxN : p256Enc.P.Ring) P256.gyN (by decide +kernel)
  refine ⟨⟨?_, h1.1.2 (by decide +kernel), h1.2.trans (by decide +kernel)⟩, ?_, h2.2.trans (by decide +kernel)⟩
  · have hy : (oneY : k256Enc.P.Ring) ≠ 0 := by
      rw [Ne, ZMod.natCast_eq_zero_iff, Nat.dvd_iff_mod_eq_zero]; decide +kernel
    have he : (oneY : k256Enc.P.Ring) ^ 2 = (1 : k256Enc.P.Ring) ^ 3 + 0 * 1 + ((7 : ℕ) : k256Enc.P.Ring) := by
      have : ((oneY ^ 2 : ℕ) : k256Enc.P.Ring) = ((8 : ℕ) : k256Enc.P.Ring) := natCast_eq_of_mod (by decide +kernel)
      push_cast at this ⊢
      rw [this]
      norm_num
    exact ⟨.some _ _ (nonsingular_curve (two_ne k256Enc_ok) hy he), ⟨one_ne_zero, by simp, by simp⟩, fun h => by cases h⟩
  · rw [Bool.eq_false_iff]
    intro h
    exact absurd (h2.1.1 h) (by decide +kernel)

/-! ## BLS12-381: signs, decoding, coordinates -/

theorem flag_bit : ∀ b : UInt8, b < 0x20 → ∀ s : Bool,
    (((b ||| 0x80 ||| 0 ||| (if s then (0x20 : UInt8) else 0)) >>> 5) &&& 1 == 1) = s := by decide +kernel

theorem val_neg_half {y : Fq} (hy : y ≠ 0) : (blsp - 1) / 2 < (-y).val ↔ ¬ (blsp - 1) / 2 < y.val := by
  have : NeZero y := ⟨hy⟩
  rw [ZMod.val_neg_of_ne_zero]
  have h1 : y.val < blsp := ZMod.val_lt y
  have h2 : blsp % 2 = 1 := by decide +kernel
  have h3 : 0 < y.val := by rw [Nat.pos_iff_ne_zero, Ne, ZMod.val_eq_zero]; exact hy
  omega

/-- C216: `IsNegative` on the first group: the ordinate is the larger one of the two; of a point other than the identity and its negative
exactly one is negative. -/
theorem C216_g1_isNegative {p : Proj Fq} {P : E1} (hp : GRep p P) :
    (P = 0 → g1IsNegative p = false) ∧
    (∀ x y hn, P = .some x y hn → (g1IsNegative p = true ↔ (blsp - 1) / 2 < y.val)) ∧
    (P ≠ 0 → g1IsNegative (gNeg p) = !g1IsNegative p) := by
  have key : ∀ x y hn (p : Proj Fq), GRep p (.some x y hn : E1) → (g1IsNegative p = true ↔ (blsp - 1) / 2 < y.val) := by
    intro x y hn p hp
    obtain ⟨hd, t, -, hlt, ht⟩ := cTo_some codec1_lawful (gRep_some.1 hp).1 (C155_toAffine_g1 hp)
    rw [g1IsNegative, g1To_eq, ht]
    rw [List.headD_cons, flag_bit hd hlt]
    exact lex1_iff y
  refine ⟨?_, ?_, ?_⟩
  · rintro rfl
    obtain ⟨t, -, h2⟩ := cTo_zero codec1_lawful (hp.z_eq_zero.2 rfl)
    rw [g1IsNegative, g1To_eq, h2, List.headD_cons]
    decide
  · rintro x y hn rfl
    exact key x y hn p hp
  · intro h0
    rcases P with _ | ⟨x, y, hn⟩
    · exact absurd rfl h0
    · have h1 := key x y hn p hp
      have hneg := gRep_neg hp
      rw [WeierstrassCurve.Affine.Point.neg_some] at hneg
      have h2 := key _ _ _ _ hneg
      have hy : y ≠ 0 := by
        have hq : GRep (⟨x, y, 1⟩ : Proj Fq) (.some x y hn : E1) := gRep_some.2 ⟨one_ne_zero, by simp, by simp⟩
        exact hq.y_ne g1Ok
      rw [negY_curve, val_neg_half hy] at h2
      cases h3 : g1IsNegative p <;> cases h4 : g1IsNegative (gNeg p) <;> simp_all

/-- C216: `IsNegative` on the second group. -/
theorem C216_g2_isNegative {p : Proj (Fp2 Fq)} {P : E2} (hp : GRep p P) :
    (P = 0 → g2IsNegative p = false) ∧
    (∀ x y hn, P = .some x y hn →
      (g2IsNegative p = true ↔ (blsp - 1) / 2 < y.B.val ∨ y.B = 0 ∧ (blsp - 1) / 2 < y.A.val)) ∧
    (P ≠ 0 → g2IsNegative (gNeg p) = !g2IsNegative p) := by
  have key : ∀ x y hn (p : Proj (Fp2 Fq)), GRep p (.some x y hn : E2) →
      (g2IsNegative p = true ↔ (blsp - 1) / 2 < y.B.val ∨ y.B = 0 ∧ (blsp - 1) / 2 < y.A.val) := by
    intro x y hn p hp
    obtain ⟨hd, t, -, hlt, ht⟩ := cTo_some codec2_lawful (gRep_some.1 hp).1 (C155_toAffine_g2 hp)
    rw [g2IsNegative, g2To_eq, ht]
    rw [List.headD_cons, flag_bit hd hlt]
    exact (C150_signs_iff y).1
  refine ⟨?_, ?_, ?_⟩
  · rintro rfl
    obtain ⟨t, -, h2⟩ := cTo_zero codec2_lawful (hp.z_eq_zero.2 rfl)
    rw [g2IsNegative, g2To_eq, h2, List.headD_cons]
    decide
  · rintro x y hn rfl
    exact key x y hn p hp
  · intro h0
    rcases P with _ | ⟨x, y, hn⟩
    · exact absurd rfl h0
    · have h1 := key x y hn p hp
      have hneg := gRep_neg hp
      rw [WeierstrassCurve.Affine.Point.neg_some] at hneg
      have h2 := key _ _ _ _ hneg
      have hy : y ≠ 0 := by
        have hq : GRep (⟨x, y, 1⟩ : Proj (Fp2 Fq)) (.some x y hn : E2) := gRep_some.2 ⟨one_ne_zero, by simp, by simp⟩
        exact hq.y_ne g2Ok
      rw [negY_curve] at h2
      have eB : (-y).B = -y.B := rfl
      have eA : (-y).A = -y.A := rfl
      rw [eB, eA] at h2
      have hk : ((blsp - 1) / 2 < (-y.B).val ∨ -y.B = 0 ∧ (blsp - 1) / 2 < (-y.A).val) ↔
          ¬ ((blsp - 1) / 2 < y.B.val ∨ y.B = 0 ∧ (blsp - 1) / 2 < y.A.val) := by
        by_cases hB : y.B = 0
        · have hA : y.A ≠ 0 := fun hA => hy (show (⟨y.A, y.B⟩ : Fp2 Fq) = ⟨0, 0⟩ by rw [hB, hA])
          rw [hB, neg_zero, ZMod.val_zero, val_neg_half hA]
          simp
        · rw [val_neg_half hB]
          simp [hB]
      rw [hk] at h2
      cases h3 : g2IsNegative p <;> cases h4 : g2IsNegative (gNeg p) <;> simp_all

/-- the generator of the first group is not negative, its negative is -/
example : g1IsNegative g1Generator = false ∧ g1IsNegative (gNeg g1Generator) = true := by
  obtain ⟨G, hG, h0⟩ := C155_generators.1
  have h := (C216_g1_isNegative hG).2.2 h0
  have h1 : g1IsNegative g1Generator = false := by
    rcases G with _ | ⟨x, y, hn⟩
    · exact absurd rfl h0
    · have hy : y = (g1GenY : Fq) := by
        have := (gRep_some.1 hG).2.2
        rw [g1Generator_eq] at this
        simpa using this.symm
      rw [Bool.eq_false_iff, Ne, (C216_g1_isNegative hG).2.1 x y hn rfl, hy]
      decide +kernel
  exact ⟨h1, by rw [h, h1]; rfl⟩

theorem fit_append {n : ℕ} {b : List UInt8} (hb : b.length = n) (t : List UInt8) : fit n (b ++ t) = b := by
  subst hb
  simp [fit]

theorem fit_self {n : ℕ} {b : List UInt8} (hb : b.length = n) : fit n b = b := by
  have := fit_append hb []
  simpa using this

theorem fit_zeros {n k : ℕ} {b : List UInt8} (hb : b.length + k = n) : fit n b = b ++ List.replicate k 0 := by
  unfold fit
  rw [List.take_of_length_le (by omega), show n - b.length = k by omega]

/-- C216: encodings of points of the subgroups decode. -/
theorem C216_bls_roundtrip :
    (∀ {p : Proj Fq} {P : E1}, GRep p P → blsr • P = 0 →
      (∃ q, g1Dec (g1ToCompressed p) = .ok q ∧ GRep q P) ∧ ∃ q, g1DecU (g1ToUncompressed p) = .ok q ∧ GRep q P) ∧
    (∀ {p : Proj (Fp2 Fq)} {P : E2}, GRep p P → blsr • P = 0 →
      (∃ q, g2Dec (g2ToCompressed p) = .ok q ∧ GRep q P) ∧ ∃ q, g2DecU (g2ToUncompressed p) = .ok q ∧ GRep q P) := by
  constructor
  · intro p P hp hr
    have l1 : (g1ToCompressed p).length = 48 := by rw [g1To_eq, cTo_length codec1_lawful]; rfl
    have l2 : (g1ToUncompressed p).length = 96 := by rw [g1UTo_eq, cUTo_length codec1_lawful]; rfl
    rw [g1Dec, g1DecU, fit_self l1, fit_self l2]
    exact C157_g1_roundtrip hp hr
  · intro p P hp hr
    have l1 : (g2ToCompressed p).length = 96 := by rw [g2To_eq, cTo_length codec2_lawful]; rfl
    have l2 : (g2ToUncompressed p).length = 192 := by rw [g2UTo_eq, cUTo_length codec2_lawful]; rfl
    rw [g2Dec, g2DecU, fit_self l1, fit_self l2]
    exact C157_g2_roundtrip hp hr

/-- C216, refuted: the length of an encoding is not checked: bytes after it are ignored, and missing bytes are zeros. -/
theorem C216_bls_lengths (b t : List UInt8) (k : ℕ) :
    (b.length = 48 → g1Dec (b ++ t) = g1Dec b) ∧ (b.length = 96 → g1DecU (b ++ t) = g1DecU b) ∧
    (b.length = 96 → g2Dec (b ++ t) = g2Dec b) ∧ (b.length = 192 → g2DecU (b ++ t) = g2DecU b) ∧
    (b.length + k = 48 → g1Dec (b ++ List.replicate k 0) = g1Dec b) ∧ (b.length + k = 96 → g1DecU (b ++ List.replicate k 0) = g1DecU b) ∧
    (b.length + k = 96 → g2Dec (b ++ List.replicate k 0) = g2Dec b) ∧ (b.length + k = 192 → g2DecU (b ++ List.replicate k 0) = g2DecU b) := by
  have hz : ∀ n, b.length + k = n → fit n (b ++ List.replicate k 0) = fit n b := by
    intro n h
    rw [fit_zeros h, fit_self (by simpa using h)]
  refine ⟨fun h => ?_, fun h => ?_, fun h => ?_, fun h => ?_, fun h => ?_, fun h => ?_, fun h => ?_, fun h => ?_⟩
  · rw [g1Dec, g1Dec, fit_append h, fit_self h]
  · rw [g1DecU, g1DecU, fit_append h, fit_self h]
  · rw [g2Dec, g2Dec, fit_append h, fit_self h]
  · rw [g2DecU, g2DecU, fit_append h, fit_self h]
  · rw [g1Dec, g1Dec, hz 48 h]
  · rw [g1DecU, g1DecU, hz 96 h]
  · rw [g2Dec, g2Dec, hz 96 h]
  · rw [g2DecU, g2DecU, hz 192 h]

/-- one byte is an encoding of the identity -/
example : g1Dec [0xC0] = .ok gIdentity ∧ g2Dec [0xC0] = .ok gIdentity ∧ g1DecU [0x40] = .ok gIdentity ∧ g2DecU [0x40] = .ok gIdentity :=
  ⟨((C157_flags 0xC0 _).1 (by decide)).1, ((C157_flags 0xC0 _).1 (by decide)).2, ((C157_flags 0x40 _).2.1 (by decide)).1,
    ((C157_flags 0x40 _).2.1 (by decide)).2⟩

/-- C216: `Set` of `X` and `Y` gives the point back, for both groups (`BigInt` of the native points of the second group does not, C158). -/
theorem C216_bls_coordinates :
    (∀ {p : Proj Fq} {P : E1}, GRep p P → blsr • P = 0 → ∃ q, g1SetBigInt (g1XY p).1 (g1XY p).2 = .ok q ∧ GRep q P) ∧
    (∀ {p : Proj (Fp2 Fq)} {P : E2}, GRep p P → blsr • P = 0 → ∃ q, g2SetBigInt (g2XY p).1 (g2XY p).2 = .ok q ∧ GRep q P) :=
  ⟨C158_g1_roundtrip, C158_g2_setBigInt⟩

/-- C216: `ToEllipticCurve` knows exactly two names, those of secp256k1 and P-256. -/
theorem C216_toEllipticCurve (n : List UInt8) (c : CurveId) :
    toEllipticCurve n = .ok c ↔ n = c.name ∧ (c = .k256 ∨ c = .p256) := by
  unfold toEllipticCurve
  constructor
  · intro e
    split_ifs at e with h1 h2
    · obtain rfl := Except.ok.inj e
      exact ⟨h1, .inl rfl⟩
    · obtain rfl := Except.ok.inj e
      exact ⟨h2, .inr rfl⟩
  · rintro ⟨rfl, rfl | rfl⟩
    · exact if_pos rfl
    · rw [show CurveId.p256.name = ascii "P-256" from rfl, if_neg (by decide)]
      exact if_pos rfl
example : toEllipticCurve (ascii "BLS12381G1") = Go.err := by decide

example : scalarBaseMultPairing g1 .foreign = Go.crash ∧ scalarBaseMult g1 .foreign = none := ⟨rfl, rfl⟩

end Verif.Curves.Pt
