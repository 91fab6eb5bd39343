import Verif.Bls381.GCodec

/-!
# The points of BLS12-381 and their encodings (C155 to C158)

`E1` is the curve `y² = x³ + 4` over the residues modulo `p`, `E2` the curve `y² = x³ + 4 (1 + u)` over `fp2`,
with the group law of `WeierstrassCurve.Affine.Point`. `GRep p P` says that the coordinates `p` represent the
point `P`: `p = (z x, z y, z)` with `z ≠ 0` for the point `(x, y)`, and `p = (0, y, 0)` with `y ≠ 0` for the
identity.
-/

set_option linter.unusedSectionVars false
set_option exponentiation.threshold 5000

namespace Verif.Bls381

open Verif.Primes Verif.Native WeierstrassCurve.Affine

/-! ## C155: the group law -/

theorem C155_g1_add {p q : Proj Fq} {P Q : E1} (hp : GRep p P) (hq : GRep q Q) :
    GRep (gAdd mulBy3b1 p q) (P + Q) := gRep_add g1Ok hp hq

theorem C155_g1_double {p : Proj Fq} {P : E1} (hp : GRep p P) : GRep (gDouble mulBy3b1 p) (P + P) :=
  gRep_double g1Ok hp

theorem C155_g1_neg_sub {p q : Proj Fq} {P Q : E1} (hp : GRep p P) (hq : GRep q Q) :
    GRep (gNeg p) (-P) ∧ GRep (gSub mulBy3b1 p q) (P - Q) := ⟨gRep_neg hp, gRep_sub g1Ok hp hq⟩

theorem C155_g2_add {p q : Proj (Fp2 Fq)} {P Q : E2} (hp : GRep p P) (hq : GRep q Q) :
    GRep (gAdd mulBy3b2 p q) (P + Q) := gRep_add g2Ok hp hq

theorem C155_g2_double {p : Proj (Fp2 Fq)} {P : E2} (hp : GRep p P) : GRep (gDouble mulBy3b2 p) (P + P) :=
  gRep_double g2Ok hp

theorem C155_g2_neg_sub {p q : Proj (Fp2 Fq)} {P Q : E2} (hp : GRep p P) (hq : GRep q Q) :
    GRep (gNeg p) (-P) ∧ GRep (gSub mulBy3b2 p q) (P - Q) := ⟨gRep_neg hp, gRep_sub g2Ok hp hq⟩

/-- `Identity`, `IsIdentity`, `Equal` and `IsOnCurve` of `G1` -/
theorem C155_g1_predicates :
    GRep (gIdentity : Proj Fq) (0 : E1) ∧
      (∀ {p : Proj Fq} {P : E1}, GRep p P → (p.z = 0 ↔ P = 0)) ∧
      (∀ {p q : Proj Fq} {P Q : E1}, GRep p P → GRep q Q → (gEqual p q = true ↔ P = Q)) ∧
      ∀ p : Proj Fq, p ≠ ⟨0, 0, 0⟩ → (gIsOnCurve curveG1B p = true ↔ ∃ P : E1, GRep p P) :=
  ⟨gRep_identity, fun h => h.z_eq_zero, gEqual_iff, gIsOnCurve_iff g1Ok⟩

theorem C155_g2_predicates :
    GRep (gIdentity : Proj (Fp2 Fq)) (0 : E2) ∧
      (∀ {p : Proj (Fp2 Fq)} {P : E2}, GRep p P → (p.z = 0 ↔ P = 0)) ∧
      (∀ {p q : Proj (Fp2 Fq)} {P Q : E2}, GRep p P → GRep q Q → (gEqual p q = true ↔ P = Q)) ∧
      ∀ p : Proj (Fp2 Fq), p ≠ ⟨0, 0, 0⟩ → (gIsOnCurve curveG2B p = true ↔ ∃ P : E2, GRep p P) :=
  ⟨gRep_identity, fun h => h.z_eq_zero, gEqual_iff, gIsOnCurve_iff g2Ok⟩

/-- `ToAffine` of a point other than the identity gives its affine coordinates; of the identity it gives the
zero value of the struct, which represents no point although `IsIdentity`, `IsOnCurve` and
`Equal` with the identity accept it: every sum with it is again the zero value, for both curves -/
theorem C155_zero_value :
    gToAffine (gIdentity : Proj Fq) = ⟨0, 0, 0⟩ ∧ gToAffine (gIdentity : Proj (Fp2 Fq)) = ⟨0, 0, 0⟩ ∧
      gIsOnCurve curveG1B ⟨0, 0, 0⟩ = true ∧ gEqual (⟨0, 0, 0⟩ : Proj Fq) gIdentity = true ∧
      (∀ P : E1, ¬ GRep (⟨0, 0, 0⟩ : Proj Fq) P) ∧
      (∀ q : Proj Fq, gAdd mulBy3b1 ⟨0, 0, 0⟩ q = ⟨0, 0, 0⟩ ∧ gAdd mulBy3b1 q ⟨0, 0, 0⟩ = ⟨0, 0, 0⟩) ∧
      ∀ q : Proj (Fp2 Fq), gAdd mulBy3b2 ⟨0, 0, 0⟩ q = ⟨0, 0, 0⟩ ∧ gAdd mulBy3b2 q ⟨0, 0, 0⟩ = ⟨0, 0, 0⟩ := by
  refine ⟨by simp [gToAffine, gIdentity, sel], by simp [gToAffine, gIdentity, sel], by simp [gIsOnCurve],
    by simp [gEqual, gIdentity], fun P h => ?_, gAdd_zeroValue g1Ok, gAdd_zeroValue g2Ok⟩
  exact h.y_ne g1Ok rfl

/-- `ToAffine` of a point `(x, y)` -/
theorem C155_toAffine_g1 {p : Proj Fq} {x y : Fq} {hn} (hp : GRep p (Point.some x y hn : E1)) :
    gToAffine p = ⟨x, y, 1⟩ := by
  rcases gToAffine_rep hp with ⟨h, -⟩ | ⟨x', y', hn', h, ha⟩
  · cases h
  · obtain ⟨rfl, rfl⟩ := (Point.some.injEq _ _ _ _ _ _).mp h
    exact ha

theorem C155_toAffine_g2 {p : Proj (Fp2 Fq)} {x y : Fp2 Fq} {hn} (hp : GRep p (Point.some x y hn : E2)) :
    gToAffine p = ⟨x, y, 1⟩ := by
  rcases gToAffine_rep hp with ⟨h, -⟩ | ⟨x', y', hn', h, ha⟩
  · cases h
  · obtain ⟨rfl, rfl⟩ := (Point.some.injEq _ _ _ _ _ _).mp h
    exact ha

/-! the generators are points -/

def g1GenX : ℕ := 0x17f1d3a73197d7942695638c4fa9ac0fc3688c4f9774b905a14e3a3f171bac586c55e83ff97a1aeffb3af00adb22c6bb
def g1GenY : ℕ := 0x08b3f481e3aaa0f1a09e30ed741d8ae4fcf5e095d5d00af600db18cb2c04b3edd03cc744a2888ae40caa232946c5e7e1
def g2GenXA : ℕ := 0x024aa2b2f08f0a91260805272dc51051c6e47ad4fa403b02b4510b647ae3d1770bac0326a805bbefd48056c8c121bdb8
def g2GenXB : ℕ := 0x13e02b6052719f607dacd3a088274f65596bd0d09920b61ab5da61bbdc7f5049334cf11213945d57e5ac7d055d042b7e
def g2GenYA : ℕ := 0x0ce5d527727d6e118cc9cdc6da2e351aadfd9baa8cbdd3a76d429a695160d12c923ac9cc3baca289e193548608b82801
def g2GenYB : ℕ := 0x0606c4a02ea734cc32acd2b02bc28b99cb3e287e85a763af267492ab572e99ab3f370d275cec1da1aaa9075ff05f79be

theorem g1Generator_eq : g1Generator = ⟨(g1GenX : Fq), (g1GenY : Fq), 1⟩ := by
  rw [g1Generator, const_num (n := g1GenX) (by decide +kernel), const_num (n := g1GenY) (by decide +kernel)]

theorem g2Generator_eq : g2Generator = ⟨⟨(g2GenXA : Fq), (g2GenXB : Fq)⟩, ⟨(g2GenYA : Fq), (g2GenYB : Fq)⟩, 1⟩ := by
  rw [g2Generator, const_num (n := g2GenXA) (by decide +kernel), const_num (n := g2GenXB) (by decide +kernel),
    const_num (n := g2GenYA) (by decide +kernel), const_num (n := g2GenYB) (by decide +kernel)]

theorem C155_generators : (∃ G : E1, GRep g1Generator G ∧ G ≠ 0) ∧ ∃ G : E2, GRep g2Generator G ∧ G ≠ 0 := by
  constructor
  · have h0 : g1Generator.z = 1 := rfl
    have h1 : gIsOnCurve curveG1B g1Generator = true := by
      rw [g1Generator_eq, curveG1B_eq]; decide +kernel
    obtain ⟨P, hP⟩ := (gIsOnCurve_iff g1Ok _ (fun h => by
      rw [h] at h0; exact absurd h0 (by decide +kernel))).1 h1
    exact ⟨P, hP, fun h => by
      have := hP.z_eq_zero.2 h; rw [h0] at this; exact absurd this one_ne_zero⟩
  · have h0 : g2Generator.z = 1 := rfl
    have h1 : gIsOnCurve curveG2B g2Generator = true := by
      rw [g2Generator_eq, curveG2B_eq]; decide +kernel
    obtain ⟨P, hP⟩ := (gIsOnCurve_iff g2Ok _ (fun h => by
      rw [h] at h0; exact absurd h0.symm one_ne_zero)).1 h1
    exact ⟨P, hP, fun h => by
      have := hP.z_eq_zero.2 h; rw [h0] at this; exact absurd this one_ne_zero⟩

example : ∃ G : E1, GRep (gAdd mulBy3b1 g1Generator (gDouble mulBy3b1 g1Generator)) (G + (G + G)) ∧ G ≠ 0 := by
  obtain ⟨G, h, h0⟩ := C155_generators.1
  exact ⟨G, C155_g1_add h (C155_g1_double h), h0⟩

/-- the formulas are used on doublings, inverses and the identity alike -/
example : ∃ G : E2, GRep (gAdd mulBy3b2 g2Generator g2Generator) (G + G) ∧
    GRep (gAdd mulBy3b2 g2Generator (gNeg g2Generator)) (0 : E2) := by
  obtain ⟨G, h, -⟩ := C155_generators.2
  exact ⟨G, C155_g2_add h h, by simpa using C155_g2_add h (C155_g2_neg_sub h h).1⟩

example : gAdd mulBy3b1 (gToAffine gIdentity) g1Generator ≠ g1Generator := by
  rw [C155_zero_value.1, (C155_zero_value.2.2.2.2.2.1 _).1]
  intro h
  have : (0 : Fq) = 1 := congrArg Proj.z h
  exact absurd this (by decide +kernel)

/-! ## C156: multiples, sums of products, the subgroup test -/

/-- `Mul`: the scalar is the 32 bytes `fq.Bytes` gives, least significant first -/
theorem C156_g1_mul {p : Proj Fq} {P : E1} (hp : GRep p P) {bytes : List UInt8} (hl : bytes.length = 32) :
    GRep (gMultiply mulBy3b1 p bytes) (leNat bytes • P) := gRep_multiply g1Ok hp hl

theorem C156_g2_mul {p : Proj (Fp2 Fq)} {P : E2} (hp : GRep p P) {bytes : List UInt8}
    (hl : bytes.length = 32) : GRep (gMultiply mulBy3b2 p bytes) (leNat bytes • P) := gRep_multiply g2Ok hp hl

theorem C156_g1_sumOfProducts {points : List (Proj Fq)} {Ps : List E1} (hp : List.Forall₂ GRep points Ps)
    (scalars : List (List UInt8)) (hlen : points.length = scalars.length) (h32 : ∀ s ∈ scalars, s.length = 32) :
    ∃ r, gSumOfProducts mulBy3b1 points scalars = .ok r ∧
      GRep r (List.zipWith (fun s P => leNat s • P) scalars Ps).sum := by
  obtain ⟨r, h1, h2⟩ := C51_sumOfProducts (gImplements g1Ok) hp scalars hlen h32
  refine ⟨r, h1, ?_⟩
  rw [linComb, List.zipWith_map_left] at h2
  simpa using h2

theorem C156_g2_sumOfProducts {points : List (Proj (Fp2 Fq))} {Ps : List E2}
    (hp : List.Forall₂ GRep points Ps)
    (scalars : List (List UInt8)) (hlen : points.length = scalars.length) (h32 : ∀ s ∈ scalars, s.length = 32) :
    ∃ r, gSumOfProducts mulBy3b2 points scalars = .ok r ∧
      GRep r (List.zipWith (fun s P => leNat s • P) scalars Ps).sum := by
  obtain ⟨r, h1, h2⟩ := C51_sumOfProducts (gImplements g2Ok) hp scalars hlen h32
  refine ⟨r, h1, ?_⟩
  rw [linComb, List.zipWith_map_left] at h2
  simpa using h2

/-- `SumOfProducts` refuses lists of different lengths -/
theorem C156_sumOfProducts_length (points : List (Proj Fq)) (scalars : List (List UInt8))
    (h : points.length ≠ scalars.length) : gSumOfProducts mulBy3b1 points scalars = Go.err := by
  unfold gSumOfProducts sumOfProducts
  rw [Go.guard_false h]; rfl

/-- `MulByX` multiplies by the negative parameter of the curve -/
theorem C156_mulByX : (∀ {p : Proj Fq} {P : E1}, GRep p P →
      GRep (gMulByX mulBy3b1 p) ((-0xd201000000010000 : ℤ) • P)) ∧
    ∀ {p : Proj (Fp2 Fq)} {P : E2}, GRep p P → GRep (gMulByX mulBy3b2 p) ((-0xd201000000010000 : ℤ) • P) :=
  ⟨gRep_mulByX g1Ok, gRep_mulByX g2Ok⟩

/-- `G1.ClearCofactor` multiplies by `1 - x` -/
theorem C156_g1_clearCofactor {p : Proj Fq} {P : E1} (hp : GRep p P) :
    GRep (g1ClearCofactor p) (0xd201000000010001 • P) := by
  have := gRep_sub g1Ok hp (gRep_mulByX g1Ok hp)
  rw [show P - (-0xd201000000010000 : ℤ) • P = 0xd201000000010001 • P by
    rw [← natCast_zsmul, neg_zsmul, sub_neg_eq_add, ← one_add_zsmul]; rfl] at this
  exact this

/-- `InCorrectSubgroup` decides membership in the `r`-torsion -/
theorem C156_inSubgroup : (∀ {p : Proj Fq} {P : E1}, GRep p P → (gInSubgroup mulBy3b1 p = true ↔ blsr • P = 0)) ∧
    ∀ {p : Proj (Fp2 Fq)} {P : E2}, GRep p P → (gInSubgroup mulBy3b2 p = true ↔ blsr • P = 0) :=
  ⟨gInSubgroup_iff g1Ok, gInSubgroup_iff g2Ok⟩

example : ∃ G : E1, GRep (gMultiply mulBy3b1 g1Generator (3 :: 1 :: List.replicate 30 0)) (259 • G) := by
  obtain ⟨G, h, -⟩ := C155_generators.1
  exact ⟨G, C156_g1_mul h (by decide)⟩

example : ∃ G : E2, ∃ r, gSumOfProducts mulBy3b2 [g2Generator, gIdentity]
    [List.replicate 32 0xff, 1 :: List.replicate 31 0] = .ok r ∧ GRep r ((256 ^ 32 - 1) • G + (1 • 0 + 0)) := by
  obtain ⟨G, h, -⟩ := C155_generators.2
  obtain ⟨r, h1, h2⟩ := C156_g2_sumOfProducts (points := [g2Generator, gIdentity]) (Ps := [G, 0])
    (.cons h (.cons gRep_identity .nil)) [List.replicate 32 0xff, 1 :: List.replicate 31 0] rfl (by decide)
  refine ⟨G, r, h1, ?_⟩
  rw [show (256 ^ 32 - 1 : ℕ) = leNat (List.replicate 32 0xff) by decide]
  exact h2

/-! ## C157: encodings -/

/-- what `G1` encodes with -/
def codec1 : PtCodec Fq := ⟨48, fpBE, fpSetBE 0, lexLargest1, fun a => sqrt1 a a⟩

/-- what `G2` encodes with: the coefficient of `u` first -/
def codec2 : PtCodec (Fp2 Fq) where
  len := 96
  enc x := fpBE x.B ++ fpBE x.A
  dec l := (⟨(fpSetBE 0 (l.drop 48)).1, (fpSetBE 0 (l.take 48)).1⟩,
    (fpSetBE 0 (l.drop 48)).2 && (fpSetBE 0 (l.take 48)).2)
  lex := lexLargest2
  sqrt a := fp2Sqrt a a

theorem beNat_cons (b : UInt8) (bs : List UInt8) : beNat (b :: bs) = b.toNat * 256 ^ bs.length + beNat bs := by
  rw [beNat_eq_leNat_reverse, beNat_eq_leNat_reverse, List.reverse_cons, leNat_append, List.length_reverse,
    show leNat [b] = b.toNat by simp [leNat]]
  ring

theorem beNat_append (a b : List UInt8) : beNat (a ++ b) = beNat a * 256 ^ b.length + beNat b := by
  induction a with
  | nil => simp [beNat]
  | cons x xs ih => rw [List.cons_append, beNat_cons, ih, beNat_cons, List.length_append, pow_add]; ring

theorem beNat_fpBE (x : Fq) : beNat (fpBE x) = x.val :=
  beNat_beBytes 48 _ ((ZMod.val_lt x).trans blsp_lt_384)

theorem fpBE_head (x : Fq) : ∃ h t, fpBE x = h :: t ∧ h < 0x20 := by
  have hl := fpBE_length x
  have hv := beNat_fpBE x
  rcases hb : fpBE x with _ | ⟨h, t⟩
  · rw [hb] at hl; cases hl
  · refine ⟨h, t, rfl, ?_⟩
    rw [hb] at hl hv
    rw [beNat_cons] at hv
    have ht : t.length = 47 := by simpa using hl
    rw [ht] at hv
    have hlt := ZMod.val_lt x
    have hp : blsp < 32 * 256 ^ 47 := by decide +kernel
    rw [UInt8.lt_iff_toNat_lt]
    by_contra hge
    have : 32 ≤ h.toNat := by simpa using hge
    have := Nat.mul_le_mul_right (256 ^ 47) this
    omega

theorem fpBE_zero : fpBE 0 = List.replicate 48 0 := by decide +kernel

attribute [local irreducible] fpBE fpSetBE sqrt1 lexLargest1 lexLargest2 fp2Sqrt gInSubgroup gIsOnCurve gToAffine

theorem lex1_iff (y : Fq) : lexLargest1 y = true ↔ (blsp - 1) / 2 < y.val := by
  have h := (C150_signs_iff ⟨y, 0⟩).1
  simpa [lexLargest2, lex1_zero] using h

theorem codec1_lawful : codec1.Lawful where
  enc_len := fpBE_length
  enc_head := fpBE_head
  dec_enc := fpSetBE_fpBE 0
  enc_dec _ hl h := fpBE_fpSetBE hl h
  lex_neg _ h := lex1_neg h
  sqrt_iff a := (sqrt1_spec a a).1
  sqrt_eq a := (sqrt1_spec a a).2.1
  enc_zero := fpBE_zero

theorem codec2_lawful : codec2.Lawful where
  enc_len x := by simp [codec2, fpBE_length]
  enc_head x := by
    obtain ⟨h, t, e, hl⟩ := fpBE_head x.B
    exact ⟨h, t ++ fpBE x.A, by simp [codec2, e], hl⟩
  dec_enc x := by
    simp only [codec2, List.drop_left' (fpBE_length x.B), List.take_left' (fpBE_length x.B), fpSetBE_fpBE]
    rfl
  enc_dec l hl h := by
    have hl : l.length = 96 := hl
    simp only [codec2, Bool.and_eq_true] at h ⊢
    rw [fpBE_fpSetBE (by rw [List.length_take]; omega) h.2, fpBE_fpSetBE (by rw [List.length_drop]; omega) h.1,
      List.take_append_drop]
  lex_neg y h := (C150_signs h).1
  sqrt_iff a := by
    refine (C150_sqrt a a).1.trans ⟨fun ⟨y, h⟩ => ⟨y, h.symm⟩, fun ⟨y, h⟩ => ⟨y, h.symm⟩⟩
  sqrt_eq a := (C150_sqrt a a).2.1
  enc_zero := by
    show fpBE 0 ++ fpBE 0 = _
    rw [fpBE_zero]; rfl

theorem g1To_eq (p : Proj Fq) : g1ToCompressed p = cTo codec1 p := rfl
theorem g1UTo_eq (p : Proj Fq) : g1ToUncompressed p = cUTo codec1 p := rfl
theorem g1From_eq (l : List UInt8) : g1FromCompressed l = cFrom codec1 curveG1B mulBy3b1 l := rfl
theorem g1UFrom_eq (l : List UInt8) : g1FromUncompressed l = cUFrom codec1 curveG1B mulBy3b1 l := rfl
theorem g2To_eq (p : Proj (Fp2 Fq)) : g2ToCompressed p = cTo codec2 p := rfl

theorem maskHead_take (l : List UInt8) (n : ℕ) : maskHead (l.take (n + 1)) = (maskHead l).take (n + 1) := by
  cases l <;> rfl

theorem maskHead_drop (l : List UInt8) (n : ℕ) : l.drop (n + 1) = (maskHead l).drop (n + 1) := by
  cases l <;> rfl

theorem g2UTo_eq (p : Proj (Fp2 Fq)) : g2ToUncompressed p = cUTo codec2 p := by
  simp only [g2ToUncompressed, cUTo, codec2, List.append_assoc]

theorem g2From_eq (l : List UInt8) : g2FromCompressed l = cFrom codec2 curveG2B mulBy3b2 l := by
  have h1 : maskHead (l.take 48) = (maskHead l).take 48 := maskHead_take l 47
  have h2 : l.drop 48 = (maskHead l).drop 48 := maskHead_drop l 47
  unfold g2FromCompressed cFrom
  dsimp only [codec2]
  rw [h1, h2]
  generalize fpSetBE 0 ((maskHead l).drop 48) = xA
  generalize fpSetBE 0 ((maskHead l).take 48) = xB
  generalize gInSubgroup mulBy3b2 = sub
  generalize fp2Sqrt = sq
  generalize curveG2B = b
  rfl

theorem guard_and {α : Type} (a b : Bool) (k : Go α) :
    (do Go.guard (a = true); Go.guard (b = true); k) = (do Go.guard ((b && a) = true); k) := by
  cases a <;> cases b <;> rfl

theorem g2UFrom_eq (l : List UInt8) : g2FromUncompressed l = cUFrom codec2 curveG2B mulBy3b2 l := by
  have h1 : (maskHead (l.take 96)).drop 48 = (l.drop 48).take 48 := by
    rw [← maskHead_drop _ 47, List.drop_take]
  have h2 : (maskHead (l.take 96)).take 48 = maskHead (l.take 48) := by
    rw [← maskHead_take _ 47, List.take_take]; rfl
  have h3 : (l.drop 96).drop 48 = l.drop 144 := by rw [List.drop_drop]
  unfold g2FromUncompressed cUFrom
  dsimp only [codec2]
  rw [h1, h2, h3]
  generalize gInSubgroup mulBy3b2 = sub
  generalize gIsOnCurve curveG2B = onc
  split
  · rfl
  · generalize fpSetBE 0 (maskHead (l.take 48)) = xB
    generalize fpSetBE 0 ((l.drop 48).take 48) = xA
    generalize fpSetBE 0 ((l.drop 96).take 48) = yB
    generalize fpSetBE 0 (l.drop 144) = yA
    rw [guard_and xB.2 xA.2, ← guard_and yB.2 yA.2]

/-- the round trip: encoding a point of the subgroup and decoding gives coordinates of the same point -/
theorem C157_g1_roundtrip {p : Proj Fq} {P : E1} (hp : GRep p P) (hr : blsr • P = 0) :
    (∃ q, g1FromCompressed (g1ToCompressed p) = .ok q ∧ GRep q P) ∧
      ∃ q, g1FromUncompressed (g1ToUncompressed p) = .ok q ∧ GRep q P := by
  have hq : GRep (if p.z = 0 then gIdentity else gToAffine p) P := by
    split
    · rename_i h; rw [hp.z_eq_zero.1 h]; exact gRep_identity
    · rename_i h
      rcases gToAffine_rep hp with ⟨h0, -⟩ | ⟨x, y, hn, rfl, ha⟩
      · exact absurd (hp.z_eq_zero.2 h0) h
      · rw [ha]; exact gRep_some.2 ⟨one_ne_zero, by simp, by simp⟩
  exact ⟨⟨_, cFrom_cTo codec1_lawful g1Ok hp hr, hq⟩, ⟨_, cUFrom_cUTo codec1_lawful g1Ok hp hr, hq⟩⟩

theorem C157_g2_roundtrip {p : Proj (Fp2 Fq)} {P : E2} (hp : GRep p P) (hr : blsr • P = 0) :
    (∃ q, g2FromCompressed (g2ToCompressed p) = .ok q ∧ GRep q P) ∧
      ∃ q, g2FromUncompressed (g2ToUncompressed p) = .ok q ∧ GRep q P := by
  have hq : GRep (if p.z = 0 then gIdentity else gToAffine p) P := by
    split
    · rename_i h; rw [hp.z_eq_zero.1 h]; exact gRep_identity
    · rename_i h
      rcases gToAffine_rep hp with ⟨h0, -⟩ | ⟨x, y, hn, rfl, ha⟩
      · exact absurd (hp.z_eq_zero.2 h0) h
      · rw [ha]; exact gRep_some.2 ⟨one_ne_zero, by simp, by simp⟩
  rw [g2From_eq, g2To_eq, g2UFrom_eq, g2UTo_eq]
  exact ⟨⟨_, cFrom_cTo codec2_lawful g2Ok hp hr, hq⟩, ⟨_, cUFrom_cUTo codec2_lawful g2Ok hp hr, hq⟩⟩

/-- the encodings of two sets of coordinates agree exactly if they represent the same point -/
theorem C157_g1_injective {p q : Proj Fq} {P Q : E1} (hp : GRep p P) (hq : GRep q Q) :
    (g1ToCompressed p = g1ToCompressed q ↔ P = Q) ∧ (g1ToUncompressed p = g1ToUncompressed q ↔ P = Q) :=
  ⟨cTo_injective codec1_lawful g1Ok hp hq, cUTo_injective codec1_lawful hp hq⟩

theorem C157_g2_injective {p q : Proj (Fp2 Fq)} {P Q : E2} (hp : GRep p P) (hq : GRep q Q) :
    (g2ToCompressed p = g2ToCompressed q ↔ P = Q) ∧ (g2ToUncompressed p = g2ToUncompressed q ↔ P = Q) := by
  rw [g2To_eq, g2To_eq, g2UTo_eq, g2UTo_eq]
  exact ⟨cTo_injective codec2_lawful g2Ok hp hq, cUTo_injective codec2_lawful hp hq⟩

/-- whatever is accepted is a point of the subgroup; without the infinity bit the accepted compressed
encoding is the only one of its point -/
theorem C157_g1_accepted {l : List UInt8} {q : Proj Fq} (hl : l.length = 48) (hq : g1FromCompressed l = .ok q) :
    (∃ P : E1, GRep q P ∧ blsr • P = 0) ∧ ((l.headD 0 >>> 6) &&& 1 ≠ 1 → g1ToCompressed q = l) :=
  (cFrom_ok codec1_lawful g1Ok hq).imp_right fun h => h hl

theorem C157_g2_accepted {l : List UInt8} {q : Proj (Fp2 Fq)} (hl : l.length = 96)
    (hq : g2FromCompressed l = .ok q) :
    (∃ P : E2, GRep q P ∧ blsr • P = 0) ∧ ((l.headD 0 >>> 6) &&& 1 ≠ 1 → g2ToCompressed q = l) := by
  rw [g2From_eq] at hq
  exact (cFrom_ok codec2_lawful g2Ok hq).imp_right fun h => h hl

/-- an accepted uncompressed encoding without the infinity bit is the one of its point with the three flag
bits cleared -/
theorem C157_g1_accepted_uncompressed {l : List UInt8} {q : Proj Fq} (hl : l.length = 96)
    (hq : g1FromUncompressed l = .ok q) :
    (∃ P : E1, GRep q P ∧ blsr • P = 0) ∧
      ((l.headD 0 >>> 6) &&& 1 ≠ 1 → g1ToUncompressed q = (l.headD 0 &&& 0x1F) :: l.drop 1) := by
  have := cUFrom_ok codec1_lawful g1Ok hq
  refine this.imp_right fun h h6 => (h hl h6).trans ?_
  cases l with
  | nil => cases hl
  | cons => rfl

theorem C157_g2_accepted_uncompressed {l : List UInt8} {q : Proj (Fp2 Fq)} (hl : l.length = 192)
    (hq : g2FromUncompressed l = .ok q) :
    (∃ P : E2, GRep q P ∧ blsr • P = 0) ∧
      ((l.headD 0 >>> 6) &&& 1 ≠ 1 → g2ToUncompressed q = (l.headD 0 &&& 0x1F) :: l.drop 1) := by
  rw [g2UFrom_eq] at hq
  have := cUFrom_ok codec2_lawful g2Ok hq
  refine this.imp_right fun h h6 => ?_
  rw [g2UTo_eq]
  refine (h hl h6).trans ?_
  cases l with
  | nil => cases hl
  | cons => rfl

theorem or_flags : ∀ b : UInt8, b < 0x20 → ∀ s : Bool,
    (b ||| 0x80 ||| 0 ||| (if s then (0x20 : UInt8) else 0)).toNat = b.toNat + 128 + (if s then 32 else 0) := by
  decide +kernel

/-- the format: the abscissa in big-endian order with the three flags in the top bits -/
theorem C157_g1_format {p : Proj Fq} : (GRep p (0 : E1) →
      beNat (g1ToCompressed p) = 2 ^ 383 + 2 ^ 382 ∧ beNat (g1ToUncompressed p) = 2 ^ 766) ∧
    ∀ {x y : Fq} {hn}, GRep p (Point.some x y hn : E1) →
      beNat (g1ToCompressed p) = 2 ^ 383 + (if (blsp - 1) / 2 < y.val then 2 ^ 381 else 0) + x.val ∧
      beNat (g1ToUncompressed p) = x.val * 2 ^ 384 + y.val := by
  constructor
  · intro hp
    have hz := hp.z_eq_zero.2 rfl
    constructor
    · obtain ⟨t, h1, h2⟩ := cTo_zero codec1_lawful hz
      rw [g1To_eq, h2]
      have h3 : fpBE 0 = 0 :: t := h1
      rw [fpBE_zero] at h3
      rw [(List.cons.inj h3).2.symm]
      decide +kernel
    · obtain ⟨t, h1, h2⟩ := cUTo_zero codec1_lawful hz
      rw [g1UTo_eq, h1, (List.cons.inj (h2.trans (List.replicate_succ (n := 95)))).2]
      decide +kernel
  · intro x y hn hp
    have ha := C155_toAffine_g1 hp
    have hz := (gRep_some.1 hp).1
    constructor
    · obtain ⟨hd, t, he, hlt, ht⟩ := cTo_some codec1_lawful hz ha
      have he : fpBE x = hd :: t := he
      have hlen : t.length = 47 := by
        have := fpBE_length x
        rw [he] at this
        simpa using this
      have hv := beNat_fpBE x
      rw [he, beNat_cons, hlen] at hv
      rw [g1To_eq, ht, beNat_cons, or_flags hd hlt, ← hv, hlen]
      have hlx : (codec1.lex y = true) ↔ (blsp - 1) / 2 < y.val := by
        exact lex1_iff y
      simp only [hlx]
      have e1 : (2 : ℕ) ^ 383 = 128 * 256 ^ 47 := by norm_num
      have e2 : (2 : ℕ) ^ 381 = 32 * 256 ^ 47 := by norm_num
      rw [e1, e2]
      split <;> ring
    · rw [g1UTo_eq, cUTo_some hz ha]
      show beNat (fpBE x ++ fpBE y) = _
      rw [beNat_append, fpBE_length, beNat_fpBE, beNat_fpBE, show 256 ^ 48 = 2 ^ 384 by norm_num]

theorem C157_g2_format {p : Proj (Fp2 Fq)} : (GRep p (0 : E2) →
      beNat (g2ToCompressed p) = 2 ^ 767 + 2 ^ 766 ∧ beNat (g2ToUncompressed p) = 2 ^ 1534) ∧
    ∀ {x y : Fp2 Fq} {hn}, GRep p (Point.some x y hn : E2) →
      beNat (g2ToCompressed p) = 2 ^ 767 +
        (if (blsp - 1) / 2 < y.B.val ∨ y.B = 0 ∧ (blsp - 1) / 2 < y.A.val then 2 ^ 765 else 0) +
        x.B.val * 2 ^ 384 + x.A.val ∧
      beNat (g2ToUncompressed p) = x.B.val * 2 ^ 1152 + x.A.val * 2 ^ 768 + y.B.val * 2 ^ 384 + y.A.val := by
  have hcat : ∀ x : Fp2 Fq, beNat (fpBE x.B ++ fpBE x.A) = x.B.val * 2 ^ 384 + x.A.val := by
    intro x
    rw [beNat_append, fpBE_length, beNat_fpBE, beNat_fpBE, show 256 ^ 48 = 2 ^ 384 by norm_num]
  constructor
  · intro hp
    have hz := hp.z_eq_zero.2 rfl
    constructor
    · obtain ⟨t, h1, h2⟩ := cTo_zero codec2_lawful hz
      rw [g2To_eq, h2]
      have h3 : List.replicate 96 0 = 0 :: t := codec2_lawful.enc_zero.symm.trans h1
      rw [(List.cons.inj h3).2.symm]
      decide +kernel
    · obtain ⟨t, h1, h2⟩ := cUTo_zero codec2_lawful hz
      rw [g2UTo_eq, h1, (List.cons.inj (h2.trans (List.replicate_succ (n := 191)))).2]
      decide +kernel
  · intro x y hn hp
    have ha := C155_toAffine_g2 hp
    have hz := (gRep_some.1 hp).1
    constructor
    · obtain ⟨hd, t, he, hlt, ht⟩ := cTo_some codec2_lawful hz ha
      have he : fpBE x.B ++ fpBE x.A = hd :: t := he
      have hlen : t.length = 95 := by
        have : (fpBE x.B ++ fpBE x.A).length = 96 := codec2_lawful.enc_len x
        rw [he] at this
        simpa using this
      have hv := hcat x
      rw [he, beNat_cons, hlen] at hv
      have hlx : (codec2.lex y = true) ↔ _ := (C150_signs_iff y).1
      rw [g2To_eq, ht, beNat_cons, or_flags hd hlt, add_assoc (_ + _), ← hv, hlen]
      simp only [hlx]
      have e1 : (2 : ℕ) ^ 767 = 128 * 256 ^ 95 := by norm_num
      have e2 : (2 : ℕ) ^ 765 = 32 * 256 ^ 95 := by norm_num
      rw [e1, e2]
      split <;> ring
    · rw [g2UTo_eq, cUTo_some hz ha]
      show beNat ((fpBE x.B ++ fpBE x.A) ++ (fpBE y.B ++ fpBE y.A)) = _
      rw [beNat_append, hcat, hcat, List.length_append, fpBE_length, fpBE_length,
        show 256 ^ (48 + 48) = 2 ^ 768 by norm_num]
      ring

/-- the flag bits are not checked: any input with bits 7 and 6 set decodes to the identity in the compressed
formats, any input with bit 6 set in the uncompressed ones, and bits 7 and 5 of an uncompressed input are
ignored; without bit 7 a compressed input is refused -/
theorem C157_flags (b0 : UInt8) (t : List UInt8) :
    (b0 &&& 0xC0 = 0xC0 → g1FromCompressed (b0 :: t) = .ok gIdentity ∧ g2FromCompressed (b0 :: t) = .ok gIdentity) ∧
      (b0 &&& 0x40 = 0x40 →
        g1FromUncompressed (b0 :: t) = .ok gIdentity ∧ g2FromUncompressed (b0 :: t) = .ok gIdentity) ∧
      g1FromUncompressed (b0 :: t) = g1FromUncompressed ((b0 &&& 0x5F) :: t) ∧
      g2FromUncompressed (b0 :: t) = g2FromUncompressed ((b0 &&& 0x5F) :: t) ∧
      (b0 &&& 0x80 = 0 → g1FromCompressed (b0 :: t) = Go.err ∧ g2FromCompressed (b0 :: t) = Go.err) := by
  simp only [g1From_eq, g1UFrom_eq, g2From_eq, g2UFrom_eq]
  exact ⟨fun h => ⟨cFrom_infinity t h, cFrom_infinity t h⟩, fun h => ⟨cUFrom_infinity t h, cUFrom_infinity t h⟩,
    cUFrom_bits (by decide) b0 t, cUFrom_bits (by decide) b0 t, fun h => ⟨cFrom_flag t h, cFrom_flag t h⟩⟩

/-- so the identity has 2^382 accepted compressed encodings in `G1`, of which `ToCompressed` gives one -/
theorem C157_identity_encodings (l : List UInt8) (hl : l.length = 48) (h : 2 ^ 383 + 2 ^ 382 ≤ beNat l) :
    g1FromCompressed l = .ok gIdentity := by
  rcases l with _ | ⟨b0, t⟩
  · cases hl
  · refine ((C157_flags b0 t).1 ?_).1
    have hb : ∀ b : UInt8, 192 ≤ b.toNat → b &&& 0xC0 = 0xC0 := by decide +kernel
    apply hb
    have ht : t.length = 47 := by simpa using hl
    rw [beNat_cons, ht] at h
    have hlt := beNat_lt t
    rw [ht] at hlt
    by_contra hc
    have : b0.toNat ≤ 191 := by omega
    have := Nat.mul_le_mul_right (256 ^ 47) this
    have e : (2 : ℕ) ^ 383 + 2 ^ 382 = 192 * 256 ^ 47 := by norm_num
    omega

example : g1FromCompressed (List.replicate 48 0xff) = .ok gIdentity :=
  C157_identity_encodings _ (by decide) (by decide +kernel)

/-- a point outside the subgroup is refused: `(0, 2)` has order 3 -/
theorem torsion3 : ∃ P : E1, GRep (⟨0, 2, 1⟩ : Proj Fq) P ∧ (3 : ℕ) • P = 0 ∧ P ≠ 0 := by
  have hon : gIsOnCurve curveG1B ⟨0, 2, 1⟩ = true := by rw [curveG1B_eq]; decide +kernel
  obtain ⟨P, hP⟩ := (gIsOnCurve_iff g1Ok _ (by decide +kernel)).1 hon
  refine ⟨P, hP, ?_, fun h => absurd (hP.z_eq_zero.2 h) one_ne_zero⟩
  have h3 := C155_g1_add hP (C155_g1_double hP)
  rw [show (3 : ℕ) • P = P + (P + P) by abel, ← h3.z_eq_zero]
  have hm : mulBy3b1 = fun x => 12 * x := by
    funext x; rw [mulBy3b1_eq, curveG1B_eq]; ring
  rw [hm]
  decide +kernel

/-- points of the curves outside the subgroup are encoded but not decoded -/
theorem C157_refused : (∀ {p : Proj Fq} {P : E1}, GRep p P → blsr • P ≠ 0 →
      g1FromCompressed (g1ToCompressed p) = Go.err ∧ g1FromUncompressed (g1ToUncompressed p) = Go.err) ∧
    ∀ {p : Proj (Fp2 Fq)} {P : E2}, GRep p P → blsr • P ≠ 0 →
      g2FromCompressed (g2ToCompressed p) = Go.err ∧ g2FromUncompressed (g2ToUncompressed p) = Go.err := by
  constructor
  · intro p P hp hr
    exact ⟨cFrom_cTo_refused codec1_lawful g1Ok hp hr, cUFrom_cUTo_refused codec1_lawful g1Ok hp hr⟩
  · intro p P hp hr
    rw [g2From_eq, g2To_eq, g2UFrom_eq, g2UTo_eq]
    exact ⟨cFrom_cTo_refused codec2_lawful g2Ok hp hr, cUFrom_cUTo_refused codec2_lawful g2Ok hp hr⟩

theorem torsion3_not : ∃ P : E1, GRep (⟨0, 2, 1⟩ : Proj Fq) P ∧ blsr • P ≠ 0 := by
  obtain ⟨P, h, h3, h0⟩ := torsion3
  refine ⟨P, h, ?_⟩
  rw [show blsr = 3 * (blsr / 3) + 1 by decide +kernel, add_nsmul, one_nsmul, mul_nsmul, h3, nsmul_zero, zero_add]
  exact h0

example : g1FromCompressed (g1ToCompressed ⟨0, 2, 1⟩) = Go.err := by
  obtain ⟨P, h, h0⟩ := torsion3_not
  exact (C157_refused.1 h h0).1

/-! ## C158: integers -/

theorem C158_g1_roundtrip {p : Proj Fq} {P : E1} (hp : GRep p P) (hr : blsr • P = 0) :
    ∃ q, g1SetBigInt (g1BigInt p).1 (g1BigInt p).2 = .ok q ∧ GRep q P := by
  rcases gToAffine_rep hp with ⟨rfl, ha⟩ | ⟨x, y, hn, rfl, ha⟩
  · refine ⟨gIdentity, ?_, gRep_identity⟩
    simp only [g1BigInt, ha, g1SetBigInt]
    rw [if_pos (by simp)]; rfl
  · have hq : GRep (⟨x, y, 1⟩ : Proj Fq) (Point.some x y hn : E1) := gRep_some.2 ⟨one_ne_zero, by simp, by simp⟩
    have hy : y ≠ 0 := hq.y_ne g1Ok
    refine ⟨_, ?_, hq⟩
    simp only [g1BigInt, ha, g1SetBigInt, Int.cast_natCast, ZMod.natCast_zmod_val]
    rw [if_neg (by simp [hy]), (gIsOnCurve_iff g1Ok _ (by simp)).2 ⟨_, hq⟩, (gInSubgroup_iff g1Ok hq).2 hr]
    rfl

/-- what `SetBigInt` of `G1` accepts: the identity for a pair of multiples of `p`, otherwise the point of the
subgroup with the two reduced coordinates -/
theorem C158_g1_accepted {x y : ℤ} {q : Proj Fq} (h : g1SetBigInt x y = .ok q) :
    ∃ P : E1, GRep q P ∧ blsr • P = 0 ∧
      ((x : Fq) = 0 ∧ (y : Fq) = 0 ∧ P = 0 ∨ ∃ hn, P = Point.some (x : Fq) (y : Fq) hn) := by
  simp only [g1SetBigInt] at h
  by_cases h0 : (decide ((x : Fq) = 0) && decide ((y : Fq) = 0)) = true
  · rw [if_pos h0] at h
    obtain rfl : gIdentity = q := Except.ok.inj h
    simp only [Bool.and_eq_true, decide_eq_true_eq] at h0
    exact ⟨0, gRep_identity, by simp, Or.inl ⟨h0.1, h0.2, rfl⟩⟩
  · rw [if_neg h0, Go.guard_bind_eq_ok] at h
    obtain ⟨h1, h⟩ := h
    obtain rfl : (⟨(x : Fq), (y : Fq), 1⟩ : Proj Fq) = q := Except.ok.inj h
    rw [Bool.or_eq_true, Bool.and_eq_true] at h1
    obtain ⟨hon, hsub⟩ := h1.resolve_right h0
    obtain ⟨P, hP⟩ := (gIsOnCurve_iff g1Ok _ (by simp)).1 hon
    refine ⟨P, hP, (gInSubgroup_iff g1Ok hP).1 hsub, Or.inr ?_⟩
    rcases P with _ | ⟨a, b, hn⟩
    · exact absurd (gRep_zero.1 hP).2.2 one_ne_zero
    · obtain ⟨-, ha, hb⟩ := gRep_some.1 hP
      simp only [mul_one] at ha hb
      subst ha hb
      exact ⟨hn, rfl⟩

/-- `G2.BigInt` ignores its receiver: it gives the encoding of the identity for every point, so that
`SetBigInt` of it is the identity -/
theorem C158_g2_bigInt (p : Proj (Fp2 Fq)) : g2BigInt p = (2 ^ 766, 0) ∧
    g2SetBigInt (g2BigInt p).1 (g2BigInt p).2 = .ok gIdentity := by
  have h : g2BigInt p = (2 ^ 766, 0) := by
    obtain ⟨t, h1, h2⟩ := cUTo_zero codec2_lawful (p := ⟨0, 0, 0⟩) rfl
    have h3 := (List.cons.inj (h2.trans (List.replicate_succ (n := 191)))).2
    rw [h3] at h1
    simp only [g2BigInt, g2UTo_eq, h1]
    decide +kernel
  refine ⟨h, ?_⟩
  rw [h, g2SetBigInt, if_neg (by norm_num)]
  simp only [Int.natAbs_natCast]
  rw [if_neg (by decide +kernel), if_neg (by decide +kernel)]
  have hb : beBytes 96 (2 ^ 766) ++ beBytes 96 0 = 0x40 :: List.replicate 191 0 := by decide +kernel
  simp only [hb]
  exact ((C157_flags 0x40 _).2.1 (by decide)).2

/-- `SetBigInt` of `G2` on the two halves of an uncompressed encoding -/
theorem C158_g2_setBigInt {p : Proj (Fp2 Fq)} {P : E2} (hp : GRep p P) (hr : blsr • P = 0) :
    ∃ q, g2SetBigInt (beNat ((g2ToUncompressed p).take 96)) (beNat ((g2ToUncompressed p).drop 96)) = .ok q ∧
      GRep q P := by
  have hlen : (g2ToUncompressed p).length = 192 := by rw [g2UTo_eq, cUTo_length codec2_lawful]; rfl
  have h1 : ((g2ToUncompressed p).take 96).length = 96 := by rw [List.length_take]; omega
  have h2 : ((g2ToUncompressed p).drop 96).length = 96 := by rw [List.length_drop]; omega
  have b1 := beNat_lt ((g2ToUncompressed p).take 96)
  have b2 := beNat_lt ((g2ToUncompressed p).drop 96)
  have c1 := beBytes_beNat ((g2ToUncompressed p).take 96)
  have c2 := beBytes_beNat ((g2ToUncompressed p).drop 96)
  rw [h1] at b1 c1
  rw [h2] at b2 c2
  obtain ⟨q, hq, hqr⟩ := (C157_g2_roundtrip hp hr).2
  have hpos : ∀ n : ℕ, (2 : ℕ) ^ n ≠ 0 := fun n => pow_ne_zero _ two_ne_zero
  rw [g2SetBigInt]
  by_cases h0 : ((beNat ((g2ToUncompressed p).take 96) : ℤ) = 0 ∧ (beNat ((g2ToUncompressed p).drop 96) : ℤ) = 0)
  · exfalso
    have h0 : beNat ((g2ToUncompressed p).take 96) = 0 ∧ beNat ((g2ToUncompressed p).drop 96) = 0 := by
      exact_mod_cast h0
    have hz : beNat (g2ToUncompressed p) = 0 := by
      rw [← List.take_append_drop 96 (g2ToUncompressed p), beNat_append, h0.1, h0.2]
      simp
    rcases P with _ | ⟨x, y, hn⟩
    · rw [(C157_g2_format.1 hp).2] at hz
      exact hpos 1534 hz
    · rw [(C157_g2_format.2 hp).2] at hz
      have hy : y = 0 := by
        obtain ⟨hz, hA⟩ := Nat.add_eq_zero_iff.1 hz
        have hB := (Nat.add_eq_zero_iff.1 hz).2
        have hB : y.B.val = 0 := by
          rcases Nat.mul_eq_zero.1 hB with h | h
          · exact h
          · exact absurd h (hpos 384)
        rw [ZMod.val_eq_zero] at hA hB
        obtain ⟨a, b⟩ := y
        simp only at hA hB
        rw [hA, hB]; rfl
      have := hp.y_ne g2Ok
      rw [(gRep_some.1 hp).2.2, hy, zero_mul] at this
      exact this rfl
  · rw [if_neg h0]
    simp only [Int.natAbs_natCast]
    rw [if_neg (by omega), if_neg (by omega), c1, c2, List.take_append_drop]
    exact ⟨q, hq, hqr⟩

end Verif.Bls381
