import Verif.Legacy.CurveModel
import Verif.Legacy.PointProps
import Verif.Native.CurveOrder
import Verif.Native.LimbProps

/-!
# C186: the curves `Koblitz256` and `NistP256`
-/

namespace Verif.Legacy
open Verif.Native Verif.Primes WeierstrassCurve.Affine

section
variable {p : ℕ} [hp : Fact p.Prime] {a b : ZMod p}

/-- coordinates of a point: the residues in `[0, p)`, and `(0, 0)` for the point at infinity -/
def coords : (curve a b).Point → ℤ × ℤ
  | .zero => (0, 0)
  | .some x y _ => (x.val, y.val)

theorem val_cast (x : ZMod p) : (((x.val : ℕ) : ℤ) : ZMod p) = x := by
  rw [Int.cast_natCast, ZMod.natCast_zmod_val]

theorem natBigInt_eq {r : Proj (ZMod p)} {P : (curve a b).Point} (h : Rep r P) :
    natBigInt r = (some (coords P).1, some (coords P).2) := by
  rcases P with _ | ⟨x, y, hn⟩
  · have hz : r.z = 0 := h
    simp [natBigInt, toAffine, invert, hz, coords]
  · obtain ⟨hz, hx, hy⟩ := h
    simp [natBigInt, toAffine, invert, hz, hx, hy, coords]

/-- `SetBigInt` reads exactly the pairs that reduce to the coordinates of a point, as that point -/
theorem natSet_eq (h2 : (2 : ZMod p) ≠ 0) (hno : ∀ x : ZMod p, x ^ 3 + a * x + b ≠ 0) (x y : ℤ) :
    (∀ r, natSet a b (some x) (some y) = .ok r → ∃ P : (curve a b).Point, Rep r P ∧ coords P = (x % p, y % p)) ∧
    (∀ P : (curve a b).Point, coords P = (x % p, y % p) → ∃ r, natSet a b (some x) (some y) = .ok r ∧ Rep r P) ∧
    ((¬ ∃ P : (curve a b).Point, coords P = (x % p, y % p)) → natSet a b (some x) (some y) = Go.err) := by
  have hb : b ≠ 0 := by simpa using hno 0
  have hz : ∀ z : ℤ, (((z : ZMod p).val : ℕ) : ℤ) = z % p := fun z => ZMod.val_intCast z
  have h1 : ∀ r, natSet a b (some x) (some y) = .ok r → ∃ P : (curve a b).Point, Rep r P ∧ coords P = (x % p, y % p) := by
    intro r hr
    rw [natSet, C110_setBigInt hb] at hr
    rcases hr with ⟨hx, hy, rfl⟩ | ⟨he, rfl⟩
    · refine ⟨0, rfl, ?_⟩
      rw [← hz, ← hz, hx, hy]; simp [coords]
    · have hy0 : (y : ZMod p) ≠ 0 := by
        intro h0; rw [h0] at he; exact hno _ (by rw [← he]; ring)
      refine ⟨.some _ _ (nonsingular_curve h2 hy0 he), ⟨one_ne_zero, by simp, by simp⟩, ?_⟩
      rw [coords, hz, hz]
  have h3 : ∀ P : (curve a b).Point, coords P = (x % p, y % p) → ∃ r, natSet a b (some x) (some y) = .ok r ∧ Rep r P := by
    intro P hP
    rcases P with _ | ⟨u, v, hn⟩
    · rw [coords, ← hz, ← hz, Prod.mk.injEq] at hP
      have hx : (x : ZMod p) = 0 := by
        have := hP.1.symm; exact (ZMod.val_eq_zero _).1 (by exact_mod_cast this)
      have hy : (y : ZMod p) = 0 := by
        have := hP.2.symm; exact (ZMod.val_eq_zero _).1 (by exact_mod_cast this)
      exact ⟨⟨0, 0, 0⟩, by rw [natSet, C110_setBigInt hb]; exact Or.inl ⟨hx, hy, rfl⟩, rfl⟩
    · rw [coords, ← hz, ← hz, Prod.mk.injEq] at hP
      have hu : u = (x : ZMod p) := ZMod.val_injective p (by exact_mod_cast hP.1)
      have hv : v = (y : ZMod p) := ZMod.val_injective p (by exact_mod_cast hP.2)
      subst hu hv
      refine ⟨⟨_, _, 1⟩, by rw [natSet, C110_setBigInt hb]; exact Or.inr ⟨equation_curve.1 hn.1, rfl⟩, one_ne_zero, by simp, by simp⟩
  refine ⟨h1, h3, fun hn => ?_⟩
  cases hs : natSet a b (some x) (some y) with
  | ok r => obtain ⟨P, -, hP⟩ := h1 r hs; exact absurd ⟨P, hP⟩ hn
  | error e =>
    have key : ∀ (c : Prop) [Decidable c] (v : Proj (ZMod p)), (do Go.guard c; Except.ok v : Go (Proj (ZMod p))) = .error e → e = .error := by
      intro c _ v h
      by_cases hc : c
      · rw [Go.guard_true hc] at h; cases h
      · rw [Go.guard_false hc] at h; exact (Except.error.inj h).symm
    rw [natSet, setBigInt] at hs
    rw [key _ _ hs]

theorem coords_range (P : (curve a b).Point) : 0 ≤ (coords P).1 ∧ (coords P).1 < p ∧ 0 ≤ (coords P).2 ∧ (coords P).2 < p := by
  have : (0 : ℤ) < p := by exact_mod_cast hp.out.pos
  rcases P with _ | ⟨x, y, hn⟩
  · exact ⟨le_refl _, this, le_refl _, this⟩
  · exact ⟨Int.natCast_nonneg _, Int.ofNat_lt.2 (ZMod.val_lt x), Int.natCast_nonneg _, Int.ofNat_lt.2 (ZMod.val_lt y)⟩

theorem coords_mod (P : (curve a b).Point) : coords P = ((coords P).1 % p, (coords P).2 % p) := by
  obtain ⟨h1, h2, h3, h4⟩ := coords_range P
  rw [Int.emod_eq_of_lt h1 h2, Int.emod_eq_of_lt h3 h4]

theorem natSet_coords (h2 : (2 : ZMod p) ≠ 0) (hno : ∀ x : ZMod p, x ^ 3 + a * x + b ≠ 0) (P : (curve a b).Point) :
    ∃ r, natSet a b (some (coords P).1) (some (coords P).2) = .ok r ∧ Rep r P :=
  (natSet_eq h2 hno _ _).2.1 P (coords_mod P)

theorem coords_inj (hb : b ≠ 0) : Function.Injective (coords : (curve a b).Point → ℤ × ℤ) := by
  have key : ∀ {x y : ZMod p}, (curve a b).Nonsingular x y → (((x.val : ℕ) : ℤ), ((y.val : ℕ) : ℤ)) ≠ (0, 0) := by
    intro x y h e
    rw [Prod.mk.injEq] at e
    have hx : x = 0 := (ZMod.val_eq_zero _).1 (by exact_mod_cast e.1)
    have hy : y = 0 := (ZMod.val_eq_zero _).1 (by exact_mod_cast e.2)
    have := equation_curve.1 h.1
    rw [hx, hy] at this
    exact hb (by linear_combination -this)
  intro P Q h
  rcases P with _ | ⟨x, y, h1⟩ <;> rcases Q with _ | ⟨u, v, h2⟩
  · rfl
  · exact absurd h.symm (key h2)
  · exact absurd h (key h1)
  · rw [coords, coords, Prod.mk.injEq] at h
    have hx : x = u := ZMod.val_injective p (by exact_mod_cast h.1)
    have hy : y = v := ZMod.val_injective p (by exact_mod_cast h.2)
    subst hx hy; rfl

/-- the bytes of a scalar below `q ≤ 2²⁵⁶`: 32 of them, for strings of any length -/
theorem natScalar_eq {q : ℕ} (k : List UInt8) : (natScalar q k = .ok ((k.reverse ++ List.replicate 32 0).take 32) ↔ beNat k % 2 ^ 256 < q) ∧
    (natScalar q k = Go.err ↔ q ≤ beNat k % 2 ^ 256) ∧ leNat ((k.reverse ++ List.replicate 32 0).take 32) = beNat k % 2 ^ 256 ∧
    ((k.reverse ++ List.replicate 32 0).take 32).length = 32 := by
  have hl : ((k.reverse ++ List.replicate 32 0).take 32).length = 32 := by
    rw [List.length_take, List.length_append, List.length_replicate]; omega
  have h0 : ∀ l : List UInt8, leNat (l ++ List.replicate 32 0) = leNat l := by
    intro l
    rw [leNat_append]
    have : leNat (List.replicate 32 (0 : UInt8)) = 0 := by decide +kernel
    rw [this]; simp
  have hv : leNat ((k.reverse ++ List.replicate 32 0).take 32) = beNat k % 2 ^ 256 := by
    have e := congrArg leNat (List.take_append_drop 32 (k.reverse ++ List.replicate 32 (0 : UInt8)))
    rw [leNat_append, h0, ← beNat_eq_leNat_reverse, hl] at e
    have := leNat_lt ((k.reverse ++ List.replicate 32 0).take 32)
    rw [hl] at this
    rw [← e, show (256 : ℕ) ^ 32 = 2 ^ 256 by norm_num] at *
    rw [Nat.add_mul_mod_self_left, Nat.mod_eq_of_lt this]
  refine ⟨?_, ?_, hv, hl⟩
  · rw [natScalar, hv, Go.guard_bind_eq_ok]; simp
  · rw [natScalar, hv]
    by_cases h : beNat k % 2 ^ 256 < q
    · rw [Go.guard_true h]; exact ⟨fun e => (by cases e), fun e => absurd h (not_lt.2 e)⟩
    · rw [Go.guard_false h]; exact ⟨fun _ => not_lt.1 h, fun _ => rfl⟩

variable {ops : PtOps (Proj (ZMod p))} {q : ℕ}

/-- multiplication, for every string: by its low 32 bytes when they are below the order, and nil otherwise -/
theorem natScalarMult_eq (h2 : (2 : ZMod p) ≠ 0) (hno : ∀ x : ZMod p, x ^ 3 + a * x + b ≠ 0)
    (hi : Implements ops (curve a b).Point Rep) (P : (curve a b).Point) (k : List UInt8) :
    natScalarMult a b ops q (some (coords P).1) (some (coords P).2) k =
      if beNat k % 2 ^ 256 < q then .ok (some (coords ((beNat k % 2 ^ 256) • P)).1, some (coords ((beNat k % 2 ^ 256) • P)).2)
      else .ok (none, none) := by
  obtain ⟨r, hr, hrep⟩ := natSet_coords h2 hno P
  obtain ⟨s1, s2, s3, s4⟩ := natScalar_eq (q := q) k
  rw [natScalarMult, hr]
  split
  · rename_i h
    rw [s1.2 h]
    have := C52_mul hi hrep _ s4
    rw [s3] at this
    show Except.ok (natBigInt _) = _
    rw [natBigInt_eq this]
  · rename_i h
    rw [s2.2 (not_lt.1 h)]; rfl

theorem natScalarBaseMult_eq (hi : Implements ops (curve a b).Point Rep) {gen : Proj (ZMod p)} {G : (curve a b).Point} (hG : Rep gen G)
    (k : List UInt8) : natScalarBaseMult ops gen q k =
      if beNat k % 2 ^ 256 < q then .ok (some (coords ((beNat k % 2 ^ 256) • G)).1, some (coords ((beNat k % 2 ^ 256) • G)).2)
      else .ok (none, none) := by
  obtain ⟨s1, s2, s3, s4⟩ := natScalar_eq (q := q) k
  rw [natScalarBaseMult]
  split
  · rename_i h
    rw [s1.2 h]
    have := C52_mul hi hG _ s4
    rw [s3] at this
    show Except.ok (natBigInt _) = _
    rw [natBigInt_eq this]
  · rename_i h
    rw [s2.2 (not_lt.1 h)]; rfl

theorem natAdd_eq (h2 : (2 : ZMod p) ≠ 0) (hno : ∀ x : ZMod p, x ^ 3 + a * x + b ≠ 0) (hi : Implements ops (curve a b).Point Rep)
    (P Q : (curve a b).Point) : natAdd a b ops (some (coords P).1) (some (coords P).2) (some (coords Q).1) (some (coords Q).2) =
      .ok (some (coords (P + Q)).1, some (coords (P + Q)).2) := by
  obtain ⟨r, hr, hP⟩ := natSet_coords h2 hno P
  obtain ⟨s, hs, hQ⟩ := natSet_coords h2 hno Q
  rw [natAdd, hr, hs]
  show Except.ok (natBigInt _) = _
  rw [natBigInt_eq (hi.add hP hQ)]

theorem natDouble_eq (h2 : (2 : ZMod p) ≠ 0) (hno : ∀ x : ZMod p, x ^ 3 + a * x + b ≠ 0) (hi : Implements ops (curve a b).Point Rep)
    (P : (curve a b).Point) : natDouble a b ops (some (coords P).1) (some (coords P).2) =
      .ok (some (coords (P + P)).1, some (coords (P + P)).2) := by
  obtain ⟨r, hr, hP⟩ := natSet_coords h2 hno P
  rw [natDouble, hr]
  show Except.ok (natBigInt _) = _
  rw [natBigInt_eq (hi.double hP)]

theorem natIsOnCurve_iff (h2 : (2 : ZMod p) ≠ 0) (hno : ∀ x : ZMod p, x ^ 3 + a * x + b ≠ 0) (x y : ℤ) :
    (natIsOnCurve a b (some x) (some y) = .ok true ↔ ∃ P : (curve a b).Point, coords P = (x % p, y % p)) ∧
    (natIsOnCurve a b (some x) (some y) = .ok false ↔ ¬ ∃ P : (curve a b).Point, coords P = (x % p, y % p)) := by
  obtain ⟨h1, h3, h4⟩ := natSet_eq h2 hno x y
  by_cases h : ∃ P : (curve a b).Point, coords P = (x % p, y % p)
  · obtain ⟨P, hP⟩ := h
    obtain ⟨r, hr, -⟩ := h3 P hP
    rw [natIsOnCurve, hr]
    simp only [true_iff, Except.ok.injEq, reduceCtorEq, false_iff, not_not]
    exact ⟨⟨P, hP⟩, ⟨P, hP⟩⟩
  · rw [natIsOnCurve, h4 h]
    simp [h]

theorem coords_neg (hno : ∀ x : ZMod p, x ^ 3 + a * x + b ≠ 0) (P : (curve a b).Point) (h : P ≠ 0) :
    coords (-P) = ((coords P).1, p - (coords P).2) := by
  rcases P with _ | ⟨x, y, hn⟩
  · exact absurd rfl h
  · have hy : y ≠ 0 := by
      rintro rfl
      exact hno x (by rw [← equation_curve.1 hn.1]; ring)
    have : NeZero y := ⟨hy⟩
    rw [Point.neg_some, coords, coords, negY_curve, Prod.mk.injEq]
    refine ⟨rfl, ?_⟩
    rw [ZMod.val_neg_of_ne_zero y, Nat.cast_sub (ZMod.val_lt y).le]

end

/-! ## the two curves -/

/-- C186: `Koblitz256` does what is expected of a curve, for all points: the group is that of secp256k1, of prime order `N`, and the base
point is the generator -/
noncomputable def k256Lawful (refs : List ℕ) : Lawful (k256Curve refs) K256.Group where
  xy := coords
  g := C169_k256_cyclic.choose
  zero := rfl
  inj := coords_inj (by simpa using K256.no_root 0)
  range := coords_range
  valid := fun P => by
    rw [EcPoint.isValid, EcPoint.isOnCurve]
    rw [show (k256Curve refs).isOnCurve (some (coords P).1) (some (coords P).2) = .ok true from
      (natIsOnCurve_iff K256.two_ne K256.no_root _ _).1.2 ⟨P, coords_mod P⟩]
    rfl
  only := fun x y x0 x1 y0 y1 h => by
    obtain ⟨P, hP⟩ := (natIsOnCurve_iff K256.two_ne K256.no_root x y).1.1 h
    rw [Int.emod_eq_of_lt x0 (show x < (k256p : ℤ) from x1), Int.emod_eq_of_lt y0 (show y < (k256p : ℤ) from y1)] at hP
    exact ⟨P, hP⟩
  add := natAdd_eq K256.two_ne K256.no_root C56_k256
  mul := fun P k hk => by
    have hk' : beNat k < k256q := Int.ofNat_lt.1 hk
    have hm : beNat k % 2 ^ 256 = beNat k := Nat.mod_eq_of_lt (lt_trans hk' (by decide +kernel))
    have := natScalarMult_eq (q := k256q) K256.two_ne K256.no_root C56_k256 P k
    rw [hm, if_pos hk'] at this
    exact this
  baseMul := fun k hk => by
    have hk' : beNat k < k256q := Int.ofNat_lt.1 hk
    have hm : beNat k % 2 ^ 256 = beNat k := Nat.mod_eq_of_lt (lt_trans hk' (by decide +kernel))
    have := natScalarBaseMult_eq (q := k256q) C56_k256 C169_k256_cyclic.choose_spec.1 k
    rw [hm, if_pos hk'] at this
    exact this
  base := by
    have h := natBigInt_eq C169_k256_cyclic.choose_spec.1
    have ht : toAffine K256.generator = K256.generator := by
      simp [toAffine, invert, K256.generator]
    rw [natBigInt, ht, Prod.mk.injEq, Option.some_inj, Option.some_inj] at h
    exact Prod.ext h.1.symm h.2.symm
  neg := coords_neg K256.no_root
  pos := by show (0 : ℤ) < (k256q : ℤ); decide +kernel
  order := fun P => by
    show ((k256q : ℕ) : ℤ) • P = 0
    rw [natCast_zsmul]; exact exponent_of_card C169_k256_card.2 P
  size := by show (k256p : ℤ) ≤ 256 ^ ((256 + 7) / 8); decide +kernel

/-- C186: `NistP256` is such a curve when the `ScalarMult` of the embedded `elliptic.CurveParams` multiplies: the repository has no method of
that name -/
noncomputable def p256Lawful (refs : List ℕ) (std : Option ℤ → Option ℤ → List UInt8 → Go XY)
    (hstd : ∀ (P : P256.Group) (k : List UInt8), beNat k < p256q → std (some (coords P).1) (some (coords P).2) k =
      .ok (some (coords (beNat k • P)).1, some (coords (beNat k • P)).2)) : Lawful (p256Curve refs std) P256.Group where
  xy := coords
  g := C169_p256_cyclic.choose
  zero := rfl
  inj := coords_inj (by simpa using P256.no_root 0)
  range := coords_range
  valid := fun P => by
    rw [EcPoint.isValid, EcPoint.isOnCurve]
    rw [show (p256Curve refs std).isOnCurve (some (coords P).1) (some (coords P).2) = .ok true from
      (natIsOnCurve_iff P256.two_ne P256.no_root _ _).1.2 ⟨P, coords_mod P⟩]
    rfl
  only := fun x y x0 x1 y0 y1 h => by
    obtain ⟨P, hP⟩ := (natIsOnCurve_iff P256.two_ne P256.no_root x y).1.1 h
    rw [Int.emod_eq_of_lt x0 (show x < (p256p : ℤ) from x1), Int.emod_eq_of_lt y0 (show y < (p256p : ℤ) from y1)] at hP
    exact ⟨P, hP⟩
  add := natAdd_eq P256.two_ne P256.no_root C56_p256
  mul := fun P k hk => hstd P k (Int.ofNat_lt.1 hk)
  baseMul := fun k hk => by
    have hk' : beNat k < p256q := Int.ofNat_lt.1 hk
    have hm : beNat k % 2 ^ 256 = beNat k := Nat.mod_eq_of_lt (lt_trans hk' (by decide +kernel))
    have := natScalarBaseMult_eq (q := p256q) C56_p256 C169_p256_cyclic.choose_spec.1 k
    rw [hm, if_pos hk'] at this
    exact this
  base := by
    have h := natBigInt_eq C169_p256_cyclic.choose_spec.1
    have ht : toAffine P256.generator = P256.generator := by
      simp [toAffine, invert, P256.generator]
    rw [natBigInt, ht, Prod.mk.injEq, Option.some_inj, Option.some_inj] at h
    exact Prod.ext h.1.symm h.2.symm
  neg := coords_neg P256.no_root
  pos := by show (0 : ℤ) < (p256q : ℤ); decide +kernel
  order := fun P => by
    show ((p256q : ℕ) : ℤ) • P = 0
    rw [natCast_zsmul]; exact exponent_of_card C169_p256_card.2 P
  size := by show (p256p : ℤ) ≤ 256 ^ ((256 + 7) / 8); decide +kernel

/-- C186: `NistP256.ScalarMul`, the method that no interface calls, would do -/
theorem C186_p256_scalarMul (P : P256.Group) (k : List UInt8) (hk : beNat k < p256q) :
    p256ScalarMul (some (coords P).1) (some (coords P).2) k = .ok (some (coords (beNat k • P)).1, some (coords (beNat k • P)).2) := by
  have hm : beNat k % 2 ^ 256 = beNat k := Nat.mod_eq_of_lt (lt_trans hk (by decide +kernel))
  have := natScalarMult_eq (q := p256q) P256.two_ne P256.no_root C56_p256 P k
  rw [hm, if_pos hk] at this
  exact this

/-- C186: so the curves compute in the groups of secp256k1 and P-256 and their base points are the generators -/
theorem C186_lawful (refs : List ℕ) : (∃ L : Lawful (k256Curve refs) K256.Group, L.xy = coords ∧ Rep K256.generator L.g) ∧
    ∀ std : Option ℤ → Option ℤ → List UInt8 → Go XY,
      (∀ (P : P256.Group) (k : List UInt8), beNat k < p256q → std (some (coords P).1) (some (coords P).2) k =
        .ok (some (coords (beNat k • P)).1, some (coords (beNat k • P)).2)) →
      ∃ L : Lawful (p256Curve refs std) P256.Group, L.xy = coords ∧ Rep P256.generator L.g :=
  ⟨⟨k256Lawful refs, rfl, C169_k256_cyclic.choose_spec.1⟩, fun std h => ⟨p256Lawful refs std h, rfl, C169_p256_cyclic.choose_spec.1⟩⟩

/-- the hypothesis on the standard library can be met: by the method of the repository -/
example (refs : List ℕ) : ∃ L : Lawful (p256Curve refs p256ScalarMul) P256.Group, L.xy = coords ∧ Rep P256.generator L.g :=
  (C186_lawful refs).2 p256ScalarMul C186_p256_scalarMul

/-- C186: `Double` is the double, also for the point at infinity -/
theorem C186_double (refs : List ℕ) (std : Option ℤ → Option ℤ → List UInt8 → Go XY) (P : K256.Group) (Q : P256.Group) :
    (k256Curve refs).double (some (coords P).1) (some (coords P).2) = .ok (some (coords (P + P)).1, some (coords (P + P)).2) ∧
    (p256Curve refs std).double (some (coords Q).1) (some (coords Q).2) = .ok (some (coords (Q + Q)).1, some (coords (Q + Q)).2) :=
  ⟨natDouble_eq K256.two_ne K256.no_root C56_k256 P, natDouble_eq P256.two_ne P256.no_root C56_p256 Q⟩

/-- C186: every integer is reduced first: `IsOnCurve` accepts a pair exactly when the residues are the coordinates of a point, those of the
point at infinity included, so negative and unreduced coordinates are accepted -/
theorem C186_isOnCurve (refs : List ℕ) (std : Option ℤ → Option ℤ → List UInt8 → Go XY) (x y : ℤ) :
    ((k256Curve refs).isOnCurve (some x) (some y) = .ok true ↔ ∃ P : K256.Group, coords P = (x % k256p, y % k256p)) ∧
    ((p256Curve refs std).isOnCurve (some x) (some y) = .ok true ↔ ∃ P : P256.Group, coords P = (x % p256p, y % p256p)) ∧
    (k256Curve refs).isOnCurve (some 0) (some 0) = .ok true ∧ (k256Curve refs).isOnCurve (some 0) (some k256p) = .ok true ∧
    (p256Curve refs std).isOnCurve (some 0) (some 0) = .ok true ∧ (p256Curve refs std).isOnCurve (some 0) (some p256p) = .ok true := by
  have hk := fun x y => (natIsOnCurve_iff K256.two_ne K256.no_root x y).1
  have hq := fun x y => (natIsOnCurve_iff P256.two_ne P256.no_root x y).1
  refine ⟨hk x y, hq x y, (hk 0 0).2 ⟨0, ?_⟩, (hk 0 k256p).2 ⟨0, ?_⟩, (hq 0 0).2 ⟨0, ?_⟩, (hq 0 p256p).2 ⟨0, ?_⟩⟩
  all_goals simp [coords]

/-- C186: a scalar that is not reduced gives nil, which `EcPoint` cannot reach for it reduces; a string of more than 32 bytes is cut to its
last 32 -/
theorem C186_scalar (refs : List ℕ) (P : K256.Group) (k : List UInt8) :
    (k256Curve refs).scalarMult (some (coords P).1) (some (coords P).2) k =
      if beNat k % 2 ^ 256 < k256q then .ok (some (coords ((beNat k % 2 ^ 256) • P)).1, some (coords ((beNat k % 2 ^ 256) • P)).2)
      else .ok (none, none) :=
  natScalarMult_eq K256.two_ne K256.no_root C56_k256 P k

/-- 2²⁵⁶ - 1 is refused and 2²⁵⁶ is taken for zero -/
example (refs : List ℕ) (P : K256.Group) :
    (k256Curve refs).scalarMult (some (coords P).1) (some (coords P).2) (List.replicate 32 255) = .ok (none, none) ∧
    (k256Curve refs).scalarMult (some (coords P).1) (some (coords P).2) (1 :: List.replicate 32 0) = .ok (some 0, some 0) := by
  constructor
  · rw [C186_scalar, if_neg (by decide +kernel)]
  · rw [C186_scalar, if_pos (by decide +kernel), show beNat (1 :: List.replicate 32 0) % 2 ^ 256 = 0 by decide +kernel, zero_nsmul]
    rfl

/-- C186: the opposite of the neutral element is not the neutral element: `EcPoint.Neg` gives `(0, P)`, which is accepted, is not
`IsIdentity` and is not `Equals` to any point of the curve -/
theorem C186_neg_identity (refs : List ℕ) : ∃ r, EcPoint.neg (some ⟨k256Curve refs, some 0, some 0⟩) = .ok r ∧
    r.isValid = .ok true ∧ r.isIdentity = false ∧ r.equals (some ⟨k256Curve refs, some 0, some 0⟩) = false := by
  have hon := (C186_isOnCurve refs (fun _ _ _ => Go.err) 0 0).2.2.2.1
  have hpos : (0 : ℤ) < k256p := by decide +kernel
  obtain ⟨r, h1, h2, h3⟩ := (C189_neg_identity (k256Lawful refs)).2 hon hpos
  have h1' : EcPoint.neg (some ⟨k256Curve refs, some 0, some 0⟩) = .ok r := h1
  refine ⟨r, h1', ?_, h2, h3 0⟩
  have h4 : checked ⟨k256Curve refs, some 0, some ((k256p : ℤ) - 0)⟩ = .ok r := h1'
  rw [sub_zero, checked, EcPoint.isValid, EcPoint.isOnCurve] at h4
  have : (Except.ok ⟨k256Curve refs, some 0, some (k256p : ℤ)⟩ : Go EcPoint) = .ok r := by rw [← h4, hon]; rfl
  rw [← Except.ok.inj this, EcPoint.isValid, EcPoint.isOnCurve, hon]
  rfl

/-- C186: the base point, its double, and its sum with its opposite, as `EcPoint`s of secp256k1 -/
example (refs : List ℕ) : ∃ G : EcPoint, newScalarBaseMult (some (k256Curve refs)) (some 1) = .ok G ∧ G.isBasePoint = true ∧
    ∃ N, EcPoint.neg (some G) = .ok N ∧ ∃ Z, EcPoint.add (some G) (some N) = .ok Z ∧ Z.isIdentity = true := by
  have L := k256Lawful refs
  refine ⟨_, (C189_mul L.toComputes 0 1).2.1, ?_, ?_⟩
  · rw [(C189_isIdentity L _).2, one_smul]
  · by_cases h : (1 : ℤ) • L.g = 0
    · exfalso
      rw [one_smul] at h
      have h0 := L.base
      rw [h, L.zero] at h0
      have : (0 : ℤ) = (K256.generator.x.val : ℤ) := congrArg Prod.fst h0
      revert this
      decide +kernel
    · refine ⟨_, (C189_neg L _).1 h, _, (C189_add L.toComputes _ _).1, ?_⟩
      rw [(C189_isIdentity L _).1, add_neg_cancel]

end Verif.Legacy
