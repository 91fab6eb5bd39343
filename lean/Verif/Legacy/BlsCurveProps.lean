import Verif.Legacy.BlsCurveModel
import Verif.Legacy.VssProps
import Verif.Bls381.SigProps

/-!
# C187: the older curves of BLS12-381

`ScalarBaseMult` of `G1` is right for every integer, `ScalarMult` reads the bytes of the integer in the wrong order.  `G2` forgets its points.
-/

set_option exponentiation.threshold 1000

namespace Verif.Legacy
open Verif.Primes Verif.Bls381 Verif.Native Verif.V1

theorem g1BigInt_xy {p : Proj Fq} {P : E1} (h : GRep p P) : toXY (g1BigInt p) = (some (coords P).1, some (coords P).2) := by
  rw [toXY, g1BigInt]
  rcases gToAffine_rep h with ⟨rfl, ha⟩ | ⟨x, y, hn, rfl, ha⟩
  · rw [ha]
    show (some (((0 : Fq).val : ℕ) : ℤ), some (((0 : Fq).val : ℕ) : ℤ)) = (some 0, some 0)
    rw [ZMod.val_zero]; rfl
  · rw [ha]; rfl

theorem g1Set_coords (P : S1) : ∃ q, g1Set (some (coords P.1).1) (some (coords P.1).2) = .ok q ∧ GRep q (P : E1) := by
  obtain ⟨p, hp⟩ := GRep.exists (P : E1)
  have h := g1BigInt_xy hp
  rw [toXY, Prod.mk.injEq, Option.some_inj, Option.some_inj] at h
  rw [g1Set, ← h.1, ← h.2]
  exact C158_g1_roundtrip hp (mem_S1.1 P.2)

/-- C187: `IsOnCurve` accepts exactly the integers whose residues are the coordinates of a point of the subgroup, or both zero -/
theorem C187_isOnCurve (refs : List ℕ) (x y : ℤ) :
    ((g1Curve refs).isOnCurve (some x) (some y) = .ok true ↔ ∃ P : S1, coords P.1 = (x % blsp, y % blsp)) ∧
    ((g1Curve refs).isOnCurve (some x) (some y) = .ok false ↔ ¬ ∃ P : S1, coords P.1 = (x % blsp, y % blsp)) := by
  have hz : ∀ z : ℤ, (((z : Fq).val : ℕ) : ℤ) = z % blsp := fun z => by
    have : NeZero blsp := ⟨fact_blsp.out.ne_zero⟩
    exact ZMod.val_intCast z
  have h1 : ∀ q, g1SetBigInt x y = .ok q → ∃ P : S1, coords P.1 = (x % blsp, y % blsp) := by
    intro q hq
    obtain ⟨P, -, hr, hP⟩ := C158_g1_accepted hq
    refine ⟨⟨P, hr⟩, ?_⟩
    rw [← hz, ← hz]
    rcases hP with ⟨hx, hy, rfl⟩ | ⟨hn, rfl⟩
    · rw [hx, hy, ZMod.val_zero]; rfl
    · rfl
  have h2 : (∃ P : S1, coords P.1 = (x % blsp, y % blsp)) → ∃ q, g1SetBigInt x y = .ok q := by
    rintro ⟨P, hP⟩
    obtain ⟨q, hq, -⟩ := g1Set_coords P
    rw [hP, g1Set, ← hz, ← hz] at hq
    rw [g1SetBigInt] at hq ⊢
    simp only [Int.cast_natCast, ZMod.natCast_zmod_val] at hq
    exact ⟨q, hq⟩
  have h3 : g1SetBigInt x y ≠ Go.crash := by
    rw [g1SetBigInt]
    simp only []
    split
    · intro h; cases h
    · by_cases hg : (gIsOnCurve curveG1B (⟨(x : Fq), (y : Fq), 1⟩ : Proj Fq) && gInSubgroup mulBy3b1 (⟨(x : Fq), (y : Fq), 1⟩ : Proj Fq) ||
          decide ((x : Fq) = 0) && decide ((y : Fq) = 0)) = true
      · rw [Go.guard_true hg]; intro h; cases h
      · rw [Go.guard_false hg]; intro h; cases h
  show (g1IsOnCurve (some x) (some y) = _ ↔ _) ∧ (g1IsOnCurve (some x) (some y) = _ ↔ _)
  rw [g1IsOnCurve, g1Set]
  cases hr : g1SetBigInt x y with
  | ok q => exact ⟨⟨fun _ => h1 q hr, fun _ => rfl⟩, ⟨fun h => (by cases h), fun h => absurd (h1 q hr) h⟩⟩
  | error e =>
    cases e with
    | panic => exact absurd hr h3
    | error =>
      have hn : ¬ ∃ P : S1, coords P.1 = (x % blsp, y % blsp) := fun h => by
        obtain ⟨q, hq⟩ := h2 h
        rw [hq] at hr; cases hr
      exact ⟨⟨fun h => (by cases h), fun h => absurd h hn⟩, ⟨fun _ => hn, fun _ => rfl⟩⟩

/-- the `EcPoint` of a point of the subgroup -/
noncomputable def g1pt (refs : List ℕ) (P : S1) : EcPoint := ⟨g1Curve refs, some (coords P.1).1, some (coords P.1).2⟩

theorem g1Valid (refs : List ℕ) (P : S1) : checked (g1pt refs P) = .ok (g1pt refs P) := by
  rw [checked, EcPoint.isValid, EcPoint.isOnCurve]
  rw [show (g1pt refs P).curve.isOnCurve (g1pt refs P).X (g1pt refs P).Y = .ok true from
    ((C187_isOnCurve refs _ _).1).2 ⟨P, coords_mod P.1⟩]
  rfl

/-- C187: `Add`, `Double` and `ScalarBaseMult` compute in the subgroup; `ScalarMult` multiplies by the number whose little-endian bytes are
given, and gives nil when it is not below the order -/
theorem C187_ops (refs : List ℕ) (P Q : S1) (k : List UInt8) :
    (g1Curve refs).add (some (coords P.1).1) (some (coords P.1).2) (some (coords Q.1).1) (some (coords Q.1).2) =
      .ok (some (coords (P + Q : E1)).1, some (coords (P + Q : E1)).2) ∧
    (g1Curve refs).double (some (coords P.1).1) (some (coords P.1).2) = .ok (some (coords (P + P : E1)).1, some (coords (P + P : E1)).2) ∧
    (beNat k < blsr → (g1Curve refs).scalarBaseMult k =
      .ok (some (coords (beNat k • gS1).1).1, some (coords (beNat k • gS1).1).2)) ∧
    (g1Curve refs).scalarMult (some (coords P.1).1) (some (coords P.1).2) k =
      if leNat ((k ++ List.replicate 32 0).take 32) < blsr then
        .ok (some (coords (leNat ((k ++ List.replicate 32 0).take 32) • P).1).1, some (coords (leNat ((k ++ List.replicate 32 0).take 32) • P).1).2)
      else .ok (none, none) := by
  obtain ⟨p, hp, rp⟩ := g1Set_coords P
  obtain ⟨q, hq, rq⟩ := g1Set_coords Q
  refine ⟨?_, ?_, fun hk => ?_, ?_⟩
  · show g1cAdd _ _ _ _ = _
    rw [g1cAdd, hp, hq]
    show Except.ok (toXY _) = _
    rw [g1BigInt_xy (C155_g1_add rp rq)]
  · show g1cDouble _ _ = _
    rw [g1cDouble, hp]
    show Except.ok (toXY _) = _
    rw [g1BigInt_xy (C155_g1_double rp)]
  · show g1cScalarBaseMult k = _
    obtain ⟨s1, -, s3, s4⟩ := natScalar_eq (q := blsr) k
    have hm : beNat k % 2 ^ 256 = beNat k := Nat.mod_eq_of_lt (lt_trans hk (by decide +kernel))
    rw [hm] at s1 s3
    rw [g1cScalarBaseMult, s1.2 hk]
    have := gRep_multiply g1Ok gen1_rep s4
    rw [s3] at this
    show Except.ok (toXY _) = _
    rw [g1BigInt_xy this]; rfl
  · show g1cScalarMult _ _ k = _
    have hl : ((k ++ List.replicate 32 0).take 32).length = 32 := by
      rw [List.length_take, List.length_append, List.length_replicate]; omega
    rw [g1cScalarMult, hp]
    show orNil (g1Scalar k) _ = _
    rw [g1Scalar]
    split
    · rename_i h
      rw [Go.guard_true h]
      show Except.ok (toXY _) = _
      rw [g1BigInt_xy (gRep_multiply g1Ok rp hl)]; rfl
    · rename_i h
      rw [Go.guard_false h]; rfl

theorem g1_scalarBytes (refs : List ℕ) (k : ℤ) : scalarBytes (g1Curve refs) k = .ok (natBytes (k % blsr).toNat) ∧ 0 ≤ k % blsr ∧
    k % blsr < blsr := by
  have hN : (0 : ℤ) < blsr := Int.ofNat_lt.2 fact_blsr.out.pos
  have h0 := Int.emod_nonneg k hN.ne'
  refine ⟨?_, h0, Int.emod_lt_of_pos k hN⟩
  rw [scalarBytes, show (g1Curve refs).params.N = (blsr : ℤ) from rfl, Big.mod, if_neg hN.ne']
  show Except.ok (intBytes (k % blsr)) = _
  rw [intBytes, show (k % blsr).natAbs = (k % blsr).toNat by omega]

/-- C187: `EcPoint.Add` is the sum and `NewScalarBaseMult` is the multiple of the generator, for all integers -/
theorem C187_add_base (refs : List ℕ) (P Q : S1) (k : ℤ) :
    EcPoint.add (some (g1pt refs P)) (some (g1pt refs Q)) = .ok (g1pt refs (P + Q)) ∧
    newScalarBaseMult (some (g1Curve refs)) (some k) = .ok (g1pt refs (k • gS1)) ∧
    ((g1pt refs P).equals (some (g1pt refs Q)) = true ↔ P = Q) := by
  refine ⟨?_, ?_, ?_⟩
  · rw [EcPoint.add, Go.guard_true (sameCurve_self (by rfl))]
    show (do let (x, y) ← (g1Curve refs).add _ _ _ _; checked ⟨g1Curve refs, x, y⟩) = _
    rw [show (g1Curve refs).add (g1pt refs P).X (g1pt refs P).Y (g1pt refs Q).X (g1pt refs Q).Y = _ from (C187_ops refs P Q []).1]
    exact g1Valid refs (P + Q)
  · obtain ⟨hb, h0, hlt⟩ := g1_scalarBytes refs k
    have hlt' : (k % blsr).toNat < blsr := by omega
    have := (C187_ops refs P Q (natBytes (k % blsr).toNat)).2.2.1
    rw [beNat_natBytes] at this
    rw [newScalarBaseMult, hb, Go.ok_bind, this hlt']
    have e : (k % blsr).toNat • gS1 = k • gS1 := by
      rw [← natCast_zsmul, Int.toNat_of_nonneg h0, Int.emod_def, sub_smul, mul_comm, mul_smul, natCast_zsmul, S1.kill, smul_zero, sub_zero]
    rw [e]
    exact g1Valid refs (k • gS1)
  · rw [EcPoint.equals, sameCurve_self (by rfl), Bool.true_and, ctEq_and]
    show (some _ = some _ ∧ some _ = some _) ↔ _
    rw [Option.some_inj, Option.some_inj, ← Prod.ext_iff, (coords_inj (by simpa using g1Ok.no 0)).eq_iff, Subtype.ext_iff]

theorem leNat_pad (n : ℕ) (h : n < 256 ^ 32) : leNat ((natBytes n ++ List.replicate 32 0).take 32) = leNat (natBytes n) := by
  have hl : (natBytes n).length ≤ 32 := Core.natBytes_length_le.2 h
  rw [List.take_append, List.take_of_length_le hl, List.take_replicate, Native.leNat_append]
  have : ∀ m : ℕ, leNat (List.replicate m (0 : UInt8)) = 0 := fun m => by
    induction m with
    | zero => rfl
    | succ m ih => rw [List.replicate_succ, leNat_cons, ih]; rfl
  rw [this, mul_zero, add_zero]

/-- C187: what `EcPoint.ScalarMult` computes on `G1`: the bytes of the integer, reduced and without leading zeros, are read in the other
order.  It panics when the number so read is not below the order. -/
theorem C187_mul (refs : List ℕ) (P : S1) (k : ℤ) :
    EcPoint.scalarMult (some (g1pt refs P)) (some k) =
      if leNat (natBytes (k % blsr).toNat) < blsr then .ok (g1pt refs (leNat (natBytes (k % blsr).toNat) • P)) else Go.crash := by
  obtain ⟨hb, h0, hlt⟩ := g1_scalarBytes refs k
  have hlt' : (k % blsr).toNat < 256 ^ 32 := lt_trans (show _ < blsr by omega) (by decide +kernel)
  have := (C187_ops refs P P (natBytes (k % blsr).toNat)).2.2.2
  rw [leNat_pad _ hlt'] at this
  show (do let n ← scalarBytes (g1Curve refs) k; let (x, y) ← (g1Curve refs).scalarMult _ _ n; checked ⟨g1Curve refs, x, y⟩) = _
  rw [hb, Go.ok_bind, show (g1Curve refs).scalarMult (g1pt refs P).X (g1pt refs P).Y _ = _ from this]
  split
  · exact g1Valid refs _
  · rfl

/-- C187: so it is the multiple of the point exactly when the bytes are those of the same number in both orders -/
theorem C187_mul_iff (refs : List ℕ) (P : S1) (hP : P ≠ 0) (k : ℤ) :
    EcPoint.scalarMult (some (g1pt refs P)) (some k) = .ok (g1pt refs (k • P)) ↔ leNat (natBytes (k % blsr).toNat) = (k % blsr).toNat := by
  obtain ⟨-, h0, hlt⟩ := g1_scalarBytes refs k
  have hlt' : (k % blsr).toNat < blsr := by omega
  have e : (k % blsr).toNat • P = k • P := by
    rw [← natCast_zsmul, Int.toNat_of_nonneg h0, Int.emod_def, sub_smul, mul_comm, mul_smul, natCast_zsmul, S1.kill, smul_zero, sub_zero]
  rw [C187_mul, ← e]
  generalize (k % blsr).toNat = n at *
  have hord : addOrderOf P = blsr := addOrderOf_eq_prime (S1.kill P) hP
  split
  · rename_i h
    constructor
    · intro heq
      have h1 := Except.ok.inj heq
      have h2 : leNat (natBytes n) • P = n • P := by
        refine ((C187_add_base refs _ _ 0).2.2).1 ?_
        rw [h1]; exact ((C187_add_base refs _ _ 0).2.2).2 rfl
      have h3 := (nsmul_inj_mod).1 h2
      rw [hord] at h3
      exact Nat.ModEq.eq_of_lt_of_lt h3 h hlt'
    · intro heq; rw [heq]
  · rename_i h
    exact ⟨fun hc => (by cases hc), fun heq => absurd (by rw [heq]; exact hlt') h⟩

/-- 255 is fine; 256 gives the point itself; `2²⁴⁸ + 255` panics -/
example (refs : List ℕ) (P : S1) : EcPoint.scalarMult (some (g1pt refs P)) (some 255) = .ok (g1pt refs ((255 : ℤ) • P)) ∧
    EcPoint.scalarMult (some (g1pt refs P)) (some 256) = .ok (g1pt refs P) ∧
    EcPoint.scalarMult (some (g1pt refs P)) (some (2 ^ 248 + 255)) = Go.crash := by
  refine ⟨?_, ?_, ?_⟩
  · rw [C187_mul, show leNat (natBytes ((255 : ℤ) % blsr).toNat) = 255 by decide +kernel, if_pos (by decide +kernel)]
    rw [← natCast_zsmul]; rfl
  · rw [C187_mul, show leNat (natBytes ((256 : ℤ) % blsr).toNat) = 1 by decide +kernel, if_pos (by decide +kernel), one_nsmul]
  · rw [C187_mul, if_neg (by decide +kernel)]

theorem coords_gen : coords gS1.1 = ((g1GenX : ℤ), (g1GenY : ℤ)) := by
  have hr := mk1_rep (g := gen1) (by decide +kernel)
  have hn := mk1_ne (g := gen1) (by decide +kernel)
  show coords (mk1 gen1) = _
  generalize mk1 gen1 = P at hr hn
  rcases P with _ | ⟨x, y, h⟩
  · exact absurd rfl hn
  · obtain ⟨-, hx, hy⟩ := gRep_some.1 hr
    have hx : ((g1GenX : ℕ) : Fq) = x * 1 := hx
    have hy : ((g1GenY : ℕ) : Fq) = y * 1 := hy
    rw [mul_one] at hx hy
    rw [coords, ← hx, ← hy, ZMod.val_cast_of_lt (by decide +kernel), ZMod.val_cast_of_lt (by decide +kernel)]

/-- C187: the base point of the parameters is not on the curve: its coordinates are those of the generator multiplied by `2³⁸⁴`, as they are
in memory.  So `NewScalarBaseMult` of one is not `IsBasePoint`. -/
theorem C187_basePoint (refs : List ℕ) :
    (g1Curve refs).isOnCurve (some (g1Curve refs).params.Gx) (some (g1Curve refs).params.Gy) = .ok false ∧
    (∀ P : S1, (g1pt refs P).isBasePoint = false) ∧
    (g1Curve refs).params.Gx = (coords gS1.1).1 * 2 ^ 384 % blsp ∧ (g1Curve refs).params.Gy = (coords gS1.1).2 * 2 ^ 384 % blsp := by
  have hon : (g1Curve refs).isOnCurve (some (g1Curve refs).params.Gx) (some (g1Curve refs).params.Gy) = .ok false := by
    rw [(C187_isOnCurve refs _ _).2]
    rintro ⟨⟨P, hm⟩, hP⟩
    rcases P with _ | ⟨x, y, hn⟩
    · have := congrArg Prod.fst hP
      revert this
      show ¬ ((0 : ℤ) = (g1Params []).Gx % blsp)
      decide +kernel
    · rw [Prod.ext_iff] at hP
      obtain ⟨hx, hy⟩ := hP
      have hx : ((x.val : ℕ) : ℤ) = (g1Params []).Gx % blsp := hx
      have hy : ((y.val : ℕ) : ℤ) = (g1Params []).Gy % blsp := hy
      have ex : x = (((g1Params []).Gx.toNat : ℕ) : Fq) := by
        rw [← ZMod.natCast_zmod_val x, show x.val = (g1Params []).Gx.toNat by
          have : (g1Params []).Gx % blsp = ((g1Params []).Gx.toNat : ℤ) := by decide +kernel
          rw [this] at hx; exact Int.ofNat_inj.1 hx]
      have ey : y = (((g1Params []).Gy.toNat : ℕ) : Fq) := by
        rw [← ZMod.natCast_zmod_val y, show y.val = (g1Params []).Gy.toNat by
          have : (g1Params []).Gy % blsp = ((g1Params []).Gy.toNat : ℤ) := by decide +kernel
          rw [this] at hy; exact Int.ofNat_inj.1 hy]
      have he := equation_curve.1 hn.1
      rw [ex, ey] at he
      revert he
      decide +kernel
  refine ⟨hon, fun P => ?_, ?_, ?_⟩
  · rw [← Bool.not_eq_true, EcPoint.isBasePoint, ctEq_and]
    rintro ⟨h1, h2⟩
    have h1 : some (coords P.1).1 = some (g1Curve refs).params.Gx := h1
    have h2 : some (coords P.1).2 = some (g1Curve refs).params.Gy := h2
    rw [← h1, ← h2, (C187_isOnCurve refs _ _).2] at hon
    exact hon ⟨P, coords_mod P.1⟩
  · rw [coords_gen]; show (g1Params []).Gx = _; decide +kernel
  · rw [coords_gen]; show (g1Params []).Gy = _; decide +kernel

/-- C187: the curve of `G2` returns the encoding of the neutral element from every operation that does not fail, whatever the points and the
scalar; the encoding is accepted as a point, and is not `IsIdentity` -/
theorem C187_g2 (refs : List ℕ) : (∀ x1 y1 x2 y2 r, (g2Curve refs).add x1 y1 x2 y2 = .ok r → r = (none, none) ∨ r = (some (2 ^ 766), some 0)) ∧
    (∀ x y r, (g2Curve refs).double x y = .ok r → r = (none, none) ∨ r = (some (2 ^ 766), some 0)) ∧
    (∀ x y k r, (g2Curve refs).scalarMult x y k = .ok r → r = (none, none) ∨ r = (some (2 ^ 766), some 0)) ∧
    (∀ k r, (g2Curve refs).scalarBaseMult k = .ok r → r = (none, none) ∨ r = (some (2 ^ 766), some 0)) ∧
    (g2Curve refs).isOnCurve (some (2 ^ 766)) (some 0) = .ok true ∧
    EcPoint.isIdentity ⟨g2Curve refs, some (2 ^ 766), some 0⟩ = false ∧
    newScalarBaseMult (some (g2Curve refs)) (some 1) = .ok ⟨g2Curve refs, some (2 ^ 766), some 0⟩ := by
  have hb : ∀ p, toXY (g2BigInt p) = (some (2 ^ 766), some 0) := fun p => by
    rw [toXY, (C158_g2_bigInt p).1]
    simp only [Nat.cast_pow, Nat.cast_ofNat, Nat.cast_zero]
  have hor : ∀ {α : Type} (r : Go α) (f : α → Go XY) v, (∀ a v, f a = .ok v → v = (none, none) ∨ v = (some (2 ^ 766), some 0)) →
      orNil r f = .ok v → v = (none, none) ∨ v = (some (2 ^ 766), some 0) := by
    intro α r f v hf h
    rcases r with e | a
    · cases e
      · exact Or.inl (Except.ok.inj h).symm
      · cases h
    · exact hf a v h
  have hset : g2Set (some (2 ^ 766)) (some 0) = .ok gIdentity := by
    have h := C158_g2_bigInt gIdentity
    rw [h.1] at h
    have h2 := h.2
    simp only [Nat.cast_pow, Nat.cast_ofNat, Nat.cast_zero] at h2
    exact h2
  have hon : (g2Curve refs).isOnCurve (some (2 ^ 766)) (some 0) = .ok true := by
    rw [show (g2Curve refs).isOnCurve = g2IsOnCurve from rfl, g2IsOnCurve, hset]
  refine ⟨fun x1 y1 x2 y2 r h => ?_, fun x y r h => ?_, fun x y k r h => ?_, fun k r h => ?_, hon, ?_, ?_⟩
  · have h : g2cAdd x1 y1 x2 y2 = .ok r := h
    rw [g2cAdd] at h
    split at h
    · cases h
    · cases h
    · rw [← Except.ok.inj h, hb]; exact Or.inr rfl
    · exact Or.inl (Except.ok.inj h).symm
  · exact hor _ _ r (fun p v hv => Or.inr (by rw [← Except.ok.inj hv, hb])) h
  · exact hor _ _ r (fun p v hv => hor _ _ v (fun s w hw => Or.inr (by rw [← Except.ok.inj hw, hb])) hv) h
  · exact hor _ _ r (fun s w hw => Or.inr (by rw [← Except.ok.inj hw, hb])) h
  · rw [← Bool.not_eq_true, EcPoint.isIdentity, ctEq_and]
    rintro ⟨h, -⟩
    exact absurd (Option.some.inj h) (by decide +kernel)
  · have hs : scalarBytes (g2Curve refs) 1 = .ok [1] := by
      show scalarBytes (g2Curve refs) 1 = _
      rw [scalarBytes, show (g2Curve refs).params.N = (blsr : ℤ) from rfl]
      decide +kernel
    have hg : g1Scalar [1] = .ok (1 :: List.replicate 31 0) := by
      rw [g1Scalar, Go.guard_true (by decide +kernel)]; rfl
    rw [newScalarBaseMult, hs, Go.ok_bind]
    show (do let (x, y) ← g2cScalarBaseMult [1]; checked ⟨g2Curve refs, x, y⟩) = _
    rw [g2cScalarBaseMult, hg]
    show (do let (x, y) ← (Except.ok (toXY (g2BigInt _)) : Go XY); checked ⟨g2Curve refs, x, y⟩) = _
    rw [hb]
    show checked ⟨g2Curve refs, some (2 ^ 766), some 0⟩ = _
    rw [checked, EcPoint.isValid, EcPoint.isOnCurve]
    rw [hon]; rfl

/-- C187: on both curves a point that `IsOnCurve` refuses gives nil coordinates from every operation, also together with a good point -/
theorem C187_refused (c : ECurve) (refs : List ℕ) (hc : c = g1Curve refs ∨ c = g2Curve refs) (x1 y1 x2 y2 : Option ℤ) (k : List UInt8)
    (h : c.isOnCurve x1 y1 = .ok false) :
    c.double x1 y1 = .ok (none, none) ∧ c.scalarMult x1 y1 k = .ok (none, none) ∧
    (∀ b, c.isOnCurve x2 y2 = .ok b → c.add x1 y1 x2 y2 = .ok (none, none) ∧ c.add x2 y2 x1 y1 = .ok (none, none)) := by
  rcases hc with rfl | rfl
  · have e1 : g1Set x1 y1 = .error .error := by
      have h : g1IsOnCurve x1 y1 = .ok false := h
      rw [g1IsOnCurve] at h
      rcases hs : g1Set x1 y1 with (_ | _) | _
      · rfl
      · rw [hs] at h; cases h
      · rw [hs] at h; cases h
    refine ⟨?_, ?_, fun b hb => ?_⟩
    · show g1cDouble _ _ = _
      rw [g1cDouble, e1]; rfl
    · show g1cScalarMult _ _ _ = _
      rw [g1cScalarMult, e1]; rfl
    · have hb : g1IsOnCurve x2 y2 = .ok b := hb
      rw [g1IsOnCurve] at hb
      show g1cAdd _ _ _ _ = _ ∧ g1cAdd _ _ _ _ = _
      rw [g1cAdd, g1cAdd, e1]
      rcases hs : g1Set x2 y2 with (_ | _) | _
      · exact ⟨rfl, rfl⟩
      · rw [hs] at hb; cases hb
      · exact ⟨rfl, rfl⟩
  · have e1 : g2Set x1 y1 = .error .error := by
      have h : g2IsOnCurve x1 y1 = .ok false := h
      rw [g2IsOnCurve] at h
      rcases hs : g2Set x1 y1 with (_ | _) | _
      · rfl
      · rw [hs] at h; cases h
      · rw [hs] at h; cases h
    refine ⟨?_, ?_, fun b hb => ?_⟩
    · show g2cDouble _ _ = _
      rw [g2cDouble, e1]; rfl
    · show g2cScalarMult _ _ _ = _
      rw [g2cScalarMult, e1]; rfl
    · have hb : g2IsOnCurve x2 y2 = .ok b := hb
      rw [g2IsOnCurve] at hb
      show g2cAdd _ _ _ _ = _ ∧ g2cAdd _ _ _ _ = _
      rw [g2cAdd, g2cAdd, e1]
      rcases hs : g2Set x2 y2 with (_ | _) | _
      · exact ⟨rfl, rfl⟩
      · rw [hs] at hb; cases hb
      · exact ⟨rfl, rfl⟩

/-- C187: on the curve of `G2` the operations on points that `IsOnCurve` accepts do succeed, with that encoding; `ScalarMult` reads the bytes as
a little-endian number and gives nil when it is not below the order -/
theorem C187_g2_accepted (refs : List ℕ) (x1 y1 x2 y2 : Option ℤ) (k : List UInt8) (h1 : (g2Curve refs).isOnCurve x1 y1 = .ok true)
    (h2 : (g2Curve refs).isOnCurve x2 y2 = .ok true) :
    (g2Curve refs).add x1 y1 x2 y2 = .ok (some (2 ^ 766), some 0) ∧ (g2Curve refs).double x1 y1 = .ok (some (2 ^ 766), some 0) ∧
    (g2Curve refs).scalarMult x1 y1 k =
      if leNat ((k ++ List.replicate 32 0).take 32) < blsr then .ok (some (2 ^ 766), some 0) else .ok (none, none) := by
  have hb : ∀ p, toXY (g2BigInt p) = (some (2 ^ 766), some 0) := fun p => by
    rw [toXY, (C158_g2_bigInt p).1]
    simp only [Nat.cast_pow, Nat.cast_ofNat, Nat.cast_zero]
  have hs : ∀ x y, (g2Curve refs).isOnCurve x y = .ok true → ∃ p, g2Set x y = .ok p := fun x y h => by
    have h : g2IsOnCurve x y = .ok true := h
    rw [g2IsOnCurve] at h
    rcases hs : g2Set x y with (_ | _) | p
    · rw [hs] at h; cases h
    · rw [hs] at h; cases h
    · exact ⟨p, rfl⟩
  obtain ⟨p, hp⟩ := hs _ _ h1
  obtain ⟨q, hq⟩ := hs _ _ h2
  refine ⟨?_, ?_, ?_⟩
  · show g2cAdd _ _ _ _ = _
    rw [g2cAdd, hp, hq]
    show Except.ok (toXY _) = _
    rw [hb]
  · show g2cDouble _ _ = _
    rw [g2cDouble, hp]
    show Except.ok (toXY _) = _
    rw [hb]
  · show g2cScalarMult _ _ _ = _
    rw [g2cScalarMult, hp]
    show orNil (g1Scalar k) _ = _
    rw [g1Scalar]
    split
    · rename_i h
      rw [Go.guard_true h]
      show Except.ok (toXY _) = _
      rw [hb]
    · rename_i h
      rw [Go.guard_false h]; rfl

/-- the point with coordinates one is on neither curve -/
example (refs : List ℕ) : (g2Curve refs).isOnCurve (some 1) (some 1) = .ok false ∧
    (g2Curve refs).double (some 1) (some 1) = .ok (none, none) := by
  have h : (g2Curve refs).isOnCurve (some 1) (some 1) = .ok false := by
    show g2IsOnCurve (some 1) (some 1) = _
    decide +kernel
  exact ⟨h, (C187_refused _ refs (.inr rfl) _ _ none none [] h).1⟩

example (refs : List ℕ) : (g2Curve refs).add (some 0) (some 0) (some (2 ^ 766)) (some 0) = .ok (some (2 ^ 766), some 0) :=
  (C187_g2_accepted refs _ _ _ _ [] (by rfl) (C187_g2 refs).2.2.2.2.1).1

/-- C191: on `G1` the older `Feldman.Verify` checks another equation.  For a threshold of two: -/
theorem C191_g1 (refs : List ℕ) (limit id : UInt32) (v a₀ a₁ : ZMod blsr) :
    ecFeldmanVerify (g1Curve refs) ⟨2, limit⟩ (some ⟨id, v⟩) [g1pt refs (a₀ • gS1), g1pt refs (a₁ • gS1)] =
      .ok (decide (v = a₀ + (leNat (natBytes id.toNat) : ZMod blsr) * a₁)) := by
  have hid : id.toNat < 256 ^ 4 := id.toNat_lt
  have hidr : id.toNat < blsr := lt_trans hid (by decide +kernel)
  have hval : ((id.toNat : ℕ) : ZMod blsr).val = id.toNat := ZMod.val_cast_of_lt hidr
  have hle : leNat (natBytes id.toNat) < blsr := by
    refine lt_of_lt_of_le (leNat_lt _) (le_trans (Nat.pow_le_pow_right (by norm_num) (Core.natBytes_length_le.2 hid)) (by decide +kernel))
  have hmod : (((id.toNat : ℕ) : ℤ) % blsr).toNat = id.toNat := by
    rw [Int.emod_eq_of_lt (Int.natCast_nonneg _) (Int.ofNat_lt.2 hidr), Int.toNat_natCast]
  have hg : ∀ s : ZMod blsr, s • gS1 = 0 → s = 0 := fun s h => by
    have h0 : gS1 ≠ 0 := fun h => mk1_ne (g := gen1) (by decide +kernel) (congrArg Subtype.val h)
    exact (smul_eq_zero.1 h).resolve_right h0
  unfold ecFeldmanVerify
  rw [Go.guard_true (by show ¬ 2 < (2 : UInt32).toNat; decide), Go.ok_bind]
  simp only []
  rw [if_neg (not_le.2 hidr), ecRhs, one_mul, hval, C187_mul, hmod, if_pos hle, Go.ok_bind, (C187_add_base refs _ _ 0).1, Go.ok_bind, ecRhs,
    Go.ok_bind, (C187_add_base refs 0 0 _).2.1, Go.ok_bind, val_smul]
  congr 1
  rw [Bool.eq_iff_iff, (C187_add_base refs _ _ 0).2.2, decide_eq_true_iff]
  have : leNat (natBytes id.toNat) • a₁ • gS1 = ((leNat (natBytes id.toNat) : ZMod blsr) * a₁) • gS1 := by
    rw [mul_smul, Nat.cast_smul_eq_nsmul]
  rw [this, ← add_smul, ← sub_eq_zero, ← sub_smul]
  constructor
  · intro h; exact sub_eq_zero.1 (hg _ h)
  · intro h; rw [h, sub_self, zero_smul]

/-- C191: so a share that was dealt honestly is accepted exactly when the polynomial is constant or the bytes of the identifier read the same
in both orders: never for the identifier 256 -/
theorem C191_g1_honest (refs : List ℕ) (limit id : UInt32) (a₀ a₁ : ZMod blsr) :
    ecFeldmanVerify (g1Curve refs) ⟨2, limit⟩ (some ⟨id, a₀ + (id.toNat : ZMod blsr) * a₁⟩) [g1pt refs (a₀ • gS1), g1pt refs (a₁ • gS1)] =
      .ok (decide (a₁ = 0 ∨ leNat (natBytes id.toNat) = id.toNat)) := by
  have hid : id.toNat < 256 ^ 4 := id.toNat_lt
  have hidr : id.toNat < blsr := lt_trans hid (by decide +kernel)
  have hle : leNat (natBytes id.toNat) < blsr := by
    refine lt_of_lt_of_le (leNat_lt _) (le_trans (Nat.pow_le_pow_right (by norm_num) (Core.natBytes_length_le.2 hid)) (by decide +kernel))
  rw [C191_g1]
  congr 1
  rw [Bool.eq_iff_iff, decide_eq_true_iff, decide_eq_true_iff, add_right_inj]
  constructor
  · intro h
    rcases mul_eq_mul_right_iff.1 h with h | h
    · right
      have := congrArg ZMod.val h
      rw [ZMod.val_cast_of_lt hidr, ZMod.val_cast_of_lt hle] at this
      exact this.symm
    · exact Or.inl h
  · rintro (h | h)
    · rw [h]; simp
    · rw [h]

/-- both occur, and a share of another value passes in place of the honest one -/
example (refs : List ℕ) :
    ecFeldmanVerify (g1Curve refs) ⟨2, 300⟩ (some ⟨255, (3 + 255 * 5 : ZMod blsr)⟩) [g1pt refs ((3 : ZMod blsr) • gS1), g1pt refs ((5 : ZMod blsr) • gS1)] = .ok true ∧
    ecFeldmanVerify (g1Curve refs) ⟨2, 300⟩ (some ⟨256, (3 + 256 * 5 : ZMod blsr)⟩) [g1pt refs ((3 : ZMod blsr) • gS1), g1pt refs ((5 : ZMod blsr) • gS1)] = .ok false ∧
    ecFeldmanVerify (g1Curve refs) ⟨2, 300⟩ (some ⟨256, (3 + 1 * 5 : ZMod blsr)⟩) [g1pt refs ((3 : ZMod blsr) • gS1), g1pt refs ((5 : ZMod blsr) • gS1)] = .ok true := by
  refine ⟨?_, ?_, ?_⟩ <;> rw [C191_g1] <;> decide +kernel

end Verif.Legacy
