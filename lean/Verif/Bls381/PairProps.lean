import Verif.Bls381.PairLemmas

/-!
# Properties C165 to C167: the pairing

`T.ate P Q` (`Verif.Bls381.AteLemmas`) is the textbook optimal ate pairing: Miller's function of `Q` of length `|x|`, a
product of quotients of lines and verticals, at `P`, to the power `-3 (p¹² - 1) / r`. `T` is any field with the relations
of the tower (C148). The points are those of Mathlib's group `E1`, `E2`; `GRep p P` says that the coordinates `p` stand
for `P`.
-/

set_option linter.unusedSectionVars false

namespace Verif.Bls381

open Verif.Primes Verif.Native WeierstrassCurve.Affine Tower

variable {K : Type} [Field K] [DecidableEq K] (T : Tower Fq K)

/-! ## C165: the engine computes the optimal ate pairing -/

/-- the doubling step: the coefficients of the tangent, and twice the point (`JRep`: Jacobian coordinates) -/
theorem C165_doublingStep {c : Proj (Fp2 Fq)} {A : E2} (h : JRep c A) :
    IsLine (doublingStep c).1 A A ∧ JRep (doublingStep c).2 (A + A) := doublingStep_ok h

/-- the addition step: the coefficients of the line through two different points, and their sum -/
theorem C165_additionStep {c : Proj (Fp2 Fq)} {A : E2} (h : JRep c A) {x₂ y₂ : Fp2 Fq} {h₂} {z : Fp2 Fq}
    (h1 : A ≠ .some x₂ y₂ h₂) (h2 : A ≠ -.some x₂ y₂ h₂) :
    IsLine (additionStep c ⟨x₂, y₂, z⟩).1 A (.some x₂ y₂ h₂) ∧
      JRep (additionStep c ⟨x₂, y₂, z⟩).2 (A + .some x₂ y₂ h₂) := additionStep_ok h h1 h2

/-- a `G1` and a `G2` that stand for given points, the second one of order `r` -/
def PRep (pq : Proj Fq × Proj (Fp2 Fq)) (PQ : E1 × E2) : Prop := GRep pq.1 PQ.1 ∧ GRep pq.2 PQ.2 ∧ blsr • PQ.2 = 0

/-- `AddPair` for a list of pairs -/
def addPairs (e : Engine) (l : List (Proj Fq × Proj (Fp2 Fq))) : Engine := l.foldl (fun e p => addPair e p.1 p.2) e

theorem addPair_ok {p : Proj Fq} {q : Proj (Fp2 Fq)} {P : E1} {Q : E2} (hp : GRep p P) (hq : GRep q Q)
    (ds : List (E1 × E2)) :
    addPair (engineOf ds) p q = engineOf (if P = 0 ∨ Q = 0 then ds else ds ++ [(P, Q)]) := by
  rw [addPair, toAffine_eq hp, toAffine_eq hq]
  by_cases h : P = 0 ∨ Q = 0
  · rw [if_pos h, if_neg]
    simpa [aff_z] using (by tauto : ¬ (P ≠ 0 ∧ Q ≠ 0))
  · rw [if_neg h, if_pos]
    · simp [engineOf]
    · rw [not_or] at h
      simp [aff_z, h.1, h.2]

theorem addPairs_ok {l : List (Proj Fq × Proj (Fp2 Fq))} {L : List (E1 × E2)} (h : List.Forall₂ PRep l L) :
    ∀ ds : List (E1 × E2), Good ds → ∃ ds', addPairs (engineOf ds) l = engineOf ds' ∧ Good ds' ∧
      (ds'.map fun d => T.ate d.1 d.2).prod = (ds.map fun d => T.ate d.1 d.2).prod * (L.map fun d => T.ate d.1 d.2).prod := by
  induction h with
  | nil => exact fun ds hg => ⟨ds, rfl, hg, by simp⟩
  | @cons pq PQ l L h1 h2 ih =>
    intro ds hg
    rw [addPairs, List.foldl_cons, addPair_ok h1.1 h1.2.1]
    by_cases h : PQ.1 = 0 ∨ PQ.2 = 0
    · rw [if_pos h]
      obtain ⟨ds', e1, e2, e3⟩ := ih ds hg
      refine ⟨ds', e1, e2, ?_⟩
      have : T.ate PQ.1 PQ.2 = 1 := by
        rcases h with h | h
        · rw [h, T.ate_zero_left]
        · rw [h, T.ate_zero_right]
      rw [e3, List.map_cons, List.prod_cons, this, one_mul]
    · rw [if_neg h]
      rw [not_or] at h
      obtain ⟨ds', e1, e2, e3⟩ := ih (ds ++ [(PQ.1, PQ.2)]) (by
        intro d hd
        rcases List.mem_append.1 hd with hd | hd
        · exact hg d hd
        · rw [List.mem_singleton] at hd
          subst hd
          exact ⟨h.1, h.2, h1.2.2⟩)
      refine ⟨ds', e1, e2, ?_⟩
      rw [e3, List.map_append, List.prod_append, List.map_cons, List.prod_cons]
      simp only [List.map_cons, List.map_nil, List.prod_cons, List.prod_nil, mul_one]
      ring

/-- `Result` after any number of `AddPair`s on a new engine never panics and is the product of the pairings; a pair
with the point at infinity contributes nothing. The first points may be any points of the curve. -/
theorem C165_result {l : List (Proj Fq × Proj (Fp2 Fq))} {L : List (E1 × E2)} (h : List.Forall₂ PRep l L) :
    ∃ g, enginePairing (addPairs [] l) = .ok g ∧ T.e12 g = (L.map fun d => T.ate d.1 d.2).prod := by
  obtain ⟨ds, e1, e2, e3⟩ := addPairs_ok T h [] (fun d hd => by simp at hd)
  obtain ⟨g, h1, h2⟩ := pairing_ok T e2
  exact ⟨g, by rw [← h1, ← e1]; rfl, by rw [h2, e3]; simp⟩

/-- `Check` says whether the product is one, although `IsOne` forgets a coefficient -/
theorem C165_check {l : List (Proj Fq × Proj (Fp2 Fq))} {L : List (E1 × E2)} (h : List.Forall₂ PRep l L) :
    ∃ v, engineCheck (addPairs [] l) = .ok v ∧ (v = true ↔ (L.map fun d => T.ate d.1 d.2).prod = 1) := by
  obtain ⟨g, h1, h2⟩ := C165_result T h
  refine ⟨g.isOne, by rw [engineCheck, h1]; rfl, ?_⟩
  have hr : T.e12 g ^ blsr = 1 := by
    rw [h2]
    have : ∀ L : List (E1 × E2), (L.map fun d => T.ate d.1 d.2).prod ^ blsr = 1 := by
      intro L
      induction L with
      | nil => simp
      | cons d L ih => rw [List.map_cons, List.prod_cons, mul_pow, ih, T.ate_order, one_mul]
    exact this L
  have hc := (C152_cyclotomic T (order_cyc hr)).2.1
  rw [← h2, C149_isOne_norm_one hc]
  exact ⟨fun h => by rw [h, e12_one], fun h => T.e12_inj (h.trans T.e12_one.symm)⟩

/-- one pair -/
theorem C165_single {p : Proj Fq} {q : Proj (Fp2 Fq)} {P : E1} {Q : E2} (hp : GRep p P) (hq : GRep q Q)
    (hQ : blsr • Q = 0) : ∃ g, enginePairing (addPair [] p q) = .ok g ∧ T.e12 g = T.ate P Q ∧ T.e12 g ^ blsr = 1 := by
  obtain ⟨g, h1, h2⟩ := C165_result T (l := [(p, q)]) (L := [(P, Q)]) (.cons ⟨hp, hq, hQ⟩ .nil)
  have h3 : T.e12 g = T.ate P Q := by rw [h2]; simp
  exact ⟨g, h1, h3, by rw [h3, T.ate_order]⟩

/-- the empty engine, and the engine after `Reset`, give one -/
theorem C165_empty (e : Engine) : enginePairing (engineReset e) = .ok Fp12.one ∧ engineCheck (engineReset e) = .ok true :=
  ⟨rfl, (by decide +kernel : engineCheck [] = .ok true)⟩

/-- the engine does not check membership in the subgroup: paired with a point of the curve of order 13, the generator
gives zero, which is no element of the target group -/
theorem C165_outside : ∃ q : Proj (Fp2 Fq), gIsOnCurve curveG2B q = true ∧
    enginePairing (addPair [] g1Generator q) = .ok Fp12.zero ∧
    engineCheck (addPair [] g1Generator q) = .ok false := by
  have h : enginePairing (addPair [] g1Generator ⟨c2 w13a.1.1 w13a.1.2, c2 w13a.2.1 w13a.2.2, 1⟩) = .ok Fp12.zero := by
    rw [g1Generator_eq]; decide +kernel
  refine ⟨_, ?_, h, ?_⟩
  · rw [curveG2B_eq]; decide +kernel
  · rw [engineCheck, h]; decide +kernel

/-! ## C166: bilinearity -/

/-- additive in the first argument, which may be any point of the curve -/
theorem C166_add_left {p p' : Proj Fq} {q : Proj (Fp2 Fq)} {P P' : E1} {Q : E2} (hp : GRep p P) (hp' : GRep p' P')
    (hq : GRep q Q) (hQ : blsr • Q = 0) : ∃ g g', enginePairing (addPair [] p q) = .ok g ∧
      enginePairing (addPair [] p' q) = .ok g' ∧ enginePairing (addPair [] (gAdd mulBy3b1 p p') q) = .ok (gtAdd g g') := by
  obtain ⟨K, _, ⟨T⟩⟩ := C148_tower_exists
  classical
  obtain ⟨g, h1, h2, -⟩ := C165_single T hp hq hQ
  obtain ⟨g', h1', h2', -⟩ := C165_single T hp' hq hQ
  obtain ⟨g'', h1'', h2'', -⟩ := C165_single T (C155_g1_add hp hp') hq hQ
  refine ⟨g, g', h1, h1', ?_⟩
  rw [h1'']
  refine congrArg Except.ok (T.e12_inj ?_)
  rw [gtAdd, e12_mul, h2, h2', h2'', T.ate_add_left P P' hQ]

/-- additive in the second argument -/
theorem C166_add_right {p : Proj Fq} {q q' : Proj (Fp2 Fq)} {P : E1} {Q Q' : E2} (hp : GRep p P)
    (hq : GRep q Q) (hq' : GRep q' Q') (hQ : blsr • Q = 0) (hQ' : blsr • Q' = 0) :
    ∃ g g', enginePairing (addPair [] p q) = .ok g ∧ enginePairing (addPair [] p q') = .ok g' ∧
      enginePairing (addPair [] p (gAdd mulBy3b2 q q')) = .ok (gtAdd g g') := by
  obtain ⟨K, _, ⟨T⟩⟩ := C148_tower_exists
  classical
  obtain ⟨g, h1, h2, -⟩ := C165_single T hp hq hQ
  obtain ⟨g', h1', h2', -⟩ := C165_single T hp hq' hQ'
  obtain ⟨g'', h1'', h2'', -⟩ := C165_single T hp (C155_g2_add hq hq') (by rw [nsmul_add, hQ, hQ', add_zero])
  refine ⟨g, g', h1, h1', ?_⟩
  rw [h1'']
  refine congrArg Except.ok (T.e12_inj ?_)
  rw [gtAdd, e12_mul, h2, h2', h2'', T.ate_add_right P hQ hQ']

theorem ate_nsmul_left (a : ℕ) (P : E1) {Q : E2} (hQ : blsr • Q = 0) : T.ate (a • P) Q = T.ate P Q ^ a := by
  induction a with
  | zero => rw [zero_nsmul, T.ate_zero_left, pow_zero]
  | succ a ih => rw [succ_nsmul, T.ate_add_left _ _ hQ, ih, pow_succ]

theorem ate_nsmul_right (b : ℕ) (P : E1) {Q : E2} (hQ : blsr • Q = 0) : T.ate P (b • Q) = T.ate P Q ^ b := by
  induction b with
  | zero => rw [zero_nsmul, T.ate_zero_right, pow_zero]
  | succ b ih =>
    rw [succ_nsmul, T.ate_add_right _ (by rw [nsmul_left_comm, hQ, nsmul_zero]) hQ, ih, pow_succ]

theorem ate_nsmul (a b : ℕ) (P : E1) {Q : E2} (hQ : blsr • Q = 0) : T.ate (a • P) (b • Q) = T.ate P Q ^ (a * b) := by
  rw [ate_nsmul_left T _ _ (by rw [nsmul_left_comm, hQ, nsmul_zero]), ate_nsmul_right T _ _ hQ, ← pow_mul, mul_comm b]

/-- `e(a P, b Q) = e(P, Q)^(a b)` for the multiples the code computes -/
theorem C166_mul {p : Proj Fq} {q : Proj (Fp2 Fq)} {P : E1} {Q : E2} (hp : GRep p P) (hq : GRep q Q)
    (hQ : blsr • Q = 0) {a b : List UInt8} (ha : a.length = 32) (hb : b.length = 32) :
    ∃ g g', enginePairing (addPair [] p q) = .ok g ∧
      enginePairing (addPair [] (gMultiply mulBy3b1 p a) (gMultiply mulBy3b2 q b)) = .ok g' ∧
      T.e12 g' = T.e12 g ^ (leNat a * leNat b) := by
  obtain ⟨g, h1, h2, -⟩ := C165_single T hp hq hQ
  obtain ⟨g', h1', h2', -⟩ := C165_single T (C156_g1_mul hp ha) (C156_g2_mul hq hb) (by rw [nsmul_left_comm, hQ, nsmul_zero])
  exact ⟨g, g', h1, h1', by rw [h2, h2', ate_nsmul T _ _ _ hQ]⟩

theorem ate_neg_left (P : E1) {Q : E2} (hQ : blsr • Q = 0) : T.ate (-P) Q = (T.ate P Q)⁻¹ := by
  refine eq_inv_of_mul_eq_one_left ?_
  rw [← T.ate_add_left _ _ hQ, neg_add_cancel, T.ate_zero_left]

theorem ate_neg_right (P : E1) {Q : E2} (hQ : blsr • Q = 0) : T.ate P (-Q) = (T.ate P Q)⁻¹ := by
  refine eq_inv_of_mul_eq_one_left ?_
  rw [← T.ate_add_right _ (by rw [neg_nsmul, hQ, neg_zero]) hQ, neg_add_cancel, T.ate_zero_right]

/-- `AddPairInvG1` and `AddPairInvG2` have the same effect: they contribute the inverse -/
theorem C166_inverse {p : Proj Fq} {q : Proj (Fp2 Fq)} {P : E1} {Q : E2} (hp : GRep p P) (hq : GRep q Q)
    (hQ : blsr • Q = 0) : ∃ g, enginePairing (addPair [] p q) = .ok g ∧
      enginePairing (addPairInvG1 [] p q) = .ok (gtNeg g) ∧ enginePairing (addPairInvG2 [] p q) = .ok (gtNeg g) ∧
      engineCheck (addPairInvG1 (addPair [] p q) p q) = .ok true ∧
      engineCheck (addPairInvG2 (addPair [] p q) p q) = .ok true := by
  obtain ⟨K, _, ⟨T⟩⟩ := C148_tower_exists
  classical
  have hnp := (C155_g1_neg_sub hp hp).1
  have hnq := (C155_g2_neg_sub hq hq).1
  have hnQ : blsr • -Q = 0 := by rw [neg_nsmul, hQ, neg_zero]
  obtain ⟨g, h1, h2, h3⟩ := C165_single T hp hq hQ
  obtain ⟨g1, a1, a2, -⟩ := C165_single T hnp hq hQ
  obtain ⟨g2, b1, b2, -⟩ := C165_single T hp hnq hnQ
  have hinv : T.e12 (gtNeg g) = (T.e12 g)⁻¹ := (C153_group T h3 h3).2.2.2.2.1
  refine ⟨g, h1, ?_, ?_, ?_, ?_⟩
  · rw [addPairInvG1, a1]
    exact congrArg Except.ok (T.e12_inj <| by rw [hinv, a2, h2, ate_neg_left T P hQ])
  · rw [addPairInvG2, b1]
    exact congrArg Except.ok (T.e12_inj <| by rw [hinv, b2, h2, ate_neg_right T P hQ])
  · obtain ⟨v, c1, c2⟩ := C165_check T (l := [(p, q), (gNeg p, q)]) (L := [(P, Q), (-P, Q)])
      (.cons ⟨hp, hq, hQ⟩ (.cons ⟨hnp, hq, hQ⟩ .nil))
    rw [c2.2 (by simp [ate_neg_left T P hQ, mul_inv_cancel₀ (T.ate_ne P Q)])] at c1
    exact c1
  · obtain ⟨v, c1, c2⟩ := C165_check T (l := [(p, q), (p, gNeg q)]) (L := [(P, Q), (P, -Q)])
      (.cons ⟨hp, hq, hQ⟩ (.cons ⟨hp, hnq, hnQ⟩ .nil))
    rw [c2.2 (by simp [ate_neg_right T P hQ, mul_inv_cancel₀ (T.ate_ne P Q)])] at c1
    exact c1

/-! ## C167: non-degeneracy -/

/-- the pairing of the generators, computed, is the generator of the target group -/
theorem C167_generator : enginePairing (addPair [] g1Generator g2Generator) = .ok gtGenerator := by
  rw [gtGenerator_eq, g1Generator_eq, g2Generator_eq]
  decide +kernel

theorem ate_generator : T.ate (mk1 gen1) (mk2 gen2) = T.e12 gtGenerator := by
  obtain ⟨g, h1, h2, -⟩ := C165_single T gen1_rep gen2_rep nr
  rw [C167_generator] at h1
  rw [← h2, Except.ok.inj h1]

/-- the pairings of multiples of the generators -/
theorem ate_multiples (a b : ℕ) : T.ate (a • mk1 gen1) (b • mk2 gen2) = T.e12 gtGenerator ^ (a * b) := by
  rw [ate_nsmul T _ _ _ nr, ate_generator]

/-- the result for two points of the subgroups is one only if one of them is the point at infinity -/
theorem C167_nondegenerate {p : Proj Fq} {q : Proj (Fp2 Fq)} {P : E1} {Q : E2} (hp : GRep p P) (hq : GRep q Q)
    (hP : blsr • P = 0) (hQ : blsr • Q = 0) : enginePairing (addPair [] p q) = .ok Fp12.one ↔ P = 0 ∨ Q = 0 := by
  obtain ⟨K, _, ⟨T⟩⟩ := C148_tower_exists
  classical
  obtain ⟨g, h1, h2, -⟩ := C165_single T hp hq hQ
  rw [h1, Except.ok.injEq]
  have e : g = Fp12.one ↔ T.ate P Q = 1 := by
    rw [← h2]
    exact ⟨fun h => by rw [h, e12_one], fun h => T.e12_inj (h.trans T.e12_one.symm)⟩
  rw [e]
  constructor
  · intro h
    have := finite_E1
    have := finite_E2
    have hcard := (top_of_points2 ⊤ trivial trivial trivial trivial trivial trivial trivial trivial trivial).2
    obtain ⟨a, -, rfl⟩ := mem_multiples C159_g1_order (by decide +kernel) gen1_order (by decide +kernel) hP
    obtain ⟨b, -, rfl⟩ := mem_multiples hcard (by decide +kernel) gen2_order (by decide +kernel) hQ
    rw [ate_multiples] at h
    have h3 := orderOf_dvd_of_pow_eq_one h
    rw [C154_generator_order] at h3
    rcases fact_blsr.out.dvd_mul.1 h3 with ⟨k, rfl⟩ | ⟨k, rfl⟩
    · left
      rw [mul_nsmul, ← gen1_order, addOrderOf_nsmul_eq_zero, nsmul_zero]
    · right
      rw [mul_nsmul, ← gen2_order, addOrderOf_nsmul_eq_zero, nsmul_zero]
  · rintro (rfl | rfl)
    · exact T.ate_zero_left Q
    · exact T.ate_zero_right P

/-- `Check` on multiples of the generators verifies a quadratic equation between the discrete logarithms -/
theorem C167_check {l : List (Proj Fq × Proj (Fp2 Fq))} {ab : List (ℕ × ℕ)} {G : E1} {H : E2}
    (hG : GRep g1Generator G) (hH : GRep g2Generator H)
    (h : List.Forall₂ (fun pq n => GRep pq.1 (n.1 • G) ∧ GRep pq.2 (n.2 • H)) l ab) :
    ∃ v, engineCheck (addPairs [] l) = .ok v ∧ (v = true ↔ blsr ∣ (ab.map fun n => n.1 * n.2).sum) := by
  obtain ⟨K, _, ⟨T⟩⟩ := C148_tower_exists
  classical
  obtain rfl := hG.unique gen1_rep
  obtain rfl := hH.unique gen2_rep
  obtain ⟨v, h1, h2⟩ := C165_check T (L := ab.map fun n => (n.1 • mk1 gen1, n.2 • mk2 gen2)) (l := l) (by
    rw [List.forall₂_map_right_iff]
    refine h.imp fun pq n hpq => ⟨hpq.1, hpq.2, ?_⟩
    rw [nsmul_left_comm, nr, nsmul_zero])
  refine ⟨v, h1, h2.trans ?_⟩
  have : ∀ ab : List (ℕ × ℕ), ((ab.map fun n => (n.1 • mk1 gen1, n.2 • mk2 gen2)).map fun d => T.ate d.1 d.2).prod
      = T.e12 gtGenerator ^ (ab.map fun n => n.1 * n.2).sum := by
    intro ab
    induction ab with
    | nil => simp
    | cons n ab ih =>
      rw [List.map_cons, List.map_cons, List.map_cons, List.prod_cons, List.sum_cons, ih, pow_add, ate_multiples]
  rw [this ab, ← orderOf_dvd_iff_pow_eq_one, C154_generator_order]

/-- the cofactor part of a point of `E1` is not seen: the engine accepts points outside the subgroup of `G1` -/
theorem C167_cofactor {p : Proj Fq} {q : Proj (Fp2 Fq)} {P : E1} {Q : E2} (hp : GRep p P) (hq : GRep q Q)
    (hP : 0xd201000000010001 • P = 0) (hQ : blsr • Q = 0) : enginePairing (addPair [] p q) = .ok Fp12.one := by
  obtain ⟨K, _, ⟨T⟩⟩ := C148_tower_exists
  classical
  obtain ⟨g, h1, h2, h3⟩ := C165_single T hp hq hQ
  rw [h1]
  refine congrArg Except.ok (T.e12_inj ?_)
  have h4 : T.e12 g ^ 0xd201000000010001 = 1 := by
    rw [h2, ← ate_nsmul_left T _ _ hQ, hP, T.ate_zero_left]
  rw [e12_one, ← orderOf_eq_one_iff, ← Nat.dvd_one, ← show Nat.gcd 0xd201000000010001 blsr = 1 by decide +kernel]
  exact Nat.dvd_gcd (orderOf_dvd_of_pow_eq_one h4) (orderOf_dvd_of_pow_eq_one h3)

/-! ## The premises can be met -/

example : JRep g2Generator (mk2 gen2) := by
  have hz : g2Generator.z = 1 := by rw [g2Generator_eq]
  rcases h : mk2 gen2 with _ | ⟨x, y, hn⟩
  · have := gen2_order
    rw [h] at this
    exact absurd (this.symm.trans addOrderOf_zero) (by decide +kernel)
  · have := gen2_rep
    rw [h] at this
    obtain ⟨-, hx, hy⟩ := gRep_some.1 this
    exact ⟨by rw [hz]; exact one_ne_zero, by rw [hx, hz]; ring, by rw [hy, hz]; ring⟩

/-- two different points for `C165_additionStep`: twice the generator, and the generator -/
example : mk2 gen2 + mk2 gen2 ≠ mk2 gen2 ∧ mk2 gen2 + mk2 gen2 ≠ -mk2 gen2 := by
  constructor
  · intro h
    have : mk2 gen2 = 0 := by simpa using h
    have h2 := gen2_order
    rw [this] at h2
    exact absurd (h2.symm.trans addOrderOf_zero) (by decide +kernel)
  · intro h
    have h3 : 3 • mk2 gen2 = 0 := by
      rw [succ_nsmul, two_nsmul, h, neg_add_cancel]
    have h4 := addOrderOf_dvd_of_nsmul_eq_zero h3
    rw [gen2_order] at h4
    exact absurd (Nat.le_of_dvd (by decide) h4) (by decide +kernel)

theorem neg_multiple {A : Type} [AddCommGroup A] {G : A} {r n : ℕ} (h : addOrderOf G = r) (hn : n ≤ r) :
    -(n • G) = (r - n) • G := by
  refine neg_eq_of_add_eq_zero_right ?_
  rw [← add_nsmul, Nat.add_sub_cancel' hn, ← h, addOrderOf_nsmul_eq_zero]

/-- `e(3 G, 5 H) e(-n G, H)` is one for `n = 15`, and not for `n = 14` -/
example (n : ℕ) (bs : List UInt8) (hl : bs.length = 32) (hb : leNat bs = n) (hn : n = 15 ∨ n = 14) :
    ∃ v, engineCheck (addPairs []
      [(gMultiply mulBy3b1 g1Generator (3 :: List.replicate 31 0), gMultiply mulBy3b2 g2Generator (5 :: List.replicate 31 0)),
      (gNeg (gMultiply mulBy3b1 g1Generator bs), g2Generator)]) = .ok v ∧ (v = true ↔ n = 15) := by
  have h1 := C156_g1_mul gen1_rep (bytes := 3 :: List.replicate 31 0) (by decide)
  have h2 := C156_g2_mul gen2_rep (bytes := 5 :: List.replicate 31 0) (by decide)
  have h3 := C156_g1_mul gen1_rep hl
  have h4 := (C155_g1_neg_sub h3 h3).1
  have hle : leNat bs ≤ blsr := by
    rw [hb]
    exact le_trans (by rcases hn with h | h <;> rw [h] <;> decide : n ≤ 15) (by decide +kernel)
  rw [neg_multiple gen1_order hle] at h4
  have h5 : GRep g2Generator (1 • mk2 gen2) := by rw [one_nsmul]; exact gen2_rep
  generalize hm : blsr - leNat bs = m at h4
  generalize hi : leNat (3 :: List.replicate 31 0) = i at h1
  generalize hj : leNat (5 :: List.replicate 31 0) = j at h2
  obtain ⟨v, a, b⟩ := C167_check (l := [(_, _), (_, _)]) (ab := [(i, j), (m, 1)]) gen1_rep gen2_rep
    (.cons ⟨h1, h2⟩ (.cons ⟨h4, h5⟩ .nil))
  refine ⟨v, a, b.trans ?_⟩
  rw [← hm, ← hi, ← hj, hb]
  rcases hn with rfl | rfl <;> decide +kernel

/-- a point outside the subgroup of `G1` for `C167_cofactor`: the point `(0, 2)`, of order 3 -/
example : GRep (⟨0, 2, 1⟩ : Proj Fq) (mk1 (0, 2)) ∧ mk1 (0, 2) ≠ 0 ∧ 0xd201000000010001 • mk1 (0, 2) = 0 :=
  ⟨by simpa using mk1_rep (g := (0, 2)) (by decide +kernel), mk1_ne (by decide +kernel),
    zero1_ok (fuel := 64) (by decide +kernel)⟩

end Verif.Bls381
