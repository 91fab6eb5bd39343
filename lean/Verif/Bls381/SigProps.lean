import Verif.Bls381.SigModel
import Verif.Bls381.PairProps
import Verif.Bls381.MapProps
import Verif.Bls.Props
import Mathlib.Algebra.Module.ZMod
import Mathlib.RingTheory.RootsOfUnity.Basic

/-!
# Property C168: the schemes on the concrete pairing

The models of the signature schemes, of BBS+ and of the accumulator take an abstract non-degenerate bilinear map. The
pairing of the code is one, on the subgroups of order `r`; and the verification functions, with their subgroup
checks and the engine, are those of the abstract model with this map.
-/

set_option linter.unusedSectionVars false

namespace Verif.Bls381

open Verif.Primes Verif.Native WeierstrassCurve.Affine Tower

/-- the points of the curve of `G1` killed by `r` -/
def S1 : AddSubgroup E1 := (nsmulAddMonoidHom (α := E1) blsr).ker

/-- the points of the curve of `G2` killed by `r` -/
def S2 : AddSubgroup E2 := (nsmulAddMonoidHom (α := E2) blsr).ker

theorem mem_S1 {P : E1} : P ∈ S1 ↔ blsr • P = 0 := Iff.rfl
theorem mem_S2 {P : E2} : P ∈ S2 ↔ blsr • P = 0 := Iff.rfl

theorem S1.kill (P : S1) : blsr • P = 0 := Subtype.ext (mem_S1.1 P.2)
theorem S2.kill (P : S2) : blsr • P = 0 := Subtype.ext (mem_S2.1 P.2)

noncomputable instance : Module (ZMod blsr) S1 := AddCommGroup.zmodModule S1.kill
noncomputable instance : Module (ZMod blsr) S2 := AddCommGroup.zmodModule S2.kill

/-- the target group, written additively -/
abbrev S3 (K : Type) [Field K] := Additive (rootsOfUnity blsr K)

theorem S3.kill {K : Type} [Field K] (x : S3 K) : blsr • x = 0 := by
  apply Additive.toMul.injective
  rw [toMul_nsmul]
  exact Subtype.ext ((mem_rootsOfUnity _ _).1 x.toMul.2)

noncomputable instance {K : Type} [Field K] : Module (ZMod blsr) (S3 K) := AddCommGroup.zmodModule S3.kill

variable {K : Type} [Field K] [DecidableEq K] (T : Tower Fq K)

/-- the pairing as an element of the target group -/
noncomputable def ateUnit (P : E1) (Q : E2) : S3 K :=
  Additive.ofMul ⟨Units.mk0 (T.ate P Q) (T.ate_ne P Q), by
    rw [mem_rootsOfUnity]
    exact Units.ext (T.ate_order P Q)⟩

/-- the field element -/
def val3 (x : S3 K) : K := ((x.toMul : Kˣ) : K)

theorem val3_inj {x y : S3 K} (h : val3 x = val3 y) : x = y :=
  Additive.toMul.injective (Subtype.ext (Units.ext h))

theorem val3_add (x y : S3 K) : val3 (x + y) = val3 x * val3 y := rfl
theorem val3_zero : val3 (0 : S3 K) = 1 := rfl
theorem val3_ate (P : E1) (Q : E2) : val3 (ateUnit T P Q) = T.ate P Q := rfl

/-- the pairing of the code as a bilinear map over the scalars -/
noncomputable def pair : S1 →ₗ[ZMod blsr] S2 →ₗ[ZMod blsr] S3 K :=
  AddMonoidHom.toZModLinearMap blsr (AddMonoidHom.mk'
    (fun P => AddMonoidHom.toZModLinearMap blsr (AddMonoidHom.mk' (fun Q => ateUnit T P Q)
      fun Q R => val3_inj (T.ate_add_right P (mem_S2.1 Q.2) (mem_S2.1 R.2))))
    fun P R => LinearMap.ext fun Q => val3_inj (T.ate_add_left P R (mem_S2.1 Q.2)))

theorem val3_pair (P : S1) (Q : S2) : val3 (pair T P Q) = T.ate P Q := rfl

/-- the generators -/
noncomputable def gS1 : S1 := ⟨mk1 gen1, by rw [mem_S1, ← gen1_order, addOrderOf_nsmul_eq_zero]⟩
noncomputable def gS2 : S2 := ⟨mk2 gen2, nr⟩

/-- the engine computes `pair` -/
theorem C168_bilinear {p : Proj Fq} {q : Proj (Fp2 Fq)} {P : S1} {Q : S2} (hp : GRep p (P : E1)) (hq : GRep q (Q : E2)) :
    ∃ g, enginePairing (addPair [] p q) = .ok g ∧ T.e12 g = val3 (pair T P Q) := by
  obtain ⟨g, h1, h2, -⟩ := C165_single T hp hq Q.2
  exact ⟨g, h1, h2⟩

theorem pair_eq_zero (P : S1) (Q : S2) : pair T P Q = 0 ↔ P = 0 ∨ Q = 0 := by
  obtain ⟨p, hp⟩ := GRep.exists (P : E1)
  obtain ⟨q, hq⟩ := GRep.exists (Q : E2)
  obtain ⟨g, h1, h2⟩ := C168_bilinear T hp hq
  have h := C167_nondegenerate hp hq P.2 Q.2
  rw [h1, Except.ok.injEq] at h
  have e : pair T P Q = 0 ↔ g = Fp12.one := by
    constructor
    · intro h0
      rw [h0, val3_zero] at h2
      exact T.e12_inj (h2.trans T.e12_one.symm)
    · intro h0
      rw [h0, e12_one] at h2
      exact val3_inj (h2.symm.trans val3_zero.symm)
  rw [e, h]
  exact or_congr ZeroMemClass.coe_eq_zero ZeroMemClass.coe_eq_zero

/-- the hypotheses that the theorems on the abstract models make of the pairing and the generators hold -/
theorem C168_nondegenerate : (∀ S : S2, pair T gS1 S = 0 → S = 0) ∧ (∀ P : S1, pair T P gS2 = 0 → P = 0) ∧
    gS1 ≠ 0 ∧ gS2 ≠ 0 ∧ GRep g1Generator (gS1 : E1) ∧ GRep g2Generator (gS2 : E2) ∧
    val3 (pair T gS1 gS2) = T.e12 gtGenerator := by
  have h1 : gS1 ≠ 0 := fun h => mk1_ne (g := gen1) (by decide +kernel) (congrArg Subtype.val h)
  have h2 : gS2 ≠ 0 := by
    intro h
    have h0 : mk2 gen2 = 0 := congrArg Subtype.val h
    have := gen2_order
    rw [h0] at this
    exact absurd (this.symm.trans addOrderOf_zero) (by decide +kernel)
  exact ⟨fun S h => ((pair_eq_zero T _ _).1 h).resolve_left h1, fun P h => ((pair_eq_zero T _ _).1 h).resolve_right h2,
    h1, h2, gen1_rep, gen2_rep, ate_generator T⟩

/-- a pair of points of the subgroups as coordinates -/
def SRep (pq : Proj Fq × Proj (Fp2 Fq)) (PQ : S1 × S2) : Prop := GRep pq.1 (PQ.1 : E1) ∧ GRep pq.2 (PQ.2 : E2)

theorem sRep_prod {l : List (Proj Fq × Proj (Fp2 Fq))} {L : List (S1 × S2)} (h : List.Forall₂ SRep l L) :
    List.Forall₂ PRep l (L.map fun d => ((d.1 : E1), (d.2 : E2))) ∧
      ((L.map fun d => ((d.1 : E1), (d.2 : E2))).map fun d => T.ate d.1 d.2).prod
        = val3 (L.map fun d => pair T d.1 d.2).sum := by
  induction h with
  | nil => exact ⟨.nil, by simp [val3_zero]⟩
  | @cons pq PQ l L h1 h2 ih =>
    refine ⟨.cons ⟨h1.1, h1.2, PQ.2.2⟩ ih.1, ?_⟩
    rw [List.map_cons, List.map_cons, List.prod_cons, ih.2, List.map_cons, List.sum_cons, val3_add, val3_pair]

open Classical in
theorem check_eq {l : List (Proj Fq × Proj (Fp2 Fq))} {L : List (S1 × S2)} (h : List.Forall₂ SRep l L) :
    engineCheck (addPairs [] l) = .ok (decide ((L.map fun d => pair T d.1 d.2).sum = 0)) := by
  obtain ⟨h1, h2⟩ := sRep_prod T h
  obtain ⟨v, h3, h4⟩ := C165_check T h1
  rw [h3]
  refine congrArg Except.ok ?_
  rw [h2] at h4
  rw [Bool.eq_iff_iff, h4, decide_eq_true_iff]
  exact ⟨fun h => val3_inj (h.trans val3_zero.symm), fun h => by rw [h, val3_zero]⟩

/-! ## The signatures -/

/-- an optional point of a subgroup as coordinates; nil stands for nil -/
def ORep1 : Option (Proj Fq) → Option S1 → Prop
  | none, none => True
  | some p, some P => GRep p (P : E1)
  | _, _ => False

def ORep2 : Option (Proj (Fp2 Fq)) → Option S2 → Prop
  | none, none => True
  | some p, some P => GRep p (P : E2)
  | _, _ => False

theorem z_iff1 {p : Proj Fq} {P : S1} (h : GRep p (P : E1)) : p.z = 0 ↔ P = 0 := by
  rw [C155_g1_predicates.2.1 h]; simp
theorem z_iff2 {p : Proj (Fp2 Fq)} {P : S2} (h : GRep p (P : E2)) : p.z = 0 ↔ P = 0 := by
  rw [C155_g2_predicates.2.1 h]; simp

/-- hashing to the curve of `G2` gives points of the subgroup, except for the messages for which one of the two field
elements is zero (C164) -/
theorem C168_hash2 {h : Hasher} (hh : h.Ok) : ∃ hash : List UInt8 → List UInt8 → S2, ∀ msg dst,
    c2 (beNat ((h.expand msg dst 256).take 64)) (beNat (((h.expand msg dst 256).drop 64).take 64)) ≠ 0 →
    c2 (beNat (((h.expand msg dst 256).drop 128).take 64)) (beNat ((h.expand msg dst 256).drop 192)) ≠ 0 →
    GRep (g2Hash h msg dst) (hash msg dst : E2) := by
  classical
  refine ⟨fun m d => if H : ∃ Q : S2, GRep (g2Hash h m d) (Q : E2) then H.choose else 0, fun m d k0 k1 => ?_⟩
  obtain ⟨P, Q, -, -, h1, h2⟩ := C164_g2_hash hh m d rfl rfl k0 k1
  have H : ∃ Q : S2, GRep (g2Hash h m d) (Q : E2) := ⟨⟨_, (C156_inSubgroup.2 h1).1 h2⟩, h1⟩
  simp only [dif_pos H]
  exact H.choose_spec

theorem C168_hash1 {h : Hasher} (hh : h.Ok) : ∃ hash : List UInt8 → List UInt8 → S1, ∀ msg dst,
    evalL (castL blsp isoN1.xDen) (g1Osswu ((beNat ((h.expand msg dst 128).take 64) : ℕ) : Fq)).x ≠ 0 →
    evalL (castL blsp isoN1.xDen) (g1Osswu ((beNat ((h.expand msg dst 128).drop 64) : ℕ) : Fq)).x ≠ 0 →
    GRep (g1Hash h msg dst) (hash msg dst : E1) := by
  classical
  refine ⟨fun m d => if H : ∃ Q : S1, GRep (g1Hash h m d) (Q : E1) then H.choose else 0, fun m d k0 k1 => ?_⟩
  obtain ⟨P, Q, -, -, h1, h2⟩ := C163_g1_hash hh m d rfl rfl k0 k1
  have H : ∃ Q : S1, GRep (g1Hash h m d) (Q : E1) := ⟨⟨_, (C156_inSubgroup.1 h1).1 h2⟩, h1⟩
  simp only [dif_pos H]
  exact H.choose_spec

section
open Classical

/-- `verifySignature` on coordinates is the function of the abstract model with the pairing of the code -/
theorem C168_usual_verify {sha : Hasher} {pk : Proj Fq} {P : S1} (hp : GRep pk (P : E1)) {sig : Option (Proj (Fp2 Fq))}
    {S : Option S2} (hs : ORep2 sig S) (msg : Option (List UInt8)) (dst : List UInt8)
    {hash : List UInt8 → List UInt8 → S2} (hh : ∀ m, msg = some m → GRep (g2Hash sha m dst) (hash m dst : E2)) :
    usualVerify sha pk msg sig dst = Bls.verifySignature gS1 (pair T) hash P msg S dst := by
  rcases sig with _ | s <;> rcases S with _ | S
  · rfl
  · exact hs.elim
  · exact hs.elim
  rcases msg with _ | m
  · rfl
  have hs : GRep s (S : E2) := hs
  simp only [usualVerify, Bls.verifySignature, Go.ofOption, Go.ok_bind, z_iff1 hp, z_iff2 hs, ne_eq]
  have h3 : gInSubgroup mulBy3b2 s = true := (C156_inSubgroup.2 hs).2 S.2
  simp only [h3, Bool.true_eq_false, or_false]
  have h4 := check_eq T (l := [(pk, g2Hash sha m dst), (gNeg g1Generator, s)]) (L := [(P, hash m dst), (-gS1, S)])
    (.cons ⟨hp, hh m rfl⟩ (.cons ⟨(C155_g1_neg_sub gen1_rep gen1_rep).1, hs⟩ .nil))
  have h5 : engineCheck (addPairInvG1 (addPair [] pk (g2Hash sha m dst)) g1Generator s)
      = .ok (decide (pair T P (hash m dst) + pair T (-gS1) S = 0)) := by
    refine Eq.trans h4 ?_
    simp
  rw [h5]

/-- a signature outside the subgroup is refused -/
theorem C168_usual_subgroup {sha : Hasher} {pk : Proj Fq} {s : Proj (Fp2 Fq)} {S : E2} (hs : GRep s S) (hS : blsr • S ≠ 0)
    (m dst : List UInt8) : usualVerify sha pk (some m) (some s) dst = Go.err := by
  have h3 : gInSubgroup mulBy3b2 s = false := by
    rw [← Bool.not_eq_true, C156_inSubgroup.2 hs]
    exact hS
  simp only [usualVerify, Go.ofOption, Go.ok_bind, h3, or_true, not_true_eq_false]
  by_cases h : pk.z = 0 <;> simp [h, Go.guard, Go.err]

/-- `verifySignature` does not check that the key lies in the subgroup: a component in the cofactor makes no difference -/
theorem C168_usual_key {sha : Hasher} {pk pk' : Proj Fq} {P : S1} {R : E1} (hp : GRep pk (P : E1)) (hP : P ≠ 0)
    (hR : 0xd201000000010001 • R = 0) (hp' : GRep pk' ((P : E1) + R)) (m dst : List UInt8) {s : Proj (Fp2 Fq)} {S : S2}
    (hs : GRep s (S : E2)) {Q : S2} (hh : GRep (g2Hash sha m dst) (Q : E2)) :
    usualVerify sha pk' (some m) (some s) dst = usualVerify sha pk (some m) (some s) dst := by
  obtain ⟨K, _, ⟨T⟩⟩ := C148_tower_exists
  have hz : pk.z ≠ 0 := fun h => hP ((z_iff1 hp).1 h)
  have hz' : pk'.z ≠ 0 := by
    intro h
    have h0 : (P : E1) + R = 0 := (C155_g1_predicates.2.1 hp').1 h
    have h1 : 0xd201000000010001 • (P : E1) = 0 := by
      have := congrArg (0xd201000000010001 • ·) h0
      simpa only [nsmul_add, hR, add_zero, nsmul_zero] using this
    have h2 := Nat.dvd_gcd (addOrderOf_dvd_of_nsmul_eq_zero h1) (addOrderOf_dvd_of_nsmul_eq_zero P.2)
    rw [show Nat.gcd 0xd201000000010001 blsr = 1 by decide +kernel, Nat.dvd_one, AddMonoid.addOrderOf_eq_one_iff] at h2
    exact hP (Subtype.ext h2)
  simp only [usualVerify, Go.ofOption, Go.ok_bind, ne_eq, hz, hz']
  have hn := (C155_g1_neg_sub gen1_rep gen1_rep).1
  obtain ⟨v, a1, a2⟩ := C165_check T (l := [(pk, g2Hash sha m dst), (gNeg g1Generator, s)])
    (L := [((P : E1), (Q : E2)), (-(mk1 gen1), (S : E2))]) (.cons ⟨hp, hh, Q.2⟩ (.cons ⟨hn, hs, S.2⟩ .nil))
  obtain ⟨v', b1, b2⟩ := C165_check T (l := [(pk', g2Hash sha m dst), (gNeg g1Generator, s)])
    (L := [((P : E1) + R, (Q : E2)), (-(mk1 gen1), (S : E2))]) (.cons ⟨hp', hh, Q.2⟩ (.cons ⟨hn, hs, S.2⟩ .nil))
  have hRQ : T.ate R Q = 1 := by
    obtain ⟨r, hr⟩ := GRep.exists R
    obtain ⟨g, c1, c2, -⟩ := C165_single T hr hh Q.2
    rw [C167_cofactor hr hh hR Q.2] at c1
    rw [← c2, ← Except.ok.inj c1, e12_one]
  have e : v' = v := by
    rw [Bool.eq_iff_iff, a2, b2]
    simp only [List.map_cons, List.prod_cons, T.ate_add_left _ _ Q.2, hRQ, mul_one]
  have a3 : engineCheck (addPairInvG1 (addPair [] pk (g2Hash sha m dst)) g1Generator s) = .ok v := a1
  have b3 : engineCheck (addPairInvG1 (addPair [] pk' (g2Hash sha m dst)) g1Generator s) = .ok v' := b1
  rw [a3, b3, e]

theorem addPairs_append (l : List (Proj Fq × Proj (Fp2 Fq))) (p : Proj Fq) (q : Proj (Fp2 Fq)) :
    addPairs [] (l ++ [(p, q)]) = addPair (addPairs [] l) p q := by
  simp [addPairs, List.foldl_append]

theorem sum_append (L : List (S1 × S2)) (P : S1) (Q : S2) :
    ((L ++ [(P, Q)]).map fun d => pair T d.1 d.2).sum = (L.map fun d => pair T d.1 d.2).sum + pair T P Q := by
  simp [List.map_append, List.sum_append]

theorem forall2_append {l : List (Proj Fq × Proj (Fp2 Fq))} {L : List (S1 × S2)} (h : List.Forall₂ SRep l L)
    {p : Proj Fq} {q : Proj (Fp2 Fq)} {P : S1} {Q : S2} (hp : GRep p (P : E1)) (hq : GRep q (Q : E2)) :
    List.Forall₂ SRep (l ++ [(p, q)]) (L ++ [(P, Q)]) := by
  induction h with
  | nil => exact .cons ⟨hp, hq⟩ .nil
  | cons h1 h2 ih => exact .cons h1 ih

theorem usualLoop_ok {sha : Hasher} {dst : List UInt8} {hash : List UInt8 → List UInt8 → S2}
    {ks : List (Option (Proj Fq) × List UInt8)} {Ks : List (Option S1 × List UInt8)}
    (hk : List.Forall₂ (fun a b => ORep1 a.1 b.1 ∧ a.2 = b.2 ∧ GRep (g2Hash sha a.2 dst) (hash a.2 dst : E2)) ks Ks) :
    ∀ {l : List (Proj Fq × Proj (Fp2 Fq))} {L : List (S1 × S2)}, List.Forall₂ SRep l L →
      (Bls.pairLoop (pair T) hash dst Ks = Go.err ∧ usualLoop sha dst (addPairs [] l) ks = Go.err) ∨
      ∃ t l' L', Bls.pairLoop (pair T) hash dst Ks = .ok t ∧ usualLoop sha dst (addPairs [] l) ks = .ok (addPairs [] l') ∧
        List.Forall₂ SRep l' L' ∧
        (L'.map fun d => pair T d.1 d.2).sum = (L.map fun d => pair T d.1 d.2).sum + t := by
  induction hk with
  | nil => exact fun {l L} h => Or.inr ⟨0, l, L, rfl, rfl, h, by simp⟩
  | @cons a b ks Ks h1 h2 ih =>
    intro l L h
    obtain ⟨a, m⟩ := a
    obtain ⟨b, m'⟩ := b
    obtain ⟨h3, rfl, h4⟩ := h1
    rcases a with _ | a <;> rcases b with _ | b
    · exact Or.inl ⟨rfl, rfl⟩
    · exact h3.elim
    · exact h3.elim
    have h3 : GRep a (b : E1) := h3
    have h5 : gInSubgroup mulBy3b1 a = true := (C156_inSubgroup.1 h3).2 b.2
    simp only [Bls.pairLoop, usualLoop, h5, Bool.true_eq_false, or_false, z_iff1 h3]
    by_cases hb : b = 0
    · left
      simp [hb, Go.guard]
    · rw [Go.guard_true hb, Go.ok_bind, Go.ok_bind, ← addPairs_append]
      rcases ih (forall2_append h h3 h4) with ⟨i1, i2⟩ | ⟨t, l', L', i1, i2, i3, i4⟩
      · exact Or.inl ⟨by rw [i1]; rfl, i2⟩
      · refine Or.inr ⟨_, l', L', by rw [i1]; rfl, i2, i3, ?_⟩
        rw [i4, sum_append, add_assoc]

/-- `coreAggregateVerify` on coordinates is the function of the abstract model -/
theorem C168_usual_aggregate {sha : Hasher} {sig : Proj (Fp2 Fq)} {S : S2} (hs : GRep sig (S : E2))
    {pks : List (Option (Proj Fq))} {Ps : List (Option S1)} (hp : List.Forall₂ ORep1 pks Ps) (msgs : List (List UInt8))
    (dst : List UInt8) {hash : List UInt8 → List UInt8 → S2}
    (hh : ∀ m ∈ msgs, GRep (g2Hash sha m dst) (hash m dst : E2)) :
    usualAggregateVerify sha sig pks msgs dst = Bls.coreAggregateVerify gS1 (pair T) hash S Ps msgs dst := by
  have h3 : gInSubgroup mulBy3b2 sig = true := (C156_inSubgroup.2 hs).2 S.2
  have hz : List.Forall₂ (fun a b => ORep1 a.1 b.1 ∧ a.2 = b.2 ∧ GRep (g2Hash sha a.2 dst) (hash a.2 dst : E2))
      (pks.zip msgs) (Ps.zip msgs) := by
    clear h3
    induction hp generalizing msgs with
    | nil => simp
    | cons h1 h2 ih =>
      cases msgs with
      | nil => simp
      | cons m ms =>
        rw [List.zip_cons_cons, List.zip_cons_cons]
        exact .cons ⟨h1, rfl, hh m (by simp)⟩ (ih ms fun m' hm => hh m' (by simp [hm]))
  simp only [usualAggregateVerify, Bls.coreAggregateVerify, hp.length_eq, h3]
  rcases usualLoop_ok T hz (l := []) (L := []) .nil with ⟨i1, i2⟩ | ⟨t, l', L', i1, i2, i3, i4⟩
  · have i2 : usualLoop sha dst [] (pks.zip msgs) = Go.err := i2
    rw [i1, i2, Go.guard_true trivial]
    rfl
  · have i2 : usualLoop sha dst [] (pks.zip msgs) = .ok (addPairs [] l') := i2
    have h5 : engineCheck (addPairInvG1 (addPairs [] l') g1Generator sig) = .ok (decide (t + pair T (-gS1) S = 0)) := by
      have := check_eq T (forall2_append i3 (P := -gS1) (C155_g1_neg_sub gen1_rep gen1_rep).1 hs)
      rw [addPairs_append, sum_append, i4, List.map_nil, List.sum_nil, zero_add] at this
      exact this
    rw [i1, i2, Go.guard_true trivial]
    simp only [Go.ok_bind, h5]

/-- and it refuses signatures and keys outside the subgroups -/
theorem C168_usual_aggregate_subgroup {sha : Hasher} {sig : Proj (Fp2 Fq)} {pks : List (Option (Proj Fq))}
    {msgs : List (List UInt8)} {dst : List UInt8} {v : Bool} (h : usualAggregateVerify sha sig pks msgs dst = .ok v) :
    gInSubgroup mulBy3b2 sig = true ∧ ∀ a ∈ pks, ∃ pk, a = some pk ∧ pk.z ≠ 0 ∧ gInSubgroup mulBy3b1 pk = true := by
  simp only [usualAggregateVerify, Go.bind_eq_ok, Go.guard_eq_ok] at h
  obtain ⟨-, -, -, -, -, hl, -, h3, e, he, -⟩ := h
  refine ⟨h3, ?_⟩
  clear h3
  have : ∀ (ks : List (Option (Proj Fq) × List UInt8)) (e e' : Engine), usualLoop sha dst e ks = .ok e' →
      ∀ a ∈ ks, ∃ pk, a.1 = some pk ∧ pk.z ≠ 0 ∧ gInSubgroup mulBy3b1 pk = true := by
    intro ks
    induction ks with
    | nil => simp
    | cons k ks ih =>
      intro e e' he a ha
      obtain ⟨k, m⟩ := k
      rcases k with _ | k
      · simp [usualLoop, Go.err] at he
      · simp only [usualLoop, Go.bind_eq_ok, Go.guard_eq_ok, not_or, Bool.not_eq_false] at he
        obtain ⟨-, h1, h2⟩ := he
        rcases List.mem_cons.1 ha with rfl | ha
        · exact ⟨k, rfl, h1⟩
        · exact ih _ _ h2 a ha
  intro a ha
  obtain ⟨i, hi, rfl⟩ := List.getElem_of_mem ha
  exact this _ _ _ he (pks[i], msgs[i]'(hl ▸ hi)) (List.mem_iff_getElem.2 ⟨i, by simp [hl ▸ hi, hi], by simp⟩)

/-! ## Keys in `G2` -/

theorem C168_tiny_verify {sha : Hasher} {pk : Proj (Fp2 Fq)} {P : S2} (hp : GRep pk (P : E2)) {sig : Option (Proj Fq)}
    {S : Option S1} (hs : ORep1 sig S) (msg : Option (List UInt8)) (dst : List UInt8)
    {hash : List UInt8 → List UInt8 → S1} (hh : ∀ m, msg = some m → GRep (g1Hash sha m dst) (hash m dst : E1)) :
    tinyVerify sha pk msg sig dst = Bls.verifySignatureVt gS2 (pair T) hash P msg S dst := by
  rcases sig with _ | s <;> rcases S with _ | S
  · rfl
  · exact hs.elim
  · exact hs.elim
  rcases msg with _ | m
  · rfl
  have hs : GRep s (S : E1) := hs
  simp only [tinyVerify, Bls.verifySignatureVt, Go.ofOption, Go.ok_bind, z_iff2 hp, z_iff1 hs, ne_eq]
  have h3 : gInSubgroup mulBy3b1 s = true := (C156_inSubgroup.1 hs).2 S.2
  simp only [h3, Bool.true_eq_false, or_false]
  have h4 := check_eq T (l := [(gNeg (g1Hash sha m dst), pk), (s, g2Generator)]) (L := [(-(hash m dst), P), (S, gS2)])
    (.cons ⟨(C155_g1_neg_sub (hh m rfl) (hh m rfl)).1, hp⟩ (.cons ⟨hs, gen2_rep⟩ .nil))
  have h5 : engineCheck (addPair (addPairInvG1 [] (g1Hash sha m dst) pk) s g2Generator)
      = .ok (decide (pair T (-(hash m dst)) P + pair T S gS2 = 0)) := by
    refine Eq.trans h4 ?_
    simp
  rw [h5]

theorem C168_tiny_subgroup {sha : Hasher} {pk : Proj (Fp2 Fq)} {s : Proj Fq} {S : E1} (hs : GRep s S) (hS : blsr • S ≠ 0)
    (m dst : List UInt8) : tinyVerify sha pk (some m) (some s) dst = Go.err := by
  have h3 : gInSubgroup mulBy3b1 s = false := by
    rw [← Bool.not_eq_true, C156_inSubgroup.1 hs]
    exact hS
  simp only [tinyVerify, Go.ofOption, Go.ok_bind, h3, or_true, not_true_eq_false]
  by_cases h : pk.z = 0 <;> simp [h, Go.guard, Go.err]

theorem tinyLoop_ok {sha : Hasher} {dst : List UInt8} {hash : List UInt8 → List UInt8 → S1}
    {ks : List (Option (Proj (Fp2 Fq)) × List UInt8)} {Ks : List (Option S2 × List UInt8)}
    (hk : List.Forall₂ (fun a b => ORep2 a.1 b.1 ∧ a.2 = b.2 ∧ GRep (g1Hash sha a.2 dst) (hash a.2 dst : E1)) ks Ks) :
    ∀ {l : List (Proj Fq × Proj (Fp2 Fq))} {L : List (S1 × S2)}, List.Forall₂ SRep l L →
      (Bls.pairLoopVt (pair T) hash dst Ks = Go.err ∧ tinyLoop sha dst (addPairs [] l) ks = Go.err) ∨
      ∃ t l' L', Bls.pairLoopVt (pair T) hash dst Ks = .ok t ∧ tinyLoop sha dst (addPairs [] l) ks = .ok (addPairs [] l') ∧
        List.Forall₂ SRep l' L' ∧
        (L'.map fun d => pair T d.1 d.2).sum = (L.map fun d => pair T d.1 d.2).sum + t := by
  induction hk with
  | nil => exact fun {l L} h => Or.inr ⟨0, l, L, rfl, rfl, h, by simp⟩
  | @cons a b ks Ks h1 h2 ih =>
    intro l L h
    obtain ⟨a, m⟩ := a
    obtain ⟨b, m'⟩ := b
    obtain ⟨h3, rfl, h4⟩ := h1
    rcases a with _ | a <;> rcases b with _ | b
    · exact Or.inl ⟨rfl, rfl⟩
    · exact h3.elim
    · exact h3.elim
    have h3 : GRep a (b : E2) := h3
    have h5 : gInSubgroup mulBy3b2 a = true := (C156_inSubgroup.2 h3).2 b.2
    simp only [Bls.pairLoopVt, tinyLoop, h5, Bool.true_eq_false, or_false, z_iff2 h3]
    by_cases hb : b = 0
    · left
      simp [hb, Go.guard]
    · rw [Go.guard_true hb, Go.ok_bind, Go.ok_bind, ← addPairs_append]
      rcases ih (forall2_append h h4 h3) with ⟨i1, i2⟩ | ⟨t, l', L', i1, i2, i3, i4⟩
      · exact Or.inl ⟨by rw [i1]; rfl, i2⟩
      · refine Or.inr ⟨_, l', L', by rw [i1]; rfl, i2, i3, ?_⟩
        rw [i4, sum_append, add_assoc]

theorem C168_tiny_aggregate {sha : Hasher} {sig : Proj Fq} {S : S1} (hs : GRep sig (S : E1))
    {pks : List (Option (Proj (Fp2 Fq)))} {Ps : List (Option S2)} (hp : List.Forall₂ ORep2 pks Ps)
    (msgs : List (List UInt8)) (dst : List UInt8) {hash : List UInt8 → List UInt8 → S1}
    (hh : ∀ m ∈ msgs, GRep (g1Hash sha m dst) (hash m dst : E1)) :
    tinyAggregateVerify sha sig pks msgs dst = Bls.coreAggregateVerifyVt gS2 (pair T) hash S Ps msgs dst := by
  have h3 : gInSubgroup mulBy3b1 sig = true := (C156_inSubgroup.1 hs).2 S.2
  have hz : List.Forall₂ (fun a b => ORep2 a.1 b.1 ∧ a.2 = b.2 ∧ GRep (g1Hash sha a.2 dst) (hash a.2 dst : E1))
      (pks.zip msgs) (Ps.zip msgs) := by
    clear h3
    induction hp generalizing msgs with
    | nil => simp
    | cons h1 h2 ih =>
      cases msgs with
      | nil => simp
      | cons m ms =>
        rw [List.zip_cons_cons, List.zip_cons_cons]
        exact .cons ⟨h1, rfl, hh m (by simp)⟩ (ih ms fun m' hm => hh m' (by simp [hm]))
  simp only [tinyAggregateVerify, Bls.coreAggregateVerifyVt, hp.length_eq, h3]
  rcases tinyLoop_ok T hz (l := []) (L := []) .nil with ⟨i1, i2⟩ | ⟨t, l', L', i1, i2, i3, i4⟩
  · have i2 : tinyLoop sha dst [] (pks.zip msgs) = Go.err := i2
    rw [i1, i2, Go.guard_true trivial]
    rfl
  · have i2 : tinyLoop sha dst [] (pks.zip msgs) = .ok (addPairs [] l') := i2
    have h5 : engineCheck (addPairInvG2 (addPairs [] l') sig g2Generator) = .ok (decide (t + pair T S (-gS2) = 0)) := by
      have := check_eq T (forall2_append i3 (Q := -gS2) hs (C155_g2_neg_sub gen2_rep gen2_rep).1)
      rw [addPairs_append, sum_append, i4, List.map_nil, List.sum_nil, zero_add] at this
      exact this
    rw [i1, i2, Go.guard_true trivial]
    simp only [Go.ok_bind, h5]

/-! ## `MultiPairing` -/

/-- alternating points of the two groups -/
def interleave (l : List (Proj Fq × Proj (Fp2 Fq))) : List AnyPoint := l.flatMap fun d => [.g1 d.1, .g2 d.2]

theorem multiLoop_interleave (l : List (Proj Fq × Proj (Fp2 Fq))) : ∀ e,
    multiLoop true e (interleave l) = (true, addPairs e l) := by
  induction l with
  | nil => exact fun e => rfl
  | cons d l ih => exact fun e => ih _

/-- `MultiPairing` of alternating points of the subgroups is the sum of the pairings, and `IsOne` of it decides
whether the sum is zero -/
theorem C168_multiPairing {l : List (Proj Fq × Proj (Fp2 Fq))} {L : List (S1 × S2)} (h : List.Forall₂ SRep l L) :
    ∃ g, multiPairing (interleave l) = .ok (some g) ∧ T.e12 g = val3 (L.map fun d => pair T d.1 d.2).sum ∧
      (g.isOne = true ↔ (L.map fun d => pair T d.1 d.2).sum = 0) := by
  obtain ⟨h1, h2⟩ := sRep_prod T h
  obtain ⟨g, h3, h4⟩ := C165_result T h1
  have hl : (interleave l).length % 2 = 0 := by
    simp [interleave, List.length_flatMap]
  have h5 := check_eq T h
  rw [engineCheck, h3] at h5
  have h6 : g.isOne = decide ((L.map fun d => pair T d.1 d.2).sum = 0) := Except.ok.inj h5
  refine ⟨g, ?_, h4.trans h2, by rw [h6, decide_eq_true_iff]⟩
  rw [multiPairing, if_neg (by simp [hl]), multiLoop_interleave]
  simp [h3, Except.map]

theorem multiLoop_false : ∀ (ps : List AnyPoint) (e : Engine), (multiLoop false e ps).1 = false
  | [], _ => rfl
  | [_], _ => rfl
  | a :: b :: rest, e => by
    rcases a with p | p | _ <;> rcases b with q | q | _ <;> exact multiLoop_false rest _

theorem multiLoop_other : ∀ (ps : List AnyPoint), ps.length % 2 = 0 → (∀ l, ps ≠ interleave l) →
    ∀ e, (multiLoop true e ps).1 = false
  | [], _, h, _ => absurd rfl (h [])
  | [_], h, _, _ => absurd h (by simp)
  | a :: b :: rest, hl, h, e => by
    rcases a with p | p | _ <;> rcases b with q | q | _ <;> try exact multiLoop_false rest _
    refine multiLoop_other rest (by simp only [List.length_cons] at hl; omega) (fun l hr => h ((p, q) :: l) ?_) _
    rw [hr]; rfl

/-- any other list of points gives nil -/
theorem C168_multiPairing_nil {ps : List AnyPoint} (h : ∀ l, ps ≠ interleave l) : multiPairing ps = .ok none := by
  rw [multiPairing]
  split
  · rfl
  · rename_i hl
    have h1 := multiLoop_other ps (by omega) h []
    simp [h1]

/-- `Pairing` in either order -/
theorem C168_pairing {p : Proj Fq} {q : Proj (Fp2 Fq)} {P : S1} {Q : S2} (hp : GRep p (P : E1)) (hq : GRep q (Q : E2)) :
    ∃ g, g1Pairing p (.g2 q) = .ok (some g) ∧ g2Pairing q (.g1 p) = .ok (some g) ∧ T.e12 g = val3 (pair T P Q) := by
  obtain ⟨g, h1, h2⟩ := C168_bilinear T hp hq
  exact ⟨g, by rw [g1Pairing, h1]; rfl, by rw [g2Pairing, h1]; rfl, h2⟩

/-! ## The premises can be met -/

/-- signing with the key 5: the theorems on the abstract model apply to the code; for every message whose hash is a point
other than the identity, a signature computed with `Mul` is accepted -/
example (sha : Hasher) (m dst : List UInt8) (Q : S2) (hQ : Q ≠ 0) (hh : GRep (g2Hash sha m dst) (Q : E2)) :
    usualVerify sha (gMultiply mulBy3b1 g1Generator (5 :: List.replicate 31 0)) (some m)
      (some (gMultiply mulBy3b2 (g2Hash sha m dst) (5 :: List.replicate 31 0))) dst = .ok true := by
  obtain ⟨K, _, ⟨T⟩⟩ := C148_tower_exists
  have hl : leNat (5 :: List.replicate 31 0) = 5 := by decide +kernel
  have hp := C156_g1_mul gen1_rep (bytes := 5 :: List.replicate 31 0) (by decide)
  have hs := C156_g2_mul hh (bytes := 5 :: List.replicate 31 0) (by decide)
  rw [hl] at hp hs
  have h5 : (5 : ZMod blsr) ≠ 0 := by decide +kernel
  have e1 : (5 : ZMod blsr) • gS1 = (5 : ℕ) • gS1 := by
    rw [← Nat.cast_smul_eq_nsmul (ZMod blsr)]; norm_num
  have e2 : (5 : ZMod blsr) • Q = (5 : ℕ) • Q := by
    rw [← Nat.cast_smul_eq_nsmul (ZMod blsr)]; norm_num
  have hv := C168_usual_verify T (sha := sha) (P := (5 : ℕ) • gS1) (S := some ((5 : ℕ) • Q)) hp
    (sig := some _) hs (some m) dst (hash := fun _ _ => Q) (by rintro m' h; cases h; exact hh)
  rw [hv, Bls.verifySignature]
  have n1 : (5 : ℕ) • gS1 ≠ 0 := by
    rw [← e1]; exact smul_ne_zero h5 (C168_nondegenerate T).2.2.1
  have n2 : (5 : ℕ) • Q ≠ 0 := by
    rw [← e2]; exact smul_ne_zero h5 hQ
  simp only [Go.ofOption, Go.ok_bind]
  rw [Go.guard_true n1, Go.guard_true n2, Go.ok_bind, Go.ok_bind]
  refine congrArg Except.ok (decide_eq_true ?_)
  rw [map_nsmul, map_nsmul, map_neg, LinearMap.neg_apply, LinearMap.smul_apply, smul_neg, add_neg_cancel]

/-- a signature outside the subgroup, for `C168_usual_subgroup` -/
example : ∃ (s : Proj (Fp2 Fq)) (S : E2), GRep s S ∧ blsr • S ≠ 0 :=
  ⟨_, mk2 w13a, mk2_rep (g := w13a) (by decide +kernel), fun h => by
    have h1 := Nat.dvd_gcd (addOrderOf_dvd_of_nsmul_eq_zero h) (addOrderOf_dvd_of_nsmul_eq_zero n13a)
    rw [show Nat.gcd blsr 13 = 1 by decide +kernel, Nat.dvd_one, AddMonoid.addOrderOf_eq_one_iff] at h1
    exact mk2_ne (g := w13a) (by decide +kernel) h1⟩

/-- a key with a component of order 3, for `C168_usual_key` -/
example : ∃ pk' R, (0xd201000000010001 • R = 0 ∧ R ≠ 0) ∧ GRep pk' ((gS1 : E1) + R) := by
  obtain ⟨p, hp⟩ := GRep.exists ((gS1 : E1) + mk1 (0, 2))
  exact ⟨p, mk1 (0, 2), ⟨zero1_ok (fuel := 64) (by decide +kernel), mk1_ne (by decide +kernel)⟩, hp⟩

/-- two signers of two messages -/
example (sha : Hasher) (m m' dst : List UInt8) (Q Q' : S2) (hm : m ≠ m') (hh : GRep (g2Hash sha m dst) (Q : E2))
    (hh' : GRep (g2Hash sha m' dst) (Q' : E2)) (s : Proj (Fp2 Fq)) (hs : GRep s ((Q + Q' : S2) : E2)) :
    usualAggregateVerify sha s [some g1Generator, some g1Generator] [m, m'] dst = .ok true := by
  obtain ⟨K, _, ⟨T⟩⟩ := C148_tower_exists
  have hg := (C168_nondegenerate T).2.2.1
  have h1 : ORep1 (some g1Generator) (some gS1) := gen1_rep
  rw [C168_usual_aggregate T hs (Ps := [some gS1, some gS1]) (.cons h1 (.cons h1 .nil)) [m, m'] dst
    (hash := fun x _ => if x = m then Q else Q') (by
      intro x hx
      rcases List.mem_cons.1 hx with rfl | hx
      · simpa using hh
      · rw [List.mem_singleton] at hx
        subst hx
        simpa [hm.symm] using hh')]
  simp [Bls.coreAggregateVerify, Bls.pairLoop, Go.guard, hg, hm.symm]

example : ∀ l, [AnyPoint.g1 g1Generator, AnyPoint.g1 g1Generator] ≠ interleave l := by
  rintro (_ | ⟨d, l⟩) h
  · simp [interleave] at h
  · simp [interleave] at h

end

end Verif.Bls381
