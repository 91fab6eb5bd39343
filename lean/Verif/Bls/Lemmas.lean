import Verif.Bls.Model
import Verif.Sharing.Lemmas

/-! Helper lemmas about the model of the BLS signatures. -/

set_option linter.unusedSectionVars false

namespace Verif.Bls

open Finset Polynomial

variable {F : Type} [Field F] [DecidableEq F]
variable {G H GT : Type} [AddCommGroup G] [Module F G] [DecidableEq G]
  [AddCommGroup H] [Module F H] [DecidableEq H] [AddCommGroup GT] [Module F GT] [DecidableEq GT]

/-- with as many nodes as the power, the Lagrange sum misses by the product of the nodes -/
theorem sum_lag0_pow_card {ι : Type} [DecidableEq ι] (s : Finset ι) (v : ι → F) (hv : Set.InjOn v s)
    (hs : s.card ≠ 0) : ∑ i ∈ s, lag0 s v i * v i ^ s.card = -∏ i ∈ s, -v i := by
  have hm : (∏ i ∈ s, (X - C (v i)) : F[X]).Monic := monic_prod_of_monic _ _ fun i _ => monic_X_sub_C _
  have hd : (∏ i ∈ s, (X - C (v i)) : F[X]).natDegree = s.card := by simp
  have hdeg : (X ^ s.card - ∏ i ∈ s, (X - C (v i)) : F[X]).degree < s.card := by
    have h1 : (X ^ s.card : F[X]).degree = s.card := degree_X_pow _
    have h2 : (∏ i ∈ s, (X - C (v i)) : F[X]).degree = s.card := by
      rw [degree_eq_natDegree hm.ne_zero, hd]
    have := degree_sub_lt_left (h1.trans h2.symm) (by simp) (by
      rw [hm.leadingCoeff, leadingCoeff_X_pow])
    rwa [h1] at this
  have h := sum_lag0_eval s v hv _ hdeg
  have hz : ∀ i ∈ s, (∏ j ∈ s, (X - C (v j)) : F[X]).eval (v i) = 0 := by
    intro i hi
    rw [eval_prod]
    exact Finset.prod_eq_zero hi (by simp)
  rw [Finset.sum_congr rfl (g := fun i => lag0 s v i * v i ^ s.card)] at h
  · rw [h]
    simp [eval_prod, hs]
  · intro i hi
    simp [hz i hi]

theorem allRowsUniqueFrom_iff (data seen : List Bytes) :
    allRowsUniqueFrom seen data = true ↔ data.Nodup ∧ ∀ m ∈ data, m ∉ seen := by
  induction data generalizing seen with
  | nil => simp [allRowsUniqueFrom]
  | cons m l ih =>
    unfold allRowsUniqueFrom
    by_cases h : m ∈ seen
    · simp [h]
    · rw [if_neg h, ih, List.nodup_cons]
      constructor
      · rintro ⟨a, b⟩
        refine ⟨⟨fun hm => b m hm (by simp), a⟩, ?_⟩
        intro x hx
        rcases List.mem_cons.1 hx with rfl | hx
        · exact h
        · exact fun hs => b x hx (by simp [hs])
      · rintro ⟨⟨a, b⟩, c⟩
        refine ⟨b, fun x hx hs => ?_⟩
        rcases List.mem_cons.1 hs with rfl | hs
        · exact a hx
        · exact c x (by simp [hx]) hs

theorem allRowsUnique_iff (data : List Bytes) : allRowsUnique data = true ↔ data.Nodup := by
  unfold allRowsUnique
  rw [allRowsUniqueFrom_iff]
  simp

/-- the Lagrange coefficients computed by `combineSigs` -/
theorem basis_eq (xs : List F) (i : ℕ) (xi : F)
    (h : ∀ p ∈ xs.zipIdx, i ≠ p.2 → xi ≠ p.1) :
    basis xs i xi = .ok ((Sharing.numDen xs i xi).1 / (Sharing.numDen xs i xi).2) := by
  unfold basis Sharing.numDen
  suffices key : ∀ (l : List (F × ℕ)) (n d : F), (∀ p ∈ l, i ≠ p.2 → xi ≠ p.1) →
      l.foldlM (fun b xj => if i = xj.2 then (.ok b : Go F) else if xi - xj.1 = 0 then Go.err
        else .ok (b * (-xj.1 * (xi - xj.1)⁻¹))) (n / d) =
      .ok ((l.foldl (fun (nd : F × F) xj =>
          if i = xj.2 then nd else (nd.1 * xj.1, nd.2 * (xj.1 - xi))) (n, d)).1 /
        (l.foldl (fun (nd : F × F) xj =>
          if i = xj.2 then nd else (nd.1 * xj.1, nd.2 * (xj.1 - xi))) (n, d)).2) by
    simpa using key xs.zipIdx 1 1 h
  intro l
  induction l with
  | nil => intro n d _; rfl
  | cons p l ih =>
    intro n d hl
    rw [List.foldlM_cons, List.foldl_cons]
    by_cases hi : i = p.2
    · simp only [if_pos hi]
      exact ih n d fun q hq => hl q (by simp [hq])
    · have hne := hl p (by simp) hi
      simp only [if_neg hi, if_neg (sub_ne_zero.2 hne)]
      rw [Go.ok_bind]
      have : n / d * (-p.1 * (xi - p.1)⁻¹) = n * p.1 / (d * (p.1 - xi)) := by
        rw [← neg_sub p.1 xi, inv_neg, div_mul_eq_mul_div, neg_mul_neg, ← mul_assoc,
          div_eq_mul_inv, div_eq_mul_inv, mul_inv]
        ring
      rw [this]
      exact ih _ _ fun q hq => hl q (by simp [hq])

theorem combineLoop_eq (pts : List (F × H)) (h : (pts.map Prod.fst).Nodup) :
    combineLoop pts = Sharing.interpolate pts := by
  have hne : ∀ p ∈ pts.zipIdx, ∀ q ∈ (pts.map Prod.fst).zipIdx, p.2 ≠ q.2 → p.1.1 ≠ q.1 := by
    rintro ⟨p, i⟩ hp ⟨q, j⟩ hq hij heq
    rw [List.mem_zipIdx_iff_getElem?] at hp hq
    have hp' : (pts.map Prod.fst)[i]? = some p.1 := by simp [hp]
    apply hij
    have hlt : i < (pts.map Prod.fst).length := (List.getElem?_eq_some_iff.1 hp').1
    exact ((List.getElem?_inj hlt h).1 (hp'.trans (by rw [hq]; exact congrArg some heq)))
  unfold combineLoop Sharing.interpolate
  have hden : ∀ p ∈ pts.zipIdx, (Sharing.numDen (pts.map Prod.fst) p.2 p.1.1).2 ≠ 0 := by
    intro p hp
    rw [Sharing.numDen_eq]
    show (∏ j ∈ (range (pts.map Prod.fst).length).erase p.2, ((pts.map Prod.fst).getD j 0 - p.1.1)) ≠ 0
    refine Finset.prod_ne_zero_iff.2 fun j hj => ?_
    have hj' := Finset.mem_erase.1 hj
    have hjl : j < (pts.map Prod.fst).length := by simpa using hj'.2
    refine sub_ne_zero.2 fun heq => ?_
    refine hne p hp ((pts.map Prod.fst).getD j 0, j) ?_ (Ne.symm hj'.1) heq.symm
    rw [List.mem_zipIdx_iff_getElem?, List.getD_eq_getElem _ _ hjl]
    simp only [List.getElem?_eq_getElem hjl]
  suffices key : ∀ (l : List ((F × H) × ℕ)) (a : H), (∀ p ∈ l, p ∈ pts.zipIdx) →
      l.foldlM (fun (sig : H) p => (do
        let b ← basis (pts.map Prod.fst) p.2 p.1.1
        .ok (sig + b • p.1.2) : Go H)) a =
      l.foldlM (fun result p =>
        let nd := Sharing.numDen (pts.map Prod.fst) p.2 p.1.1
        if nd.2 = 0 then Go.err else .ok (result + (nd.1 / nd.2) • p.1.2)) a from key _ _ fun _ => id
  intro l
  induction l with
  | nil => intro a _; rfl
  | cons p l ih =>
    intro a hl
    have hp := hl p (by simp)
    rw [List.foldlM_cons, List.foldlM_cons, basis_eq _ _ _ (hne p hp)]
    simp only [Go.ok_bind, if_neg (hden p hp)]
    exact ih _ fun q hq => hl q (by simp [hq])

theorem splitXY_iff (seen : List UInt8) (ps : List (Option (Partial H))) (r : List (F × H)) :
    splitXY (F := F) seen ps = .ok r ↔ ∃ l : List (Partial H), ps = l.map some ∧
      (l.map Partial.identifier).Nodup ∧ (∀ p ∈ l, p.identifier ∉ seen) ∧
      r = l.map fun p => ((p.identifier.toNat : F), p.signature) := by
  induction ps generalizing seen r with
  | nil =>
    constructor
    · intro h
      cases h
      exact ⟨[], by simp⟩
    · rintro ⟨l, hl, -, -, rfl⟩
      cases l with
      | nil => rfl
      | cons => simp at hl
  | cons p ps ih =>
    cases p with
    | none =>
      constructor
      · intro h; cases h
      · rintro ⟨l, hl, -⟩
        cases l <;> simp at hl
    | some p =>
      unfold splitXY
      rw [Go.guard_bind_eq_ok, Go.bind_eq_ok]
      constructor
      · rintro ⟨hs, tl, htl, h⟩
        obtain ⟨l, rfl, hn, hd, rfl⟩ := (ih _ _).1 htl
        cases h
        refine ⟨p :: l, rfl, ?_, ?_, rfl⟩
        · rw [List.map_cons, List.nodup_cons]
          refine ⟨fun hm => ?_, hn⟩
          obtain ⟨q, hq, he⟩ := List.mem_map.1 hm
          exact hd q hq (by simp [he])
        · intro q hq
          rcases List.mem_cons.1 hq with rfl | hq
          · exact hs
          · exact fun hx => hd q hq (by simp [hx])
      · rintro ⟨l, hl, hn, hd, rfl⟩
        cases l with
        | nil => simp at hl
        | cons q l =>
          simp only [List.map_cons, List.cons.injEq, Option.some.injEq] at hl
          obtain ⟨rfl, rfl⟩ := hl
          rw [List.map_cons, List.nodup_cons] at hn
          refine ⟨hd p (by simp), _, (ih _ _).2 ⟨l, rfl, hn.2, ?_, rfl⟩, rfl⟩
          intro x hx hs
          rcases List.mem_cons.1 hs with hs | hs
          · exact hn.1 (List.mem_map.2 ⟨x, hx, hs⟩)
          · exact hd x (by simp [hx]) hs

theorem splitXY_ne_panic (seen : List UInt8) (ps : List (Option (Partial H))) :
    splitXY (F := F) seen ps ≠ Go.crash := by
  induction ps generalizing seen with
  | nil => intro h; cases h
  | cons p ps ih =>
    cases p with
    | none => intro h; cases h
    | some p =>
      unfold splitXY Go.guard
      by_cases hs : p.identifier ∉ seen
      · rw [if_pos hs, Go.ok_bind]
        intro h
        cases hx : splitXY (F := F) (p.identifier :: seen) ps with
        | ok a => rw [hx] at h; cases h
        | error f =>
          rw [hx] at h
          cases f with
          | error => cases h
          | panic => exact ih _ hx
      · rw [if_neg hs]; intro h; cases h

theorem ids_nodup (hF : ByteInj F) (ids : List UInt8) (h : ids.Nodup) :
    (ids.map fun i : UInt8 => ((i.toNat : ℕ) : F)).Nodup := by
  refine List.Nodup.map_on ?_ h
  intro a _ b _ hab
  have ha := a.toNat_lt; have hb := b.toNat_lt
  exact UInt8.toNat_inj.1 (hF.inj (by omega) (by omega) hab)

/-- the two sums of the aggregation -/
theorem aggregate_eq_ok {P : Type} [AddCommGroup P] (ps : List (Option P)) (s : P) :
    aggregate ps = .ok s ↔ ps ≠ [] ∧ ∃ l : List P, ps = l.map some ∧ s = l.sum := by
  have key : ∀ (ps : List (Option P)) (a : P), ps.foldlM addStep a = .ok s ↔ ∃ l : List P, ps = l.map some ∧ s = a + l.sum := by
    intro ps
    induction ps with
    | nil =>
      intro a
      constructor
      · intro h; cases h; exact ⟨[], by simp⟩
      · rintro ⟨l, hl, rfl⟩
        cases l with
        | nil => simp
        | cons => simp at hl
    | cons p ps ih =>
      intro a
      rw [List.foldlM_cons]
      cases p with
      | none =>
        constructor
        · intro h; cases h
        · rintro ⟨l, hl, -⟩
          cases l <;> simp at hl
      | some p =>
        rw [addStep, Go.ok_bind, ih]
        constructor
        · rintro ⟨l, rfl, rfl⟩
          exact ⟨p :: l, rfl, by simp [add_assoc]⟩
        · rintro ⟨l, hl, rfl⟩
          cases l with
          | nil => simp at hl
          | cons q l =>
            simp only [List.map_cons, List.cons.injEq, Option.some.injEq] at hl
            obtain ⟨rfl, rfl⟩ := hl
            exact ⟨l, rfl, by simp [add_assoc]⟩
  unfold aggregate
  rw [Go.guard_bind_eq_ok, key]
  simp only [zero_add]
  refine and_congr_left fun _ => ?_
  cases ps <;> simp

theorem aggregate_ne_panic {P : Type} [AddCommGroup P] (ps : List (Option P)) :
    aggregate ps ≠ Go.crash := by
  have key : ∀ (ps : List (Option P)) (a : P), ps.foldlM addStep a ≠ Go.crash := by
    intro ps
    induction ps with
    | nil => intro a h; cases h
    | cons p ps ih =>
      intro a
      rw [List.foldlM_cons]
      cases p with
      | none => intro h; cases h
      | some p => rw [addStep, Go.ok_bind]; exact ih _
  unfold aggregate Go.guard
  by_cases h : ¬ ps.length < 1
  · rw [if_pos h]; exact key ps 0
  · rw [if_neg h]; intro h; cases h

theorem pairLoop_iff (e : G →ₗ[F] H →ₗ[F] GT) (hash : Bytes → Bytes → H) (dst : Bytes)
    (l : List (Option G × Bytes)) (t : GT) :
    pairLoop e hash dst l = .ok t ↔ ∃ r : List (G × Bytes), l = r.map (fun p => (some p.1, p.2)) ∧
      (∀ p ∈ r, p.1 ≠ 0) ∧ t = (r.map fun p => e p.1 (hash p.2 dst)).sum := by
  induction l generalizing t with
  | nil =>
    constructor
    · intro h; cases h; exact ⟨[], by simp⟩
    · rintro ⟨r, hr, -, rfl⟩
      cases r with
      | nil => rfl
      | cons => simp at hr
  | cons p l ih =>
    obtain ⟨pk, m⟩ := p
    cases pk with
    | none =>
      constructor
      · intro h; cases h
      · rintro ⟨r, hr, -⟩
        cases r <;> simp at hr
    | some pk =>
      unfold pairLoop
      rw [Go.guard_bind_eq_ok, Go.bind_eq_ok]
      constructor
      · rintro ⟨h0, t', ht, h⟩
        obtain ⟨r, rfl, hr, rfl⟩ := (ih _).1 ht
        cases h
        refine ⟨(pk, m) :: r, rfl, ?_, by simp⟩
        intro p hp
        rcases List.mem_cons.1 hp with rfl | hp
        · exact h0
        · exact hr p hp
      · rintro ⟨r, hr, h0, rfl⟩
        cases r with
        | nil => simp at hr
        | cons q r =>
          obtain ⟨a, b⟩ := q
          simp only [List.map_cons, List.cons.injEq, Prod.mk.injEq, Option.some.injEq] at hr
          obtain ⟨⟨rfl, rfl⟩, rfl⟩ := hr
          exact ⟨h0 (pk, m) (by simp), _, (ih _).2 ⟨r, rfl, fun p hp => h0 p (by simp [hp]), rfl⟩,
            by simp⟩

/-- the parameters and the shares of `thresholdizeSecretKey` -/
theorem thresholdize_eq_ok {cd : ScalarCodec F} {sk : Option F} {t n : ℕ} {rnd : ℕ → F}
    {shares : List KeyShare} :
    thresholdize cd sk t n rnd = .ok shares ↔ ∃ s, sk = some s ∧ s ≠ 0 ∧ 2 ≤ t ∧ t ≤ n ∧ n ≤ 255 ∧
      shares = (List.range n).map fun i : ℕ => (⟨UInt8.ofNat (i + 1),
        cd.enc (evalL (s :: (List.range (t - 1)).map rnd) ((i + 1 : ℕ) : F))⟩ : KeyShare) := by
  have toN : ∀ k : ℕ, k ≤ 255 → (UInt32.ofNat k).toNat = k := fun k hk =>
    UInt32.toNat_ofNat_of_lt (by show k < 2 ^ 32; omega)
  have hmap : ∀ (poly : List F), n ≤ 255 → (Sharing.mkShares cd (UInt32.ofNat n) poly).map
      (fun s => (⟨UInt8.ofNat s.id.toNat, s.value⟩ : KeyShare)) =
      (List.range n).map fun i : ℕ => (⟨UInt8.ofNat (i + 1),
        cd.enc (evalL poly ((i + 1 : ℕ) : F))⟩ : KeyShare) := by
    intro poly hn
    unfold Sharing.mkShares
    rw [List.map_map, toN n hn]
    refine List.map_congr_left fun i hi => ?_
    have hi := List.mem_range.1 hi
    simp only [Function.comp, Sharing.polyEval_eq]
    rw [toN (i + 1) (by omega)]
  have hlen : ∀ (poly : List F), n ≤ 255 →
      (Sharing.mkShares cd (UInt32.ofNat n) poly).length = n := by
    intro poly hn
    simp [Sharing.mkShares, toN n hn]
  unfold thresholdize
  simp only [Go.bind_eq_ok (x := Go.ofOption sk), Go.ofOption_eq_ok]
  refine exists_congr fun s => and_congr_right fun _ => ?_
  simp only [Go.guard_bind_eq_ok]
  constructor
  · rintro ⟨h1, h2, h3, h4, h⟩
    have hn : n ≤ 255 := by omega
    rw [Go.bind_eq_ok] at h
    obtain ⟨sss, hs, h⟩ := h
    obtain ⟨a, b, c, -, rfl⟩ := Sharing.newShamir_eq_ok.1 hs
    rw [Go.bind_eq_ok] at h
    obtain ⟨shs, hsp, h⟩ := h
    obtain ⟨h0, -, rfl⟩ := Sharing.split_eq_ok.1 hsp
    rw [Go.guard_bind_eq_ok] at h
    obtain ⟨-, h⟩ := h
    have ht2 : 2 ≤ t := by
      have := UInt32.le_iff_toNat_le.1 b
      rwa [toN t (by omega)] at this
    cases h
    refine ⟨h0, ht2, by omega, hn, ?_⟩
    rw [toN t (by omega)]
    exact hmap _ hn
  · rintro ⟨h0, ht2, htn, hn, rfl⟩
    refine ⟨by omega, by omega, by omega, by omega, ?_⟩
    rw [Sharing.newShamir_eq_ok.2 ⟨?_, ?_, ?_, rfl, rfl⟩, Go.ok_bind,
      Sharing.split_eq_ok.2 ⟨h0, ?_, rfl⟩, Go.ok_bind, Go.guard_true (hlen _ hn), Go.ok_bind]
    · rw [← hmap _ hn, toN t (by omega)]
    · rw [toN t (by omega)]; omega
    · rw [UInt32.le_iff_toNat_le, toN t (by omega), toN n hn]; exact htn
    · rw [UInt32.le_iff_toNat_le, toN t (by omega)]; exact ht2
    · rw [UInt32.le_iff_toNat_le, toN n hn]; exact hn

end Verif.Bls
