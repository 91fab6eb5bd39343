import Verif.Sharing.Model
import Verif.Common.Lagrange
import Mathlib.Tactic.Ring
import Mathlib.Tactic.Abel
import Mathlib.Algebra.BigOperators.Group.List.Basic

/-! Helper lemmas about the model of `pkg/sharing`. -/

set_option linter.unusedSectionVars false

namespace Verif.Sharing

open Finset

variable {F : Type} [Field F] [DecidableEq F]
variable {G : Type} [AddCommGroup G] [Module F G] [DecidableEq G]

theorem foldlM_guard {M α : Type} [AddCommGroup M] (d : α → F) (t : α → M) (l : List α)
    (init : M) :
    l.foldlM (fun r p => if d p = 0 then (Go.err : Go M) else .ok (r + t p)) init =
      if ∃ p ∈ l, d p = 0 then Go.err else .ok (init + (l.map t).sum) := by
  induction l generalizing init with
  | nil => simp
  | cons p l ih =>
    rw [List.foldlM_cons]
    by_cases h : d p = 0
    · simp [h]
    · simp only [h, if_false, Go.ok_bind, ih, List.mem_cons, exists_eq_or_imp, false_or,
        List.map_cons, List.sum_cons, add_assoc]

theorem numDen_aux (xs : List F) (i k : ℕ) (xi a b : F) :
    (xs.zipIdx k).foldl
      (fun nd xj => if i = xj.2 then nd else (nd.1 * xj.1, nd.2 * (xj.1 - xi))) (a, b) =
    (a * ∏ j ∈ range xs.length, (if i = k + j then 1 else xs.getD j 0),
     b * ∏ j ∈ range xs.length, (if i = k + j then 1 else xs.getD j 0 - xi)) := by
  induction xs generalizing k a b with
  | nil => simp
  | cons x xs ih =>
    have e : ∀ j, k + 1 + j = k + (j + 1) := fun j => by omega
    rw [List.zipIdx_cons, List.foldl_cons]
    by_cases h : i = k
    · subst h
      simp only [if_true, ih, List.length_cons, Finset.prod_range_succ', e]
      simp
    · simp only [h, if_false, ih, List.length_cons, Finset.prod_range_succ', e]
      simp only [List.getD_cons_succ, List.getD_cons_zero, add_zero, h, if_false]
      ext <;> simp <;> ring

theorem prod_ite_erase (n i : ℕ) (f : ℕ → F) :
    ∏ j ∈ range n, (if i = j then 1 else f j) = ∏ j ∈ (range n).erase i, f j := by
  by_cases hi : i ∈ range n
  · rw [← Finset.mul_prod_erase (range n) _ hi]
    simp only [if_true, one_mul]
    refine Finset.prod_congr rfl fun j hj => ?_
    rw [if_neg (Finset.ne_of_mem_erase hj).symm]
  · rw [Finset.erase_eq_of_notMem hi]
    refine Finset.prod_congr rfl fun j hj => ?_
    rw [if_neg]; rintro rfl; exact hi hj

theorem numDen_eq (xs : List F) (i : ℕ) (xi : F) :
    numDen xs i xi =
      (∏ j ∈ (range xs.length).erase i, xs.getD j 0,
       ∏ j ∈ (range xs.length).erase i, (xs.getD j 0 - xi)) := by
  have := numDen_aux xs i 0 xi 1 1
  unfold numDen
  rw [this]
  simp only [one_mul, zero_add]
  rw [prod_ite_erase, prod_ite_erase]

/-- nodes of a point list -/
def node {M : Type} (pts : List (F × M)) (i : ℕ) : F := (pts.map Prod.fst).getD i 0

theorem zipIdx_map_sum {M α : Type} [AddCommGroup M] (l : List α) (dflt : α) (t : α → ℕ → M) :
    ((l.zipIdx).map fun p => t p.1 p.2).sum = ∑ i ∈ range l.length, t (l.getD i dflt) i := by
  suffices h : ∀ k, ((l.zipIdx k).map fun p => t p.1 p.2).sum =
      ∑ i ∈ range l.length, t (l.getD i dflt) (k + i) by simpa using h 0
  induction l with
  | nil => simp
  | cons a l ih =>
    intro k
    have e : ∀ j, k + 1 + j = k + (j + 1) := fun j => by omega
    rw [List.zipIdx_cons, List.map_cons, List.sum_cons, ih, List.length_cons,
      Finset.sum_range_succ']
    simp [e, add_comm]

theorem nodup_node_inj {M : Type} (pts : List (F × M)) (h : (pts.map Prod.fst).Nodup) :
    Set.InjOn (node pts) (range pts.length) := by
  intro i hi j hj hij
  simp only [coe_range, Set.mem_Iio] at hi hj
  unfold node at hij
  rw [List.getD_eq_getElem _ _ (by simpa using hi), List.getD_eq_getElem _ _ (by simpa using hj)]
    at hij
  exact (List.Nodup.getElem_inj_iff h).1 hij

theorem interpolate_eq {M : Type} [AddCommGroup M] [Module F M] (pts : List (F × M))
    (h : (pts.map Prod.fst).Nodup) :
    interpolate pts = .ok (∑ i ∈ range pts.length,
      lag0 (range pts.length) (node pts) i • (pts.map Prod.snd).getD i 0) := by
  unfold interpolate
  have := foldlM_guard (F := F) (M := M)
    (d := fun p : (F × M) × ℕ => (numDen (pts.map Prod.fst) p.2 p.1.1).2)
    (t := fun p : (F × M) × ℕ =>
      ((numDen (pts.map Prod.fst) p.2 p.1.1).1 / (numDen (pts.map Prod.fst) p.2 p.1.1).2) • p.1.2)
    pts.zipIdx 0
  simp only at this ⊢
  rw [this, if_neg, zero_add]
  · congr 1
    rw [zipIdx_map_sum pts (0, 0) fun p i =>
      ((numDen (pts.map Prod.fst) i p.1).1 / (numDen (pts.map Prod.fst) i p.1).2) • p.2]
    refine Finset.sum_congr rfl fun i hi => ?_
    rw [mem_range] at hi
    have e1 : (pts.getD i (0, 0)).1 = node pts i := by
      unfold node
      rw [List.getD_eq_getElem _ _ hi, List.getD_eq_getElem _ _ (by simpa using hi)]; simp
    have e2 : (pts.getD i (0, 0)).2 = (pts.map Prod.snd).getD i 0 := by
      rw [List.getD_eq_getElem _ _ hi, List.getD_eq_getElem _ _ (by simpa using hi)]; simp
    rw [e1, e2]
    congr 1
    rw [numDen_eq, lag0, ← Finset.prod_div_distrib, List.length_map]
    rfl
  · rintro ⟨⟨p, i⟩, hp, h0⟩
    rw [numDen_eq] at h0
    simp only at h0
    rw [Finset.prod_eq_zero_iff] at h0
    obtain ⟨j, hj, hj0⟩ := h0
    rw [List.mem_zipIdx_iff_getElem?] at hp
    simp only at hp
    obtain ⟨hi, rfl⟩ := List.getElem?_eq_some_iff.1 hp
    rw [Finset.mem_erase, mem_range, List.length_map] at hj
    apply hj.1
    apply nodup_node_inj pts h (by simpa using hj.2) (by simpa using hi)
    rw [sub_eq_zero] at hj0
    show (pts.map Prod.fst).getD j 0 = (pts.map Prod.fst).getD i 0
    rw [hj0, List.getD_eq_getElem _ _ (by simpa using hi)]
    simp

/-- interpolation of values of a coefficient list -/
theorem interpolate_evalL {M : Type} [AddCommGroup M] [Module F M] (xs : List F) (hx : xs.Nodup)
    (cs : List M) (hc : cs.length ≤ xs.length) :
    interpolate (xs.map fun x => (x, evalL cs x)) = .ok (cs.headD 0) := by
  have hfst : (xs.map fun x => (x, evalL cs x)).map Prod.fst = xs := by
    simp [Function.comp_def]
  rw [interpolate_eq _ (by rw [hfst]; exact hx)]
  congr 1
  rw [← sum_lag0_evalL (range xs.length) (node (xs.map fun x => (x, evalL cs x)))
    (by simpa using nodup_node_inj (xs.map fun x => (x, evalL cs x)) (by rw [hfst]; exact hx))
    cs (by simpa using hc)]
  rw [List.length_map]
  refine Finset.sum_congr rfl fun i hi => ?_
  congr 1
  rw [mem_range] at hi
  unfold node
  rw [hfst]
  rw [List.getD_eq_getElem _ _ hi, List.getD_eq_getElem _ _ (by simpa using hi)]
  simp

theorem polyEval_eq (cs : List F) (x : F) : polyEval cs x = evalL cs x := by
  unfold polyEval
  have key : ∀ (l : List F) (a : F), l.foldl (fun out c => out * x + c) a =
      evalL (l.reverse ++ [a]) x := by
    intro l
    induction l with
    | nil => intro a; simp [evalL]
    | cons b l ih =>
      intro a
      rw [List.foldl_cons, ih, List.reverse_cons]
      have h2 : ∀ (m : List F) (u v : F), evalL (m ++ [v * x + u]) x = evalL (m ++ [u] ++ [v]) x := by
        intro m u v
        induction m with
        | nil => simp [evalL]; ring
        | cons c m ihm => simp only [List.cons_append, evalL_cons] at ihm ⊢; rw [ihm]
      exact h2 _ _ _
  rcases h : cs.reverse with _ | ⟨top, rest⟩
  · have : cs = [] := by simpa using h
    subst this; rfl
  · simp only
    rw [key]
    have : cs = rest.reverse ++ [top] := by
      have := congrArg List.reverse h
      simpa using this
    rw [this]

theorem commitEval_eq (c0 : G) (cs : List G) (x : F) : commitEval c0 cs x = evalL (c0 :: cs) x := by
  have key : ∀ (l : List G) (i : F) (r : G),
      (l.foldl (fun (st : F × G) c => (st.1 * x, st.2 + (st.1 * x) • c)) (i, r)).2 =
        r + (i * x) • evalL l x := by
    intro l
    induction l with
    | nil => intro i r; simp [evalL]
    | cons c l ih =>
      intro i r
      rw [List.foldl_cons, ih, evalL_cons, smul_add, add_assoc, mul_smul (i * x) x]
  unfold commitEval
  rw [key, evalL_cons, one_mul]

theorem validate_eq_ok (cd : ScalarCodec F) (sh : Share) :
    sh.validate cd = .ok () ↔ sh.id ≠ 0 ∧ ∃ y, cd.dec sh.value = some y ∧ y ≠ 0 := by
  unfold Share.validate
  rw [Go.guard_bind_eq_ok]
  refine and_congr_right fun _ => ?_
  rw [Go.bind_eq_ok]
  simp only [Go.ofOption_eq_ok, Go.guard_eq_ok]

theorem validate_cases (cd : ScalarCodec F) (sh : Share) :
    sh.validate cd = .ok () ∨ sh.validate cd = Go.err := by
  unfold Share.validate Go.guard Go.ofOption
  by_cases h : sh.id ≠ 0
  · rcases hd : cd.dec sh.value with _ | y
    · right; simp [h]
    · by_cases hy : y = 0 <;> simp [h, hy]
  · right; simp [h]

/-- specification of a usable share list -/
def GoodShare (cd : ScalarCodec F) (limit : UInt32) (sh : Share) : Prop :=
  sh.id ≠ 0 ∧ sh.id ≤ limit ∧ ∃ y, cd.dec sh.value = some y ∧ y ≠ 0

theorem checkShares_some (cd : ScalarCodec F) (limit : UInt32) (seen : List UInt32)
    (l : List Share) :
    ((∀ sh ∈ l, GoodShare cd limit sh) ∧ (l.map Share.id).Nodup ∧ (∀ sh ∈ l, sh.id ∉ seen) ∧
      checkShares cd limit seen (l.map some) =
        .ok (l.map fun sh => ((sh.id.toNat : F), (cd.dec sh.value).getD 0))) ∨
    (¬ ((∀ sh ∈ l, GoodShare cd limit sh) ∧ (l.map Share.id).Nodup ∧ (∀ sh ∈ l, sh.id ∉ seen)) ∧
      checkShares cd limit seen (l.map some) = Go.err) := by
  induction l generalizing seen with
  | nil => left; simp [checkShares]
  | cons sh l ih =>
    rcases validate_cases cd sh with hv | hv
    · obtain ⟨h0, y, hy, hy0⟩ := (validate_eq_ok cd sh).1 hv
      by_cases hl : sh.id ≤ limit
      · by_cases hs : sh.id ∈ seen
        · right
          refine ⟨fun h => h.2.2 sh (by simp) hs, ?_⟩
          simp [checkShares, hv, Go.guard, hs, UInt32.not_lt.2 hl]
        · have hstep : checkShares cd limit seen ((sh :: l).map some) = (do
              let tl ← checkShares cd limit (sh.id :: seen) (l.map some)
              .ok (((sh.id.toNat : F), y) :: tl)) := by
            simp [checkShares, hv, Go.guard, hs, UInt32.not_lt.2 hl, hy, Go.ofOption]
          rcases ih (sh.id :: seen) with ⟨g1, g2, g3, g4⟩ | ⟨g1, g2⟩
          · left
            refine ⟨?_, ?_, ?_, ?_⟩
            · rintro s hs'
              rcases List.mem_cons.1 hs' with rfl | hs'
              · exact ⟨h0, hl, y, hy, hy0⟩
              · exact g1 s hs'
            · rw [List.map_cons, List.nodup_cons]
              refine ⟨?_, g2⟩
              intro hmem
              obtain ⟨s, hs1, hs2⟩ := List.mem_map.1 hmem
              exact g3 s hs1 (by simp [hs2])
            · rintro s hs'
              rcases List.mem_cons.1 hs' with rfl | hs'
              · exact hs
              · intro h; exact g3 s hs' (by simp [h])
            · rw [hstep, g4]; simp [hy]
          · right
            refine ⟨fun h => g1 ⟨fun s hs' => h.1 s (by simp [hs']), ?_, ?_⟩, ?_⟩
            · have := h.2.1; rw [List.map_cons, List.nodup_cons] at this; exact this.2
            · intro s hs' hmem
              rcases List.mem_cons.1 hmem with he | hm
              · have := h.2.1
                rw [List.map_cons, List.nodup_cons] at this
                exact this.1 (List.mem_map.2 ⟨s, hs', he⟩)
              · exact h.2.2 s (by simp [hs']) hm
            · rw [hstep, g2]; simp
      · right
        refine ⟨fun h => hl (h.1 sh (by simp)).2.1, ?_⟩
        simp [checkShares, hv, Go.guard, UInt32.not_le.1 hl]
    · right
      refine ⟨fun h => ?_, ?_⟩
      · obtain ⟨a, _, b⟩ := h.1 sh (by simp)
        have := (validate_eq_ok cd sh).2 ⟨a, b⟩
        rw [hv] at this; exact absurd this (by simp)
      · simp [checkShares, hv]

end Verif.Sharing

namespace Verif.Sharing

open Finset

variable {F : Type} [Field F] [DecidableEq F]
variable {G : Type} [AddCommGroup G] [Module F G] [DecidableEq G]

theorem mem_mkShares (cd : ScalarCodec F) (limit : UInt32) (poly : List F) (sh : Share) :
    sh ∈ mkShares cd limit poly ↔
      sh.id ≠ 0 ∧ sh.id ≤ limit ∧ sh.value = cd.enc (evalL poly (sh.id.toNat : F)) := by
  have hlt : limit.toNat < 2 ^ 32 := limit.toNat_lt
  unfold mkShares
  rw [List.mem_map]
  constructor
  · rintro ⟨i, hi, rfl⟩
    rw [List.mem_range] at hi
    have e : (UInt32.ofNat (i + 1)).toNat = i + 1 := by
      rw [UInt32.toNat_ofNat']; exact Nat.mod_eq_of_lt (by omega)
    refine ⟨?_, ?_, ?_⟩
    · intro h
      have := congrArg UInt32.toNat h
      simp only [e] at this
      simp at this
    · rw [UInt32.le_iff_toNat_le]; simp only [e]; omega
    · simp only [e, polyEval_eq]
  · rintro ⟨h0, hl, hv⟩
    have h0' : sh.id.toNat ≠ 0 := by
      intro h; apply h0; apply UInt32.toNat_inj.1; simpa using h
    rw [UInt32.le_iff_toNat_le] at hl
    refine ⟨sh.id.toNat - 1, ?_, ?_⟩
    · rw [List.mem_range]; omega
    · have e : sh.id.toNat - 1 + 1 = sh.id.toNat := by omega
      rw [e, polyEval_eq, ← hv]
      simp

theorem mkShares_ids_nodup (cd : ScalarCodec F) (limit : UInt32) (poly : List F) :
    ((mkShares cd limit poly).map Share.id).Nodup := by
  have hlt : limit.toNat < 2 ^ 32 := limit.toNat_lt
  unfold mkShares
  rw [List.map_map]
  refine List.Nodup.map_on ?_ List.nodup_range
  intro i hi j hj hij
  rw [List.mem_range] at hi hj
  have := congrArg UInt32.toNat hij
  simp only [Function.comp, UInt32.toNat_ofNat'] at this
  rw [Nat.mod_eq_of_lt (by omega), Nat.mod_eq_of_lt (by omega)] at this
  omega

theorem newShamir_eq_ok {t n : UInt32} {b : Bool} {s : Shamir} :
    newShamir t n b = .ok s ↔ t ≤ n ∧ 2 ≤ t ∧ n ≤ 255 ∧ b = true ∧ s = ⟨t, n⟩ := by
  unfold newShamir
  simp only [Go.guard_bind_eq_ok]
  simp only [UInt32.not_lt, gt_iff_lt, Except.ok.injEq]
  constructor
  · rintro ⟨a, b, c, d, e⟩; exact ⟨a, b, c, d, e.symm⟩
  · rintro ⟨a, b, c, d, e⟩; exact ⟨a, b, c, d, e.symm⟩

theorem polyInit_eq_ok {secret : F} {d : ℕ} {rnd : ℕ → F} {p : List F} :
    polyInit secret d rnd = .ok p ↔ d ≠ 0 ∧ p = secret :: (List.range (d - 1)).map rnd := by
  unfold polyInit
  by_cases h : d = 0 <;> simp [h, eq_comm]

theorem getPolyAndShares_eq_ok {cd : ScalarCodec F} {s : Shamir} {secret : F} {rnd : ℕ → F}
    {r : List Share × List F} :
    getPolyAndShares cd s secret rnd = .ok r ↔ s.threshold.toNat ≠ 0 ∧
      r.2 = secret :: (List.range (s.threshold.toNat - 1)).map rnd ∧
      r.1 = mkShares cd s.limit r.2 := by
  unfold getPolyAndShares
  rw [Go.bind_eq_ok]
  simp only [polyInit_eq_ok, Except.ok.injEq]
  constructor
  · rintro ⟨a, ⟨h0, rfl⟩, rfl⟩; exact ⟨h0, rfl, rfl⟩
  · rintro ⟨h0, h1, h2⟩
    refine ⟨r.2, ⟨h0, h1⟩, ?_⟩
    rw [← h2]

theorem split_eq_ok {cd : ScalarCodec F} {s : Shamir} {secret : F} {rnd : ℕ → F}
    {shares : List Share} :
    split cd s secret rnd = .ok shares ↔ secret ≠ 0 ∧ s.threshold.toNat ≠ 0 ∧
      shares = mkShares cd s.limit (secret :: (List.range (s.threshold.toNat - 1)).map rnd) := by
  unfold split
  rw [Go.guard_bind_eq_ok, Go.bind_eq_ok]
  simp only [getPolyAndShares_eq_ok, Except.ok.injEq]
  constructor
  · rintro ⟨a, ⟨x, y⟩, ⟨h1, h2, h3⟩, h4⟩
    simp only at h2 h3 h4
    subst h2 h3 h4
    exact ⟨a, h1, rfl⟩
  · rintro ⟨a, h1, rfl⟩
    exact ⟨a, (_, _), ⟨h1, rfl, rfl⟩, rfl⟩

theorem toNat_ids_nodup (hF : ByteInj F) (l : List Share) (limit : UInt32) (hl : limit ≤ 255)
    (hle : ∀ sh ∈ l, sh.id ≤ limit) (hn : (l.map Share.id).Nodup) :
    (l.map fun sh => ((sh.id.toNat : ℕ) : F)).Nodup := by
  have : (l.map fun sh => ((sh.id.toNat : ℕ) : F)) =
      (l.map Share.id).map (fun i : UInt32 => ((i.toNat : ℕ) : F)) := by simp
  rw [this]
  refine List.Nodup.map_on ?_ hn
  intro a ha b hb hab
  obtain ⟨sa, hsa, rfl⟩ := List.mem_map.1 ha
  obtain ⟨sb, hsb, rfl⟩ := List.mem_map.1 hb
  have h1 := UInt32.le_iff_toNat_le.1 (hle sa hsa)
  have h2 := UInt32.le_iff_toNat_le.1 (hle sb hsb)
  have h3 := UInt32.le_iff_toNat_le.1 hl
  have h255 : (255 : UInt32).toNat = 255 := rfl
  rw [h255] at h3
  exact UInt32.toNat_inj.1 (hF.inj (by omega) (by omega) hab)

end Verif.Sharing
