import Verif.Sharing.V1Model
import Verif.Sharing.Lemmas

/-! Helper lemmas about the model of `pkg/sharing/v1`. -/

set_option linter.unusedSectionVars false

namespace Verif.V1

open Finset

variable {q : ℕ} [Fact q.Prime]

theorem foldlM_ite {α β : Type} (c : α → Prop) [DecidablePred c] (f : β → α → β) (l : List α)
    (init : β) :
    l.foldlM (fun a p => if c p then (Go.err : Go β) else .ok (f a p)) init =
      if ∃ p ∈ l, c p then Go.err else .ok (l.foldl f init) := by
  induction l generalizing init with
  | nil => simp
  | cons p l ih =>
    rw [List.foldlM_cons]
    by_cases h : c p
    · simp [h]
    · simp only [h, if_false, Go.ok_bind, ih, List.mem_cons, exists_eq_or_imp, false_or,
        List.foldl_cons]

theorem foldl_basis (xs : List (ZMod q × ZMod q)) (i k : ℕ) (xi a : ZMod q) :
    (xs.zipIdx k).foldl (fun basis pj => if i = pj.2 then basis
        else basis * (pj.1.1 / (pj.1.1 - xi))) a =
    a * ∏ j ∈ range xs.length, (if i = k + j then 1 else
      (xs.map Prod.fst).getD j 0 / ((xs.map Prod.fst).getD j 0 - xi)) := by
  induction xs generalizing k a with
  | nil => simp
  | cons x xs ih =>
    have e : ∀ j, k + 1 + j = k + (j + 1) := fun j => by omega
    rw [List.zipIdx_cons, List.foldl_cons]
    by_cases h : i = k
    · subst h
      simp only [if_true, ih, List.length_cons, Finset.prod_range_succ', e]
      simp
    · simp only [h, if_false, ih, List.length_cons, Finset.prod_range_succ', e]
      simp only [List.map_cons, List.getD_cons_succ, List.getD_cons_zero, add_zero, h, if_false]
      ring

theorem basisAt_eq (pts : List (ZMod q × ZMod q)) (i : ℕ) (xi : ZMod q) :
    basisAt pts i xi = if ∃ p ∈ pts.zipIdx, i ≠ p.2 ∧ p.1.1 - xi = 0 then Go.err
      else .ok (∏ j ∈ (range pts.length).erase i,
        (pts.map Prod.fst).getD j 0 / ((pts.map Prod.fst).getD j 0 - xi)) := by
  unfold basisAt
  have : (fun (basis : ZMod q) (pj : (ZMod q × ZMod q) × ℕ) =>
      if i = pj.2 then (.ok basis : Go (ZMod q))
      else if pj.1.1 - xi = 0 then Go.err
      else .ok (basis * (pj.1.1 / (pj.1.1 - xi)))) =
      fun basis pj => if i ≠ pj.2 ∧ pj.1.1 - xi = 0 then Go.err
        else .ok (if i = pj.2 then basis else basis * (pj.1.1 / (pj.1.1 - xi))) := by
    funext basis pj
    by_cases h1 : i = pj.2
    · simp [h1]
    · by_cases h2 : pj.1.1 - xi = 0 <;> simp [h1, h2]
  rw [this, foldlM_ite (fun pj : (ZMod q × ZMod q) × ℕ => i ≠ pj.2 ∧ pj.1.1 - xi = 0)]
  have h2 := foldl_basis pts i 0 xi 1
  rw [h2]
  simp only [zero_add, one_mul]
  rw [Sharing.prod_ite_erase]

theorem exists_clash_iff (pts : List (ZMod q × ZMod q)) (i : ℕ) (hi : i < pts.length) :
    (∃ p ∈ pts.zipIdx, i ≠ p.2 ∧ p.1.1 - pts[i].1 = 0) ↔
      ∃ j, ∃ hj : j < pts.length, i ≠ j ∧ pts[j].1 = pts[i].1 := by
  constructor
  · rintro ⟨⟨p, j⟩, hp, hne, h0⟩
    rw [List.mem_zipIdx_iff_getElem?] at hp
    simp only at hp hne h0
    obtain ⟨hj, rfl⟩ := List.getElem?_eq_some_iff.1 hp
    exact ⟨j, hj, hne, sub_eq_zero.1 h0⟩
  · rintro ⟨j, hj, hne, h⟩
    refine ⟨(pts[j], j), ?_, hne, sub_eq_zero.2 h⟩
    rw [List.mem_zipIdx_iff_getElem?]
    simp [hj]

theorem nodup_iff_no_clash (pts : List (ZMod q × ZMod q)) :
    (pts.map Prod.fst).Nodup ↔ ∀ i, ∀ hi : i < pts.length,
      ¬ ∃ j, ∃ hj : j < pts.length, i ≠ j ∧ pts[j].1 = pts[i].1 := by
  rw [List.nodup_iff_injective_getElem]
  constructor
  · rintro h i hi ⟨j, hj, hne, he⟩
    have := @h ⟨j, by simpa using hj⟩ ⟨i, by simpa using hi⟩ (by simpa using he)
    simp at this
    exact hne this.symm
  · intro h a b hab
    by_contra hne
    have ha := a.2
    have hb := b.2
    simp only [List.length_map] at ha hb
    exact h b hb ⟨a, ha, fun he => hne (Fin.ext he.symm), by simpa using hab⟩

theorem foldlM_const {α β : Type} (f : β → α → β) (g : α → Go Unit) (l : List α) (init : β)
    (h : ∀ a ∈ l, g a = .ok ()) :
    l.foldlM (fun r a => do g a; (.ok (f r a) : Go β)) init = .ok (l.foldl f init) := by
  induction l generalizing init with
  | nil => rfl
  | cons a l ih =>
    rw [List.foldlM_cons, h a (by simp)]
    simp only [Go.ok_bind, List.foldl_cons]
    exact ih _ (fun b hb => h b (by simp [hb]))

theorem foldlM_ok_sum {M α : Type} [AddCommGroup M] (l : List α) (F : M → α → Go M) (t : α → M)
    (init : M) (h : ∀ r, ∀ a ∈ l, F r a = .ok (r + t a)) :
    l.foldlM F init = .ok (init + (l.map t).sum) := by
  induction l generalizing init with
  | nil => simp
  | cons a l ih =>
    rw [List.foldlM_cons, h init a (by simp)]
    simp only [Go.ok_bind]
    rw [ih _ (fun r b hb => h r b (by simp [hb]))]
    simp [add_assoc]

theorem interpolate_nodup (t : ℕ) (pts : List (ZMod q × ZMod q)) (hlen : pts.length = t)
    (h0 : 0 < t) (hn : (pts.map Prod.fst).Nodup) :
    interpolate t pts = .ok (∑ i ∈ range pts.length,
      lag0 (range pts.length) (Sharing.node pts) i • (pts.map Prod.snd).getD i 0) := by
  unfold interpolate
  have hne : pts ≠ [] := by rintro rfl; simp at hlen; omega
  rw [Go.guard_true (by omega)]
  simp only [Go.ok_bind, hne, if_false]
  have htake : pts.take t = pts := by rw [← hlen]; simp
  rw [htake]
  have hb : ∀ p ∈ pts.zipIdx, basisAt pts p.2 p.1.1 =
      .ok (lag0 (range pts.length) (Sharing.node pts) p.2) := by
    rintro ⟨p, i⟩ hp
    rw [List.mem_zipIdx_iff_getElem?] at hp
    simp only at hp
    obtain ⟨hi, rfl⟩ := List.getElem?_eq_some_iff.1 hp
    simp only at hi ⊢
    rw [basisAt_eq, if_neg]
    · congr 1
      unfold lag0 Sharing.node
      refine Finset.prod_congr rfl fun j _ => ?_
      rw [List.getD_eq_getElem (l := pts.map Prod.fst) (n := i) _ (by simpa using hi)]
      simp
    · rw [exists_clash_iff pts i hi]
      exact (nodup_iff_no_clash pts).1 hn i hi
  rw [foldlM_ok_sum pts.zipIdx _ (fun p =>
    lag0 (range pts.length) (Sharing.node pts) p.2 • p.1.2) 0 (by
      intro r p hp
      rw [hb p hp]
      simp [mul_comm])]
  rw [zero_add, Sharing.zipIdx_map_sum pts (0, 0) fun p i =>
    lag0 (range pts.length) (Sharing.node pts) i • p.2]
  congr 1
  refine Finset.sum_congr rfl fun i hi => ?_
  rw [mem_range] at hi
  congr 1
  rw [List.getD_eq_getElem _ _ hi, List.getD_eq_getElem _ _ (by simpa using hi)]; simp

theorem foldlM_err {α β : Type} (l : List α) (F : β → α → Go β) (init : β)
    (h1 : ∀ r, ∀ a ∈ l, (∃ b, F r a = .ok b) ∨ F r a = Go.err)
    (h2 : ∃ a ∈ l, ∀ r, F r a = Go.err) : l.foldlM F init = Go.err := by
  induction l generalizing init with
  | nil => simp at h2
  | cons a l ih =>
    rw [List.foldlM_cons]
    rcases h1 init a (by simp) with ⟨b, hb⟩ | hb
    · rw [hb]
      simp only [Go.ok_bind]
      apply ih
      · intro r c hc; exact h1 r c (by simp [hc])
      · obtain ⟨c, hc, hF⟩ := h2
        rcases List.mem_cons.1 hc with rfl | hc
        · rw [hF init] at hb; exact absurd hb (by simp)
        · exact ⟨c, hc, hF⟩
    · rw [hb]; rfl

theorem interpolate_dup (t : ℕ) (pts : List (ZMod q × ZMod q)) (hlen : pts.length = t)
    (hn : ¬ (pts.map Prod.fst).Nodup) : interpolate t pts = Go.err := by
  unfold interpolate
  have hne : pts ≠ [] := by rintro rfl; simp at hn
  rw [Go.guard_true (by omega)]
  simp only [Go.ok_bind, hne, if_false]
  have htake : pts.take t = pts := by rw [← hlen]; simp
  rw [htake]
  apply foldlM_err
  · rintro r ⟨p, i⟩ hp
    rw [basisAt_eq]
    split
    · right; rfl
    · left; exact ⟨_, rfl⟩
  · rw [nodup_iff_no_clash] at hn
    push Not at hn
    obtain ⟨i, hi, hc⟩ := hn
    refine ⟨(pts[i], i), ?_, ?_⟩
    · rw [List.mem_zipIdx_iff_getElem?]; simp [hi]
    · intro r
      simp only
      rw [basisAt_eq, if_pos ((exists_clash_iff pts i hi).2 hc)]
      rfl

theorem evaluate_eq (cs : List (ZMod q)) (x : ZMod q) : evaluate cs x = evalL cs x := by
  rw [← Sharing.polyEval_eq]
  unfold evaluate Sharing.polyEval
  cases cs.reverse <;> rfl

theorem natCast_inj_lt {a b : ℕ} (ha : a < q) (hb : b < q) (h : (a : ZMod q) = b) : a = b := by
  rw [ZMod.natCast_eq_natCast_iff'] at h
  rwa [Nat.mod_eq_of_lt ha, Nat.mod_eq_of_lt hb] at h

/-- what a share list has to satisfy for `Combine` (on its first `t` shares) -/
def GoodIds (limit : UInt32) (l : List (Share q)) : Prop :=
  ∀ sh ∈ l, 1 ≤ sh.id.toNat ∧ sh.id.toNat ≤ limit.toNat

theorem collect_some (limit : UInt32) (hq : limit.toNat < q) (l : List (Share q)) :
    (GoodIds limit l ∧ collect limit (l.map some) =
        .ok (l.map fun sh => ((sh.id.toNat : ZMod q), sh.value))) ∨
    (¬ GoodIds limit l ∧ collect limit (l.map some) = Go.err) := by
  induction l with
  | nil => left; exact ⟨by simp [GoodIds], rfl⟩
  | cons sh l ih =>
    by_cases h : 1 ≤ sh.id.toNat ∧ sh.id.toNat ≤ limit.toNat
    · have hstep : collect limit ((sh :: l).map some) = (do
          let tl ← collect limit (l.map some)
          .ok (((sh.id.toNat : ZMod q), sh.value) :: tl)) := by
        rw [List.map_cons, collect, Go.guard_true, Go.ok_bind, if_neg (by omega)]
        rw [gt_iff_lt, UInt32.lt_iff_toNat_lt, UInt32.lt_iff_toNat_lt]
        have : (1 : UInt32).toNat = 1 := rfl
        omega
      rcases ih with ⟨g1, g2⟩ | ⟨g1, g2⟩
      · left
        refine ⟨?_, by rw [hstep, g2]; rfl⟩
        intro s hs
        rcases List.mem_cons.1 hs with rfl | hs
        · exact h
        · exact g1 s hs
      · right
        exact ⟨fun hg => g1 fun s hs => hg s (by simp [hs]), by rw [hstep, g2]; rfl⟩
    · right
      refine ⟨fun hg => h (hg sh (by simp)), ?_⟩
      rw [List.map_cons, collect, Go.guard_false]
      · rfl
      · rw [not_not, gt_iff_lt, UInt32.lt_iff_toNat_lt, UInt32.lt_iff_toNat_lt]
        have : (1 : UInt32).toNat = 1 := rfl
        omega

theorem ids_cast_nodup (limit : UInt32) (hq : limit.toNat < q) (l : List (Share q))
    (hg : GoodIds limit l) :
    (l.map fun sh => ((sh.id.toNat : ℕ) : ZMod q)).Nodup ↔ (l.map Share.id).Nodup := by
  have : (l.map fun sh => ((sh.id.toNat : ℕ) : ZMod q)) =
      (l.map Share.id).map (fun i : UInt32 => ((i.toNat : ℕ) : ZMod q)) := by simp
  rw [this]
  refine ⟨fun h => h.of_map _, fun h => h.map_on ?_⟩
  intro a ha b hb hab
  obtain ⟨sa, hsa, rfl⟩ := List.mem_map.1 ha
  obtain ⟨sb, hsb, rfl⟩ := List.mem_map.1 hb
  have h1 := (hg sa hsa).2
  have h2 := (hg sb hsb).2
  exact UInt32.toNat_inj.1 (natCast_inj_lt (by omega) (by omega) hab)

theorem mem_mkShares {limit : UInt32} {poly : List (ZMod q)} {shares : List (Share q)}
    (h : mkShares limit poly = .ok shares) (sh : Share q) :
    sh ∈ shares ↔ 1 ≤ sh.id.toNat ∧ sh.id.toNat ≤ limit.toNat ∧
      sh.value = evalL poly (sh.id.toNat : ZMod q) := by
  have hlt : limit.toNat < 2 ^ 32 := limit.toNat_lt
  unfold mkShares at h
  split at h
  · exact absurd h (by simp)
  · obtain rfl := Except.ok.inj h
    rw [List.mem_map]
    constructor
    · rintro ⟨i, hi, rfl⟩
      rw [List.mem_range] at hi
      have e : (UInt32.ofNat (i + 1)).toNat = i + 1 := by
        rw [UInt32.toNat_ofNat']; exact Nat.mod_eq_of_lt (by omega)
      simp only [e, evaluate_eq]
      exact ⟨by omega, by omega, trivial⟩
    · rintro ⟨h0, hl, hv⟩
      refine ⟨sh.id.toNat - 1, ?_, ?_⟩
      · rw [List.mem_range]; omega
      · have e : sh.id.toNat - 1 + 1 = sh.id.toNat := by omega
        rw [e, evaluate_eq, ← hv]
        simp

theorem getSharesAndPolynomial_eq_ok {s : Shamir} {secret : List UInt8} {rnd : ℕ → ZMod q}
    {r : List (Share q) × List (ZMod q)} :
    getSharesAndPolynomial s secret rnd = .ok r ↔ secret ≠ [] ∧ beNat secret < q ∧
      s.threshold.toNat ≠ 0 ∧
      r.2 = ((beNat secret : ℕ) : ZMod q) :: (List.range (s.threshold.toNat - 1)).map rnd ∧
      mkShares s.limit r.2 = .ok r.1 := by
  unfold getSharesAndPolynomial newPoly
  rw [Go.guard_bind_eq_ok, Go.guard_bind_eq_ok]
  have hne : secret.length ≠ 0 ↔ secret ≠ [] := by simp
  rw [hne]
  refine and_congr_right fun _ => and_congr_right fun _ => ?_
  rw [Go.bind_eq_ok]
  constructor
  · rintro ⟨p, hp, h2⟩
    split at hp
    · exact absurd hp (by simp)
    · rename_i h0
      obtain rfl := Except.ok.inj hp
      rw [Go.bind_eq_ok] at h2
      obtain ⟨sh, h3, h4⟩ := h2
      obtain rfl := Except.ok.inj h4
      exact ⟨h0, rfl, h3⟩
  · rintro ⟨h0, h1, h2⟩
    refine ⟨_, by rw [if_neg h0], ?_⟩
    rw [Go.bind_eq_ok]
    refine ⟨r.1, ?_, ?_⟩
    · rw [← h1]; exact h2
    · rw [← h1]

end Verif.V1
