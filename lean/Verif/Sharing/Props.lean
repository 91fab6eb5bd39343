import Verif.Sharing.Lemmas
import Verif.Common.Toy
import Mathlib.Algebra.BigOperators.Field
import Mathlib.Tactic.FieldSimp

/-!
# Properties of `pkg/sharing` (C01 - C08)
-/

set_option linter.unusedSectionVars false

namespace Verif.Sharing

open Finset

variable {F : Type} [Field F] [DecidableEq F]
variable {G : Type} [AddCommGroup G] [Module F G] [DecidableEq G]

/-! ## C03: exact acceptance condition of `Combine` -/

/-- Specification: the share lists `Combine` has to accept. -/
def Acceptable (cd : ScalarCodec F) (t n : UInt32) (l : List Share) : Prop :=
  t.toNat ≤ l.length ∧
  (∀ sh ∈ l, 1 ≤ sh.id.toNat ∧ sh.id.toNat ≤ n.toNat ∧
    ∃ y : F, cd.dec sh.value = some y ∧ y ≠ 0) ∧
  (∀ i j (hi : i < l.length) (hj : j < l.length), l[i].id = l[j].id → i = j)

theorem acceptable_iff (cd : ScalarCodec F) (t n : UInt32) (l : List Share) :
    Acceptable cd t n l ↔ t.toNat ≤ l.length ∧ (∀ sh ∈ l, GoodShare cd n sh) ∧
      (l.map Share.id).Nodup := by
  unfold Acceptable GoodShare
  refine and_congr_right fun _ => and_congr ?_ ?_
  · refine forall₂_congr fun sh _ => ?_
    rw [UInt32.le_iff_toNat_le, Ne, ← UInt32.toNat_inj]
    simp only [UInt32.toNat_zero]
    rw [Nat.one_le_iff_ne_zero]
  · rw [List.nodup_iff_injective_getElem]
    constructor
    · intro h i j hij
      apply Fin.ext
      have hi := i.2
      have hj := j.2
      simp only [List.length_map] at hi hj
      apply h i j hi hj
      simpa using hij
    · intro h i j hi hj hij
      have := @h ⟨i, by simpa using hi⟩ ⟨j, by simpa using hj⟩ (by simpa using hij)
      simpa using this

/-- `Combine` on non-nil shares succeeds exactly on acceptable lists, and otherwise
returns an error: it never panics. -/
theorem C03_combine_decision (hF : ByteInj F) (cd : ScalarCodec F) {t n : UInt32} {s : Shamir}
    (hs : newShamir t n true = .ok s) (l : List Share) :
    ((∃ r, combine cd s (l.map some) = .ok r) ↔ Acceptable cd t n l) ∧
    (¬ Acceptable cd t n l → combine cd s (l.map some) = Go.err) := by
  obtain ⟨_, _, hn, _, rfl⟩ := newShamir_eq_ok.1 hs
  rw [acceptable_iff]
  unfold combine
  simp only [List.length_map]
  by_cases hlen : l.length < t.toNat
  · rw [Go.guard_false (by simpa using hlen)]
    simp [hlen]
  · rw [Go.guard_true (by simpa using hlen)]
    simp only [Go.ok_bind]
    rcases checkShares_some cd n [] l with ⟨g1, g2, _, g4⟩ | ⟨g1, g2⟩
    · rw [g4]
      simp only [Go.ok_bind]
      rw [interpolate_eq _ (by
        rw [List.map_map]
        exact toNat_ids_nodup hF l n hn (fun sh h => (g1 sh h).2.1) g2)]
      exact ⟨⟨fun _ => ⟨by omega, g1, g2⟩, fun _ => ⟨_, rfl⟩⟩,
        fun h => absurd ⟨by omega, g1, g2⟩ h⟩
    · rw [g2]
      have : ¬ (t.toNat ≤ l.length ∧ (∀ sh ∈ l, GoodShare cd n sh) ∧ (l.map Share.id).Nodup) :=
        fun h => g1 ⟨h.2.1, h.2.2, by simp⟩
      simp [this]

/-- `CombinePoints` takes the same decision as `Combine`. -/
theorem C03_combinePoints_decision (hF : ByteInj F) (cd : ScalarCodec F) (g : G) {t n : UInt32}
    {s : Shamir} (hs : newShamir t n true = .ok s) (l : List Share) :
    ((∃ r, combinePoints cd g s (l.map some) = .ok r) ↔ Acceptable cd t n l) ∧
    (¬ Acceptable cd t n l → combinePoints cd g s (l.map some) = Go.err) := by
  obtain ⟨_, _, hn, _, rfl⟩ := newShamir_eq_ok.1 hs
  rw [acceptable_iff]
  unfold combinePoints
  simp only [List.length_map]
  by_cases hlen : l.length < t.toNat
  · rw [Go.guard_false (by simpa using hlen)]
    simp [hlen]
  · rw [Go.guard_true (by simpa using hlen)]
    simp only [Go.ok_bind]
    rcases checkShares_some cd n [] l with ⟨g1, g2, _, g4⟩ | ⟨g1, g2⟩
    · rw [g4]
      simp only [Go.ok_bind]
      rw [interpolate_eq _ (by
        rw [List.map_map, List.map_map]
        exact toNat_ids_nodup hF l n hn (fun sh h => (g1 sh h).2.1) g2)]
      exact ⟨⟨fun _ => ⟨by omega, g1, g2⟩, fun _ => ⟨_, rfl⟩⟩,
        fun h => absurd ⟨by omega, g1, g2⟩ h⟩
    · rw [g2]
      have : ¬ (t.toNat ≤ l.length ∧ (∀ sh ∈ l, GoodShare cd n sh) ∧ (l.map Share.id).Nodup) :=
        fun h => g1 ⟨h.2.1, h.2.2, by simp⟩
      simp [this]

/-- What the decision of C03 leaves open: a nil share pointer panics
(once the preceding shares are fine). -/
theorem C03_nil_share_panics (cd : ScalarCodec F) {t n : UInt32} {s : Shamir}
    (hs : newShamir t n true = .ok s) (l : List Share) (rest : List (Option Share))
    (hl : ∀ sh ∈ l, GoodShare cd n sh) (hn : (l.map Share.id).Nodup)
    (hlen : t.toNat ≤ l.length + 1 + rest.length) :
    combine cd s (l.map some ++ none :: rest) = Go.crash := by
  obtain ⟨_, _, _, _, rfl⟩ := newShamir_eq_ok.1 hs
  have key : ∀ (l : List Share) (seen : List UInt32), (∀ sh ∈ l, GoodShare cd n sh) →
      (l.map Share.id).Nodup → (∀ sh ∈ l, sh.id ∉ seen) →
      checkShares cd n seen (l.map some ++ none :: rest) = Go.crash := by
    intro l
    induction l with
    | nil => intros; rfl
    | cons sh l ih =>
      intro seen h1 h2 h3
      obtain ⟨a, b, y, hy, hy0⟩ := h1 sh (by simp)
      rw [List.map_cons, List.nodup_cons] at h2
      have hv := (validate_eq_ok cd sh).2 ⟨a, y, hy, hy0⟩
      have := ih (sh.id :: seen) (fun s hs => h1 s (by simp [hs])) h2.2 (by
        intro s hs hmem
        rcases List.mem_cons.1 hmem with he | hm
        · exact h2.1 (List.mem_map.2 ⟨s, hs, he⟩)
        · exact h3 s (by simp [hs]) hm)
      simp [checkShares, hv, Go.guard, UInt32.not_lt.2 b, h3 sh (by simp), Go.ofOption, hy, this]
  unfold combine
  rw [Go.guard_true (by simp; omega)]
  simp only [Go.ok_bind, key l [] hl hn (by simp), Go.error_bind]

example : newShamir 2 3 true = .ok ⟨2, 3⟩ := rfl
example : Acceptable Toy.codec 2 3 [⟨3, Toy.codec.enc 7⟩, ⟨1, Toy.codec.enc 9⟩] := by
  rw [acceptable_iff]
  refine ⟨by decide, ?_, by decide⟩
  intro sh hsh
  simp only [List.mem_cons, List.not_mem_nil, or_false] at hsh
  rcases hsh with rfl | rfl
  · exact ⟨by decide, by decide, 7, Toy.codec.dec_enc 7, by decide⟩
  · exact ⟨by decide, by decide, 9, Toy.codec.dec_enc 9, by decide⟩

/-! ## C01: reconstruction -/

/-- Any list of at least `t` distinct dealt shares, in any order: `Combine` never returns anything
but the secret; it returns the secret if no selected share is zero; and it errors otherwise. -/
theorem C01_split_combine (hF : ByteInj F) (cd : ScalarCodec F) {t n : UInt32} {s : Shamir}
    (hs : newShamir t n true = .ok s) (secret : F) (rnd : ℕ → F) (shares : List Share)
    (hsp : split cd s secret rnd = .ok shares)
    (sel : List Share) (hsel : ∀ sh ∈ sel, sh ∈ shares) (hnd : sel.Nodup)
    (hlen : t.toNat ≤ sel.length) :
    (∀ r, combine cd s (sel.map some) = .ok r → r = secret) ∧
    ((∀ sh ∈ sel, sh.value ≠ cd.enc 0) → combine cd s (sel.map some) = .ok secret) ∧
    ((∃ sh ∈ sel, sh.value = cd.enc 0) → combine cd s (sel.map some) = Go.err) := by
  obtain ⟨htn, ht2, hn, _, rfl⟩ := newShamir_eq_ok.1 hs
  obtain ⟨h0, ht0, rfl⟩ := split_eq_ok.1 hsp
  simp only at hsel ht0
  set poly := secret :: (List.range (t.toNat - 1)).map rnd with hpoly
  have hmem := fun sh h => (mem_mkShares cd n poly sh).1 (hsel sh h)
  have hids : (sel.map Share.id).Nodup := by
    refine List.Nodup.map_on ?_ hnd
    intro a ha b hb hab
    have h1 := (hmem a ha).2.2
    have h2 := (hmem b hb).2.2
    cases a; cases b; simp_all
  have hplen : poly.length = t.toNat := by simp [hpoly]; omega
  have hdec := C03_combine_decision hF cd hs sel
  rw [acceptable_iff] at hdec
  have hmain : ∀ r, combine cd ⟨t, n⟩ (sel.map some) = .ok r → r = secret := by
    intro r hr
    obtain ⟨_, hgood, _⟩ := hdec.1.1 ⟨r, hr⟩
    unfold combine at hr
    rw [Go.guard_true (by simpa using hlen)] at hr
    simp only [Go.ok_bind] at hr
    rcases checkShares_some cd n [] sel with ⟨_, _, _, g4⟩ | ⟨g1, _⟩
    · rw [g4] at hr
      simp only [Go.ok_bind] at hr
      have e : (sel.map fun sh => ((sh.id.toNat : F), (cd.dec sh.value).getD 0)) =
          (sel.map fun sh => ((sh.id.toNat : ℕ) : F)).map fun x => (x, evalL poly x) := by
        rw [List.map_map]
        refine List.map_congr_left fun sh hsh => ?_
        simp only [Function.comp]
        rw [(hmem sh hsh).2.2, cd.dec_enc]; rfl
      rw [e, interpolate_evalL _ (toNat_ids_nodup hF sel n hn (fun sh h => (hmem sh h).2.1) hids)
        poly (by rw [hplen]; simpa using hlen)] at hr
      simpa [hpoly, eq_comm] using hr
    · exact absurd ⟨hgood, hids, by simp⟩ g1
  refine ⟨hmain, ?_, ?_⟩
  · intro hnz
    have : ∃ r, combine cd ⟨t, n⟩ (sel.map some) = .ok r := by
      refine hdec.1.2 ⟨hlen, ?_, hids⟩
      intro sh hsh
      obtain ⟨a, b, c⟩ := hmem sh hsh
      refine ⟨a, b, _, by rw [c]; exact cd.dec_enc _, ?_⟩
      intro hz
      exact hnz sh hsh (by rw [c, hz])
    obtain ⟨r, hr⟩ := this
    rw [hr, hmain r hr]
  · rintro ⟨sh, hsh, hz⟩
    refine hdec.2 fun h => ?_
    obtain ⟨_, _, y, hy, hy0⟩ := h.2.1 sh hsh
    rw [hz, cd.dec_enc] at hy
    exact hy0 (by simpa using hy.symm)

/-- The zero-share case does occur for a valid scheme: the honest share of participant 1 of the
polynomial `1 - x` is zero, and `Combine` refuses the honestly dealt shares. -/
theorem C01_zero_share_rejected :
    ∃ shares, split Toy.codec ⟨2, 2⟩ (1 : Toy.K) (fun _ => -1) = .ok shares ∧
      combine Toy.codec ⟨2, 2⟩ (shares.map some) = Go.err := by
  refine ⟨_, split_eq_ok.2 ⟨by decide, by decide, rfl⟩, ?_⟩
  refine (C01_split_combine Toy.byteInj Toy.codec (t := 2) (n := 2) rfl (1 : Toy.K) (fun _ => -1) _
    (split_eq_ok.2 ⟨by decide, by decide, rfl⟩) _ (fun _ h => h) (by decide) (by decide)).2.2 ?_
  refine ⟨⟨1, Toy.codec.enc 0⟩, ?_, rfl⟩
  rw [mem_mkShares]
  refine ⟨by decide, by decide, ?_⟩
  simp [evalL]

example : ∃ shares, split Toy.codec ⟨2, 3⟩ (5 : Toy.K) (fun _ => 11) = .ok shares ∧
    (∀ sh ∈ shares.reverse, sh ∈ shares) ∧ shares.reverse.Nodup ∧
    (2 : UInt32).toNat ≤ shares.reverse.length ∧
    ∀ sh ∈ shares.reverse, sh.value ≠ Toy.codec.enc 0 :=
  ⟨_, split_eq_ok.2 ⟨by decide, by decide, rfl⟩, by simp, by decide, by decide, by decide⟩

/-! ## C02: secrecy -/

/-- reader stream delivering the given coefficients -/
def streamOf {k : ℕ} (c : Fin k → F) : ℕ → F := fun i => if h : i < k then c ⟨i, h⟩ else 0

theorem streamOf_list {k : ℕ} (c : Fin k → F) :
    (List.range k).map (streamOf c) = List.ofFn c := by
  apply List.ext_getElem (by simp)
  intro i h1 h2
  have : i < k := by simpa using h1
  simp [streamOf, this]

/-- nodes `0, id_1, .., id_k` -/
def nodes {k : ℕ} (ids : Fin k → UInt32) : Option (Fin k) → F
  | none => 0
  | some i => ((ids i).toNat : F)

theorem nodes_injective (hF : ByteInj F) {k : ℕ} (ids : Fin k → UInt32)
    (hinj : Function.Injective ids) (hid : ∀ i, 1 ≤ (ids i).toNat ∧ (ids i).toNat ≤ 255) :
    Function.Injective (nodes (F := F) ids) := by
  intro a b hab
  match a, b, hab with
  | none, none, _ => rfl
  | none, some i, h => exact absurd h.symm (hF _ (hid i).1 (hid i).2)
  | some i, none, h => exact absurd h (hF _ (hid i).1 (hid i).2)
  | some i, some j, h =>
    rw [hinj (UInt32.toNat_inj.1 (hF.inj (hid i).2 (hid j).2 h))]

/-- interpolation through a given secret and `k` given share values -/
theorem exists_through (hF : ByteInj F) {k : ℕ} (ids : Fin k → UInt32)
    (hinj : Function.Injective ids) (hid : ∀ i, 1 ≤ (ids i).toNat ∧ (ids i).toNat ≤ 255)
    (secret : F) (ys : Fin k → F) :
    ∃ cs : List F, cs.length = k ∧ ∀ i, evalL (secret :: cs) ((ids i).toNat : F) = ys i := by
  have hv := nodes_injective (F := F) hF ids hinj hid
  let w : Option (Fin k) → F := fun o => match o with
    | none => secret
    | some i => ys i
  have hcard : (Finset.univ : Finset (Option (Fin k))).card = k + 1 := by simp
  obtain ⟨cs, hcs, hp⟩ := exists_list_of_degree_lt
    (Lagrange.interpolate Finset.univ (nodes ids) w) (k + 1)
    (by rw [← hcard]; exact Lagrange.degree_interpolate_lt _ hv.injOn)
  have hev : ∀ o, evalL cs (nodes (F := F) ids o) = w o := by
    intro o
    rw [← polyOf_eval, hp]
    exact Lagrange.eval_interpolate_at_node w hv.injOn (Finset.mem_univ o)
  match cs, hcs, hev with
  | [], hcs, _ => simp at hcs
  | c0 :: cs, hcs, hev =>
    have hc0 : c0 = secret := by simpa [evalL_zero, nodes, w] using hev none
    subst hc0
    exact ⟨cs, by simpa using hcs, fun i => hev (some i)⟩

theorem unique_through (hF : ByteInj F) {k : ℕ} (ids : Fin k → UInt32)
    (hinj : Function.Injective ids) (hid : ∀ i, 1 ≤ (ids i).toNat ∧ (ids i).toNat ≤ 255)
    (secret : F) (as bs : List F) (ha : as.length = k) (hb : bs.length = k)
    (h : ∀ i, evalL (secret :: as) ((ids i).toNat : F) = evalL (secret :: bs) ((ids i).toNat : F)) :
    as = bs := by
  have hv := nodes_injective (F := F) hF ids hinj hid
  have := evalL_inj (secret :: as) (secret :: bs) (by simp [ha, hb])
    (Finset.univ.image (nodes ids)) (by
      rw [Finset.card_image_of_injective _ hv]; simp [ha]) (by
      intro x hx
      obtain ⟨o, _, rfl⟩ := Finset.mem_image.1 hx
      match o with
      | none => simp [nodes, evalL_zero]
      | some i => exact h i)
  simpa using this

/-- For `k = t-1` distinct identifiers, every secret, and every vector of share values, exactly one
choice of the random coefficients makes `Split` hand out these values. -/
theorem C02_secrecy (hF : ByteInj F) (cd : ScalarCodec F) {t n : UInt32} {s : Shamir}
    (hs : newShamir t n true = .ok s) (secret : F) (hsec : secret ≠ 0)
    {k : ℕ} (hk : k + 1 = t.toNat) (ids : Fin k → UInt32) (hinj : Function.Injective ids)
    (hid : ∀ i, 1 ≤ (ids i).toNat ∧ (ids i).toNat ≤ n.toNat) (ys : Fin k → F) :
    ∃! c : Fin k → F, ∃ shares, split cd s secret (streamOf c) = .ok shares ∧
      ∀ i, ⟨ids i, cd.enc (ys i)⟩ ∈ shares := by
  obtain ⟨htn, ht2, hn, _, rfl⟩ := newShamir_eq_ok.1 hs
  rw [UInt32.le_iff_toNat_le] at ht2 hn htn
  have e2 : (2 : UInt32).toNat = 2 := rfl
  have e255 : (255 : UInt32).toNat = 255 := rfl
  rw [e2] at ht2; rw [e255] at hn
  have hk' : t.toNat - 1 = k := by omega
  have hid' : ∀ i, 1 ≤ (ids i).toNat ∧ (ids i).toNat ≤ 255 :=
    fun i => ⟨(hid i).1, (hid i).2.trans hn⟩
  -- reformulation of "the shares contain the given values"
  have hiff : ∀ c : Fin k → F, (∃ shares, split cd ⟨t, n⟩ secret (streamOf c) = .ok shares ∧
      ∀ i, (⟨ids i, cd.enc (ys i)⟩ : Share) ∈ shares) ↔
      ∀ i, evalL (secret :: List.ofFn c) ((ids i).toNat : F) = ys i := by
    intro c
    constructor
    · rintro ⟨shares, hsp, hm⟩ i
      obtain ⟨_, _, rfl⟩ := split_eq_ok.1 hsp
      have := ((mem_mkShares cd n _ _).1 (hm i)).2.2
      simp only [hk', streamOf_list] at this
      have h2 := congrArg cd.dec this
      rw [cd.dec_enc, cd.dec_enc] at h2
      simpa using h2.symm
    · intro h
      refine ⟨_, split_eq_ok.2 ⟨hsec, by simp only; omega, rfl⟩, fun i => ?_⟩
      rw [mem_mkShares]
      refine ⟨?_, ?_, ?_⟩
      · intro h0
        have := (hid i).1
        simp only at h0
        rw [h0] at this; simp at this
      · rw [UInt32.le_iff_toNat_le]; exact (hid i).2
      · simp only [hk', streamOf_list]
        rw [h i]
  simp_rw [hiff]
  refine existsUnique_of_exists_of_unique ?_ ?_
  · obtain ⟨cs, hlen, hev⟩ := exists_through hF ids hinj hid' secret ys
    refine ⟨fun i => cs[i.1]'(by omega), fun i => ?_⟩
    have : List.ofFn (fun i : Fin k => cs[i.1]'(by omega)) = cs := by
      apply List.ext_getElem (by simp [hlen])
      intro i h1 h2; simp
    rw [this]; exact hev i
  · intro c1 c2 h1 h2
    exact List.ofFn_injective (unique_through hF ids hinj hid' secret _ _ (by simp) (by simp)
      fun i => by rw [h1 i, h2 i])

example : 2 + 1 = (3 : UInt32).toNat ∧ Function.Injective (![1, 3] : Fin 2 → UInt32) ∧
    ∀ i, 1 ≤ ((![1, 3] : Fin 2 → UInt32) i).toNat ∧
      ((![1, 3] : Fin 2 → UInt32) i).toNat ≤ (4 : UInt32).toNat := by
  decide

/-! ## C04: combination in the exponent -/

theorem interpolate_map_smul (g : G) (pts : List (F × F)) (hn : (pts.map Prod.fst).Nodup) :
    interpolate (pts.map fun p => (p.1, p.2 • g)) = (interpolate pts).map (· • g) := by
  rw [interpolate_eq _ hn, interpolate_eq _ (by simpa [Function.comp_def] using hn)]
  have hnode : node (pts.map fun p => (p.1, p.2 • g)) = node pts := by
    funext i; simp [node, Function.comp_def]
  simp only [Except.map, hnode, List.length_map, Finset.sum_smul]
  congr 1
  refine Finset.sum_congr rfl fun i hi => ?_
  rw [mem_range] at hi
  rw [List.getD_eq_getElem _ _ (by simpa using hi), List.getD_eq_getElem _ _ (by simpa using hi)]
  simp [mul_smul]

/-- `CombinePoints` succeeds with `r • g` exactly when `Combine` succeeds with `r`,
and otherwise fails in the same way. -/
theorem C04_combinePoints (hF : ByteInj F) (cd : ScalarCodec F) (g : G) {t n : UInt32} {s : Shamir}
    (hs : newShamir t n true = .ok s) (l : List Share) :
    combinePoints cd g s (l.map some) = (combine cd s (l.map some)).map (· • g) := by
  obtain ⟨_, _, hn, _, rfl⟩ := newShamir_eq_ok.1 hs
  unfold combinePoints combine
  by_cases hlen : l.length < t.toNat
  · rw [Go.guard_false (by simpa using hlen)]; rfl
  · rw [Go.guard_true (by simpa using hlen)]
    simp only [Go.ok_bind]
    rcases checkShares_some cd n [] l with ⟨g1, g2, _, g4⟩ | ⟨g1, g2⟩
    · rw [g4]
      simp only [Go.ok_bind]
      refine interpolate_map_smul g _ ?_
      rw [List.map_map]
      exact toNat_ids_nodup hF l n hn (fun sh h => (g1 sh h).2.1) g2
    · rw [g2]; rfl

/-! ## C05: Lagrange coefficients -/

theorem foldl_lag (xs : List UInt32) (i : UInt32) (a b : F) :
    xs.foldl (fun (nd : F × F) j => if i = j then nd
        else (nd.1 * (j.toNat : F), nd.2 * ((j.toNat : F) - (i.toNat : F)))) (a, b) =
      (a * (xs.map fun j => if i = j then 1 else (j.toNat : F)).prod,
       b * (xs.map fun j => if i = j then 1 else (j.toNat : F) - (i.toNat : F)).prod) := by
  induction xs generalizing a b with
  | nil => simp
  | cons x xs ih =>
    rw [List.foldl_cons]
    by_cases h : i = x
    · subst h; simp only [if_true, ih]; simp
    · simp only [h, if_false, ih]; simp [h, mul_assoc]

theorem prod_map_ite (xs : List UInt32) (hn : xs.Nodup) (i : UInt32) (f : UInt32 → F) :
    (xs.map fun j => if i = j then 1 else f j).prod = ∏ j ∈ xs.toFinset.erase i, f j := by
  rw [← List.prod_toFinset _ hn]
  by_cases hi : i ∈ xs.toFinset
  · rw [← Finset.mul_prod_erase _ _ hi]
    simp only [if_true, one_mul]
    refine Finset.prod_congr rfl fun j hj => ?_
    rw [if_neg (Finset.ne_of_mem_erase hj).symm]
  · rw [Finset.erase_eq_of_notMem hi]
    refine Finset.prod_congr rfl fun j hj => ?_
    rw [if_neg]; rintro rfl; exact hi hj

theorem mapM_ok {α β : Type} (l : List α) (f : α → Go β) (g : α → β)
    (h : ∀ a ∈ l, f a = .ok (g a)) : l.mapM f = .ok (l.map g) := by
  induction l with
  | nil => rfl
  | cons a l ih =>
    rw [List.mapM_cons, h a (by simp), ih fun b hb => h b (by simp [hb])]
    rfl

/-- the coefficients computed are the Lagrange coefficients at zero of the identity set -/
theorem lagrangeCoeffs_eq (hF : ByteInj F) (ids : List UInt32)
    (hid : ∀ i ∈ ids, i.toNat ≤ 255) :
    lagrangeCoeffs (F := F) ids = .ok (ids.dedup.map fun i =>
      (i, lag0 ids.toFinset (fun j : UInt32 => ((j.toNat : ℕ) : F)) i)) := by
  unfold lagrangeCoeffs
  simp only
  apply mapM_ok
  intro i hi
  rw [List.mem_dedup] at hi
  rw [foldl_lag, prod_map_ite _ (List.nodup_dedup _), prod_map_ite _ (List.nodup_dedup _)]
  have hdd : ids.dedup.toFinset = ids.toFinset := by ext; simp
  simp only [one_mul, hdd]
  rw [if_neg, lag0, Finset.prod_div_distrib]
  rw [Finset.prod_eq_zero_iff]
  rintro ⟨j, hj, hj0⟩
  rw [Finset.mem_erase, List.mem_toFinset] at hj
  rw [sub_eq_zero] at hj0
  exact hj.1 (UInt32.toNat_inj.1 (hF.inj (hid j hj.2) (hid i hi) hj0))

/-- For every list of distinct identities in `1..255` with at least `t` entries, the returned
coefficients combine the shares of any dealer polynomial with `t` coefficients to its secret. -/
theorem C05_lagrangeCoeffs (hF : ByteInj F) (cd : ScalarCodec F) {t n : UInt32} {s : Shamir}
    (hs : newShamir t n true = .ok s) (secret : F) (rnd : ℕ → F) (shares : List Share)
    (hsp : split cd s secret rnd = .ok shares)
    (sel : List Share) (hsel : ∀ sh ∈ sel, sh ∈ shares) (hnd : (sel.map Share.id).Nodup)
    (hlen : t.toNat ≤ sel.length) :
    ∃ coeffs : List (UInt32 × F), lagrangeCoeffs (sel.map Share.id) = .ok coeffs ∧
      coeffs.map Prod.fst = sel.map Share.id ∧
      (List.zipWith (fun sh c => c.2 * (cd.dec sh.value).getD 0) sel coeffs).sum = secret := by
  obtain ⟨htn, ht2, hn, _, rfl⟩ := newShamir_eq_ok.1 hs
  obtain ⟨h0, ht0, rfl⟩ := split_eq_ok.1 hsp
  simp only at hsel ht0
  set poly := secret :: (List.range (t.toNat - 1)).map rnd with hpoly
  have hplen : poly.length = t.toNat := by simp [hpoly]; omega
  have hmem := fun sh h => (mem_mkShares cd n poly sh).1 (hsel sh h)
  have hle : ∀ i ∈ sel.map Share.id, i.toNat ≤ 255 := by
    intro i hi
    obtain ⟨sh, hsh, rfl⟩ := List.mem_map.1 hi
    have h1 := UInt32.le_iff_toNat_le.1 (hmem sh hsh).2.1
    have h2 := UInt32.le_iff_toNat_le.1 hn
    have e255 : (255 : UInt32).toNat = 255 := rfl
    omega
  refine ⟨_, lagrangeCoeffs_eq hF _ hle, ?_, ?_⟩
  · rw [List.map_map, hnd.dedup]; simp [Function.comp_def]
  · rw [hnd.dedup, List.map_map, List.zipWith_map_right, List.zipWith_self]
    set v := fun j : UInt32 => ((j.toNat : ℕ) : F) with hv
    have e : (sel.map fun a => (((fun i => (i, lag0 (sel.map Share.id).toFinset v i)) ∘ Share.id) a).2 *
        (cd.dec a.value).getD 0) =
        (sel.map Share.id).map fun i => lag0 (sel.map Share.id).toFinset v i • evalL poly (v i) := by
      rw [List.map_map]
      refine List.map_congr_left fun sh hsh => ?_
      simp only [Function.comp, smul_eq_mul]
      rw [(hmem sh hsh).2.2, cd.dec_enc]; rfl
    rw [e, ← List.sum_toFinset _ hnd, sum_lag0_evalL]
    · simp [hpoly]
    · intro a ha b hb hab
      simp only [List.coe_toFinset, Set.mem_ofPred_eq] at ha hb
      exact UInt32.toNat_inj.1 (hF.inj (hle a ha) (hle b hb) hab)
    · rw [List.toFinset_card_of_nodup hnd, hplen]; simpa using hlen

/-! ## C06: Feldman -/

/-- Specification: value at `x` of the dealer's polynomial `secret + Σ_{1≤k<t} rnd (k-1) x^k`. -/
def dealt (t : ℕ) (secret : F) (rnd : ℕ → F) (x : F) : F :=
  secret + ∑ k ∈ range (t - 1), rnd k * x ^ (k + 1)

theorem evalL_dealt (t : ℕ) (secret : F) (rnd : ℕ → F) (x : F) :
    evalL (secret :: (List.range (t - 1)).map rnd) x = dealt t secret rnd x := by
  rw [evalL_cons, dealt, evalL_eq_sum, Finset.smul_sum]
  simp only [List.length_map, List.length_range, smul_eq_mul]
  congr 1
  refine Finset.sum_congr rfl fun k hk => ?_
  rw [mem_range] at hk
  rw [List.getD_eq_getElem _ _ (by simpa using hk)]
  simp [pow_succ]; ring

theorem feldmanSplit_eq_ok {cd : ScalarCodec F} {g : G} {s : Shamir} {secret : F} {rnd : ℕ → F}
    {r : List G × List Share} :
    feldmanSplit cd g s secret rnd = .ok r ↔ secret ≠ 0 ∧ s.threshold.toNat ≠ 0 ∧
      r = ((secret :: (List.range (s.threshold.toNat - 1)).map rnd).map (· • g),
        mkShares cd s.limit (secret :: (List.range (s.threshold.toNat - 1)).map rnd)) := by
  unfold feldmanSplit
  rw [Go.guard_bind_eq_ok, Go.bind_eq_ok]
  simp only [getPolyAndShares_eq_ok, Except.ok.injEq]
  constructor
  · rintro ⟨a, ⟨x, y⟩, ⟨h1, h2, h3⟩, h4⟩
    simp only at h2 h3 h4
    subst h2 h3 h4
    exact ⟨a, h1, rfl⟩
  · rintro ⟨a, h1, rfl⟩
    exact ⟨a, (_, _), ⟨h1, rfl, rfl⟩, rfl⟩

theorem feldmanVerify_ok_iff (cd : ScalarCodec F) (g c0 : G) (cs : List G) (sh : Share) :
    feldmanVerify cd g (c0 :: cs) (some sh) = .ok () ↔
      sh.id ≠ 0 ∧ ∃ y, cd.dec sh.value = some y ∧ y ≠ 0 ∧
        y • g = evalL (c0 :: cs) (sh.id.toNat : F) := by
  unfold feldmanVerify
  simp only
  rw [Go.bind_eq_ok]
  constructor
  · rintro ⟨_, h1, h2⟩
    obtain ⟨a, y, hy, hy0⟩ := (validate_eq_ok cd sh).1 h1
    rw [Go.bind_eq_ok] at h2
    obtain ⟨y', hy', h3⟩ := h2
    rw [Go.ofOption_eq_ok, hy] at hy'
    rw [Go.guard_eq_ok, commitEval_eq] at h3
    cases hy'
    exact ⟨a, y, hy, hy0, h3⟩
  · rintro ⟨a, y, hy, hy0, h⟩
    refine ⟨(), (validate_eq_ok cd sh).2 ⟨a, y, hy, hy0⟩, ?_⟩
    rw [hy, commitEval_eq]
    simp [Go.ofOption, Go.guard, h]

/-- `Verify` with the dealer's commitments accepts a share exactly when it carries a valid
identifier and the canonical encoding of the non-zero value of the dealer's polynomial there. -/
theorem C06_feldman_verify_iff (cd : ScalarCodec F) (g : G) (hg : ∀ r : F, r • g = 0 → r = 0)
    (s : Shamir) (secret : F) (rnd : ℕ → F) (commitments : List G) (shares : List Share)
    (hsp : feldmanSplit cd g s secret rnd = .ok (commitments, shares)) (sh : Share) :
    feldmanVerify cd g commitments (some sh) = .ok () ↔
      sh.id ≠ 0 ∧ dealt s.threshold.toNat secret rnd (sh.id.toNat : F) ≠ 0 ∧
      sh.value = cd.enc (dealt s.threshold.toNat secret rnd (sh.id.toNat : F)) := by
  obtain ⟨_, _, he⟩ := feldmanSplit_eq_ok.1 hsp
  obtain ⟨rfl, rfl⟩ := Prod.mk.inj he
  have hev := evalL_map_smul (secret :: (List.range (s.threshold.toNat - 1)).map rnd) g
    (sh.id.toNat : F)
  rw [List.map_cons] at hev ⊢
  rw [feldmanVerify_ok_iff, hev, evalL_dealt]
  refine and_congr_right fun _ => ?_
  constructor
  · rintro ⟨y, hy, hy0, h⟩
    have : y = dealt s.threshold.toNat secret rnd (sh.id.toNat : F) := by
      have := hg (y - dealt s.threshold.toNat secret rnd (sh.id.toNat : F)) (by
        rw [sub_smul, h, sub_self])
      exact sub_eq_zero.1 this
    rw [← this]
    exact ⟨hy0, (cd.enc_dec _ _ hy).symm⟩
  · rintro ⟨h0, hv⟩
    exact ⟨_, by rw [hv, cd.dec_enc], h0, rfl⟩

/-- Completeness: every share handed out by `Split` with non-zero value verifies. -/
theorem C06_feldman_complete (cd : ScalarCodec F) (g : G) (s : Shamir) (secret : F)
    (rnd : ℕ → F) (commitments : List G) (shares : List Share)
    (hsp : feldmanSplit cd g s secret rnd = .ok (commitments, shares)) (sh : Share)
    (hsh : sh ∈ shares) (hnz : sh.value ≠ cd.enc 0) :
    feldmanVerify cd g commitments (some sh) = .ok () := by
  obtain ⟨_, _, he⟩ := feldmanSplit_eq_ok.1 hsp
  obtain ⟨rfl, rfl⟩ := Prod.mk.inj he
  obtain ⟨h1, _, h3⟩ := (mem_mkShares _ _ _ _).1 hsh
  have hev := evalL_map_smul (secret :: (List.range (s.threshold.toNat - 1)).map rnd) g
    (sh.id.toNat : F)
  rw [List.map_cons] at hev ⊢
  rw [feldmanVerify_ok_iff, hev]
  refine ⟨h1, _, by rw [h3, cd.dec_enc], ?_, rfl⟩
  intro h; rw [h] at h3; exact hnz h3

/-- Soundness in use: any at least `t` accepted shares with distinct identifiers up to `n`
combine to the committed secret. -/
theorem C06_feldman_combine (hF : ByteInj F) (cd : ScalarCodec F) (g : G)
    (hg : ∀ r : F, r • g = 0 → r = 0) {t n : UInt32} {s : Shamir}
    (hs : newShamir t n true = .ok s) (secret : F) (rnd : ℕ → F) (commitments : List G)
    (shares : List Share)
    (hsp : feldmanSplit cd g s secret rnd = .ok (commitments, shares))
    (sel : List Share) (hsel : ∀ sh ∈ sel, feldmanVerify cd g commitments (some sh) = .ok ())
    (hid : ∀ sh ∈ sel, sh.id ≤ n) (hnd : (sel.map Share.id).Nodup) (hlen : t.toNat ≤ sel.length) :
    combine cd s (sel.map some) = .ok secret := by
  have hacc := fun sh h => (C06_feldman_verify_iff cd g hg s secret rnd commitments shares hsp sh).1
    (hsel sh h)
  obtain ⟨h0, ht0, he⟩ := feldmanSplit_eq_ok.1 hsp
  have hsp' : split cd s secret rnd = .ok shares :=
    split_eq_ok.2 ⟨h0, ht0, (Prod.mk.inj he).2⟩
  have hmem : ∀ sh ∈ sel, sh ∈ shares := by
    intro sh h
    obtain ⟨_, rfl⟩ := Prod.mk.inj he
    rw [mem_mkShares, evalL_dealt]
    obtain ⟨_, _, _, _, rfl⟩ := newShamir_eq_ok.1 hs
    exact ⟨(hacc sh h).1, hid sh h, (hacc sh h).2.2⟩
  refine (C01_split_combine hF cd hs secret rnd shares hsp' sel hmem hnd.of_map hlen).2.1 ?_
  intro sh h hz
  rw [(hacc sh h).2.2] at hz
  have := congrArg cd.dec hz
  rw [cd.dec_enc, cd.dec_enc] at this
  exact (hacc sh h).2.1 (by simpa using this)

example : ∃ r, feldmanSplit Toy.codec (1 : Toy.K) ⟨2, 3⟩ (5 : Toy.K) (fun _ => 11) = .ok r ∧
    ∃ sh ∈ r.2, sh.value ≠ Toy.codec.enc 0 :=
  ⟨_, feldmanSplit_eq_ok.2 ⟨by decide, by decide, rfl⟩, by decide⟩

/-! ## C07, C08: Pedersen -/

theorem pedersenVerify_ok_iff (cd : ScalarCodec F) (g h c0 : G) (cs : List G) (sh bsh : Share) :
    pedersenVerify cd g h (c0 :: cs) (some sh) (some bsh) = .ok () ↔
      sh.id ≠ 0 ∧ bsh.id ≠ 0 ∧ ∃ y b, cd.dec sh.value = some y ∧ y ≠ 0 ∧
        cd.dec bsh.value = some b ∧ b ≠ 0 ∧
        y • g + b • h = evalL (c0 :: cs) (sh.id.toNat : F) := by
  unfold pedersenVerify
  simp only
  rw [Go.bind_eq_ok]
  constructor
  · rintro ⟨_, h1, h2⟩
    obtain ⟨a, y, hy, hy0⟩ := (validate_eq_ok cd sh).1 h1
    rw [Go.bind_eq_ok] at h2
    obtain ⟨_, h3, h2⟩ := h2
    obtain ⟨a', b, hb, hb0⟩ := (validate_eq_ok cd bsh).1 h3
    rw [hy, hb, commitEval_eq] at h2
    simp only [Go.ofOption, Go.ok_bind] at h2
    rw [Go.guard_eq_ok] at h2
    exact ⟨a, a', y, b, hy, hy0, hb, hb0, h2⟩
  · rintro ⟨a, a', y, b, hy, hy0, hb, hb0, h2⟩
    refine ⟨(), (validate_eq_ok cd sh).2 ⟨a, y, hy, hy0⟩, ?_⟩
    rw [(validate_eq_ok cd bsh).2 ⟨a', b, hb, hb0⟩, hy, hb, commitEval_eq]
    simp [Go.ofOption, Go.guard, h2]

/-- `evalL` of the blinded commitments. -/
theorem evalL_pedersen (g h : G) (as bs : List F) (hl : as.length = bs.length) (x : F) :
    evalL (List.zipWith (fun a c => a + c • h) (as.map (· • g)) bs) x =
      evalL as x • g + evalL bs x • h := by
  have : List.zipWith (fun a c => a + c • h) (as.map (· • g)) bs =
      List.zipWith (· + ·) (as.map (· • g)) (bs.map (· • h)) := by
    rw [List.zipWith_map_right]
  rw [this, evalL_zipWith_add _ _ (by simpa using hl), evalL_map_smul, evalL_map_smul]

theorem pedersenSplit_eq_ok {cd : ScalarCodec F} {g h : G} {s : Shamir} {secret : F} {rnd : ℕ → F}
    {r : PedersenResult F G} :
    pedersenSplit cd g h s secret rnd = .ok r ↔ s.threshold.toNat ≠ 0 ∧
      r = (let t := s.threshold.toNat
           let p := secret :: (List.range (t - 1)).map (fun i => rnd (i + 1))
           let q := rnd 0 :: (List.range (t - 1)).map (fun i => rnd (i + t))
           ⟨rnd 0, mkShares cd s.limit q, mkShares cd s.limit p, p.map (· • g),
             List.zipWith (fun a c => a + c • h) (p.map (· • g)) q⟩) := by
  unfold pedersenSplit
  simp only
  rw [Go.bind_eq_ok]
  constructor
  · rintro ⟨⟨x, y⟩, h1, h2⟩
    rw [Go.bind_eq_ok] at h2
    obtain ⟨⟨x', y'⟩, h3, h4⟩ := h2
    rw [getPolyAndShares_eq_ok] at h1 h3
    obtain ⟨a, b, c⟩ := h1
    obtain ⟨_, b', c'⟩ := h3
    simp only at b c b' c' h4
    subst b c b' c'
    exact ⟨a, (Except.ok.inj h4).symm⟩
  · rintro ⟨a, rfl⟩
    refine ⟨(mkShares cd s.limit _, _), getPolyAndShares_eq_ok.2 ⟨a, rfl, rfl⟩, ?_⟩
    rw [Go.bind_eq_ok]
    exact ⟨(mkShares cd s.limit _, _), getPolyAndShares_eq_ok.2 ⟨a, rfl, rfl⟩, rfl⟩

/-- Completeness: dealt share pairs (same identifier, non-zero values) verify. -/
theorem C07_pedersen_complete (cd : ScalarCodec F) (g h : G) (s : Shamir) (secret : F)
    (rnd : ℕ → F) (r : PedersenResult F G)
    (hsp : pedersenSplit cd g h s secret rnd = .ok r) (sh bsh : Share)
    (h1 : sh ∈ r.secretShares) (h2 : bsh ∈ r.blindingShares) (hid : sh.id = bsh.id)
    (hz1 : sh.value ≠ cd.enc 0) (hz2 : bsh.value ≠ cd.enc 0) :
    pedersenVerify cd g h r.pedersen (some sh) (some bsh) = .ok () := by
  obtain ⟨_, rfl⟩ := pedersenSplit_eq_ok.1 hsp
  simp only at h1 h2 ⊢
  obtain ⟨a1, _, a3⟩ := (mem_mkShares _ _ _ _).1 h1
  obtain ⟨b1, _, b3⟩ := (mem_mkShares _ _ _ _).1 h2
  have key := evalL_pedersen g h
    (secret :: (List.range (s.threshold.toNat - 1)).map (fun i => rnd (i + 1)))
    (rnd 0 :: (List.range (s.threshold.toNat - 1)).map (fun i => rnd (i + s.threshold.toNat)))
    (by simp) (sh.id.toNat : F)
  rw [List.map_cons, List.zipWith_cons_cons] at key ⊢
  rw [pedersenVerify_ok_iff, key]
  refine ⟨a1, b1, _, _, by rw [a3, cd.dec_enc], ?_, by rw [b3, cd.dec_enc], ?_, by rw [hid]⟩
  · intro hz; rw [hz] at a3; exact hz1 a3
  · intro hz; rw [hz] at b3; exact hz2 b3

/-- The discrete logarithm extracted from two openings. -/
def pedersenExtract (y b y' b' : F) : F := (y - y') / (b' - b)

/-- Binding: two accepted pairs for the same identifier with different secret values
reveal the discrete logarithm of the second generator. -/
theorem C07_pedersen_binding (cd : ScalarCodec F) (g h : G) (hg : ∀ r : F, r • g = 0 → r = 0)
    (commitments : List G) (sh bsh sh' bsh' : Share)
    (hv : pedersenVerify cd g h commitments (some sh) (some bsh) = .ok ())
    (hv' : pedersenVerify cd g h commitments (some sh') (some bsh') = .ok ())
    (hid : sh.id = sh'.id) (hne : sh.value ≠ sh'.value) :
    ∃ y b y' b', cd.dec sh.value = some y ∧ cd.dec bsh.value = some b ∧
      cd.dec sh'.value = some y' ∧ cd.dec bsh'.value = some b' ∧
      h = pedersenExtract y b y' b' • g := by
  match commitments with
  | [] =>
    unfold pedersenVerify at hv
    simp only [Go.bind_eq_ok] at hv
    obtain ⟨_, _, _, _, h⟩ := hv
    exact absurd h (by simp)
  | c0 :: cs =>
    obtain ⟨_, _, y, b, hy, _, hb, _, he⟩ := (pedersenVerify_ok_iff ..).1 hv
    obtain ⟨_, _, y', b', hy', _, hb', _, he'⟩ := (pedersenVerify_ok_iff ..).1 hv'
    refine ⟨y, b, y', b', hy, hb, hy', hb', ?_⟩
    rw [hid] at he
    have hyy : y - y' ≠ 0 := by
      intro h0
      apply hne
      rw [← cd.enc_dec _ _ hy, ← cd.enc_dec _ _ hy', sub_eq_zero.1 h0]
    have hkey : (y - y') • g = (b' - b) • h := by
      have := he.trans he'.symm
      rw [sub_smul, sub_smul, sub_eq_sub_iff_add_eq_add, this]
      abel
    have hbb : b' - b ≠ 0 := by
      intro h0
      rw [h0, zero_smul] at hkey
      exact hyy (hg _ hkey)
    unfold pedersenExtract
    rw [div_eq_inv_mul, mul_smul, hkey, ← mul_smul, inv_mul_cancel₀ hbb, one_smul]

/-- Hiding: whatever the dealer published and whatever `t-1` participants received, every other
secret is consistent with it, for suitable reader outputs: same commitments, and the same shares and
blinding shares for those participants. -/
theorem C07_pedersen_hiding (hF : ByteInj F) (cd : ScalarCodec F) (g h : G) (a : F) (ha : a ≠ 0)
    (hh : h = a • g) {t n : UInt32} {s : Shamir} (hs : newShamir t n true = .ok s)
    (secret secret' : F) (rnd : ℕ → F) (r : PedersenResult F G)
    (hsp : pedersenSplit cd g h s secret rnd = .ok r)
    {k : ℕ} (hk : k + 1 = t.toNat) (ids : Fin k → UInt32) (hinj : Function.Injective ids)
    (hid : ∀ i, 1 ≤ (ids i).toNat ∧ (ids i).toNat ≤ n.toNat) :
    ∃ rnd' r', pedersenSplit cd g h s secret' rnd' = .ok r' ∧ r'.pedersen = r.pedersen ∧
      ∀ i sh, sh.id = ids i → ((sh ∈ r.secretShares ↔ sh ∈ r'.secretShares) ∧
        (sh ∈ r.blindingShares ↔ sh ∈ r'.blindingShares)) := by
  obtain ⟨htn, ht2, hn, _, rfl⟩ := newShamir_eq_ok.1 hs
  rw [UInt32.le_iff_toNat_le] at ht2 hn htn
  have e2 : (2 : UInt32).toNat = 2 := rfl
  have e255 : (255 : UInt32).toNat = 255 := rfl
  rw [e2] at ht2; rw [e255] at hn
  obtain ⟨_, rfl⟩ := pedersenSplit_eq_ok.1 hsp
  have hk' : t.toNat - 1 = k := by omega
  simp only [hk']
  set p := secret :: (List.range k).map (fun i => rnd (i + 1)) with hp
  set q := rnd 0 :: (List.range k).map (fun i => rnd (i + t.toNat)) with hq
  -- the other polynomial
  obtain ⟨cs, hcs, hev⟩ := exists_through hF ids hinj (fun i => ⟨(hid i).1, (hid i).2.trans hn⟩)
    secret' (fun i => evalL p ((ids i).toNat : F))
  set p' := secret' :: cs with hp'
  have hp'len : p'.length = t.toNat := by simp [hp', hcs, hk]
  have hplen : p.length = t.toNat := by simp [hp]; omega
  have hqlen : q.length = t.toNat := by simp [hq]; omega
  -- blinding polynomial: q' = q + (p - p') / a
  let q' : List F := List.zipWith (· + ·) q ((List.zipWith (· - ·) p p').map (fun d => d / a))
  have hq'len : q'.length = t.toNat := by simp [q', hplen, hqlen, hp'len]
  have hq'i : ∀ i (h : i < t.toNat), q'[i]'(by omega) =
      q[i]'(by omega) + (p[i]'(by omega) - p'[i]'(by omega)) / a := by
    intro i h; simp [q']
  -- evaluation of q'
  have hq'eval : ∀ x : F, evalL q' x = evalL q x + (evalL p x - evalL p' x) / a := by
    intro x
    rw [evalL_eq_sum, evalL_eq_sum, evalL_eq_sum, evalL_eq_sum, hq'len, hqlen, hplen, hp'len,
      ← Finset.sum_sub_distrib, Finset.sum_div, ← Finset.sum_add_distrib]
    refine Finset.sum_congr rfl fun i hi => ?_
    rw [mem_range] at hi
    rw [List.getD_eq_getElem _ _ (by omega), List.getD_eq_getElem _ _ (by omega),
      List.getD_eq_getElem _ _ (by omega), List.getD_eq_getElem _ _ (by omega), hq'i i hi]
    simp only [smul_eq_mul]
    ring
  -- reader
  let rnd' : ℕ → F := fun i => if i = 0 then q'.getD 0 0
    else if i ≤ k then p'.getD i 0 else q'.getD (i - k) 0
  have hp'eq : secret' :: (List.range k).map (fun i => rnd' (i + 1)) = p' := by
    apply List.ext_getElem (by simp; omega)
    intro i h1 h2
    rcases i with _ | i
    · simp [hp']
    · simp only [List.getElem_cons_succ, List.getElem_map, List.getElem_range, rnd']
      rw [if_neg (by omega), if_pos (by omega), List.getD_eq_getElem]
  have hq'eq : rnd' 0 :: (List.range k).map (fun i => rnd' (i + t.toNat)) = q' := by
    apply List.ext_getElem (by simp; omega)
    intro i h1 h2
    rcases i with _ | i
    · simp only [List.getElem_cons_zero, rnd', if_true]
      rw [List.getD_eq_getElem]
    · simp only [List.getElem_cons_succ, List.getElem_map, List.getElem_range, rnd']
      rw [if_neg (by omega), if_neg (by omega)]
      have : i + t.toNat - k = i + 1 := by omega
      rw [this, List.getD_eq_getElem]
  refine ⟨rnd', _, pedersenSplit_eq_ok.2 ⟨by simp only; omega, rfl⟩, ?_, ?_⟩
  · simp only [hk']
    rw [hp'eq, hq'eq]
    apply List.ext_getElem (by simp [hq'len, hplen, hp'len, hqlen])
    intro i h1 h2
    have hi : i < t.toNat := by
      have : i < (List.zipWith (fun a c => a + c • h) (p.map (· • g)) q).length := h2
      simp [hplen, hqlen] at this; exact this
    simp only [List.getElem_zipWith, List.getElem_map]
    rw [hq'i i hi]
    have hsm : ∀ c : F, c • h = (c * a) • g := fun c => by rw [hh, mul_smul]
    rw [hsm, hsm, ← add_smul, ← add_smul]
    congr 1
    field_simp
    ring
  · intro i sh hsh
    simp only [hk']
    rw [hp'eq, hq'eq]
    simp only [mem_mkShares]
    have e1 : evalL p' (sh.id.toNat : F) = evalL p (sh.id.toNat : F) := by
      rw [hsh]; exact hev i
    have e2 : evalL q' (sh.id.toNat : F) = evalL q (sh.id.toNat : F) := by
      rw [hq'eval, e1]; simp
    rw [e1, e2]
    exact ⟨Iff.rfl, Iff.rfl⟩

/-- C08: the verdict depends on the blinding share only through its value. -/
theorem C08_blind_id_ignored (cd : ScalarCodec F) (g h : G) (commitments : List G)
    (sh : Option Share) (bid bid' : UInt32) (hb : bid ≠ 0) (hb' : bid' ≠ 0) (bval : List UInt8) :
    pedersenVerify cd g h commitments sh (some ⟨bid, bval⟩) =
      pedersenVerify cd g h commitments sh (some ⟨bid', bval⟩) := by
  have : (⟨bid, bval⟩ : Share).validate cd = (⟨bid', bval⟩ : Share).validate cd := by
    unfold Share.validate
    simp only
    rw [Go.guard_true hb, Go.guard_true hb']
  unfold pedersenVerify
  simp only [this]

/-- `NewPedersen(t, n, nil)` panics instead of returning its "invalid generator" error. -/
theorem C07_nil_generator_panics {t n : UInt32} (h1 : t ≤ n) (h2 : 2 ≤ t) (h3 : n ≤ 255) :
    newPedersen (G := G) t n none = Go.crash := by
  unfold newPedersen
  rw [Go.guard_true (UInt32.not_lt.2 h1), Go.guard_true (UInt32.not_lt.2 h2),
    Go.guard_true (UInt32.not_lt.2 h3)]
  rfl

example : ∃ r, pedersenSplit Toy.codec (1 : Toy.K) 3 ⟨2, 3⟩ (5 : Toy.K) (fun i => i + 1) = .ok r ∧
    ∃ sh ∈ r.secretShares, ∃ bsh ∈ r.blindingShares, sh.id = bsh.id ∧
      sh.value ≠ Toy.codec.enc 0 ∧ bsh.value ≠ Toy.codec.enc 0 :=
  ⟨_, pedersenSplit_eq_ok.2 ⟨by decide, rfl⟩, by decide⟩

end Verif.Sharing
