import Verif.Ted.FrostSignModel
import Verif.Common.GoList
import Mathlib.Algebra.BigOperators.Group.Finset.Basic
import Mathlib.Algebra.Module.BigOperators
import Mathlib.Tactic.Abel
import Mathlib.Tactic.Module

/-!
# Lemmas about the FROST signing model
-/

set_option linter.unusedSectionVars false

namespace Verif.FrostSign

open Verif.Frost (mapGet)

variable {F : Type} [Field F] [DecidableEq F]
variable {G : Type} [AddCommGroup G] [Module F G] [DecidableEq G]

theorem newSigner_eq_ok {skShare : F} {vkShare vk : G} {id thresh : UInt32}
    {lcoeffs : List (UInt32 × F)} {cosigners : List UInt32} {st : Signer F G} :
    newSigner skShare vkShare vk id thresh lcoeffs cosigners = .ok st ↔
      cosigners.length ≠ 0 ∧ lcoeffs.length ≠ 0 ∧ thresh ≤ UInt32.ofNat cosigners.length ∧
      lcoeffs.length = cosigners.length ∧ (∀ i ∈ cosigners, i ∈ lcoeffs.map Prod.fst) ∧
      st = { skShare := skShare, vkShare := vkShare, vk := vk, id := id, threshold := thresh,
             round := 1, lCoeffs := lcoeffs, cosigners := cosigners } := by
  unfold newSigner
  rw [Go.guard_bind_eq_ok, Go.guard_bind_eq_ok, Go.guard_bind_eq_ok, Go.guard_bind_eq_ok]
  rw [gt_iff_lt, UInt32.not_lt, Except.ok.injEq, eq_comm (b := st), and_assoc]

theorem round1_eq_ok {g : G} {st st' : Signer F G} {d e : F} {cm : Commit G} :
    round1 g st d e = (st', .ok cm) ↔ st.round = 1 ∧ cm = ⟨d • g, e • g⟩ ∧
      st' = { st with round := 2, smallD := some d, smallE := some e } := by
  unfold round1
  split
  · rename_i h
    constructor
    · intro h'; cases h'
    · rintro ⟨h1, _⟩; exact absurd h1 h
  · rename_i h
    rw [not_not] at h
    simp only [Prod.mk.injEq, Except.ok.injEq]
    constructor
    · rintro ⟨rfl, rfl⟩; exact ⟨h, rfl, rfl⟩
    · rintro ⟨_, rfl, rfl⟩; exact ⟨rfl, rfl⟩

/-- the conditions under which `SignRound2` responds, and what it then does -/
theorem round2_eq_ok {hs : List UInt8 → F} {chal : List UInt8 → G → G → Go F} {isNeg : G → Bool}
    {penc : G → List UInt8} {st st' : Signer F G} {msg : List UInt8}
    {input : List (UInt32 × Option (Commit G))} {out : Resp F G} :
    round2 hs chal isNeg penc st msg input = (st', .ok out) ↔
      ∃ d e bs c Li ri Ri, st.smallD = some d ∧ st.smallE = some e ∧ d ≠ 0 ∧ e ≠ 0 ∧ msg ≠ [] ∧
        st.round = 2 ∧ UInt32.ofNat input.length = st.threshold ∧
        (∀ x ∈ input, ∃ m, x.2 = some m ∧ m.D ≠ 0 ∧ m.E ≠ 0) ∧
        bindings hs penc msg st.cosigners input = .ok bs ∧
        chal msg st.vk (bs.map fun b => b.2.2).sum = .ok c ∧
        st.lCoeffs.lookup st.id = some Li ∧ bs.lookup st.id = some (ri, Ri) ∧
        out = ⟨Li * st.skShare * c + (if isNeg (bs.map fun b => b.2.2).sum then -e else e) * ri +
          (if isNeg (bs.map fun b => b.2.2).sum then -d else d), st.vkShare⟩ ∧
        st' = { st with
          commitments := some input, c := some c, capRs := bs.map fun b => (b.1, b.2.2)
          sumR := some (bs.map fun b => b.2.2).sum, round := 3, msg := msg, smallD := some 0
          smallE := some 0 } := by
  have hfor : input.forM checkCommit = .ok () ↔
      ∀ x ∈ input, ∃ m, x.2 = some m ∧ m.D ≠ 0 ∧ m.E ≠ 0 := by
    rw [Go.forM_eq_ok]
    refine forall₂_congr fun x _ => ?_
    unfold checkCommit
    rcases hx : x.2 with _ | m
    · simp [Go.err]
    · simp [Go.guard_eq_ok]
  constructor
  · intro h
    unfold round2 at h
    split at h
    case h_2 => cases h
    rename_i d e hd he
    split at h
    · cases h
    rename_i hg
    push Not at hg
    obtain ⟨g1, g2, g3, g4, g5⟩ := hg
    split at h
    · cases h
    rename_i hf
    rw [hfor] at hf
    dsimp only at h
    split at h
    · cases h
    rename_i bs hbs
    split at h
    · cases h
    rename_i c hc
    split at h
    · cases h
    rename_i Li hLi
    split at h
    · cases h
    rename_i ri Ri hri
    cases h
    exact ⟨d, e, bs, c, Li, ri, Ri, hd, he, g1, g2, g3, g4, g5, hf, hbs, hc, hLi, hri, rfl, rfl⟩
  · rintro ⟨d, e, bs, c, Li, ri, Ri, hd, he, g1, g2, g3, g4, g5, hf, hbs, hc, hLi, hri, rfl, rfl⟩
    rw [← hfor] at hf
    unfold round2
    have hg : ¬ (d = 0 ∨ e = 0 ∨ msg = [] ∨ st.round ≠ 2 ∨
        UInt32.ofNat input.length ≠ st.threshold) := by
      push Not; exact ⟨g1, g2, g3, g4, g5⟩
    simp only [hd, he]
    rw [if_neg hg]
    simp only [hf, hbs, hc, hLi, hri]

theorem round3Loop_eq_ok {g : G} {st : Signer F G} {c : F} {neg : Bool}
    {inp : List (UInt32 × Option (Resp F G))} {z0 z : F} :
    round3Loop g st c neg inp z0 = .ok z ↔
      (∀ x ∈ inp, ∃ r Lj Rj, x.2 = some r ∧ st.lCoeffs.lookup x.1 = some Lj ∧
        st.capRs.lookup x.1 = some Rj ∧
        r.z • g = (c * Lj) • r.vk + (if neg then -Rj else Rj)) ∧
      z = z0 + (inp.map fun x => (x.2.map Resp.z).getD 0).sum := by
  induction inp generalizing z0 with
  | nil =>
    simp only [round3Loop, List.map_nil, List.sum_nil, add_zero, Except.ok.injEq]
    constructor
    · rintro rfl; exact ⟨by simp, rfl⟩
    · rintro ⟨_, rfl⟩; rfl
  | cons x inp ih =>
    obtain ⟨id, o⟩ := x
    cases o with
    | none =>
      simp only [round3Loop, Go.crash]
      constructor
      · intro h; cases h
      · rintro ⟨h, _⟩
        obtain ⟨r, _, _, h, _⟩ := h _ List.mem_cons_self
        cases h
    | some r =>
      simp only [round3Loop]
      cases hL : st.lCoeffs.lookup id with
      | none =>
        simp only [Go.crash]
        constructor
        · intro h; cases h
        · rintro ⟨h, _⟩
          obtain ⟨_, _, _, _, h, _⟩ := h _ List.mem_cons_self
          rw [hL] at h; cases h
      | some Lj =>
        cases hR : st.capRs.lookup id with
        | none =>
          simp only
          constructor
          · intro h; split at h <;> cases h
          · rintro ⟨h, _⟩
            obtain ⟨_, _, _, _, _, h, _⟩ := h _ List.mem_cons_self
            rw [hR] at h; cases h
        | some Rj =>
          simp only
          by_cases he : r.z • g = (c * Lj) • r.vk + (if neg then -Rj else Rj)
          · rw [if_pos he, ih]
            simp only [List.forall_mem_cons, List.map_cons, List.sum_cons, Option.map_some,
              Option.getD_some]
            rw [add_assoc]
            constructor
            · rintro ⟨h1, h2⟩; exact ⟨⟨⟨r, Lj, Rj, rfl, hL, hR, he⟩, h1⟩, h2⟩
            · rintro ⟨⟨_, h1⟩, h2⟩; exact ⟨h1, h2⟩
          · rw [if_neg he]
            constructor
            · intro h; cases h
            · rintro ⟨h, _⟩
              obtain ⟨r', L', R', h1, h2, h3, h4⟩ := h _ List.mem_cons_self
              cases h1
              rw [hL] at h2; cases h2
              rw [hR] at h3; cases h3
              exact absurd h4 he

/-- the conditions under which `SignRound3` returns a signature -/
theorem round3_eq_ok {g : G} {chal : List UInt8 → G → G → Go F} {isNeg : G → Bool}
    {st st' : Signer F G} {input : Option (List (UInt32 × Option (Resp F G)))} {sig : Sig F G} :
    round3 g chal isNeg st input = (st', .ok sig) ↔
      ∃ inp cm c R, input = some inp ∧ st.smallD = some 0 ∧ st.smallE = some 0 ∧ st.msg ≠ [] ∧
        (∀ x ∈ inp, x.2.isSome) ∧ st.commitments = some cm ∧ cm.length = inp.length ∧
        st.round = 3 ∧ UInt32.ofNat inp.length = st.threshold ∧ st.c = some c ∧
        st.sumR = some R ∧ round3Loop g st c (isNeg R) inp 0 = .ok sig.z ∧
        chal st.msg st.vk (sig.z • g + (-c) • st.vk) = .ok c ∧
        sig = ⟨R, sig.z, c, st.msg⟩ ∧ st' = { st with round := 4 } := by
  constructor
  · intro h
    unfold round3 at h
    split at h
    case h_2 => cases h
    case h_3 => split at h <;> cases h
    rename_i d e hd he
    split at h
    · cases h
    rename_i h1
    push Not at h1
    obtain ⟨rfl, rfl, hm⟩ := h1
    split at h
    · cases h
    rename_i inp
    split at h
    · cases h
    rename_i hany
    split at h
    · cases h
    rename_i cm hcm
    split at h
    · cases h
    rename_i h2
    push Not at h2
    obtain ⟨h2, h3, h4⟩ := h2
    split at h
    case h_2 => cases h
    rename_i c R hc hR
    split at h
    · cases h
    rename_i z hz
    split at h
    · cases h
    rename_i c' hc'
    split at h
    · rename_i hcc
      subst hcc
      cases h
      refine ⟨inp, cm, c', R, rfl, hd, he, hm, ?_, hcm, h2, h3, h4, hc, hR, hz, hc', rfl, rfl⟩
      intro x hx
      simp only [List.any_eq_true, not_exists, not_and] at hany
      have := hany x hx
      cases hx2 : x.2 with
      | none => rw [hx2] at this; simp at this
      | some _ => rfl
    · cases h
  · rintro ⟨inp, cm, c, R, rfl, hd, he, hm, hall, hcm, h2, h3, h4, hc, hR, hz, hc', hsig, rfl⟩
    unfold round3
    have h1 : ¬ ((0 : F) ≠ 0 ∨ (0 : F) ≠ 0 ∨ st.msg = []) := by simp [hm]
    have hany : ¬ (inp.any (fun e => e.2.isNone)) = true := by
      simp only [List.any_eq_true, not_exists, not_and]
      intro x hx
      obtain ⟨y, hy⟩ := Option.isSome_iff_exists.1 (hall x hx)
      rw [hy]; simp
    have h5 : ¬ (cm.length ≠ inp.length ∨ st.round ≠ 3 ∨
        UInt32.ofNat inp.length ≠ st.threshold) := by
      push Not; exact ⟨h2, h3, h4⟩
    simp only [hd, he]
    rw [if_neg h1]
    rw [if_neg hany]
    simp only [hcm]
    rw [if_neg h5]
    simp only [hc, hR, hz, hc', if_true]
    rw [← hsig]

theorem verify_eq_ok {g : G} {chal : List UInt8 → G → G → Go F} {vk : G} {msg : List UInt8}
    {z c : F} {r : Bool} :
    verify g chal vk msg z c = .ok r ↔
      msg ≠ [] ∧ chal msg vk (z • g + (-c) • vk) = .ok c ∧ r = true := by
  unfold verify
  rw [Go.guard_bind_eq_ok, Go.bind_eq_ok]
  simp only [Go.guard_bind_eq_ok, Except.ok.injEq]
  constructor
  · rintro ⟨h1, c', h2, rfl, rfl⟩; exact ⟨h1, h2, rfl⟩
  · rintro ⟨h1, h2, rfl⟩; exact ⟨h1, c, h2, rfl, rfl⟩

/-- value of the bindings loop when every cosigner and every entry is present -/
theorem bindings_eq_ok {hs : List UInt8 → F} {penc : G → List UInt8} {msg : List UInt8}
    {cos : List UInt32} {input : List (UInt32 × Option (Commit G))} {bs : List (UInt32 × F × G)} :
    bindings hs penc msg cos input = .ok bs ↔
      List.Forall₂ (fun e b => ∃ m bl, e.2 = some m ∧ blob penc e.1 msg input cos = .ok bl ∧
        b = (e.1, hs bl, hs bl • m.E + m.D)) input bs := by
  unfold bindings
  rw [Go.mapM_eq_ok]
  constructor <;> intro h <;> refine h.imp ?_
  · rintro ⟨i, o⟩ b hb
    cases o with
    | none => cases hb
    | some m =>
      simp only [Go.bind_eq_ok] at hb
      obtain ⟨bl, h1, h2⟩ := hb
      cases h2
      exact ⟨m, bl, rfl, h1, rfl⟩
  · rintro ⟨i, o⟩ b ⟨m, bl, rfl, h1, rfl⟩
    simp only [h1, Go.ok_bind]

theorem blob_eq_ok {penc : G → List UInt8} {id : UInt32} {msg : List UInt8}
    {input : List (UInt32 × Option (Commit G))} {cos : List UInt32} {cm : UInt32 → Commit G}
    (h : ∀ j ∈ cos, mapGet input j = some (cm j)) :
    blob penc id msg input cos = .ok (id.toUInt8 ::
      (msg ++ (cos.map fun j => j.toUInt8 :: (penc (cm j).D ++ penc (cm j).E)).flatten)) := by
  unfold blob
  rw [Go.bind_eq_ok]
  refine ⟨cos.map fun j => j.toUInt8 :: (penc (cm j).D ++ penc (cm j).E), ?_, rfl⟩
  rw [Go.mapM_eq_ok, List.forall₂_map_right_iff, List.forall₂_same]
  intro j hj
  rw [h j hj]

/-- a list of pairs with distinct keys whose entries are `(j, f j)` for `j ∈ T` -/
theorem lookup_of_graph {V : Type} {l : List (UInt32 × V)} {T : Finset UInt32} {f : UInt32 → V}
    (hmem : ∀ j x, (j, x) ∈ l ↔ j ∈ T ∧ x = f j) {j : UInt32} (hj : j ∈ T) :
    l.lookup j = some (f j) := by
  have hin : (j, f j) ∈ l := (hmem j _).2 ⟨hj, rfl⟩
  have hall : ∀ e ∈ l, e.2 = f e.1 := fun e he => ((hmem e.1 e.2).1 he).2
  clear hmem
  induction l with
  | nil => cases hin
  | cons e l ih =>
    rw [List.lookup_cons]
    by_cases h : j = e.1
    · subst h
      simp [hall e List.mem_cons_self]
    · have : (j == e.1) = false := by simpa using h
      rw [this]
      refine ih ?_ fun e he => hall e (List.mem_cons_of_mem _ he)
      rcases List.mem_cons.1 hin with h' | h'
      · exact absurd (congrArg Prod.fst h') h
      · exact h'

theorem graph_length {V : Type} {l : List (UInt32 × V)} {T : Finset UInt32} {f : UInt32 → V}
    (hnd : (l.map Prod.fst).Nodup) (hmem : ∀ j x, (j, x) ∈ l ↔ j ∈ T ∧ x = f j) :
    (l.map Prod.fst).toFinset = T ∧ l.length = T.card := by
  have h : (l.map Prod.fst).toFinset = T := by
    ext j
    rw [List.mem_toFinset, List.mem_map]
    constructor
    · rintro ⟨e, he, rfl⟩; exact ((hmem e.1 e.2).1 he).1
    · intro hj; exact ⟨(j, f j), (hmem j _).2 ⟨hj, rfl⟩, rfl⟩
  refine ⟨h, ?_⟩
  rw [← h, List.toFinset_card_of_nodup hnd, List.length_map]

theorem graph_sum {V M : Type} [AddCommMonoid M] {l : List (UInt32 × V)} {T : Finset UInt32}
    {f : UInt32 → V} (hnd : (l.map Prod.fst).Nodup)
    (hmem : ∀ j x, (j, x) ∈ l ↔ j ∈ T ∧ x = f j) (w : UInt32 × V → M) :
    (l.map w).sum = ∑ j ∈ T, w (j, f j) := by
  have h1 : l.map w = (l.map Prod.fst).map (fun j => w (j, f j)) := by
    rw [List.map_map]
    refine List.map_congr_left fun e he => ?_
    have := ((hmem e.1 e.2).1 he).2
    simp only [Function.comp]
    rw [← this]
  rw [h1, ← List.sum_toFinset _ hnd, (graph_length hnd hmem).1]

end Verif.FrostSign
