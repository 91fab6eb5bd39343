import Verif.Pallas.ShareModel
import Verif.Pallas.IfaceProps
import Verif.Sharing.Props
import Verif.Inst.Sharing

/-!
# C226: Shamir sharing on Pallas
-/

namespace Verif.Pallas.Split
open Native hiding isZero
open Curves Sharing Iface

instance : Fact pastaFq.modulus.val.Prime := ⟨C111_more_constants.2.2.2⟩

/-- canonical little-endian scalars, as a codec that reads back everything it writes -/
def cd : ScalarCodec R := Inst.leCodec32 pastaFq.modulus.val (by decide +kernel) (by decide +kernel)

theorem bytes_E (x : R) : bytes (E x) = cd.enc x := C57_bytes ok x

theorem isZero_E (x : R) : isZero (E x) = decide (x = 0) := by
  rw [Bool.eq_iff_iff, (C215_predicates x).1, decide_eq_true_iff]

theorem new_E (n : ℕ) (hn : n < 2 ^ 32) : new n = E (n : R) := by
  have h := (C215_bigInt 0 n).2.2
  have e : setBigInt (some (n : ℤ)) = .ok (new n) := rfl
  rw [e, if_neg] at h
  · have := Except.ok.inj h
    rw [this]; push_cast; rfl
  · have hm : 2 ^ 65 + 2 ^ 32 < pastaFq.modulus.val := by decide +kernel
    have hl := pastaFq.modulus.l0.toNat_lt
    have : ((n : ℤ) % (pastaFq.modulus.val : ℤ)).toNat = n := by
      rw [Int.emod_eq_of_lt (by omega) (by omega)]; rfl
    rw [this]
    unfold Gap
    omega

theorem polyEval_E (cs : List R) (x : R) : polyEval (cs.map E) (E x) = E (Sharing.polyEval cs x) := by
  unfold polyEval Sharing.polyEval
  rw [← List.map_reverse]
  cases cs.reverse with
  | nil => exact (encode_zero _).symm
  | cons a l =>
    simp only [List.map_cons]
    induction l generalizing a with
    | nil => rfl
    | cons b l ih =>
      simp only [List.map_cons, List.foldl_cons]
      rw [montMul_encode ok, Native.montAdd_encode ok, ih]

/-- C226: the shares are those of the polynomial over the field -/
theorem C226_split (s : Shamir) (hl : s.limit.toNat < 2 ^ 32 - 1) (secret : R) (rnd : ℕ → R) :
    split s (E secret) (fun i => E (rnd i)) = Sharing.split cd s secret rnd := by
  unfold split Sharing.split getPolyAndShares polyInit
  rw [isZero_E]
  by_cases h0 : secret = 0
  · rw [Go.guard_false (by simp [h0]), Go.guard_false (by simp [h0])]; rfl
  rw [Go.guard_true (by simp [h0]), Go.guard_true h0]
  by_cases ht : s.threshold.toNat = 0
  · simp only [if_pos ht]; rfl
  simp only [if_neg ht, Go.ok_bind]
  congr 1
  unfold mkShares
  refine List.map_congr_left fun i hi => ?_
  rw [List.mem_range] at hi
  have e : (E secret :: (List.range (s.threshold.toNat - 1)).map fun i => E (rnd i)) =
      (secret :: (List.range (s.threshold.toNat - 1)).map rnd).map E := by
    simp [Function.comp_def]
  have e2 : new ((i : ℤ) + 1) = E ((i + 1 : ℕ) : R) := by
    have := new_E (i + 1) (by omega)
    rw [← this]; push_cast; rfl
  rw [e, e2, polyEval_E, bytes_E]

/-- C226: a share that the dealer wrote is valid exactly if its value is neither zero nor in the gap of C215 -/
theorem C226_validate (id : UInt32) (x : R) : validate ⟨id, bytes (E x)⟩ = if id = 0 ∨ x = 0 ∨ Gap x.val then Go.err else .ok () := by
  unfold validate
  simp only
  by_cases h0 : id = 0
  · rw [Go.guard_false (by simp [h0]), if_pos (Or.inl h0)]; rfl
  rw [Go.guard_true h0, Go.ok_bind, (C215_bytes x).2.2.1]
  by_cases hg : Gap x.val
  · rw [if_pos hg, if_pos (Or.inr (Or.inr hg))]; rfl
  rw [if_neg hg, Go.ok_bind, isZero_E]
  by_cases hx : x = 0
  · rw [Go.guard_false (by simp [hx]), if_pos (Or.inr (Or.inl hx))]
  · rw [Go.guard_true (by simp [hx]), if_neg (by simp [h0, hx, hg])]

theorem validate_cd (id : UInt32) (x : R) : Share.validate cd ⟨id, cd.enc x⟩ = if id = 0 ∨ x = 0 then Go.err else .ok () := by
  unfold Share.validate
  simp only [cd.dec_enc]
  by_cases h0 : id = 0
  · rw [Go.guard_false (by simp [h0]), if_pos (Or.inl h0)]; rfl
  rw [Go.guard_true h0, Go.ok_bind]
  show Go.guard (x ≠ 0) = _
  by_cases hx : x = 0
  · rw [Go.guard_false (by simp [hx]), if_pos (Or.inr hx)]
  · rw [Go.guard_true hx, if_neg (by simp [h0, hx])]

/-- a share as the dealer writes it -/
def wr (p : UInt32 × R) : Sharing.Share := ⟨p.1, bytes (E p.2)⟩

theorem err_bind {α β : Type} (k : α → Go β) : ((Go.err : Go α) >>= k) = Go.err := rfl

theorem err_map {α β γ : Type} (k : α → Go β) (k' : α → Go γ) {f : γ → β} : ((Go.err : Go α) >>= k) = ((Go.err : Go α) >>= k').map f := rfl

theorem some_bind {α β : Type} (x : α) (k : α → Go β) : (Go.ofOption (some x) >>= k) = k x := rfl

theorem tail_map (c : Go (List (R × R))) (x y : R) : ((c.map (List.map fun p => (E p.1, E p.2))) >>= fun tl => (.ok ((E x, E y) :: tl) : Go _)) =
    (c >>= fun tl => (.ok ((x, y) :: tl) : Go _)).map (List.map fun p => (E p.1, E p.2)) := by
  cases c <;> rfl

theorem check_E (limit : UInt32) (l : List (UInt32 × R)) (seen : List UInt32) (hg : ∀ p ∈ l, ¬ Gap p.2.val) :
    check limit seen (l.map wr) =
      (checkShares cd limit seen ((l.map wr).map some)).map (List.map fun p => (E p.1, E p.2)) := by
  induction l generalizing seen with
  | nil => rfl
  | cons p l ih =>
    have hp := hg p (by simp)
    have e : wr p = ⟨p.1, bytes (E p.2)⟩ := rfl
    have e' : wr p = ⟨p.1, cd.enc p.2⟩ := by rw [e, bytes_E]
    have hval : validate (wr p) = Share.validate cd (wr p) ∧ (Share.validate cd (wr p) = Go.err ∨ Share.validate cd (wr p) = .ok ()) := by
      by_cases hc : p.1 = 0 ∨ p.2 = 0
      · have h2 : Share.validate cd (wr p) = Go.err := by rw [e', validate_cd, if_pos hc]
        exact ⟨by rw [h2, e, C226_validate, if_pos (by tauto)], Or.inl h2⟩
      · have h2 : Share.validate cd (wr p) = .ok () := by rw [e', validate_cd, if_neg hc]
        exact ⟨by rw [h2, e, C226_validate, if_neg (by tauto)], Or.inr h2⟩
    have hid : (wr p).id = p.1 := rfl
    have hb : setBytes (wr p).value = .ok (E p.2) := by
      show setBytes (bytes (E p.2)) = _
      rw [(C215_bytes p.2).2.2.1, if_neg hp]
    have hd : cd.dec (wr p).value = some p.2 := by rw [e', cd.dec_enc]
    simp only [List.map_cons, check, checkShares]
    rw [hval.1, hb, hd, hid]
    rcases hval.2 with hc | hc
    · rw [hc]; exact err_map _ _
    rw [hc]
    simp only [Go.ok_bind]
    by_cases hlim : p.1 > limit
    · rw [Go.guard_false (by simpa using hlim)]; exact err_map _ _
    rw [Go.guard_true hlim]
    simp only [Go.ok_bind]
    by_cases hs : p.1 ∈ seen
    · rw [Go.guard_false (by simpa using hs)]; exact err_map _ _
    rw [Go.guard_true hs]
    simp only [Go.ok_bind]
    rw [ih _ fun q hq => hg q (by simp [hq])]
    rw [some_bind]
    generalize checkShares cd limit (p.1 :: seen) ((l.map wr).map some) = c
    rw [new_E _ p.1.toNat_lt]
    exact tail_map c _ _

theorem check_gap (limit : UInt32) (l : List (UInt32 × R)) (seen : List UInt32) (hg : ∃ p ∈ l, Gap p.2.val) :
    check limit seen (l.map wr) = Go.err := by
  induction l generalizing seen with
  | nil => simp at hg
  | cons p l ih =>
    have e : wr p = ⟨p.1, bytes (E p.2)⟩ := rfl
    have hid : (wr p).id = p.1 := rfl
    simp only [List.map_cons, check]
    rw [hid]
    by_cases hc : p.1 = 0 ∨ p.2 = 0 ∨ Gap p.2.val
    · have h1 : validate (wr p) = Go.err := by rw [e, C226_validate, if_pos hc]
      rw [h1]; exact err_bind _
    have h1 : validate (wr p) = .ok () := by rw [e, C226_validate, if_neg hc]
    push Not at hc
    have hb : setBytes (wr p).value = .ok (E p.2) := by
      show setBytes (bytes (E p.2)) = _
      rw [(C215_bytes p.2).2.2.1, if_neg hc.2.2]
    rw [h1, hb]
    simp only [Go.ok_bind]
    by_cases hlim : p.1 > limit
    · rw [Go.guard_false (by simpa using hlim)]; exact err_bind _
    rw [Go.guard_true hlim]
    simp only [Go.ok_bind]
    by_cases hs : p.1 ∈ seen
    · rw [Go.guard_false (by simpa using hs)]; exact err_bind _
    rw [Go.guard_true hs]
    simp only [Go.ok_bind]
    rw [ih]
    · exact err_bind _
    · obtain ⟨q, hq, hqg⟩ := hg
      rcases List.mem_cons.1 hq with rfl | hq
      · exact absurd hqg hc.2.2
      · exact ⟨q, hq, hqg⟩

theorem numDen_E (xs : List R) (i : ℕ) (xi : R) : numDen (xs.map E) i (E xi) =
    (E (Sharing.numDen xs i xi).1, E (Sharing.numDen xs i xi).2) := by
  unfold numDen Sharing.numDen
  rw [List.zipIdx_map, List.foldl_map]
  have key : ∀ (l : List (R × ℕ)) (a b : R), l.foldl (fun (nd : Limbs × Limbs) (xj : R × ℕ) => if i = (Prod.map E id xj).2 then nd else
      (montMul pastaFq nd.1 (Prod.map E id xj).1, montMul pastaFq nd.2 (montSub pastaFq (Prod.map E id xj).1 (E xi)))) (E a, E b) =
      (fun r : R × R => (E r.1, E r.2)) (l.foldl (fun nd xj => if i = xj.2 then nd else (nd.1 * xj.1, nd.2 * (xj.1 - xi))) (a, b)) := by
    intro l
    induction l with
    | nil => intro a b; rfl
    | cons p l ih =>
      intro a b
      simp only [List.foldl_cons, Prod.map_fst, Prod.map_snd, id]
      split_ifs with h
      · exact ih a b
      · rw [montMul_encode ok, montSub_encode ok, montMul_encode ok]
        exact ih _ _
  have h1 : one = E 1 := (C215_ring 0 0 0).2.1
  rw [h1]
  exact key _ 1 1

theorem div_E (x y : R) (hx : x ≠ 0) : div (E y) (some (E x)) = some (E (y / x)) := by
  obtain ⟨i, hi, -, h⟩ := (C215_div x y).1 hx
  rw [h, div_eq_mul_inv, eq_inv_of_mul_eq_one_right hi]

/-- one step of `interpolate` -/
def stepL (nd : Limbs × Limbs) (r y : Limbs) : Go Limbs :=
  if isZero nd.2 then Go.err else do
    let c ← quo nd.1 nd.2
    .ok (montAdd pastaFq r (montMul pastaFq y c))

/-- its counterpart over the field -/
def stepR (nd : R × R) (r y : R) : Go R := if nd.2 = 0 then Go.err else .ok (r + (nd.1 / nd.2) • y)

theorem isZero_true {x : R} (h : x = 0) : isZero (E x) = true := (C215_predicates x).1.2 h
theorem isZero_false {x : R} (h : ¬ x = 0) : ¬ isZero (E x) = true := fun h' => h ((C215_predicates x).1.1 h')

theorem quo_of {a b : Limbs} {c : Limbs} (h : div a (some b) = some c) : quo a b = .ok c := by
  unfold quo; rw [h]

theorem acc_E (r y c : R) : montAdd pastaFq (E r) (montMul pastaFq (E y) (E c)) = E (r + c • y) := by
  rw [montMul_encode ok, Native.montAdd_encode ok, smul_eq_mul, mul_comm]

theorem stepL_zero {nd : Limbs × Limbs} (h : isZero nd.2 = true) (r y : Limbs) : stepL nd r y = Go.err := if_pos h
theorem stepL_ok {nd : Limbs × Limbs} (h : ¬ isZero nd.2 = true) {c : Limbs} (hc : quo nd.1 nd.2 = .ok c) (r y : Limbs) :
    stepL nd r y = .ok (montAdd pastaFq r (montMul pastaFq y c)) := by
  unfold stepL
  rw [if_neg h, hc]
  exact Go.ok_bind

theorem ok_map {v : Limbs} {x : R} (h : v = E x) : (.ok v : Go Limbs) = (.ok x : Go R).map E := by rw [h]; rfl

theorem step_E (num den r y : R) : stepL (E num, E den) (E r) (E y) = (stepR (num, den) r y).map E := by
  by_cases h : den = 0
  · have h2 : stepR (num, den) r y = Go.err := if_pos h
    rw [stepL_zero (nd := (E num, E den)) (isZero_true h), h2]; rfl
  · have h2 : stepR (num, den) r y = .ok (r + (num / den) • y) := if_neg h
    rw [stepL_ok (nd := (E num, E den)) (isZero_false h) (quo_of (div_E den num h)), h2]
    exact ok_map (acc_E r y (num / den))

theorem foldlM_map_E {α : Type} (f : Limbs → α → Go Limbs) (g : R → α → Go R) (h : ∀ a p, f (E a) p = (g a p).map E) (l : List α) (a : R) :
    l.foldlM f (E a) = (l.foldlM g a).map E := by
  induction l generalizing a with
  | nil => rfl
  | cons p l ih =>
    rw [List.foldlM_cons, List.foldlM_cons, h]
    cases g a p with
    | error _ => rfl
    | ok b => exact ih b

theorem interpolate_E (pts : List (R × R)) : interpolate (pts.map fun p => (E p.1, E p.2)) = (Sharing.interpolate pts).map E := by
  unfold interpolate Sharing.interpolate
  rw [List.zipIdx_map, List.foldlM_map, List.map_map]
  have hz : zero = E 0 := (C215_ring 0 0 0).1
  have hm : (pts.map (Prod.fst ∘ fun p : R × R => (E p.1, E p.2))) = (pts.map Prod.fst).map E := by
    rw [List.map_map]; rfl
  rw [hm, hz]
  refine foldlM_map_E _ _ (fun a p => ?_) _ _
  show stepL (numDen ((pts.map Prod.fst).map E) p.2 (E p.1.1)) (E a) (E p.1.2) = (stepR (Sharing.numDen (pts.map Prod.fst) p.2 p.1.1) a p.1.2).map E
  rw [numDen_E]
  exact step_E _ _ a p.1.2

/-- C226: shares as the dealer writes them combine as over the field if none of their values is in the gap, and are refused otherwise -/
theorem C226_combine (s : Shamir) (l : List (UInt32 × R)) : combine s (l.map wr) =
    if ∃ p ∈ l, Gap p.2.val then Go.err else (Sharing.combine cd s ((l.map wr).map some)).map E := by
  unfold combine Sharing.combine
  simp only [List.length_map]
  by_cases hlen : l.length < s.threshold.toNat
  · rw [Go.guard_false (by simpa using hlen)]
    split_ifs <;> rfl
  rw [Go.guard_true hlen]
  simp only [Go.ok_bind]
  split_ifs with hg
  · rw [check_gap _ _ _ hg]; rfl
  · push Not at hg
    rw [check_E _ _ _ hg]
    cases checkShares cd s.limit [] ((l.map wr).map some) with
    | error _ => rfl
    | ok pts => exact interpolate_E pts

/-- C226: distinct shares of the dealer, as many as the threshold: they combine to the secret if no value is zero or in the gap, and are refused
otherwise -/
theorem C226_reconstruct {t n : UInt32} {s : Shamir} (hs : newShamir t n true = .ok s) (secret : R) (rnd : ℕ → R) (shares : List Sharing.Share)
    (hsp : split s (E secret) (fun i => E (rnd i)) = .ok shares) (sel : List Sharing.Share) (hsel : ∀ sh ∈ sel, sh ∈ shares) (hnd : sel.Nodup)
    (hlen : t.toNat ≤ sel.length) :
    combine s sel = if ∃ sh ∈ sel, leNat sh.value = 0 ∨ Gap (leNat sh.value) then Go.err else .ok (E secret) := by
  obtain ⟨-, -, hn, -, hse⟩ := newShamir_eq_ok.1 hs
  have hn := UInt32.le_iff_toNat_le.1 hn
  simp only [UInt32.reduceToNat] at hn
  have hlim : s.limit.toNat < 2 ^ 32 - 1 := by rw [hse]; simp only; omega
  rw [C226_split s hlim] at hsp
  have h01 := C01_split_combine (Inst.byteInj_zmod _ (by decide +kernel)) cd hs secret rnd shares hsp sel hsel hnd hlen
  have hw : ∀ sh ∈ sel, ∃ x : R, sh = wr (sh.id, x) ∧ leNat sh.value = x.val := by
    intro sh hsh
    obtain ⟨-, -, rfl⟩ := split_eq_ok.1 hsp
    obtain ⟨-, -, hv⟩ := (mem_mkShares cd _ _ sh).1 (hsel sh hsh)
    refine ⟨evalL (secret :: List.map rnd (List.range (s.threshold.toNat - 1))) (sh.id.toNat : R), ?_, ?_⟩
    · unfold wr
      rw [bytes_E, ← hv]
    · rw [hv, ← bytes_E, (C215_bytes _).2.1]
  choose! f hf1 hf2 using hw
  have hmap : sel = (sel.map fun sh => (sh.id, f sh)).map wr := by
    rw [List.map_map]
    conv_lhs => rw [← List.map_id sel]
    exact List.map_congr_left fun sh hsh => hf1 sh hsh
  have hc := C226_combine s (sel.map fun sh => (sh.id, f sh))
  rw [← hmap] at hc
  have hgap : (∃ p ∈ sel.map fun sh => (sh.id, f sh), Gap p.2.val) ↔ ∃ sh ∈ sel, Gap (leNat sh.value) := by
    constructor
    · rintro ⟨p, hp, hg⟩
      obtain ⟨sh, hsh, rfl⟩ := List.mem_map.1 hp
      exact ⟨sh, hsh, by rw [hf2 sh hsh]; exact hg⟩
    · rintro ⟨sh, hsh, hg⟩
      exact ⟨_, List.mem_map.2 ⟨sh, hsh, rfl⟩, by rw [hf2 sh hsh] at hg; exact hg⟩
  have hzero : ∀ sh ∈ sel, (leNat sh.value = 0 ↔ sh.value = cd.enc 0) := by
    intro sh hsh
    have hv : sh.value = cd.enc (f sh) := by
      rw [← bytes_E]; exact congrArg Share.value (hf1 sh hsh)
    have := ok.neZero
    rw [hf2 sh hsh, ZMod.val_eq_zero, hv]
    refine ⟨fun h => by rw [h], fun h => ?_⟩
    have := congrArg cd.dec h
    rw [cd.dec_enc, cd.dec_enc] at this
    exact Option.some.inj this
  rw [hc]
  simp only [hgap]
  by_cases h1 : ∃ sh ∈ sel, Gap (leNat sh.value)
  · obtain ⟨sh, hsh, hg⟩ := h1
    rw [if_pos ⟨sh, hsh, hg⟩, if_pos ⟨sh, hsh, Or.inr hg⟩]
  rw [if_neg h1]
  by_cases h2 : ∃ sh ∈ sel, leNat sh.value = 0
  · obtain ⟨sh, hsh, hz⟩ := h2
    rw [if_pos ⟨sh, hsh, Or.inl hz⟩, h01.2.2 ⟨sh, hsh, (hzero sh hsh).1 hz⟩]
    rfl
  · rw [if_neg, h01.2.1 fun sh hsh hz => h2 ⟨sh, hsh, (hzero sh hsh).2 hz⟩]
    · rfl
    · rintro ⟨sh, hsh, h | h⟩
      · exact h2 ⟨sh, hsh, h⟩
      · exact h1 ⟨sh, hsh, h⟩

theorem evalL_zeros (l : List ℕ) (x : R) : evalL (l.map fun _ => (0 : R)) x = 0 := by
  induction l with
  | nil => rfl
  | cons _ l ih =>
    show 0 + x • evalL (l.map fun _ => (0 : R)) x = 0
    rw [ih, smul_zero, add_zero]

/-- C226: whatever the secret, some polynomial gives the first party a share that is not zero and that nobody can use -/
theorem C226_lost_share {t n : UInt32} {s : Shamir} (hs : newShamir t n true = .ok s) (secret : R) (h0 : secret ≠ 0) :
    ∃ (rnd : ℕ → R) (sh : Sharing.Share) (rest : List Sharing.Share), split s (E secret) (fun i => E (rnd i)) = .ok (sh :: rest) ∧
      leNat sh.value ≠ 0 ∧ validate sh = Go.err ∧ combine s (sh :: rest) = Go.err := by
  obtain ⟨htn, ht2, hn, -, rfl⟩ := newShamir_eq_ok.1 hs
  have htn := UInt32.le_iff_toNat_le.1 htn
  have ht2 := UInt32.le_iff_toNat_le.1 ht2
  have hn := UInt32.le_iff_toNat_le.1 hn
  simp only [UInt32.reduceToNat] at hn ht2
  have hg : Gap (-(2 ^ 63) : R).val := by decide +kernel
  have hnz : (-(2 ^ 63) : R).val ≠ 0 := by decide +kernel
  let rnd : ℕ → R := fun i => if i = 0 then -(2 ^ 63) - secret else 0
  obtain ⟨k, hk⟩ : ∃ k, t.toNat = k + 2 := ⟨t.toNat - 2, by omega⟩
  obtain ⟨m, hm⟩ : ∃ m, n.toNat = m + 1 := ⟨n.toNat - 1, by omega⟩
  have hv : Sharing.polyEval (secret :: (List.range (t.toNat - 1)).map rnd) ((0 + 1 : ℕ) : R) = -(2 ^ 63) := by
    rw [polyEval_eq, hk, show k + 2 - 1 = k + 1 from rfl, List.range_succ_eq_map, List.map_cons, List.map_map]
    have : (List.range k).map (rnd ∘ Nat.succ) = (List.range k).map fun _ => (0 : R) := rfl
    rw [this]
    show secret + ((0 + 1 : ℕ) : R) • (rnd 0 + ((0 + 1 : ℕ) : R) • evalL ((List.range k).map fun _ => (0 : R)) ((0 + 1 : ℕ) : R)) = _
    rw [evalL_zeros, smul_zero, add_zero]
    show secret + ((0 + 1 : ℕ) : R) • (-(2 ^ 63) - secret) = _
    rw [zero_add, Nat.cast_one, one_smul]
    ring
  have hsp : split ⟨t, n⟩ (E secret) (fun i => E (rnd i)) = .ok (mkShares cd n (secret :: (List.range (t.toNat - 1)).map rnd)) := by
    rw [C226_split _ (by show n.toNat < _; omega)]
    exact split_eq_ok.2 ⟨h0, by show t.toNat ≠ 0; omega, rfl⟩
  have hcons : mkShares cd n (secret :: (List.range (t.toNat - 1)).map rnd) = ⟨1, bytes (E (-(2 ^ 63)))⟩ ::
      (mkShares cd n (secret :: (List.range (t.toNat - 1)).map rnd)).tail := by
    unfold mkShares
    rw [hm, List.range_succ_eq_map, List.map_cons, List.tail_cons, hv, bytes_E]
    rfl
  have hval : validate ⟨1, bytes (E (-(2 ^ 63)))⟩ = Go.err := by
    rw [C226_validate, if_pos (Or.inr (Or.inr hg))]
  refine ⟨rnd, _, _, by rw [hsp]; exact congrArg Except.ok hcons, ?_, hval, ?_⟩
  · show leNat (bytes _) ≠ 0
    rw [(C215_bytes _).2.1]; exact hnz
  · unfold combine
    by_cases hl : (⟨1, bytes (E (-(2 ^ 63)))⟩ :: (mkShares cd n (secret :: (List.range (t.toNat - 1)).map rnd)).tail : List Sharing.Share).length < t.toNat
    · rw [Go.guard_false (by simpa using hl)]; rfl
    · rw [Go.guard_true hl, Go.ok_bind, check, hval]; rfl

/-- C226: `SetBytes` accepts numbers above the order, so some shares can be written in two ways -/
theorem C226_not_canonical : ∃ (b : List UInt8) (x : R), b ≠ bytes (E x) ∧ setBytes b = .ok (E x) ∧ setBytes (bytes (E x)) = .ok (E x) ∧
    ∀ id : UInt32, id ≠ 0 → validate ⟨id, b⟩ = .ok () := by
  refine ⟨List.replicate 32 255, ((2 ^ 256 - 1 : ℕ) : R), by decide +kernel, by decide +kernel, by decide +kernel, fun id h => ?_⟩
  have : setBytes (List.replicate 32 255) = .ok (E ((2 ^ 256 - 1 : ℕ) : R)) := by decide +kernel
  unfold validate
  rw [Go.guard_true h, Go.ok_bind, this, Go.ok_bind, isZero_E]
  exact Go.guard_true (by decide +kernel)

/-- the hypotheses of `C226_reconstruct` hold: secret 7 with the polynomial `7 + 3x` -/
example : ∃ shares, split ⟨2, 3⟩ (E 7) (fun _ => E 3) = .ok shares ∧ (shares.take 2).Nodup ∧ 2 ≤ (shares.take 2).length ∧
    combine ⟨2, 3⟩ (shares.take 2) = .ok (E 7) := by
  refine ⟨[⟨1, bytes (E 10)⟩, ⟨2, bytes (E 13)⟩, ⟨3, bytes (E 16)⟩], by decide +kernel, by decide +kernel, by decide, by decide +kernel⟩

end Verif.Pallas.Split
