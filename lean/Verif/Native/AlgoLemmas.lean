import Mathlib.Algebra.BigOperators.Group.List.Basic
import Mathlib.Algebra.Module.Basic
import Mathlib.Algebra.Order.Group.Int
import Mathlib.Tactic.Abel
import Mathlib.Tactic.Ring
import Mathlib.Tactic.NormNum
import Mathlib.Tactic.Module
import Verif.Native.PointModel

/-!
# Windowed multiplication and multi-exponentiation in an arbitrary commutative group
-/

set_option linter.unusedSectionVars false

namespace Verif.Native

/-- `o` implements the operations of the group `A` on the representatives related by `rep`. -/
structure Implements {α : Type} (o : PtOps α) (A : Type) [AddCommGroup A] (rep : α → A → Prop) :
    Prop where
  identity : rep o.identity 0
  double : ∀ {p P}, rep p P → rep (o.double p) (P + P)
  add : ∀ {p P q Q}, rep p P → rep q Q → rep (o.add p q) (P + Q)

/-- the operations of a group itself -/
def grpOps (A : Type) [AddCommGroup A] : PtOps A := ⟨0, fun P => P + P, fun P Q => P + Q⟩

section Rel
variable {α A : Type} [AddCommGroup A] {o : PtOps α} {rep : α → A → Prop}

theorem times_rel (h : Implements o A rep) (n : ℕ) : ∀ {p : α} {P : A}, rep p P →
    rep (times o.double n p) (times (grpOps A).double n P) := by
  induction n with
  | zero => intro p P hp; exact hp
  | succ n ih => intro p P hp; exact ih (h.double hp)

theorem getD_rel (h : Implements o A rep) {l : List α} {L : List A} (hl : List.Forall₂ rep l L)
    (i : ℕ) : rep (l.getD i o.identity) (L.getD i 0) := by
  induction hl generalizing i with
  | nil => simpa using h.identity
  | cons hx _ ih =>
    cases i with
    | zero => simpa using hx
    | succ i => simpa using ih i

theorem set_rel {l : List α} {L : List A} (hl : List.Forall₂ rep l L) (i : ℕ) {p : α} {P : A}
    (hp : rep p P) : List.Forall₂ rep (l.set i p) (L.set i P) := by
  induction hl generalizing i with
  | nil => exact List.Forall₂.nil
  | cons hx hr ih =>
    cases i with
    | zero => exact List.Forall₂.cons hp hr
    | succ i => exact List.Forall₂.cons hx (ih i)

theorem append_rel {l m : List α} {L M : List A} (hl : List.Forall₂ rep l L)
    (hm : List.Forall₂ rep m M) : List.Forall₂ rep (l ++ m) (L ++ M) := List.rel_append hl hm

theorem mulTable_rel (h : Implements o A rep) {p : α} {P : A} (hp : rep p P) :
    List.Forall₂ rep (mulTable o p) (mulTable (grpOps A) P) := by
  unfold mulTable
  refine List.foldl_rel (r := List.Forall₂ rep) ?_ ?_
  · exact .cons h.identity (.cons hp .nil)
  · intro k _ t T ht
    have hd := h.double (getD_rel h ht (k + 1))
    exact append_rel ht (.cons hd (.cons (h.add hd hp) .nil))

theorem mul_rel (h : Implements o A rep) {p : α} {P : A} (hp : rep p P) (bytes : List UInt8) :
    rep (mul o p bytes) (mul (grpOps A) P bytes) := by
  unfold mul
  refine List.foldl_rel (r := rep) h.identity ?_
  intro k _ c C hc
  exact h.add (times_rel h 4 hc) (getD_rel h (mulTable_rel h hp) _)

theorem fillBuckets_rel (h : Implements o A rep) (n : ℕ) {items : List (ℕ × α)}
    {Items : List (ℕ × A)}
    (hi : List.Forall₂ (fun a b => a.1 = b.1 ∧ rep a.2 b.2) items Items) :
    List.Forall₂ rep (fillBuckets o n items) (fillBuckets (grpOps A) n Items) := by
  unfold fillBuckets
  have h0 : List.Forall₂ rep (List.replicate n o.identity)
      (List.replicate n (grpOps A).identity) := by
    induction n with
    | zero => exact .nil
    | succ n ih => exact .cons h.identity ih
  revert h0
  generalize List.replicate n o.identity = bs
  generalize List.replicate n (grpOps A).identity = Bs
  induction hi generalizing bs Bs with
  | nil => intro h0; exact h0
  | @cons a b _ _ hx _ ih =>
    intro h0
    apply ih
    show List.Forall₂ rep (bs.set a.1 _) (Bs.set b.1 _)
    rw [hx.1]
    exact set_rel h0 _ (h.add (getD_rel h h0 _) hx.2)

theorem sumBuckets_rel (h : Implements o A rep) {l : List α} {L : List A}
    (hl : List.Forall₂ rep l L) :
    rep (sumBuckets o l (o.identity, o.identity)).1 (sumBuckets (grpOps A) L (0, 0)).1 ∧
    rep (sumBuckets o l (o.identity, o.identity)).2 (sumBuckets (grpOps A) L (0, 0)).2 := by
  induction hl with
  | nil => exact ⟨h.identity, h.identity⟩
  | cons hx _ ih =>
    have hs := h.add ih.1 hx
    exact ⟨hs, h.add ih.2 hs⟩

theorem joinWindows_rel (h : Implements o A rep) (w : ℕ) {l : List α} {L : List A}
    (hl : List.Forall₂ rep l L) :
    rep (joinWindows o w l) (joinWindows (grpOps A) w L) := by
  induction hl with
  | nil => exact h.identity
  | cons hx _ ih => exact h.add (times_rel h w ih) hx

theorem map_rel {β : Type} {f : β → α} {g : β → A} (l : List β) (h : ∀ x, rep (f x) (g x)) :
    List.Forall₂ rep (l.map f) (l.map g) := by
  induction l with
  | nil => exact .nil
  | cons x l ih => exact .cons (h x) ih

theorem zip_rel {σ : Type} (f : σ → ℕ) {ps : List α} {Ps : List A} (hp : List.Forall₂ rep ps Ps) :
    ∀ ss : List σ, List.Forall₂ (fun a b => a.1 = b.1 ∧ rep a.2 b.2)
      (List.zipWith (fun s p => (f s, p)) ss ps) (List.zipWith (fun s p => (f s, p)) ss Ps) := by
  induction hp with
  | nil => intro ss; cases ss <;> exact .nil
  | cons hx _ ih =>
    intro ss
    cases ss with
    | nil => exact .nil
    | cons s ss => exact .cons ⟨rfl, hx⟩ (ih ss)

theorem filter_rel {l : List (ℕ × α)} {L : List (ℕ × A)}
    (h : List.Forall₂ (fun a b => a.1 = b.1 ∧ rep a.2 b.2) l L) :
    List.Forall₂ (fun a b => a.1 = b.1 ∧ rep a.2 b.2)
      ((l.filter (·.1 ≠ 0)).map fun it => (it.1 - 1, it.2))
      ((L.filter (·.1 ≠ 0)).map fun it => (it.1 - 1, it.2)) := by
  induction h with
  | nil => exact .nil
  | @cons a b _ _ hx _ ih =>
    rw [List.filter_cons, List.filter_cons, hx.1]
    split
    · exact .cons ⟨by simp [hx.1], hx.2⟩ ih
    · exact ih

end Rel

section Group
variable {A : Type} [AddCommGroup A]

theorem times_double (n : ℕ) (P : A) : times (grpOps A).double n P = (2 ^ n) • P := by
  induction n generalizing P with
  | zero => simp [times]
  | succ n ih =>
    rw [times, ih]
    show 2 ^ n • (P + P) = _
    rw [← two_nsmul, ← mul_nsmul', pow_succ, mul_comm]

theorem mulTable_grp (P : A) : mulTable (grpOps A) P = (List.range 16).map (fun i => i • P) := by
  simp only [mulTable, grpOps, show List.range 7 = [0, 1, 2, 3, 4, 5, 6] from rfl,
    show List.range 16 = [0, 1, 2, 3, 4, 5, 6, 7, 8, 9, 10, 11, 12, 13, 14, 15] from rfl,
    List.foldl_cons, List.foldl_nil, List.map_cons, List.map_nil]
  simp only [List.cons_append, List.nil_append, List.getD_cons_succ, List.getD_cons_zero,
    zero_add]
  simp only [List.cons.injEq, and_true]
  refine ⟨?_, ?_, ?_, ?_, ?_, ?_, ?_, ?_, ?_, ?_, ?_, ?_, ?_, ?_, ?_, ?_⟩ <;> module

/-- the `i`-th byte of a little-endian number -/
theorem getD_eq_div (bs : List UInt8) (i : ℕ) :
    (bs.getD i 0).toNat = leNat bs / 256 ^ i % 256 := by
  induction bs generalizing i with
  | nil => simp [leNat]
  | cons b bs ih =>
    rw [leNat_cons]
    have hb := b.toNat_lt
    cases i with
    | zero => simp
    | succ i =>
      rw [List.getD_cons_succ, ih, pow_succ', ← Nat.div_div_eq_div_mul]
      congr 2
      omega

theorem hi_nibble (b : UInt8) : (b >>> 4 &&& 0x0F).toNat = b.toNat / 16 % 16 := by
  rw [UInt8.toNat_and, UInt8.toNat_shiftRight]
  show b.toNat >>> 4 &&& (2 ^ 4 - 1) = _
  rw [Nat.and_two_pow_sub_one_eq_mod, Nat.shiftRight_eq_div_pow]

theorem lo_nibble (b : UInt8) : (b >>> 0 &&& 0x0F).toNat = b.toNat % 16 := by
  rw [UInt8.toNat_and, UInt8.toNat_shiftRight]
  show b.toNat >>> 0 &&& (2 ^ 4 - 1) = _
  rw [Nat.and_two_pow_sub_one_eq_mod, Nat.shiftRight_zero]

theorem nibble_even (n i : ℕ) : n / 256 ^ i % 256 % 16 = n / 16 ^ (2 * i) % 16 := by
  rw [show (256 : ℕ) ^ i = 16 ^ (2 * i) by rw [pow_mul]; norm_num]
  omega

theorem nibble_odd (n i : ℕ) : n / 256 ^ i % 256 / 16 % 16 = n / 16 ^ (2 * i + 1) % 16 := by
  rw [show (256 : ℕ) ^ i = 16 ^ (2 * i) by rw [pow_mul]; norm_num, pow_succ,
    ← Nat.div_div_eq_div_mul]
  omega

theorem mulWindow_eq (bytes : List UInt8) {k : ℕ} (hk : k < 64) :
    (mulWindow bytes k).toNat = leNat bytes / 16 ^ (63 - k) % 16 := by
  unfold mulWindow
  by_cases h : k % 2 = 0
  · rw [if_pos h, hi_nibble, getD_eq_div, nibble_odd]
    congr 3
    omega
  · rw [if_neg h, lo_nibble, getD_eq_div, nibble_even]
    congr 3
    omega

theorem sopIndex_eq (bytes : List UInt8) (j : ℕ) :
    (sopIndex bytes j).toNat = leNat bytes / 16 ^ j % 16 := by
  unfold sopIndex
  by_cases h : j % 2 = 0
  · rw [if_pos h, lo_nibble, getD_eq_div, nibble_even]
    congr 3
    omega
  · rw [if_neg h, hi_nibble, getD_eq_div, nibble_odd]
    congr 3
    omega

theorem mul_grp (P : A) (bytes : List UInt8) (hl : bytes.length = 32) :
    mul (grpOps A) P bytes = leNat bytes • P := by
  have hlt : leNat bytes < 16 ^ 64 := by
    have := leNat_lt bytes
    rw [hl] at this
    calc _ < 256 ^ 32 := this
      _ = 16 ^ 64 := by norm_num
  have key : ∀ n, n ≤ 64 → (List.range n).foldl (fun p k =>
      (grpOps A).add (times (grpOps A).double 4 p)
        ((mulTable (grpOps A) P).getD (mulWindow bytes k).toNat (grpOps A).identity))
      (grpOps A).identity = (leNat bytes / 16 ^ (64 - n)) • P := by
    intro n
    induction n with
    | zero =>
      intro _
      rw [Nat.div_eq_of_lt hlt]; simp [grpOps]
    | succ n ih =>
      intro hn
      rw [List.range_succ, List.foldl_append, ih (by omega)]
      simp only [List.foldl_cons, List.foldl_nil]
      rw [times_double, mulTable_grp, mulWindow_eq bytes (by omega)]
      have hlt : leNat bytes / 16 ^ (63 - n) % 16 < 16 := Nat.mod_lt _ (by norm_num)
      rw [List.getD_eq_getElem?_getD, List.getElem?_map, List.getElem?_range hlt]
      simp only [Option.map_some, Option.getD_some]
      show 2 ^ 4 • _ + _ = _
      rw [← mul_nsmul', ← add_nsmul]
      congr 1
      rw [show 64 - n = (63 - n) + 1 by omega, pow_succ 16, ← Nat.div_div_eq_div_mul,
        show 64 - (n + 1) = 63 - n by omega]
      omega
  have := key 64 le_rfl
  simpa [mul] using this

/-- `Σ (i+1) • bsᵢ` -/
def wsum : List A → A
  | [] => 0
  | b :: bs => wsum bs + (b :: bs).sum

theorem sumBuckets_grp (bs : List A) : sumBuckets (grpOps A) bs (0, 0) = (bs.sum, wsum bs) := by
  induction bs with
  | nil => rfl
  | cons b bs ih =>
    have : sumBuckets (grpOps A) (b :: bs) (0, 0)
        = ((sumBuckets (grpOps A) bs (0, 0)).1 + b, (sumBuckets (grpOps A) bs (0, 0)).2
          + ((sumBuckets (grpOps A) bs (0, 0)).1 + b)) := rfl
    rw [this, ih]
    simp [wsum, add_comm b]

theorem sum_set_add (bs : List A) (i : ℕ) (P : A) (hi : i < bs.length) :
    (bs.set i (bs.getD i 0 + P)).sum = bs.sum + P := by
  induction bs generalizing i with
  | nil => simp at hi
  | cons b bs ih =>
    cases i with
    | zero => simp; abel
    | succ i =>
      have := ih i (by simpa using hi)
      simp only [List.set_cons_succ, List.getD_cons_succ, List.sum_cons, this]; abel

theorem wsum_set_add (bs : List A) (i : ℕ) (P : A) (hi : i < bs.length) :
    wsum (bs.set i (bs.getD i 0 + P)) = wsum bs + (i + 1) • P := by
  induction bs generalizing i with
  | nil => simp at hi
  | cons b bs ih =>
    cases i with
    | zero => simp [wsum]; abel
    | succ i =>
      have hi' : i < bs.length := by simpa using hi
      have h1 := ih i hi'
      have h2 := sum_set_add bs i P hi'
      simp only [List.set_cons_succ, List.getD_cons_succ, wsum, h1, List.sum_cons, h2, succ_nsmul]
      abel

theorem wsum_replicate (n : ℕ) : wsum (List.replicate n (0 : A)) = 0 := by
  induction n with
  | zero => rfl
  | succ n ih => simp [List.replicate_succ, wsum, ih]

theorem wsum_fill (n : ℕ) (items : List (ℕ × A)) (h : ∀ it ∈ items, it.1 < n) :
    wsum (fillBuckets (grpOps A) n items) = (items.map fun it => (it.1 + 1) • it.2).sum := by
  have key : ∀ (items : List (ℕ × A)) (bs : List A), (∀ it ∈ items, it.1 < bs.length) →
      wsum (items.foldl (fun bs it => bs.set it.1 (bs.getD it.1 0 + it.2)) bs)
        = wsum bs + (items.map fun it => (it.1 + 1) • it.2).sum := by
    intro items
    induction items with
    | nil => intro bs _; simp
    | cons it items ih =>
      intro bs hb
      rw [List.foldl_cons, ih _ (by
        intro x hx
        rw [List.length_set]
        exact hb x (List.mem_cons_of_mem _ hx)), wsum_set_add _ _ _ (hb it List.mem_cons_self),
        List.map_cons, List.sum_cons, add_assoc]
  have := key items (List.replicate n 0) (by simpa using h)
  rw [wsum_replicate, zero_add] at this
  exact this

theorem tail_set {β : Type} (l : List β) (i : ℕ) (v : β) :
    (l.set i v).tail = if i = 0 then l.tail else l.tail.set (i - 1) v := by
  cases l with
  | nil => simp
  | cons a l => cases i <;> simp

theorem wsum_fill_tail (n : ℕ) (items : List (ℕ × A)) (h : ∀ it ∈ items, it.1 < n) :
    wsum (fillBuckets (grpOps A) n items).tail = (items.map fun it => it.1 • it.2).sum := by
  have key : ∀ (items : List (ℕ × A)) (bs : List A), (∀ it ∈ items, it.1 < bs.length) →
      wsum (items.foldl (fun bs it => bs.set it.1 (bs.getD it.1 0 + it.2)) bs).tail
        = wsum bs.tail + (items.map fun it => it.1 • it.2).sum := by
    intro items
    induction items with
    | nil => intro bs _; simp
    | cons it items ih =>
      intro bs hb
      rw [List.foldl_cons, ih _ (by
        intro x hx
        rw [List.length_set]
        exact hb x (List.mem_cons_of_mem _ hx)), List.map_cons, List.sum_cons, ← add_assoc]
      congr 1
      rw [tail_set]
      have hlt := hb it List.mem_cons_self
      split
      · next h0 => rw [h0]; simp
      · next h0 =>
        have : bs.getD it.1 0 = bs.tail.getD (it.1 - 1) 0 := by
          cases bs with
          | nil => simp
          | cons b bs =>
            obtain ⟨k, hk⟩ := Nat.exists_eq_succ_of_ne_zero h0
            rw [hk]; simp
        rw [this, wsum_set_add _ _ _ (by rw [List.length_tail]; omega)]
        congr 2
        omega
  have := key items (List.replicate n 0) (by simpa using h)
  have e : wsum (List.replicate n (0 : A)).tail = 0 := by
    rw [List.tail_replicate, wsum_replicate]
  rw [e, zero_add] at this
  exact this

theorem joinWindows_grp (w : ℕ) (l : List A) : joinWindows (grpOps A) w l
    = l.foldr (fun win acc => (2 ^ w) • acc + win) 0 := by
  induction l with
  | nil => rfl
  | cons x l ih =>
    rw [joinWindows, List.foldr_cons, List.foldr_cons, ← ih, times_double]
    rfl

/-- Horner evaluation of the base-`2^w` digits, by induction from the top. -/
theorem foldr_digits {σ : Type} (B : ℕ) (d : σ → ℕ → ℕ) (items : List (σ × A)) (n : ℕ) :
    ((List.range n).map fun j => (items.map fun it => d it.1 j • it.2).sum).foldr
      (fun win acc => B • acc + win) 0
      = (items.map fun it => ((List.range n).foldr (fun j acc => B * acc + d it.1 j) 0) • it.2).sum := by
  have key : ∀ l : List ℕ, (l.map fun j => (items.map fun it => d it.1 j • it.2).sum).foldr
      (fun win acc => B • acc + win) 0
      = (items.map fun it => (l.foldr (fun j acc => B * acc + d it.1 j) 0) • it.2).sum := by
    intro l
    induction l with
    | nil => simp
    | cons j l ih =>
      rw [List.map_cons, List.foldr_cons, ih]
      simp only [List.foldr_cons, add_nsmul]
      rw [List.sum_map_add]
      congr 1
      clear ih
      induction items with
      | nil => simp
      | cons it items ih => simp only [List.map_cons, List.sum_cons, nsmul_add, ih, mul_nsmul']
  exact key _

theorem horner_digits (B D : ℕ) (n : ℕ) :
    (List.range n).foldr (fun j acc => B * acc + D / B ^ j % B) 0 = D % B ^ n := by
  have key : ∀ m s, (List.range' s m).foldr (fun j acc => B * acc + D / B ^ j % B) 0
      = D / B ^ s % B ^ m := by
    intro m
    induction m with
    | zero => intro s; simp [Nat.mod_one]
    | succ m ih =>
      intro s
      rw [List.range'_succ, List.foldr_cons, ih (s + 1), pow_succ B s, ← Nat.div_div_eq_div_mul,
        pow_succ B m]
      generalize D / B ^ s = E
      rw [mul_comm (B ^ m) B, Nat.mod_mul]
      ring
  have := key n 0
  rw [List.range_eq_range']
  simpa using this

end Group

end Verif.Native
