import Verif.Bls377.PointModel
import Verif.Bls377.ScalarProps
import Verif.Native.PointProps
import Mathlib.Analysis.SpecialFunctions.Complex.CircleAddChar

/-!
# C208: the points and the pairing of BLS12-377
-/

namespace Verif.Bls377
open Verif.Native

set_option linter.unusedSectionVars false

section Point
variable {G : Type} [AddCommGroup G] [DecidableEq G]

/-- C208: the methods of a point are those of the group; a scalar multiplies by its integer, and for a point of the subgroup by its residue -/
theorem C208_group (P Q : G) (s t : Sc) (x y : ZMod q) (hs : Is s x) (ht : Is t y) :
    ptAdd P (some Q) = some (P + Q) ∧ ptSub P (some Q) = some (P - Q) ∧ ptNeg P + P = 0 ∧ ptDouble P = (2 : ℤ) • P ∧
    ptMul P (.own s) = .ok (some ((x.val : ℤ) • P)) ∧ (isIdentity P = true ↔ P = 0) ∧ (ptEqual P (some Q) = true ↔ P = Q) ∧
    ptAdd P none = none ∧ ptSub P none = none ∧ ptMul P .other = .ok none ∧ ptEqual P none = false ∧
    ((q : ℤ) • P = 0 → ∃ r m, mul s (.own t) = .ok (some r) ∧ ptMul P (.own t) = .ok (some m) ∧ ptMul P (.own r) = ptMul m (.own s)) := by
  have hm : ∀ {P : G} {s : Sc} {x : ZMod q}, Is s x → ptMul P (.own s) = .ok (some ((x.val : ℤ) • P)) := by
    intro P s x hs
    show (do let v ← s.get; Except.ok (some (v • P))) = _
    rw [hs.get]; rfl
  refine ⟨rfl, rfl, neg_add_cancel P, (two_zsmul P).symm, hm hs, decide_eq_true_iff, decide_eq_true_iff, rfl, rfl, rfl, rfl, fun hP => ?_⟩
  obtain ⟨-, -, -, -, -, -, -, -, -, -, -, -, -, ⟨r, h1, h2⟩, -⟩ := C207_field s t s x y x hs ht hs
  refine ⟨r, _, h1, hm ht, ?_⟩
  rw [hm h2, hm hs, smul_smul]
  congr 2
  have : ((x * y).val : ℤ) = (x.val : ℤ) * (y.val : ℤ) - (q : ℤ) * ((x.val : ℤ) * (y.val : ℤ) / q) := by
    rw [ZMod.val_mul, Int.natCast_mod, Int.emod_def]
    push_cast
    rfl
  rw [this, sub_smul, mul_comm (q : ℤ), mul_smul _ (q : ℤ), hP, smul_zero, sub_zero]

theorem mapM_own (ss : List Sc) :
    (ss.map Iface.own).mapM Iface.asSc = some ss := by
  induction ss with
  | nil => rfl
  | cons a r ih => rw [List.map_cons, List.mapM_cons, ih]; rfl

theorem mapM_get : ∀ (ss : List Sc) (xs : List (ZMod q)), List.Forall₂ Is ss xs → ss.mapM Sc.get = .ok (xs.map fun x => (x.val : ℤ))
  | _, _, .nil => rfl
  | _, _, .cons h t => by
    rw [List.mapM_cons, h.get, Go.ok_bind, mapM_get _ _ t]; rfl

/-- C208: `SumOfProducts` of lists of equal positive length is the sum of the products; lists of different length and scalars of another type
give nil; empty lists panic -/
theorem C208_sum (points : List G) (ss : List Sc) (xs : List (ZMod q)) (h : List.Forall₂ Is ss xs) :
    (points.length = ss.length → points ≠ [] →
      sumOfProducts points (ss.map .own) = .ok (some (List.zipWith (fun (x : ZMod q) P => (x.val : ℤ) • P) xs points).sum)) ∧
    (points.length ≠ ss.length → sumOfProducts points (ss.map .own) = .ok none) ∧
    (∀ l r, sumOfProducts points (l ++ .other :: r) = .ok none) ∧ sumOfProducts ([] : List G) [] = Go.crash := by
  refine ⟨fun hl hne => ?_, fun hl => ?_, fun l r => ?_, rfl⟩
  · unfold sumOfProducts
    rw [mapM_own]
    dsimp only
    rw [if_neg (by simpa using hl), mapM_get ss xs h, Go.ok_bind]
    have hx : xs.length = ss.length := h.length_eq.symm
    obtain ⟨R, h1, h2⟩ := C50_pippenger (grpOps_implements G) (points := points) (Ps := points)
      (List.forall₂_same.2 fun _ _ => rfl) (xs.map fun x => (x.val : ℤ)) (by simp [hl, hx]) hne
      (by
        intro v hv
        obtain ⟨x, -, rfl⟩ := List.mem_map.1 hv
        exact ⟨by positivity, by exact_mod_cast lt_trans (ZMod.val_lt x) (by decide +kernel)⟩)
    rw [h1, h2, linComb, List.zipWith_map_left]
  · unfold sumOfProducts
    rw [mapM_own]
    dsimp only
    rw [if_pos hl]
  · have : ∀ l : List Iface, (l ++ .other :: r).mapM Iface.asSc = none := by
      intro l
      induction l with
      | nil => rfl
      | cons a l ih =>
        rw [List.cons_append, List.mapM_cons, ih]
        cases a <;> rfl
    unfold sumOfProducts
    rw [this]

/-- C208: what `Set` does, given that the library ignores everything after the first half when the highest bit of the first byte says the
encoding is compressed.  It is a function of the absolute values; a coordinate that does not fit panics; a first coordinate with the highest
bit set is taken for a compressed encoding, and the second is ignored. -/
theorem C208_set (w : ℕ) (hw : 0 < w) (dec : List UInt8 → Option G)
    (hdec : ∀ a b : List UInt8, a.length = w → b.length = w → (a.headD 0).toNat ≥ 128 → dec (a ++ b) = dec a) (x y : ℤ) :
    ptSet w dec 0 0 = .ok 0 ∧ ptSet w dec (-x) y = ptSet w dec x y ∧ ptSet w dec x (-y) = ptSet w dec x y ∧
    (256 ^ w ≤ x.natAbs → ptSet w dec x y = Go.crash) ∧
    (∀ P, x.natAbs < 256 ^ w → 128 * 256 ^ (w - 1) ≤ x.natAbs → dec (beBytes w x.natAbs) = some P →
      ∀ y : ℤ, y.natAbs < 256 ^ w → ptSet w dec x y = .ok P) := by
  refine ⟨rfl, ?_, ?_, ?_, ?_⟩
  · unfold ptSet fillBytes
    simp only [neg_eq_zero, Int.natAbs_neg]
  · unfold ptSet fillBytes
    simp only [neg_eq_zero, Int.natAbs_neg]
  · intro h
    have hx : ¬ (x = 0 ∧ y = 0) := by
      rintro ⟨rfl, -⟩
      have : 0 < 256 ^ w := by positivity
      simp only [Int.natAbs_zero] at h
      omega
    unfold ptSet fillBytes
    rw [if_neg hx, if_neg (by omega)]
    rfl
  · intro P h1 h2 hP y hy
    have hx : ¬ (x = 0 ∧ y = 0) := by
      rintro ⟨rfl, -⟩
      have : 0 < 128 * 256 ^ (w - 1) := by positivity
      simp only [Int.natAbs_zero] at h2
      omega
    have hd : ((beBytes w x.natAbs).headD 0).toNat ≥ 128 := by
      obtain ⟨k, rfl⟩ : ∃ k, w = k + 1 := ⟨w - 1, by omega⟩
      have hl := beBytes_length (k + 1) x.natAbs
      have hn := beNat_beBytes (k + 1) x.natAbs h1
      cases hb : beBytes (k + 1) x.natAbs with
      | nil => rw [hb] at hl; exact absurd hl (by simp)
      | cons a r =>
        rw [hb] at hl hn
        have hr : r.length = k := by simpa using hl
        have e : beNat (a :: r) = a.toNat * 256 ^ r.length + beNat r := by
          rw [beNat_eq_leNat_reverse, List.reverse_cons, leNat_append, List.length_reverse, ← beNat_eq_leNat_reverse]
          simp [leNat, mul_comm, add_comm]
        have hlt := beNat_lt r
        rw [hr] at hlt e
        rw [Nat.add_sub_cancel] at h2
        show a.toNat ≥ 128
        by_contra hc
        have h127 : a.toNat * 256 ^ k ≤ 127 * 256 ^ k := Nat.mul_le_mul_right _ (by omega)
        omega
    unfold ptSet fillBytes
    rw [if_neg hx, if_pos h1, if_pos hy, Go.ok_bind, Go.ok_bind, hdec _ _ (beBytes_length _ _) (beBytes_length _ _) hd, hP]
    rfl

/-- C208: with the two halves of an uncompressed encoding as coordinates, not both zero, `Set` returns what the library decodes from it -/
theorem C208_set_coordinates (w : ℕ) (dec : List UInt8 → Option G) (a b : List UInt8) (ha : a.length = w) (hb : b.length = w)
    (h0 : beNat a ≠ 0 ∨ beNat b ≠ 0) : (∀ P, ptSet w dec (beNat a : ℕ) (beNat b : ℕ) = .ok P ↔ dec (a ++ b) = some P) ∧
    (dec (a ++ b) = none → ptSet w dec (beNat a : ℕ) (beNat b : ℕ) = Go.err) := by
  have hx : ¬ (((beNat a : ℕ) : ℤ) = 0 ∧ ((beNat b : ℕ) : ℤ) = 0) := by
    rintro ⟨h1, h2⟩
    rcases h0 with h | h
    · exact h (by exact_mod_cast h1)
    · exact h (by exact_mod_cast h2)
  have h1 := beNat_lt a
  have h2 := beNat_lt b
  have e1 := beBytes_beNat a
  have e2 := beBytes_beNat b
  rw [ha] at h1 e1
  rw [hb] at h2 e2
  have e : ptSet w dec (beNat a : ℕ) (beNat b : ℕ) = Go.ofOption (dec (a ++ b)) := by
    unfold ptSet fillBytes
    rw [if_neg hx, Int.natAbs_natCast, Int.natAbs_natCast, if_pos h1, if_pos h2, Go.ok_bind, Go.ok_bind, e1, e2]
  rw [e]
  exact ⟨fun P => Go.ofOption_eq_ok, fun h => by rw [h]; rfl⟩

/-- coordinates that are read, the second one included -/
example : ptSet 2 (fun b => if b = [0, 5, 1, 2] then some (7 : ℤ) else none) 5 258 = .ok 7 ∧
    ptSet 2 (fun b => if b = [0, 5, 1, 2] then some (7 : ℤ) else none) 5 259 = Go.err := by decide +kernel

/-- C208: `FromAffineUncompressed` accepts a compressed encoding followed by anything of the right length, so an accepted uncompressed
encoding does not determine the bytes; `FromAffineCompressed` looks at the length first -/
theorem C208_uncompressed (w : ℕ) (dec : List UInt8 → Option G)
    (hdec : ∀ a b : List UInt8, a.length = w → b.length = w → (a.headD 0).toNat ≥ 128 → dec (a ++ b) = dec a)
    (a : List UInt8) (P : G) (ha : a.length = w) (hf : (a.headD 0).toNat ≥ 128) (hP : dec a = some P) :
    fromAffine w dec a = .ok P ∧ (∀ b : List UInt8, b.length = w → fromAffine (2 * w) dec (a ++ b) = .ok P) ∧
    ∀ n b, b.length ≠ n → fromAffine n dec b = Go.err := by
  refine ⟨?_, fun b hb => ?_, fun n b hb => ?_⟩
  · unfold fromAffine
    rw [Go.guard_true ha, hP]; rfl
  · unfold fromAffine
    rw [Go.guard_true (by rw [List.length_append]; omega), hdec a b ha hb hf, hP]; rfl
  · unfold fromAffine
    rw [Go.guard_false hb]; rfl

end Point

section Pairing
variable {G1 G2 T : Type} [AddCommGroup G1] [DecidableEq G1] [AddCommGroup G2] [DecidableEq G2] [Field T]

/-- what is assumed of the library: its subgroup tests are right, and `Pair` returns the product of a bilinear map with non-zero values, or an
error for no points at all -/
structure Gnark.Spec (L : Gnark G1 G2 T) (e : G1 → G2 → T) : Prop where
  in1 : ∀ P, L.in1 P = true ↔ (q : ℤ) • P = 0
  in2 : ∀ Q, L.in2 Q = true ↔ (q : ℤ) • Q = 0
  pair_nil : L.pair [] [] = none
  pair : ∀ (Ps : List G1) (Qs : List G2), Ps ≠ [] → Ps.length = Qs.length → (∀ P ∈ Ps, (q : ℤ) • P = 0) → (∀ Q ∈ Qs, (q : ℤ) • Q = 0) →
    L.pair Ps Qs = some (List.zipWith e Ps Qs).prod
  add_left : ∀ P P' Q, (q : ℤ) • P = 0 → (q : ℤ) • P' = 0 → (q : ℤ) • Q = 0 → e (P + P') Q = e P Q * e P' Q
  add_right : ∀ P Q Q', (q : ℤ) • P = 0 → (q : ℤ) • Q = 0 → (q : ℤ) • Q' = 0 → e P (Q + Q') = e P Q * e P Q'
  ne_zero : ∀ P Q, e P Q ≠ 0

variable {L : Gnark G1 G2 T} {e : G1 → G2 → T}

theorem Gnark.Spec.zero_left (h : L.Spec e) (Q : G2) (hQ : (q : ℤ) • Q = 0) : e 0 Q = 1 := by
  have := h.add_left 0 0 Q (smul_zero _) (smul_zero _) hQ
  rw [add_zero] at this
  exact (mul_eq_left₀ (h.ne_zero 0 Q)).1 this.symm

theorem Gnark.Spec.zero_right (h : L.Spec e) (P : G1) (hP : (q : ℤ) • P = 0) : e P 0 = 1 := by
  have := h.add_right P 0 0 hP (smul_zero _) (smul_zero _)
  rw [add_zero] at this
  exact (mul_eq_left₀ (h.ne_zero P 0)).1 this.symm

theorem tors {G : Type} [AddCommGroup G] {P : G} (h : (q : ℤ) • P = 0) (n : ℤ) : (q : ℤ) • (n • P) = 0 := by
  rw [smul_comm, h, smul_zero]

theorem Gnark.Spec.smul_left (h : L.Spec e) (P : G1) (Q : G2) (hP : (q : ℤ) • P = 0) (hQ : (q : ℤ) • Q = 0) (n : ℤ) :
    e (n • P) Q = e P Q ^ n := by
  induction n using Int.induction_on with
  | zero => rw [zero_smul, zpow_zero, h.zero_left Q hQ]
  | succ i ih =>
    rw [add_smul, one_smul, h.add_left _ _ _ (tors hP _) hP hQ, ih, zpow_add₀ (h.ne_zero P Q), zpow_one]
  | pred i ih =>
    have := h.add_left ((-(i : ℤ) - 1) • P) P Q (tors hP _) hP hQ
    rw [← add_one_zsmul, sub_add_cancel, ih] at this
    rw [zpow_sub₀ (h.ne_zero P Q), zpow_one, this, mul_div_assoc, div_self (h.ne_zero P Q), mul_one]

theorem Gnark.Spec.smul_right (h : L.Spec e) (P : G1) (Q : G2) (hP : (q : ℤ) • P = 0) (hQ : (q : ℤ) • Q = 0) (n : ℤ) :
    e P (n • Q) = e P Q ^ n := by
  induction n using Int.induction_on with
  | zero => rw [zero_smul, zpow_zero, h.zero_right P hP]
  | succ i ih =>
    rw [add_smul, one_smul, h.add_right _ _ _ hP (tors hQ _) hQ, ih, zpow_add₀ (h.ne_zero P Q), zpow_one]
  | pred i ih =>
    have := h.add_right P ((-(i : ℤ) - 1) • Q) Q hP (tors hQ _) hQ
    rw [← add_one_zsmul, sub_add_cancel, ih] at this
    rw [zpow_sub₀ (h.ne_zero P Q), zpow_one, this, mul_div_assoc, div_self (h.ne_zero P Q), mul_one]

theorem pairBody_eq (h : L.Spec e) (P : G1) (Q : G2) (hP : (q : ℤ) • P = 0) (hQ : (q : ℤ) • Q = 0) :
    pairBody L P Q = some (if P = 0 ∨ Q = 0 then 0 else e P Q) := by
  unfold pairBody isIdentity
  rw [(h.in1 P).2 hP, (h.in2 Q).2 hQ]
  by_cases hz : P = 0 ∨ Q = 0
  · rw [if_pos hz]
    have : (decide (P = 0) || decide (Q = 0)) = true := by simpa using hz
    rw [this]; rfl
  · rw [if_neg hz]
    have : (decide (P = 0) || decide (Q = 0)) = false := by simpa [not_or] using hz
    rw [this]
    show L.pair [P] [Q] = _
    rw [h.pair [P] [Q] (by simp) rfl (by simpa using hP) (by simpa using hQ)]
    simp

/-- C208: `Pairing` refuses points of the wrong type and points outside the subgroups; the two groups agree.  On the subgroups it is the
bilinear map except that it is **zero** — not one — when a point is the identity. -/
theorem C208_pairing (h : L.Spec e) (P P' : G1) (Q Q' : G2) :
    pairing1 L P (.g2 Q) = pairing2 L Q (.g1 P) ∧ pairing1 L P (.g1 P') = none ∧ pairing1 L P .other = none ∧ pairing2 L Q (.g2 Q') = none ∧
    pairing2 L Q .other = none ∧ ((q : ℤ) • P ≠ 0 ∨ (q : ℤ) • Q ≠ 0 → pairing1 L P (.g2 Q) = none) ∧
    ((q : ℤ) • P = 0 → (q : ℤ) • Q = 0 → pairing1 L P (.g2 Q) = some (if P = 0 ∨ Q = 0 then 0 else e P Q)) := by
  refine ⟨rfl, rfl, rfl, rfl, rfl, fun hn => ?_, pairBody_eq h P Q⟩
  show pairBody L P Q = none
  unfold pairBody
  rw [if_pos]
  rcases hn with hn | hn
  · have : L.in1 P = false := by rw [← Bool.not_eq_true, h.in1]; exact hn
    rw [this]; rfl
  · have : L.in2 Q = false := by rw [← Bool.not_eq_true, h.in2]; exact hn
    rw [this, Bool.or_comm]; rfl

theorem multiLoop_valid (h : L.Spec e) : ∀ (l : List (G1 × G2)) (st : MState G1 G2), st.valid = true →
    (∀ x ∈ l, (q : ℤ) • x.1 = 0 ∧ (q : ℤ) • x.2 = 0) →
    multiLoop L (l.flatMap fun x => [.g1 x.1, .g2 x.2]) st = ⟨st.g1Arr ++ l.map Prod.fst, st.g2Arr ++ l.map Prod.snd, true⟩
  | [], st, hv, _ => by
    obtain ⟨a, b, c⟩ := st
    dsimp only at hv
    subst hv
    simp [multiLoop]
  | x :: l, st, hv, hl => by
    obtain ⟨h1, h2⟩ := hl x (by simp)
    rw [List.flatMap_cons]
    show multiLoop L (l.flatMap _) (multiStep L st (.g1 x.1) (.g2 x.2)) = _
    have hs : multiStep L st (.g1 x.1) (.g2 x.2) = ⟨st.g1Arr ++ [x.1], st.g2Arr ++ [x.2], true⟩ := by
      unfold multiStep
      dsimp only
      rw [hv, (h.in1 _).2 h1, (h.in2 _).2 h2]
      rfl
    rw [hs, multiLoop_valid h l _ rfl fun y hy => hl y (by simp [hy])]
    simp

theorem multiLoop_invalid : ∀ (l : List (PP G1 G2)) (st : MState G1 G2), st.valid = false → (multiLoop L l st).valid = false
  | [], _, hv => hv
  | [_], _, hv => hv
  | a :: b :: l, st, hv => by
    rw [multiLoop]
    apply multiLoop_invalid l
    unfold multiStep
    split
    · rw [hv]; rfl
    · rfl

theorem multiLoop_true (h : L.Spec e) : ∀ (l : List (PP G1 G2)) (st : MState G1 G2), (multiLoop L l st).valid = true → l.length % 2 = 0 →
    ∃ ps : List (G1 × G2), l = ps.flatMap (fun x => [.g1 x.1, .g2 x.2]) ∧ ∀ x ∈ ps, (q : ℤ) • x.1 = 0 ∧ (q : ℤ) • x.2 = 0
  | [], _, _, _ => ⟨[], rfl, by simp⟩
  | [_], _, _, hl => absurd hl (by simp)
  | a :: b :: l, st, hv, hl => by
    rw [multiLoop] at hv
    obtain ⟨ps, rfl, hps⟩ := multiLoop_true h l _ hv (by simp only [List.length_cons] at hl; omega)
    have hs : (multiStep L st a b).valid = true := by
      by_contra hc
      rw [Bool.not_eq_true] at hc
      rw [multiLoop_invalid _ _ hc] at hv
      exact nomatch hv
    unfold multiStep at hs
    split at hs
    · rename_i P Q
      split at hs
      · rename_i hc
        simp only [Bool.and_eq_true] at hc
        refine ⟨(P, Q) :: ps, rfl, ?_⟩
        intro x hx
        rcases List.mem_cons.1 hx with rfl | hx
        · exact ⟨(h.in1 _).1 hc.1.2, (h.in2 _).1 hc.2⟩
        · exact hps x hx
      · exact nomatch hs
    · exact nomatch hs

theorem zipWith_unzip (l : List (G1 × G2)) (e : G1 → G2 → T) :
    List.zipWith e (l.map Prod.fst) (l.map Prod.snd) = l.map fun x => e x.1 x.2 := by
  induction l with
  | nil => rfl
  | cons a l ih => simp [ih]

/-- C208: `MultiPairing` returns a result exactly for a non-empty sequence of pairs of a point of the subgroup of `G1` and one of the subgroup
of `G2`, in this order, and it is the product of the bilinear map, identities included -/
theorem C208_multi (h : L.Spec e) (l : List (PP G1 G2)) (t : T) :
    multiPairing L l = some t ↔ ∃ ps : List (G1 × G2), ps ≠ [] ∧ l = ps.flatMap (fun x => [.g1 x.1, .g2 x.2]) ∧
      (∀ x ∈ ps, (q : ℤ) • x.1 = 0 ∧ (q : ℤ) • x.2 = 0) ∧ t = (ps.map fun x => e x.1 x.2).prod := by
  have key : ∀ ps : List (G1 × G2), ps ≠ [] → (∀ x ∈ ps, (q : ℤ) • x.1 = 0 ∧ (q : ℤ) • x.2 = 0) →
      L.pair (ps.map Prod.fst) (ps.map Prod.snd) = some (ps.map fun x => e x.1 x.2).prod := by
    intro ps hne hps
    rw [h.pair _ _ (by simpa using hne) (by simp), zipWith_unzip]
    · intro P hP
      obtain ⟨x, hx, rfl⟩ := List.mem_map.1 hP
      exact (hps x hx).1
    · intro Q hQ
      obtain ⟨x, hx, rfl⟩ := List.mem_map.1 hQ
      exact (hps x hx).2
  unfold multiPairing
  constructor
  · intro hm
    split at hm
    · exact nomatch hm
    · rename_i hl
      dsimp only at hm
      split at hm
      · exact nomatch hm
      · rename_i hv
        simp only [Bool.not_eq_true', Bool.not_eq_false] at hv
        obtain ⟨ps, rfl, hps⟩ := multiLoop_true h l _ hv (by simpa using hl)
        rw [multiLoop_valid h ps _ rfl hps] at hm
        simp only [List.nil_append] at hm
        have hne : ps ≠ [] := by
          rintro rfl
          rw [List.map_nil, List.map_nil, h.pair_nil] at hm
          exact nomatch hm
        rw [key ps hne hps] at hm
        exact ⟨ps, hne, rfl, hps, (Option.some.inj hm).symm⟩
  · rintro ⟨ps, hne, rfl, hps, rfl⟩
    rw [if_neg]
    · dsimp only
      rw [multiLoop_valid h ps _ rfl hps]
      simpa using key ps hne hps
    · have : ∀ ps : List (G1 × G2), (ps.flatMap fun x => [PP.g1 x.1, PP.g2 x.2] : List (PP G1 G2)).length % 2 = 0 := by
        intro ps
        induction ps with
        | nil => rfl
        | cons a r ih => rw [List.flatMap_cons, List.length_append]; simp only [List.length_cons, List.length_nil]; omega
      simpa using this ps

/-- C208: bilinearity.  `MultiPairing` of one pair is bilinear; `Pairing` is as long as no argument becomes the identity, and then it is zero,
which absorbs every product it occurs in. -/
theorem C208_bilinear (h : L.Spec e) (P : G1) (Q : G2) (hP : (q : ℤ) • P = 0) (hQ : (q : ℤ) • Q = 0) (a b : ℤ) :
    multiPairing L [.g1 (a • P), .g2 (b • Q)] = some (e P Q ^ (a * b)) ∧
    (a • P ≠ 0 → b • Q ≠ 0 → pairing1 L (a • P) (.g2 (b • Q)) = some (e P Q ^ (a * b))) ∧
    (a • P = 0 ∨ b • Q = 0 → pairing1 L (a • P) (.g2 (b • Q)) = some 0 ∧ (0 : T) ≠ e P Q ^ (a * b)) := by
  have he : e (a • P) (b • Q) = e P Q ^ (a * b) := by
    rw [h.smul_left P _ hP (tors hQ b) a, h.smul_right P Q hP hQ b, ← zpow_mul, mul_comm]
  refine ⟨?_, fun ha hb => ?_, fun hz => ⟨?_, (zpow_ne_zero _ (h.ne_zero P Q)).symm⟩⟩
  · rw [C208_multi h]
    exact ⟨[(a • P, b • Q)], by simp, rfl, fun x hx => by rw [List.mem_singleton.1 hx]; exact ⟨tors hP a, tors hQ b⟩, by simp [he]⟩
  · show pairBody L _ _ = _
    rw [pairBody_eq h _ _ (tors hP a) (tors hQ b), if_neg (by simp [ha, hb]), he]
  · show pairBody L _ _ = _
    rw [pairBody_eq h _ _ (tors hP a) (tors hQ b), if_pos hz]

/-- C208: comparing two values of `Pairing` decides the equality of the bilinear map when the map is non-degenerate, whatever points are the
identity: the wrong value is then wrong on both sides -/
theorem C208_compare (h : L.Spec e) (nd : ∀ P Q, (q : ℤ) • P = 0 → (q : ℤ) • Q = 0 → e P Q = 1 → P = 0 ∨ Q = 0)
    (P R : G1) (Q S : G2) (hP : (q : ℤ) • P = 0) (hQ : (q : ℤ) • Q = 0) (hR : (q : ℤ) • R = 0) (hS : (q : ℤ) • S = 0) :
    pairing1 L P (.g2 Q) = pairing1 L R (.g2 S) ↔ e P Q = e R S := by
  have one : ∀ (P : G1) (Q : G2), (q : ℤ) • P = 0 → (q : ℤ) • Q = 0 → (e P Q = 1 ↔ P = 0 ∨ Q = 0) := by
    intro P Q hP hQ
    refine ⟨nd P Q hP hQ, ?_⟩
    rintro (rfl | rfl)
    · exact h.zero_left Q hQ
    · exact h.zero_right P hP
  rw [(C208_pairing h P P Q Q).2.2.2.2.2.2 hP hQ, (C208_pairing h R R S S).2.2.2.2.2.2 hR hS, Option.some_inj]
  by_cases h1 : P = 0 ∨ Q = 0 <;> by_cases h2 : R = 0 ∨ S = 0
  · rw [if_pos h1, if_pos h2, (one P Q hP hQ).2 h1, (one R S hR hS).2 h2]; simp
  · rw [if_pos h1, if_neg h2, (one P Q hP hQ).2 h1]
    exact ⟨fun hz => absurd hz.symm (h.ne_zero R S), fun hz => absurd ((one R S hR hS).1 hz.symm) h2⟩
  · rw [if_neg h1, if_pos h2, (one R S hR hS).2 h2]
    exact ⟨fun hz => absurd hz (h.ne_zero P Q), fun hz => absurd ((one P Q hP hQ).1 hz) h1⟩
  · rw [if_neg h1, if_neg h2]

end Pairing

/-! ### Examples: the pairing of the residues with values in the complex roots of unity -/

open Classical in
/-- a library that meets the assumptions -/
noncomputable def toyLib : Gnark (ZMod q) (ZMod q) ℂ where
  in1 := fun _ => true
  in2 := fun _ => true
  pair := fun Ps Qs => if Ps = [] then none else some (List.zipWith (fun P Q => ZMod.stdAddChar (P * Q)) Ps Qs).prod

theorem toyLib_spec : toyLib.Spec (fun P Q => ZMod.stdAddChar (P * Q)) where
  in1 := fun P => by simp [toyLib]
  in2 := fun P => by simp [toyLib]
  pair_nil := by simp [toyLib]
  pair := fun Ps Qs h _ _ _ => if_neg h
  add_left := fun P P' Q _ _ _ => by rw [add_mul, AddChar.map_add_eq_mul]
  add_right := fun P Q Q' _ _ _ => by rw [mul_add, AddChar.map_add_eq_mul]
  ne_zero := fun P Q h => by
    have := AddChar.map_add_eq_mul (ZMod.stdAddChar (N := q)) (P * Q) (-(P * Q))
    rw [h, zero_mul, add_neg_cancel, AddChar.map_zero_eq_one] at this
    exact one_ne_zero this

/-- with the identity `Pairing` is zero and `MultiPairing` one -/
example : pairing1 toyLib 0 (.g2 5) = some 0 ∧ multiPairing toyLib [.g1 0, .g2 5] = some 1 := by
  obtain ⟨h1, -, h3⟩ := C208_bilinear toyLib_spec 0 5 (by simp) (by simp) 1 1
  rw [one_smul, one_smul] at h1 h3
  refine ⟨(h3 (Or.inl rfl)).1, ?_⟩
  rw [h1]
  simp

/-- the pairing is not degenerate -/
example (P Q R S : ZMod q) : pairing1 toyLib P (.g2 Q) = pairing1 toyLib R (.g2 S) ↔
    (ZMod.stdAddChar (P * Q) : ℂ) = ZMod.stdAddChar (R * S) := by
  refine C208_compare toyLib_spec (fun P Q _ _ h => ?_) P R Q S (by simp) (by simp) (by simp) (by simp)
  rw [← AddChar.map_zero_eq_one (ZMod.stdAddChar (N := q))] at h
  exact mul_eq_zero.1 (ZMod.injective_stdAddChar h)

example : sumOfProducts ([3, 5] : List ℤ) [.own (.of 2), .own (.of 7)] = .ok (some 41) := by
  obtain ⟨h, -⟩ := C208_sum ([3, 5] : List ℤ) [.of 2, .of 7] [2, 7]
    (.cons ⟨2, rfl, by norm_num, by decide +kernel, by norm_num⟩ (.cons ⟨7, rfl, by norm_num, by decide +kernel, by norm_num⟩ .nil))
  exact (h rfl (by simp)).trans (by decide +kernel)

/-- a decoder that reads 48 bytes when the highest bit is set: then the second coordinate does not matter -/
example (y : ℤ) (hy : y.natAbs < 256 ^ 48) :
    ptSet 48 (fun b => if b.length = 48 ∨ (b.headD 0).toNat ≥ 128 then some (1 : ℤ) else none) (2 ^ 383 + 7) y = .ok 1 := by
  refine (C208_set 48 (by norm_num) _ (fun a b ha hb hd => ?_) (2 ^ 383 + 7) y).2.2.2.2 1 (by decide +kernel) (by decide +kernel) (by decide +kernel) y hy
  have : ((a ++ b).headD 0).toNat ≥ 128 := by
    cases a with
    | nil => exact absurd ha (by decide)
    | cons x r => exact hd
  rw [if_pos (Or.inr this), if_pos (Or.inr hd)]

end Verif.Bls377
