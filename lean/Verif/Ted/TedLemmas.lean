import Verif.Ted.TedModel
import Verif.Sharing.V1Props
import Verif.Common.GoList

/-!
# Lemmas about the threshold Ed25519 model
-/

set_option linter.unusedSectionVars false

namespace Verif.Ted

variable {q : ℕ} [Fact q.Prime]
variable {G : Type} [AddCommGroup G] [Module (ZMod q) G] [DecidableEq G]

theorem leNat_append_zeros (b : List UInt8) (n : ℕ) : leNat (b ++ List.replicate n 0) = leNat b := by
  induction b with
  | nil =>
    induction n with
    | zero => rfl
    | succ n ih => rw [List.nil_append] at ih; rw [List.replicate_succ, List.nil_append, leNat_cons, ih]; rfl
  | cons a b ih => rw [List.cons_append, leNat_cons, leNat_cons, ih]

theorem pad32_length (b : List UInt8) : (pad32 b).length = 32 := by
  simp [pad32]

theorem pad32_of_le {b : List UInt8} (h : b.length ≤ 32) :
    pad32 b = b ++ List.replicate (32 - b.length) 0 := by
  unfold pad32
  rw [List.take_append, List.take_of_length_le h, List.take_replicate]
  congr 2
  omega

theorem pad32_of_eq {b : List UInt8} (h : b.length = 32) : pad32 b = b := by
  rw [pad32_of_le h.le, h]; simp

theorem leNat_pad32 {b : List UInt8} (h : b.length ≤ 32) : leNat (pad32 b) = leNat b := by
  rw [pad32_of_le h, leNat_append_zeros]

theorem pad32_eq_leBytes {b : List UInt8} (h : b.length ≤ 32) : pad32 b = leBytes 32 (leNat b) := by
  have := leBytes_leNat (pad32 b)
  rw [pad32_length, leNat_pad32 h] at this
  exact this.symm

theorem natBytes_length_le {n k : ℕ} (h : n < 256 ^ k) : (natBytes n).length ≤ k := by
  unfold natBytes
  rw [List.length_reverse, List.length_map]
  exact (Nat.digits_length_le_iff (by norm_num) n).2 h

theorem natBytes_eq_nil {n : ℕ} : natBytes n = [] ↔ n = 0 := by
  unfold natBytes
  simp [Nat.digits_eq_nil_iff_eq_zero]

theorem leNat_natBytes_reverse (n : ℕ) : leNat (natBytes n).reverse = n := by
  rw [← beNat_eq_leNat_reverse, beNat_natBytes]

/-- the correct conversion of an element to a scalar -/
theorem scalarLE_reverse (hq : q ≤ 256 ^ 32) (x : ZMod q) :
    scalarLE (pad32 (natBytes x.val).reverse) = some x := by
  have hx : x.val < q := ZMod.val_lt x
  have hl : (natBytes x.val).reverse.length ≤ 32 := by
    rw [List.length_reverse]; exact natBytes_length_le (by omega)
  unfold scalarLE
  rw [if_pos ⟨pad32_length _, by rw [leNat_pad32 hl, leNat_natBytes_reverse]; exact hx⟩,
    leNat_pad32 hl, leNat_natBytes_reverse, ZMod.natCast_zmod_val]

theorem scalarLE_leBytes (hq : q ≤ 256 ^ 32) (x : ZMod q) :
    scalarLE (leBytes 32 x.val) = some x := by
  have hx : x.val < q := ZMod.val_lt x
  unfold scalarLE
  rw [if_pos ⟨leBytes_length _ _, by rw [leNat_leBytes _ _ (by omega)]; exact hx⟩,
    leNat_leBytes _ _ (by omega), ZMod.natCast_zmod_val]

theorem commitCoeffs_eq (hq : q ≤ 256 ^ 32) (g : G) (poly : List (ZMod q)) :
    commitCoeffs g poly = .ok (poly.map (· • g)) := by
  unfold commitCoeffs
  rw [Go.mapM_eq_ok, List.forall₂_map_right_iff, List.forall₂_same]
  intro c _
  rw [scalarLE_reverse hq]
  rfl

theorem thresholdSign_eq (hq : q ≤ 256 ^ 32) (sha512 : List UInt8 → List UInt8)
    (wide : List UInt8 → ZMod q) (x r : ZMod q) (hx : x ≠ 0) (hr : r ≠ 0)
    (pub msg R : List UInt8) :
    thresholdSign sha512 wide (natBytes x.val).reverse pub msg (natBytes r.val).reverse R =
      .ok (pad32 R ++ leBytes 32 (wide (sha512 (R ++ pub ++ msg)) * x + r).val) := by
  have hl : ∀ x : ZMod q, (natBytes x.val).reverse.length ≤ 32 := fun x => by
    rw [List.length_reverse]
    exact natBytes_length_le (by have := ZMod.val_lt x; omega)
  have h0 : ∀ x : ZMod q, x ≠ 0 → (natBytes x.val).reverse.length ≠ 0 := fun x hx h => by
    rw [List.length_reverse, List.length_eq_zero_iff, natBytes_eq_nil, ZMod.val_eq_zero] at h
    exact hx h
  unfold thresholdSign
  rw [if_neg]
  · simp only [scalarLE_reverse hq]
  · have := hl x
    have := hl r
    have := h0 x hx
    have := h0 r hr
    omega

theorem tSign_eq (hq : q ≤ 256 ^ 32) (sha512 : List UInt8 → List UInt8)
    (wide : List UInt8 → ZMod q) (msg : List UInt8) (key nonce : V1.Share q)
    (hx : key.value ≠ 0) (hr : nonce.value ≠ 0) (pub R : List UInt8) :
    tSign sha512 wide msg key pub nonce R =
      .ok ⟨key.id.toUInt8, pad32 R ++ leBytes 32
        (wide (sha512 (R ++ pub ++ msg)) * key.value + nonce.value).val⟩ := by
  unfold tSign
  rw [thresholdSign_eq hq sha512 wide _ _ hx hr]
  simp [pad32_length, leBytes_length]

theorem tSign_eq_ok (hq : q ≤ 256 ^ 32) (sha512 : List UInt8 → List UInt8)
    (wide : List UInt8 → ZMod q) (msg : List UInt8) (key nonce : V1.Share q)
    (pub R : List UInt8) (p : PartialSig) :
    tSign sha512 wide msg key pub nonce R = .ok p ↔ key.value ≠ 0 ∧ nonce.value ≠ 0 ∧
      p = ⟨key.id.toUInt8, pad32 R ++ leBytes 32
        (wide (sha512 (R ++ pub ++ msg)) * key.value + nonce.value).val⟩ := by
  by_cases hx : key.value = 0
  · simp only [hx, ne_eq, not_true, false_and, iff_false]
    unfold tSign thresholdSign
    rw [if_pos (Or.inl (by simp [natBytes, hx]))]
    intro h; cases h
  by_cases hr : nonce.value = 0
  · simp only [hr, ne_eq, not_true, false_and, and_false, iff_false]
    unfold tSign thresholdSign
    rw [if_pos (Or.inr (Or.inr (Or.inl (by simp [natBytes, hr]))))]
    intro h; cases h
  rw [tSign_eq hq sha512 wide msg key nonce hx hr, Except.ok.injEq, eq_comm]
  exact ⟨fun h => ⟨hx, hr, h⟩, fun h => h.2.2⟩

theorem splitKey_eq_ok (hq : q ≤ 256 ^ 32) {g : G} {T N : ℤ} {secret : List UInt8}
    {rnd : ℕ → ZMod q} {r : List (V1.Share q) × List G} :
    splitKey g T N secret rnd = .ok r ↔ ∃ s poly, V1.newShamir T N = .ok s ∧
      V1.getSharesAndPolynomial s secret rnd = .ok (r.1, poly) ∧ r.2 = poly.map (· • g) := by
  unfold splitKey
  rw [Go.bind_eq_ok]
  simp only [Go.bind_eq_ok, commitCoeffs_eq hq, Except.ok.injEq]
  constructor
  · rintro ⟨s, hs, ⟨sh, p⟩, hg, _, rfl, rfl⟩; exact ⟨s, p, hs, hg, rfl⟩
  · rintro ⟨s, p, hs, hg, h⟩; exact ⟨s, hs, _, hg, _, rfl, by rw [← h]⟩

theorem newShamir_eq_ok {T N : ℤ} {s : V1.Shamir} :
    V1.newShamir T N = .ok s ↔ T ≤ N ∧ 2 ≤ T ∧ s = ⟨UInt32.ofInt T, UInt32.ofInt N⟩ := by
  unfold V1.newShamir
  rw [Go.guard_bind_eq_ok, Go.guard_bind_eq_ok, not_lt, not_lt, Except.ok.injEq, eq_comm (b := s)]

theorem evalL_combo (c : ZMod q) (kp np : List (ZMod q)) (h : kp.length = np.length) (x : ZMod q) :
    evalL (List.zipWith (fun a b => c * a + b) kp np) x = c * evalL kp x + evalL np x := by
  induction kp generalizing np with
  | nil => cases np with
    | nil => simp [evalL]
    | cons => cases h
  | cons a kp ih => cases np with
    | nil => cases h
    | cons b np =>
      have := ih np (by simpa using h)
      simp only [evalL, List.zipWith_cons_cons, List.foldr_cons, smul_eq_mul] at this ⊢
      rw [this]; ring

/-- combination of points of a polynomial with at most `t` coefficients -/
theorem combine_evalL (s : V1.Shamir) (hq : s.limit.toNat < q) (h0 : 0 < s.threshold.toNat)
    (poly : List (ZMod q)) (hp : poly.length ≤ s.threshold.toNat) (l : List (V1.Share q))
    (hlen : s.threshold.toNat ≤ l.length)
    (hgood : ∀ sh ∈ l, 1 ≤ sh.id.toNat ∧ sh.id.toNat ≤ s.limit.toNat ∧
      sh.value = evalL poly (sh.id.toNat : ZMod q))
    (hnd : (l.map V1.Share.id).Nodup) :
    V1.combine s (l.map some) = .ok (natBytes (poly.headD 0).val) := by
  set used := l.take s.threshold.toNat with hused
  have hsub : ∀ sh ∈ used, sh ∈ l := fun sh h => List.mem_of_mem_take h
  have hul : used.length = s.threshold.toNat := by simp only [used, List.length_take]; omega
  have hgood' : V1.GoodIds s.limit used :=
    fun sh h => ⟨(hgood sh (hsub sh h)).1, (hgood sh (hsub sh h)).2.1⟩
  have hnd' : (used.map V1.Share.id).Nodup := by
    rw [hused, List.map_take]; exact hnd.sublist (List.take_sublist _ _)
  have hcast := (V1.ids_cast_nodup s.limit hq used hgood').2 hnd'
  unfold V1.combine
  rw [Go.guard_true (by simpa using hlen)]
  simp only [Go.ok_bind]
  rw [← List.map_take, ← hused]
  rcases V1.collect_some s.limit hq used with ⟨_, g2⟩ | ⟨g1, _⟩
  · rw [g2]
    simp only [Go.ok_bind]
    rw [V1.interpolate_nodup _ _ (by simpa using hul) h0 (by rw [List.map_map]; exact hcast)]
    have e : (used.map fun sh => ((sh.id.toNat : ZMod q), sh.value)) =
        (used.map fun sh => ((sh.id.toNat : ℕ) : ZMod q)).map fun x => (x, evalL poly x) := by
      rw [List.map_map]
      refine List.map_congr_left fun sh hsh => ?_
      simp only [Function.comp]
      rw [(hgood sh (hsub sh hsh)).2.2]
    have hint := Sharing.interpolate_evalL _ hcast poly (by
      rw [List.length_map]; omega)
    rw [← e, Sharing.interpolate_eq _ (by rw [List.map_map]; exact hcast)] at hint
    rw [Except.ok.injEq] at hint
    rw [hint]
    simp only [Go.ok_bind]
  · exact absurd hgood' g1

end Verif.Ted
