import Verif.Bls377.GtModel
import Verif.Bls377.ScalarProps
import Mathlib.RingTheory.AdjoinRoot

/-!
# C209: the target-group scalars of BLS12-377
-/

namespace Verif.Bls377.Gt

variable {T : Type} [CommRing T] (R : Rep T)

theorem p_lt : p < 256 ^ 48 := by decide +kernel

/-- the `i`-th block of the concatenation of blocks of 48 bytes -/
theorem block_flatten : ∀ (l : List (List UInt8)) (_ : ∀ x ∈ l, x.length = 48) (i : ℕ) (hi : i < l.length),
    (l.flatten.drop (48 * i)).take 48 = l[i]
  | [], _, _, hi => absurd hi (by simp)
  | a :: l, h, 0, _ => by
    have ha := h a (by simp)
    rw [List.flatten_cons, Nat.mul_zero, List.drop_zero, List.take_append_of_le_length (by omega), List.take_of_length_le (by omega)]
    rfl
  | a :: l, h, i + 1, hi => by
    have ha := h a (by simp)
    have e : 48 * (i + 1) = a.length + 48 * i := by omega
    rw [List.flatten_cons, e, List.drop_append, List.drop_of_length_le (by omega), List.nil_append, Nat.add_sub_cancel_left]
    exact block_flatten l (fun x hx => h x (by simp [hx])) i (by simpa using hi)

theorem flatten_len : ∀ (l : List (List UInt8)) (_ : ∀ x ∈ l, x.length = 48), l.flatten.length = 48 * l.length
  | [], _ => rfl
  | a :: l, h => by
    rw [List.flatten_cons, List.length_append, flatten_len l fun x hx => h x (by simp [hx]), h a (by simp), List.length_cons]
    omega

theorem setBytes_blocks (l : List (List UInt8)) (h : ∀ x ∈ l, x.length = 48) (hl : l.length = 12) :
    setBytes R l.flatten = .ok (R.coords.symm fun i => ((beNat (l[i.1]'(by omega)) : ℕ) : ZMod p)) := by
  unfold setBytes
  rw [Go.guard_true (by rw [flatten_len l h, hl]), Go.ok_bind]
  congr 2
  funext i
  rw [block_flatten l h i.1 (by omega)]

theorem blocks_mem (s : T) : ∀ x ∈ List.ofFn (fun i => beBytes 48 (R.coords s i).val), x.length = 48 := by
  intro x hx
  obtain ⟨i, rfl⟩ := List.mem_ofFn.1 hx
  exact beBytes_length _ _

/-- C209: an element has 576 bytes, which are read back, and no element has the bytes of another; exactly the strings of 576 bytes are
accepted; each coordinate is reduced, so the bytes are not unique -/
theorem C209_codec (s : T) :
    (bytes R s).length = 576 ∧ setBytes R (bytes R s) = .ok s ∧ (∀ b, b.length ≠ 576 → setBytes R b = Go.err) ∧
    (∀ b, b.length = 576 → ∃ t, setBytes R b = .ok t ∧ ∀ i : Fin 12, R.coords t i = ((beNat ((b.drop (48 * i)).take 48) : ℕ) : ZMod p)) ∧
    ∃ b, b ≠ bytes R s ∧ setBytes R b = .ok s := by
  have hm := blocks_mem R s
  refine ⟨?_, ?_, fun b hb => ?_, fun b hb => ?_, ?_⟩
  · unfold bytes
    rw [flatten_len _ hm, List.length_ofFn]
  · unfold bytes
    rw [setBytes_blocks R _ hm (by rw [List.length_ofFn])]
    congr 1
    rw [AddEquiv.symm_apply_eq]
    funext i
    rw [List.getElem_ofFn, beNat_beBytes _ _ (lt_trans (ZMod.val_lt _) p_lt), ZMod.natCast_zmod_val]
  · unfold setBytes
    rw [Go.guard_false hb]; rfl
  · refine ⟨_, by unfold setBytes; rw [Go.guard_true hb, Go.ok_bind], fun i => ?_⟩
    rw [AddEquiv.apply_symm_apply]
  · have hp : ∀ i, (R.coords s i).val + p < 256 ^ 48 := fun i =>
      lt_of_lt_of_le (Nat.add_lt_add_right (ZMod.val_lt _) p) (by decide +kernel)
    have hm' : ∀ x ∈ List.ofFn (fun i => beBytes 48 ((R.coords s i).val + p)), x.length = 48 := by
      intro x hx
      obtain ⟨i, rfl⟩ := List.mem_ofFn.1 hx
      exact beBytes_length _ _
    refine ⟨(List.ofFn fun i => beBytes 48 ((R.coords s i).val + p)).flatten, fun h => ?_, ?_⟩
    · have h0 := congrArg (fun b : List UInt8 => (b.drop (48 * 0)).take 48) h
      unfold bytes at h0
      beta_reduce at h0
      rw [block_flatten _ hm' 0 (by simp), block_flatten _ hm 0 (by simp), List.getElem_ofFn, List.getElem_ofFn] at h0
      have := congrArg beNat h0
      rw [beNat_beBytes _ _ (hp _), beNat_beBytes _ _ (lt_trans (ZMod.val_lt _) p_lt)] at this
      have : p = 0 := by omega
      exact absurd this (by decide +kernel)
    · rw [setBytes_blocks R _ hm' (by rw [List.length_ofFn])]
      congr 1
      rw [AddEquiv.symm_apply_eq]
      funext i
      rw [List.getElem_ofFn, beNat_beBytes _ _ (hp _), Nat.cast_add, ZMod.natCast_zmod_val, ZMod.natCast_self, add_zero]

/-- C209: the operations are those of the field (in contrast to the target group of BLS12-381, whose `Add` multiplies); `Invert` and `Div` by
zero give zero without an error, and `Sqrt` nil without an error -/
theorem C209_field {T : Type} [Field T] [DecidableEq T] (s t u : T) :
    add s (.own t) = some (s + t) ∧ sub s (.own t) = some (s - t) ∧ mul s (.own t) = some (s * t) ∧ neg s = -s ∧ square s = s ^ 2 ∧
    cube s = s ^ 3 ∧ double s = 2 * s ∧ mulAdd s (.own t) (.own u) = .ok (some (s * t + u)) ∧ div s (.own t) = some (s / t) ∧ invert t = .ok t⁻¹ ∧
    invert (0 : T) = .ok 0 ∧ div s (.own 0) = some 0 ∧ sqrt s = .ok none ∧ (isOne s = true ↔ s = 1) ∧ (cmp s (.own t) = 0 ↔ s = t) ∧
    cmp s .other = -2 ∧ add s .other = none ∧ sub s .other = none ∧ mul s .other = none ∧ div s .other = none ∧
    ∀ z, mulAdd s .other z = Go.crash := by
  refine ⟨rfl, rfl, rfl, ?_, ?_, ?_, ?_, rfl, ?_, rfl, ?_, ?_, rfl, decide_eq_true_iff, ?_, rfl, rfl, rfl, rfl, rfl, fun _ => rfl⟩
  · rw [neg, sub_self, zero_sub]
  · rw [square, sq]
  · rw [cube, square]; ring
  · rw [double, two_mul]
  · rw [div, div_eq_mul_inv, mul_comm]
  · rw [invert, inv_zero]
  · rw [div, inv_zero, zero_mul]
  · rw [cmp]
    split
    · simpa
    · simpa

theorem or_zero : ∀ (l : List UInt8) (a : UInt8), l.foldl (fun r i => r ||| i) a = 0 ↔ a = 0 ∧ ∀ x ∈ l, x = 0
  | [], a => by simp
  | b :: l, a => by
    rw [List.foldl_cons, or_zero l, UInt8.or_eq_zero_iff]
    simp [and_assoc]

theorem zero_eq : zero R = some 0 := by
  unfold zero setBytes
  rw [Go.guard_true (by rw [List.length_replicate]), Go.ok_bind]
  dsimp only
  congr 1
  rw [AddEquiv.symm_apply_eq, map_zero]
  funext i
  rw [List.drop_replicate, List.take_replicate]
  have : ∀ k, beNat (List.replicate k (0 : UInt8)) = 0 := by
    intro k
    induction k with
    | zero => rfl
    | succ k ih => rw [List.replicate_succ]; exact ih
  rw [this, Nat.cast_zero]; rfl

/-- C209: `Zero` is zero, and `IsZero` recognises exactly it -/
theorem C209_zero (s : T) : zero R = some 0 ∧ (isZero R s = true ↔ s = 0) := by
  refine ⟨zero_eq R, ?_⟩
  unfold isZero
  rw [decide_eq_true_iff, or_zero]
  constructor
  · rintro ⟨-, h⟩
    have hb : bytes R s = List.replicate 576 0 := List.eq_replicate_iff.2 ⟨(C209_codec R s).1, h⟩
    have hz := zero_eq R
    unfold zero at hz
    rw [← hb, (C209_codec R s).2.1] at hz
    exact Option.some.inj hz
  · rintro rfl
    refine ⟨rfl, fun x hx => ?_⟩
    unfold bytes at hx
    obtain ⟨b, hb, hx⟩ := List.mem_flatten.1 hx
    obtain ⟨i, rfl⟩ := List.mem_ofFn.1 hb
    rw [map_zero, Pi.zero_apply, ZMod.val_zero] at hx
    have : beBytes 48 0 = List.replicate 48 0 := by decide +kernel
    rw [this] at hx
    exact List.eq_of_mem_replicate hx

theorem beNat_last (l : List UInt8) : beNat l % 256 = (l.getLastD 0).toNat := by
  rcases List.eq_nil_or_concat l with rfl | ⟨r, a, rfl⟩
  · rfl
  · rw [List.concat_eq_append, List.getLastD_concat]
    unfold beNat
    rw [List.foldl_append, List.foldl_cons, List.foldl_nil]
    have := a.toNat_lt
    omega

/-- C209: the parity of an element is that of its number -/
theorem C209_parity (s : T) : isOdd R s = decide (bigInt R s % 2 = 1) ∧ isEven R s = decide (bigInt R s % 2 = 0) := by
  have h := beNat_last (bytes R s)
  have ha : ∀ a : UInt8, (a &&& 1 = 1 ↔ a.toNat % 2 = 1) ∧ (a &&& 1 = 0 ↔ a.toNat % 2 = 0) := by
    intro a
    rw [← UInt8.toNat_inj, ← UInt8.toNat_inj, UInt8.toNat_and]
    show (a.toNat &&& 1 = 1 ↔ _) ∧ (a.toNat &&& 1 = 0 ↔ _)
    rw [Nat.and_one_is_mod]
    exact ⟨Iff.rfl, Iff.rfl⟩
  obtain ⟨h1, h2⟩ := ha ((bytes R s).getLastD 0)
  unfold isOdd isEven bigInt
  rw [decide_eq_decide, decide_eq_decide, h1, h2, ← h]
  omega

/-- C209: `New` writes the four bytes of its argument at the front of the encoding, in reverse order.  So `New(0)` is zero but `New(1)` is not
one, and in fact no argument gives one. -/
theorem C209_new (n : ℤ) :
    ∃ t, new R n = some t ∧ t ≠ 1 ∧
      (∀ i : Fin 12, R.coords t i = if i = 0 then
        ((((((n % 256) * 256 + (n / 2 ^ 8) % 256) * 256 + (n / 2 ^ 16) % 256) * 256 + (n / 2 ^ 24) % 256) * 256 ^ 44 : ℤ) : ZMod p) else 0) := by
  have hlen : ([byteAt n 0, byteAt n 8, byteAt n 16, byteAt n 24] ++ List.replicate 572 (0 : UInt8)).length = 576 := by
    rw [List.length_append, List.length_replicate]; rfl
  obtain ⟨t, h1, h2⟩ := (C209_codec R 0).2.2.2.1 _ hlen
  have hb : ∀ k, ((byteAt n k).toNat : ℤ) = (n / 2 ^ k) % 256 := by
    intro k
    have h0 := Int.emod_nonneg (n / 2 ^ k) (by norm_num : (256 : ℤ) ≠ 0)
    have h1 := Int.emod_lt_of_pos (n / 2 ^ k) (by norm_num : (0 : ℤ) < 256)
    unfold byteAt
    rw [UInt8.toNat_ofNat', Nat.mod_eq_of_lt (by omega), Int.toNat_of_nonneg h0]
  have hc : ∀ i : Fin 12, R.coords t i = if i = 0 then
        ((((((n % 256) * 256 + (n / 2 ^ 8) % 256) * 256 + (n / 2 ^ 16) % 256) * 256 + (n / 2 ^ 24) % 256) * 256 ^ 44 : ℤ) : ZMod p) else 0 := by
    intro i
    rw [h2 i]
    by_cases hi : i = 0
    · subst hi
      rw [if_pos rfl]
      have e : (([byteAt n 0, byteAt n 8, byteAt n 16, byteAt n 24] ++ List.replicate 572 (0 : UInt8)).drop (48 * ((0 : Fin 12) : ℕ))).take 48 =
          [byteAt n 0, byteAt n 8, byteAt n 16, byteAt n 24] ++ List.replicate 44 0 := by
        rw [show 48 * ((0 : Fin 12) : ℕ) = 0 from rfl, List.drop_zero, List.take_append, List.take_replicate]
        rfl
      rw [e, ← hb 8, ← hb 16, ← hb 24]
      have h0 := hb 0
      rw [pow_zero, Int.ediv_one] at h0
      rw [← h0]
      generalize byteAt n 0 = a
      generalize byteAt n 8 = b
      generalize byteAt n 16 = c
      generalize byteAt n 24 = d
      have : ∀ a b c d : UInt8, beNat ([a, b, c, d] ++ List.replicate 44 0) =
          (((a.toNat * 256 + b.toNat) * 256 + c.toNat) * 256 + d.toNat) * 256 ^ 44 := by
        intro a b c d
        have h : beNat [a, b, c, d] = ((a.toNat * 256 + b.toNat) * 256 + c.toNat) * 256 + d.toNat := by
          simp [beNat]
        rw [← h]
        have : ∀ (k : ℕ) (l : List UInt8), beNat (l ++ List.replicate k 0) = beNat l * 256 ^ k := by
          intro k
          induction k with
          | zero => intro l; simp
          | succ k ih =>
            intro l
            rw [List.replicate_succ', ← List.append_assoc]
            unfold beNat at ih ⊢
            rw [List.foldl_append, ih, pow_succ]
            simp [mul_assoc]
        exact this 44 _
      rw [this]
      push_cast
      rfl
    · rw [if_neg hi]
      have : (([byteAt n 0, byteAt n 8, byteAt n 16, byteAt n 24] ++ List.replicate 572 (0 : UInt8)).drop (48 * (i : ℕ))).take 48 =
          List.replicate 48 0 := by
        have : i.1 ≠ 0 := fun h => hi (Fin.ext h)
        have hi' := i.2
        rw [List.drop_append, List.drop_of_length_le (by simp only [List.length_cons, List.length_nil]; omega), List.nil_append, List.drop_replicate,
          List.take_replicate]
        have hn : min 48 (572 - (48 * i.1 - [byteAt n 0, byteAt n 8, byteAt n 16, byteAt n 24].length)) = 48 := by
          simp only [List.length_cons, List.length_nil]
          omega
        rw [hn]
      rw [this]
      have : beNat (List.replicate 48 (0 : UInt8)) = 0 := by decide +kernel
      rw [this, Nat.cast_zero]
  refine ⟨t, by unfold new; rw [h1], ?_, hc⟩
  rintro rfl
  have h11 := hc 11
  rw [R.one, Pi.single_eq_same, if_neg (by decide)] at h11
  have : (1 : ZMod p) ≠ 0 := by
    intro h
    have := congrArg ZMod.val h
    rw [ZMod.val_one'' (by decide +kernel), ZMod.val_zero] at this
    exact one_ne_zero this
  exact this h11

/-- C209: `SetBigInt` takes the absolute value, panics when it does not fit in 576 bytes, and inverts `BigInt` -/
theorem C209_bigInt (s : T) (v : ℤ) :
    setBigInt R (bigInt R s) = .ok s ∧ setBigInt R (-v) = setBigInt R v ∧ (256 ^ 576 ≤ v.natAbs → setBigInt R v = Go.crash) := by
  refine ⟨?_, ?_, fun h => ?_⟩
  · unfold setBigInt fillBytes bigInt
    obtain ⟨h1, h2, -⟩ := C209_codec R s
    have hlt := beNat_lt (bytes R s)
    have hb := beBytes_beNat (bytes R s)
    rw [h1] at hlt hb
    rw [Int.natAbs_natCast, if_pos hlt, Go.ok_bind, hb, h2]
  · unfold setBigInt fillBytes
    rw [Int.natAbs_neg]
  · unfold setBigInt fillBytes
    rw [if_neg (by omega)]; rfl

/-- C209: `SetBytesWide` of two encodings is the sum of the elements, so it is not a reduction of a wide number; other lengths fail -/
theorem C209_wide (s t : T) : setBytesWide R (bytes R s ++ bytes R t) = .ok (s + t) ∧ ∀ b, b.length ≠ 1152 → setBytesWide R b = Go.err := by
  obtain ⟨h1, h2, -⟩ := C209_codec R s
  obtain ⟨h3, h4, -⟩ := C209_codec R t
  refine ⟨?_, fun b hb => ?_⟩
  · unfold setBytesWide
    rw [Go.guard_true (by rw [List.length_append, h1, h3]), Go.ok_bind, List.take_append_of_le_length (by omega),
      List.take_of_length_le (by omega), h2, Go.ok_bind, List.drop_append, List.drop_of_length_le (by omega), h1, Nat.sub_self, List.drop_zero,
      List.nil_append, h4, Go.ok_bind]
  · unfold setBytesWide
    rw [Go.guard_false hb]; rfl

/-- C209: `Random` (and `Hash`, which is `Random` on the stream of SHAKE-256) takes its coordinates below the order of the groups, not below
the prime of the field: an element with a larger coordinate is never drawn -/
theorem C209_random (vs : List ℕ) (hl : vs.length = 12) (hv : ∀ v ∈ vs, v < q) :
    (∃ t : T, random R (vs.map some) = some t ∧ ∀ i : Fin 12, (R.coords t i).val = vs[i.1]'(by omega) ∧ (R.coords t i).val < q) ∧ q < p ∧
    ∀ (l : List ℕ) (r : List (Option ℕ)), l.length < 12 → random R (l.map some ++ none :: r) = none := by
  have hq : q < p := by decide +kernel
  have hmap : ∀ vs : List ℕ, (vs.map some).mapM id = some vs := by
    intro vs
    induction vs with
    | nil => rfl
    | cons a r ih => rw [List.map_cons, List.mapM_cons, ih]; rfl
  refine ⟨?_, hq, fun l r hl => ?_⟩
  · have hm : ∀ x ∈ vs.map (fun v => beBytes 48 v), x.length = 48 := by
      intro x hx
      obtain ⟨v, -, rfl⟩ := List.mem_map.1 hx
      exact beBytes_length _ _
    refine ⟨R.coords.symm fun i => ((beNat ((vs.map fun v => beBytes 48 v)[i.1]'(by rw [List.length_map]; omega)) : ℕ) : ZMod p), ?_, ?_⟩
    · unfold random
      rw [List.take_of_length_le (by rw [List.length_map, hl]), hmap]
      dsimp only
      rw [setBytes_blocks R _ hm (by rw [List.length_map, hl])]
    · intro i
      have hi : i.1 < vs.length := by omega
      have hlt := hv vs[i.1] (List.getElem_mem hi)
      have hval : (((vs[i.1] : ℕ) : ZMod p)).val = vs[i.1] := ZMod.val_natCast_of_lt (lt_trans hlt hq)
      rw [AddEquiv.apply_symm_apply]
      rw [List.getElem_map, beNat_beBytes _ _ (lt_trans (lt_trans hlt hq) p_lt), hval]
      exact ⟨rfl, hlt⟩
  · unfold random
    rw [List.take_append, List.take_of_length_le (by rw [List.length_map]; omega)]
    obtain ⟨k, hk⟩ : ∃ k, 12 - (l.map some).length = k + 1 := ⟨11 - l.length, by rw [List.length_map]; omega⟩
    rw [hk, List.take_succ_cons]
    have : ∀ (l : List ℕ) (r : List (Option ℕ)), (l.map some ++ none :: r).mapM id = none := by
      intro l r
      induction l with
      | nil => rfl
      | cons a l ih => rw [List.map_cons, List.cons_append, List.mapM_cons, ih]; rfl
    rw [this]

/-! ### Examples: the residues of polynomials modulo `X ^ 12 - 5` -/

open Polynomial

noncomputable section

/-- the polynomial -/
def poly : (ZMod p)[X] := X ^ 12 - C 5

instance : Nontrivial (ZMod p) := ZMod.nontrivial_iff.2 (by decide +kernel)

theorem poly_monic : poly.Monic := monic_X_pow_sub_C 5 (by norm_num)

theorem poly_degree : poly.natDegree = 12 := natDegree_X_pow_sub_C

theorem poly_dim : (AdjoinRoot.powerBasis' poly_monic).dim = 12 := poly_degree

/-- the powers of the root, the constant last -/
def toyBasis : Module.Basis (Fin 12) (ZMod p) (AdjoinRoot poly) :=
  (AdjoinRoot.powerBasis' poly_monic).basis.reindex ((finCongr poly_dim).trans Fin.revPerm)

theorem toyBasis_last : toyBasis 11 = 1 := by
  unfold toyBasis
  rw [Module.Basis.reindex_apply, PowerBasis.basis_eq_pow]
  exact pow_zero _

/-- coordinates -/
def toyRep : Rep (AdjoinRoot poly) where
  coords := toyBasis.equivFun.toAddEquiv
  one := by
    show toyBasis.equivFun 1 = _
    rw [← toyBasis_last]
    funext j
    rw [Module.Basis.equivFun_self, Pi.single_apply]
    simp only [eq_comm]

/-- `New(1)` is not one -/
example : ∃ t, new toyRep 1 = some t ∧ t ≠ 1 ∧ toyRep.coords t 0 = ((256 ^ 47 : ℤ) : ZMod p) := by
  obtain ⟨t, h1, h2, h3⟩ := C209_new toyRep 1
  refine ⟨t, h1, h2, (h3 0).trans ?_⟩
  rw [if_pos rfl]
  congr 1

example : setBytes toyRep (bytes toyRep (AdjoinRoot.root poly)) = .ok (AdjoinRoot.root poly) := (C209_codec toyRep _).2.1

/-- the inverse of zero, without an error -/
example : invert (0 : ℚ) = .ok 0 := (C209_field (0 : ℚ) 0 0).2.2.2.2.2.2.2.2.2.2.1

end

end Verif.Bls377.Gt
