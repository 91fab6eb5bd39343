import Verif.Bulletproof.Model
import Verif.Bulletproof.Lemmas
import Verif.Common.Toy

/-!
# C115: serialization of proofs
-/

set_option linter.unusedSectionVars false

namespace Verif.Bulletproof

section
variable {F : Type} [Field F] [DecidableEq F]
variable {G : Type} [AddCommGroup G] [Module F G] [DecidableEq G]

/-- encodings have the lengths the decoder slices by, and decode to what was encoded -/
structure Sized (cd : ScalarCodec F) (pc : PointCodec G) : Prop where
  scalar : ∀ x, (cd.enc x).length = pc.scalarLen
  point : ∀ p, (pc.enc p).length = pc.pointLen
  dec_enc : ∀ p, pc.dec (pc.enc p) = some p
  pos : 0 < pc.pointLen

/-- only canonical point encodings decode -/
def Canonical (pc : PointCodec G) : Prop := ∀ b p, pc.dec b = some p → pc.enc p = b

variable {cd : ScalarCodec F} {pc : PointCodec G}

theorem readScalar_enc (h : Sized cd pc) (x : F) (rest : Bytes) :
    readScalar cd pc (cd.enc x ++ rest) = .ok (x, rest) := by
  have h1 := h.scalar x
  simp only [readScalar, slice]
  rw [if_neg (by rw [List.length_append]; omega), Go.ok_bind, ← h1, List.take_left, List.drop_left, cd.dec_enc]
  rfl

theorem readPoint_enc (h : Sized cd pc) (p : G) (rest : Bytes) :
    readPoint pc (pc.enc p ++ rest) = .ok (p, rest) := by
  have h1 := h.point p
  simp only [readPoint, slice]
  rw [if_neg (by rw [List.length_append]; omega), Go.ok_bind, ← h1, List.take_left, List.drop_left, h.dec_enc]
  rfl

theorem readScalar_ok {data rest : Bytes} {x : F} (h : readScalar cd pc data = .ok (x, rest)) :
    data = cd.enc x ++ rest := by
  simp only [readScalar, slice] at h
  split at h
  · simp at h
  · rw [Go.ok_bind] at h
    obtain ⟨y, hy, h⟩ := Go.bind_eq_ok.1 h
    obtain ⟨rfl, rfl⟩ := Prod.mk.inj (Except.ok.inj h)
    rw [cd.enc_dec _ _ (Go.ofOption_eq_ok.1 hy)]
    exact (List.take_append_drop _ _).symm

theorem readPoint_ok (hc : Canonical pc) {data rest : Bytes} {x : G} (h : readPoint pc data = .ok (x, rest)) :
    data = pc.enc x ++ rest := by
  simp only [readPoint, slice] at h
  split at h
  · simp at h
  · rw [Go.ok_bind] at h
    obtain ⟨y, hy, h⟩ := Go.bind_eq_ok.1 h
    obtain ⟨rfl, rfl⟩ := Prod.mk.inj (Except.ok.inj h)
    rw [hc _ _ (Go.ofOption_eq_ok.1 hy)]
    exact (List.take_append_drop _ _).symm

/-- the encoding of the two lists of points -/
def pairs (pc : PointCodec G) (ls rs : List G) : Bytes :=
  (List.zipWith (fun l r => pc.enc l ++ pc.enc r) ls rs).flatten

theorem readPairs_pairs (h : Sized cd pc) : ∀ (ls rs : List G) (fuel : ℕ), ls.length = rs.length →
    (pairs pc ls rs).length < fuel → readPairs pc fuel (pairs pc ls rs) = .ok (ls, rs)
  | [], [], fuel, _, hf => by
    obtain ⟨fuel, rfl⟩ := Nat.exists_eq_succ_of_ne_zero (by omega : fuel ≠ 0)
    simp [readPairs, pairs]
  | l :: ls, r :: rs, fuel, hl, hf => by
    obtain ⟨fuel, rfl⟩ := Nat.exists_eq_succ_of_ne_zero (by omega : fuel ≠ 0)
    have e : pairs pc (l :: ls) (r :: rs) = pc.enc l ++ (pc.enc r ++ pairs pc ls rs) := by simp [pairs]
    have h0 := h.pos
    have hlen : (pairs pc (l :: ls) (r :: rs)).length =
        pc.pointLen + (pc.pointLen + (pairs pc ls rs).length) := by
      rw [e, List.length_append, List.length_append, h.point, h.point]
    rw [hlen] at hf
    simp only [readPairs]
    rw [if_neg (by omega), e, readPoint_enc h, Go.ok_bind, readPoint_enc h, Go.ok_bind,
      readPairs_pairs h ls rs fuel (by simpa using hl) (by omega), Go.ok_bind]

theorem readPairs_ok (hc : Canonical pc) : ∀ (fuel : ℕ) (data : Bytes) (ls rs : List G),
    readPairs pc fuel data = .ok (ls, rs) → ls.length = rs.length ∧ data = pairs pc ls rs := by
  intro fuel
  induction fuel with
  | zero => intro data ls rs h; simp [readPairs] at h
  | succ fuel ih =>
    intro data ls rs h
    simp only [readPairs] at h
    split at h
    · next h0 =>
      obtain ⟨rfl, rfl⟩ := Prod.mk.inj (Except.ok.inj h)
      exact ⟨rfl, by rw [List.length_eq_zero_iff.1 h0]; rfl⟩
    · obtain ⟨⟨l, d1⟩, h1, h⟩ := Go.bind_eq_ok.1 h
      obtain ⟨⟨r, d2⟩, h2, h⟩ := Go.bind_eq_ok.1 h
      obtain ⟨⟨ls', rs'⟩, h3, h⟩ := Go.bind_eq_ok.1 h
      obtain ⟨rfl, rfl⟩ := Prod.mk.inj (Except.ok.inj h)
      obtain ⟨e1, e2⟩ := ih _ _ _ h3
      refine ⟨by simpa using e1, ?_⟩
      simp only at h1 h2 e2 ⊢
      rw [readPoint_ok hc h1, readPoint_ok hc h2, e2]
      simp [pairs]

/-- **C115** (inner-product proofs): decoding the encoding gives the proof back. -/
theorem C115_ipp_roundtrip (h : Sized cd pc) (p : IPP F G) (hl : p.capLs.length = p.capRs.length) :
    ∃ b, p.marshal cd pc = .ok b ∧ IPP.unmarshal cd pc b = .ok p := by
  refine ⟨_, if_neg (by omega), ?_⟩
  simp only [IPP.unmarshal]
  rw [List.append_assoc, readScalar_enc h, Go.ok_bind, readScalar_enc h, Go.ok_bind]
  have e := readPairs_pairs h p.capLs p.capRs
    ((cd.enc p.a ++ (cd.enc p.b ++ pairs pc p.capLs p.capRs)).length + 1) hl (by simp; omega)
  simp only [pairs] at e ⊢
  rw [e, Go.ok_bind]

/-- **C115** (inner-product proofs): the decoder accepts nothing but encodings of what it returns. -/
theorem C115_ipp_canonical (hc : Canonical pc) (b : Bytes) (p : IPP F G) (h : IPP.unmarshal cd pc b = .ok p) :
    p.capLs.length = p.capRs.length ∧ p.marshal cd pc = .ok b := by
  simp only [IPP.unmarshal] at h
  obtain ⟨⟨a, d1⟩, h1, h⟩ := Go.bind_eq_ok.1 h
  obtain ⟨⟨b', d2⟩, h2, h⟩ := Go.bind_eq_ok.1 h
  obtain ⟨⟨ls, rs⟩, h3, h⟩ := Go.bind_eq_ok.1 h
  obtain rfl := Except.ok.inj h
  obtain ⟨e1, e2⟩ := readPairs_ok hc _ _ _ _ h3
  refine ⟨e1, ?_⟩
  simp only at h1 h2 h3 e1 e2 ⊢
  simp only [IPP.marshal]
  rw [if_neg (by omega), readScalar_ok h1, readScalar_ok h2, e2, List.append_assoc]
  rfl

/-- **C115** (range proofs): decoding the encoding gives the proof back. -/
theorem C115_range_roundtrip (h : Sized cd pc) (p : RangeProof F G)
    (hl : p.ipp.capLs.length = p.ipp.capRs.length) :
    ∃ b, p.marshal cd pc = .ok b ∧ RangeProof.unmarshal cd pc b = .ok p := by
  obtain ⟨b, h1, h2⟩ := C115_ipp_roundtrip h p.ipp hl
  refine ⟨_, by rw [RangeProof.marshal, h1, Go.ok_bind], ?_⟩
  simp only [List.append_assoc, RangeProof.unmarshal, readPoint_enc h, readScalar_enc h, Go.ok_bind, h2]

/-- **C115** (range proofs): the decoder accepts nothing but encodings of what it returns. -/
theorem C115_range_canonical (hc : Canonical pc) (b : Bytes) (p : RangeProof F G)
    (h : RangeProof.unmarshal cd pc b = .ok p) :
    p.ipp.capLs.length = p.ipp.capRs.length ∧ p.marshal cd pc = .ok b := by
  simp only [RangeProof.unmarshal] at h
  obtain ⟨⟨a1, d1⟩, h1, h⟩ := Go.bind_eq_ok.1 h
  obtain ⟨⟨a2, d2⟩, h2, h⟩ := Go.bind_eq_ok.1 h
  obtain ⟨⟨a3, d3⟩, h3, h⟩ := Go.bind_eq_ok.1 h
  obtain ⟨⟨a4, d4⟩, h4, h⟩ := Go.bind_eq_ok.1 h
  obtain ⟨⟨a5, d5⟩, h5, h⟩ := Go.bind_eq_ok.1 h
  obtain ⟨⟨a6, d6⟩, h6, h⟩ := Go.bind_eq_ok.1 h
  obtain ⟨⟨a7, d7⟩, h7, h⟩ := Go.bind_eq_ok.1 h
  obtain ⟨ip, h8, h⟩ := Go.bind_eq_ok.1 h
  obtain rfl := Except.ok.inj h
  obtain ⟨e1, e2⟩ := C115_ipp_canonical hc _ _ h8
  refine ⟨e1, ?_⟩
  simp only at h1 h2 h3 h4 h5 h6 h7 e2 ⊢
  simp only [RangeProof.marshal]
  rw [e2, Go.ok_bind, readPoint_ok hc h1, readPoint_ok hc h2, readPoint_ok hc h3, readPoint_ok hc h4,
    readScalar_ok h5, readScalar_ok h6, readScalar_ok h7]
  simp only [List.append_assoc]

/-- **C115** (short input): input that ends within the first or the second scalar is not refused with an error:
the decoder panics. -/
theorem C115_ipp_short_panics (h : Sized cd pc) (x : F) (b : Bytes) (hb : b.length < pc.scalarLen) :
    IPP.unmarshal (G := G) cd pc b = Go.crash ∧ IPP.unmarshal (G := G) cd pc (cd.enc x ++ b) = Go.crash := by
  have hs : readScalar cd pc b = Go.crash := by simp [readScalar, slice, hb]
  constructor
  · simp [IPP.unmarshal, hs]
  · simp only [IPP.unmarshal]
    rw [readScalar_enc h, Go.ok_bind, hs]
    rfl

/-- **C115** (trailing bytes): a proof followed by fewer bytes than a point has, but at least one, makes the
decoder panic. -/
theorem C115_ipp_trailing_panics (h : Sized cd pc) (p : IPP F G) (hl : p.capLs.length = p.capRs.length) (b x : Bytes)
    (hb : p.marshal cd pc = .ok b) (hx0 : x ≠ []) (hx : x.length < pc.pointLen) :
    IPP.unmarshal (G := G) cd pc (b ++ x) = Go.crash := by
  simp only [IPP.marshal] at hb
  rw [if_neg (by omega)] at hb
  obtain rfl := Except.ok.inj hb
  simp only [IPP.unmarshal, List.append_assoc]
  rw [readScalar_enc h, Go.ok_bind, readScalar_enc h, Go.ok_bind]
  have key : ∀ (ls rs : List G) (fuel : ℕ), ls.length = rs.length → readPairs pc fuel (pairs pc ls rs ++ x) = Go.crash := by
    intro ls
    induction ls with
    | nil =>
      intro rs fuel hr
      cases fuel with
      | zero => rfl
      | succ fuel =>
        have : (pairs pc [] rs ++ x).length ≠ 0 := by
          have := List.length_pos_iff.2 hx0
          rw [List.length_append]; omega
        simp only [readPairs]
        rw [if_neg this]
        simp [pairs, readPoint, slice, hx]
    | cons l ls ih =>
      intro rs fuel hr
      cases rs with
      | nil => simp at hr
      | cons r rs =>
        cases fuel with
        | zero => rfl
        | succ fuel =>
          have e : pairs pc (l :: ls) (r :: rs) ++ x = pc.enc l ++ (pc.enc r ++ (pairs pc ls rs ++ x)) := by
            simp [pairs]
          have h0 := h.pos
          simp only [readPairs]
          rw [e, if_neg (by rw [List.length_append, h.point]; omega), readPoint_enc h, Go.ok_bind, readPoint_enc h,
            Go.ok_bind, ih rs fuel (by simpa using hr)]
          rfl
  have e := key p.capLs p.capRs
    ((cd.enc p.a ++ (cd.enc p.b ++ (pairs pc p.capLs p.capRs ++ x))).length + 1) hl
  simp only [pairs] at e
  rw [e]
  rfl

/-- **C115** (unequal lists): surplus `R` points are dropped by the encoder, missing ones make it panic. -/
theorem C115_ipp_unequal (p : IPP F G) :
    (p.capRs.length < p.capLs.length → p.marshal cd pc = Go.crash) ∧
    (p.capLs.length < p.capRs.length →
      p.marshal cd pc = IPP.marshal cd pc ⟨p.a, p.b, p.capLs, p.capRs.take p.capLs.length⟩) := by
  constructor
  · intro h
    simp [IPP.marshal, h]
  · intro h
    simp only [IPP.marshal]
    rw [if_neg (by omega), if_neg (by rw [List.length_take]; omega),
      List.zipWith_eq_zipWith_take_min, List.zipWith_eq_zipWith_take_min (l₂ := List.take _ _)]
    simp only [Nat.min_eq_left h.le, List.length_take, Nat.min_self, List.take_take, List.take_length]

end

/-! ### Examples -/

/-- toy points are encoded like toy scalars -/
def toyPC : PointCodec Toy.K := ⟨Toy.codec.enc, Toy.codec.dec, 2, 2⟩

theorem toyPC_sized : Sized Toy.codec toyPC :=
  ⟨by decide +kernel, by decide +kernel, Toy.codec.dec_enc, by decide⟩

theorem toyPC_canonical : Canonical toyPC := Toy.codec.enc_dec

/-- C115: a proof with one round -/
example : ∃ b, IPP.marshal Toy.codec toyPC ⟨(5 : Toy.K), 256, [(3 : Toy.K)], [7]⟩ = .ok b ∧
    IPP.unmarshal Toy.codec toyPC b = .ok ⟨5, 256, [3], [7]⟩ :=
  C115_ipp_roundtrip toyPC_sized _ rfl

example : IPP.marshal Toy.codec toyPC ⟨(5 : Toy.K), 256, [(3 : Toy.K)], [7]⟩ = .ok [0, 5, 1, 0, 0, 3, 0, 7] := by
  decide +kernel

example : IPP.unmarshal Toy.codec toyPC [0, 5, 1, 0, 0, 3, 0, 7] = .ok ⟨(5 : Toy.K), 256, [(3 : Toy.K)], [7]⟩ ∧
    IPP.unmarshal Toy.codec toyPC [0, 5, 1, 0, 0, 3, 0, 7, 0] = (Go.crash : Go (IPP Toy.K Toy.K)) ∧
    IPP.unmarshal Toy.codec toyPC [0, 5, 1, 1] = (Go.err : Go (IPP Toy.K Toy.K)) ∧
    IPP.unmarshal Toy.codec toyPC [0, 5, 1] = (Go.crash : Go (IPP Toy.K Toy.K)) := by
  decide +kernel

example : IPP.unmarshal (G := Toy.K) Toy.codec toyPC ([0, 5, 1, 0, 0, 3, 0, 7] ++ [9]) = Go.crash :=
  C115_ipp_trailing_panics toyPC_sized ⟨5, 256, [3], [7]⟩ rfl _ _ (by decide +kernel) (by simp) (by decide)

example : ∃ b, RangeProof.marshal Toy.codec toyPC ⟨(1 : Toy.K), 2, 3, 4, (5 : Toy.K), 6, 7, ⟨8, 9, [10], [11]⟩⟩ = .ok b ∧
    RangeProof.unmarshal Toy.codec toyPC b = .ok ⟨1, 2, 3, 4, 5, 6, 7, ⟨8, 9, [10], [11]⟩⟩ :=
  C115_range_roundtrip toyPC_sized _ rfl

example : RangeProof.marshal Toy.codec toyPC
    ⟨(1 : Toy.K), 2, 3, 4, (5 : Toy.K), 6, 7, ⟨8, 9, [10], [11]⟩⟩ =
      .ok [0, 1, 0, 2, 0, 3, 0, 4, 0, 5, 0, 6, 0, 7, 0, 8, 0, 9, 0, 10, 0, 11] := by
  decide +kernel

end Verif.Bulletproof
