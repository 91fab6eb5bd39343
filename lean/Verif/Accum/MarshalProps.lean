import Verif.Accum.MarshalModel
import Verif.Curves.MarshalProps

/-!
# Serialization of the accumulator (C214)
-/

namespace Verif.Accum.Marshal
open Verif.Curves

variable {K : Codec} {B : Bare}

/-- the specification of the package `bare`: what was packed is unpacked -/
def Bare.Ok (B : Bare) : Prop := ∀ l : List (List UInt8), B.dec l.length (B.enc l) = .ok l

/-- a point survives compression -/
def PointOk (p : PointV K) : Prop := K.decompress p.curve (K.compress p.curve p.val) = .ok p.val

theorem name_get (c : CurveId) : getCurveByName c.name = some c := by cases c <;> decide +kernel

theorem curveDecompress_of {p : PointV K} {c : CurveId} (hc : p.curve = c) (hp : PointOk p) :
    curveDecompress K c (K.compress p.curve p.val) = .ok p := by
  subst hc
  unfold curveDecompress
  rw [hp, Go.ok_bind]

theorem unpack_enc (hB : B.Ok) (v n : List UInt8) : unpack B (B.enc [v, n]) = .ok (v, n) := by
  have := hB [v, n]
  simp only [List.length_cons, List.length_nil] at this
  unfold unpack
  rw [this]; rfl

theorem pairing_none {c : CurveId} (h1 : c ≠ .bls381g1) (h2 : c ≠ .bls381g2) : getPairingCurveByName c.name = none := by
  cases c <;> first | exact absurd rfl h1 | exact absurd rfl h2 | decide +kernel

/-- C214: lookup of pairing curves by name.  The names of the two groups give back the group, and no other curve has a pairing by its name.  The
name that the results carry is found again, with the first group for its scalars, so the second is lost; spelt as the curve is called it is unknown. -/
theorem C214_names : (∀ c : CurveId, getPairingCurveByName c.name = if c = .bls381g1 ∨ c = .bls381g2 then some c else none) ∧
    (∀ c : CurveId, getPairingCurveByName (pairingCurveName c) = some .bls381g1) ∧ getPairingCurveByName (ascii "BLS12381") = none := by
  refine ⟨fun c => ?_, fun c => by cases c <;> decide +kernel, by decide +kernel⟩
  by_cases h : c = .bls381g1 ∨ c = .bls381g2
  · rw [if_pos h]
    rcases h with rfl | rfl <;> decide +kernel
  · rw [if_neg h]
    push Not at h
    exact pairing_none h.1 h.2

/-- C214: an accumulator comes back from its bytes. -/
theorem C214_accumulator (hB : B.Ok) (p : PointV K) (hp : PointOk p) :
    marshalPoint B (none : Option (PointV K)) = Go.err ∧
    ∃ b, marshalPoint B (some p) = .ok b ∧ unmarshalAccumulator B K b = .ok p := by
  refine ⟨rfl, _, rfl, ?_⟩
  unfold unmarshalAccumulator
  rw [unpack_enc hB, Go.ok_bind]
  simp only []
  rw [name_get]
  exact curveDecompress_of rfl hp

/-- C214: a public key of BLS12-381 comes back, in either group; one of BLS12-377 has bytes that are refused. -/
theorem C214_public_key (hB : B.Ok) (p : PointV K) (hp : PointOk p) : ∃ b, marshalPoint B (some p) = .ok b ∧
    (p.curve = .bls381g1 ∨ p.curve = .bls381g2 → unmarshalPublicKey B K b = .ok p) ∧
    (p.curve ≠ .bls381g1 → p.curve ≠ .bls381g2 → unmarshalPublicKey B K b = Go.err) := by
  refine ⟨_, rfl, fun h => ?_, fun h1 h2 => ?_⟩
  · have hn : getPairingCurveByName p.curve.name = some p.curve := by
      rcases h with h | h <;> rw [h] <;> decide +kernel
    have hpr : pairing p.curve = true := by rcases h with h | h <;> rw [h] <;> rfl
    unfold unmarshalPublicKey
    rw [unpack_enc hB, Go.ok_bind]
    simp only []
    rw [hn]
    simp only [Go.ofOption, Go.ok_bind]
    rw [curveDecompress_of rfl hp, Go.ok_bind, Go.guard_true hpr, Go.ok_bind]
  · have hn := pairing_none h1 h2
    unfold unmarshalPublicKey
    rw [unpack_enc hB, Go.ok_bind]
    simp only []
    rw [hn]; rfl

/-- C214: a secret key comes back with the group it belongs to; one without a group panics when it is packed. -/
theorem C214_secret_key (hB : B.Ok) (s : ScalarV K) :
    marshalSecretKey B (none : Option (ScalarV K)) = Go.err ∧
    (∀ c, s.Of c → s.Faithful → ∃ b, marshalSecretKey B (some s) = .ok b ∧ unmarshalSecretKey B K b = .ok s) ∧
    (s.ty = .bls381 → s.point = none → marshalSecretKey B (some s) = Go.crash) := by
  refine ⟨rfl, fun c h hf => ?_, fun h1 h2 => ?_⟩
  · have hc : s.curve = .ok c := by
      obtain ⟨t, v, p⟩ := s
      obtain ⟨e1, e2⟩ := h
      simp only at e1 e2
      subst e1 e2
      cases c <;> rfl
    refine ⟨B.enc [K.bytes s.ty s.val, c.name], ?_, ?_⟩
    · unfold marshalSecretKey
      simp only [Go.ofOption, Go.ok_bind]
      rw [hc, Go.ok_bind]
    · unfold unmarshalSecretKey
      rw [unpack_enc hB, Go.ok_bind]
      simp only []
      rw [name_get]
      exact curveSetBytes_of h hf
  · obtain ⟨t, v, p⟩ := s
    simp only at h1 h2
    subst h1 h2
    rfl

/-- C214: a witness or a delta comes back when point and scalar belong to one curve and have the lengths of that curve. -/
theorem C214_witness (hB : B.Ok) (p : PointV K) (hp : PointOk p) (hl : (K.compress p.curve p.val).length = ptLength p.curve)
    (y : ScalarV K) (hy : y.Of p.curve) (hf : y.Faithful) :
    ∃ b, marshalWitness B (some p) (some y) = .ok b ∧ unmarshalWitness B K b = .ok (p, y) := by
  refine ⟨_, rfl, ?_⟩
  unfold unmarshalWitness
  rw [unpack_enc hB, Go.ok_bind]
  simp only []
  rw [name_get]
  simp only [Go.ofOption, Go.ok_bind]
  rw [Go.guard_true (by rw [List.length_append, hl, hf.1]), Go.ok_bind, List.take_append_of_le_length hl.ge,
    List.take_of_length_le hl.le, curveDecompress_of rfl hp, Go.ok_bind, List.drop_append_of_le_length hl.ge,
    List.drop_of_length_le hl.le, List.nil_append, curveSetBytes_of hy hf, Go.ok_bind]

/-- C214: the parameters of a proof come back when the three points belong to one curve. -/
theorem C214_params (hB : B.Ok) (x y z : PointV K) (hx : PointOk x) (hy : PointOk y) (hz : PointOk z) (h1 : y.curve = x.curve)
    (h2 : z.curve = x.curve) :
    ∃ b, marshalParams B (some x) (some y) (some z) = .ok b ∧ unmarshalParams B K b = .ok (x, y, z) := by
  refine ⟨_, rfl, ?_⟩
  have := hB [K.compress x.curve x.val, K.compress y.curve y.val, K.compress z.curve z.val, x.curve.name]
  simp only [List.length_cons, List.length_nil] at this
  unfold unmarshalParams
  rw [this, Go.ok_bind]
  simp only []
  rw [name_get]
  simp only [Go.ofOption, Go.ok_bind]
  rw [curveDecompress_of rfl hx, Go.ok_bind, curveDecompress_of h1 hy, Go.ok_bind, curveDecompress_of h2 hz, Go.ok_bind]

/-- C214: a membership proof comes back when its points and scalars belong to one curve. -/
theorem C214_proof (hB : B.Ok) (p : Proof K) (h1 : PointOk p.eC) (h2 : PointOk p.tSigma) (h3 : PointOk p.tRho)
    (e2 : p.tSigma.curve = p.eC.curve) (e3 : p.tRho.curve = p.eC.curve)
    (hs : ∀ s ∈ [p.sSigma, p.sRho, p.sDeltaSigma, p.sDeltaRho, p.sY], s.Of p.eC.curve ∧ s.Faithful) :
    unmarshalProof B K (marshalProof B p) = .ok p := by
  unfold unmarshalProof marshalProof
  rw [show (9 : ℕ) = [K.compress p.eC.curve p.eC.val, K.compress p.tSigma.curve p.tSigma.val, K.compress p.tRho.curve p.tRho.val,
    K.bytes p.sSigma.ty p.sSigma.val, K.bytes p.sRho.ty p.sRho.val, K.bytes p.sDeltaSigma.ty p.sDeltaSigma.val,
    K.bytes p.sDeltaRho.ty p.sDeltaRho.val, K.bytes p.sY.ty p.sY.val, p.eC.curve.name].length from rfl, hB, Go.ok_bind]
  simp only []
  rw [name_get]
  simp only [Go.ofOption, Go.ok_bind]
  simp only [List.mem_cons, List.not_mem_nil, or_false, forall_eq_or_imp, forall_eq] at hs
  obtain ⟨s1, s2, s3, s4, s5⟩ := hs
  rw [curveDecompress_of rfl h1, Go.ok_bind, curveDecompress_of e2 h2, Go.ok_bind, curveDecompress_of e3 h3, Go.ok_bind,
    curveSetBytes_of s1.1 s1.2, Go.ok_bind, curveSetBytes_of s2.1 s2.2, Go.ok_bind, curveSetBytes_of s3.1 s3.2, Go.ok_bind,
    curveSetBytes_of s4.1 s4.2, Go.ok_bind, curveSetBytes_of s5.1 s5.2, Go.ok_bind]

/-- C214: what is read need not belong to the accumulator: every point that decodes, of every known curve, is accepted as an accumulator, and
every point of the first group of BLS12-381 as a public key. -/
theorem C214_foreign (hB : B.Ok) (p : PointV K) (hp : PointOk p) :
    (∃ b, unmarshalAccumulator B K b = .ok p) ∧ (p.curve = .bls381g1 → ∃ b, unmarshalPublicKey B K b = .ok p) := by
  obtain ⟨b, hb, h1, -⟩ := C214_public_key hB p hp
  obtain ⟨-, b', -, h2⟩ := C214_accumulator hB p hp
  exact ⟨⟨b', h2⟩, fun h => ⟨b, h1 (Or.inl h)⟩⟩

/-- C214: the types decide how `Verify` ends before its equation: it is evaluated exactly for a public key of the second group and a witness
and an accumulator of the first group of one of the two families; it is an error when the scalar fits the public key and the witness or the
accumulator has no pairing; everything else panics. -/
theorem C214_verify_types (pk c : CurveId) (y : ScalarTy) (acc : CurveId) (hpk : pairing pk = true) :
    (verifyTypes pk c y acc = .ok () ↔ y = pk.scalarTy ∧
      (pk = .bls381g2 ∧ c = .bls381g1 ∧ acc = .bls381g1 ∨ pk = .bls377g2 ∧ c = .bls377g1 ∧ acc = .bls377g1)) ∧
    (verifyTypes pk c y acc = Go.err ↔ y = pk.scalarTy ∧ (pairing c = false ∨ pairing acc = false)) ∧
    (pk = .bls381g1 → pairing c = true → pairing acc = true → verifyTypes pk c y acc = Go.crash) := by
  cases pk <;> simp only [pairing, Bool.false_eq_true] at hpk <;> cases c <;> cases y <;> cases acc <;> decide +kernel

/-! ## A concrete case -/

/-- a byte string with every byte marked and an end mark -/
def toyPut (b : List UInt8) : List UInt8 := b.flatMap (fun x => [1, x]) ++ [0]

/-- reading one byte string -/
def toyGet : List UInt8 → Option (List UInt8 × List UInt8)
  | 0 :: r => some ([], r)
  | 1 :: b :: r => (toyGet r).map fun x => (b :: x.1, x.2)
  | _ => none

/-- reading `n` byte strings -/
def toyDec : ℕ → List UInt8 → Go (List (List UInt8))
  | 0, b => if b = [] then .ok [] else Go.err
  | n + 1, b => match toyGet b with
    | none => Go.err
    | some (x, r) => match toyDec n r with
      | .ok l => .ok (x :: l)
      | .error e => .error e

/-- a packing that satisfies the specification -/
def toyBare : Bare := ⟨fun l => l.flatMap toyPut, toyDec⟩

theorem toyGet_put (b r : List UInt8) : toyGet (toyPut b ++ r) = some (b, r) := by
  induction b with
  | nil => rfl
  | cons x b ih =>
    have : toyPut (x :: b) ++ r = 1 :: x :: (toyPut b ++ r) := by simp [toyPut]
    rw [this]
    show (toyGet (toyPut b ++ r)).map _ = _
    rw [ih]; rfl

theorem toyBare_ok : toyBare.Ok := by
  intro l
  show toyDec l.length (l.flatMap toyPut) = .ok l
  induction l with
  | nil => rfl
  | cons x l ih =>
    rw [List.flatMap_cons, List.length_cons]
    show (match toyGet (toyPut x ++ l.flatMap toyPut) with
      | none => Go.err
      | some (x, r) => match toyDec l.length r with
        | .ok l => .ok (x :: l)
        | .error e => .error e) = _
    rw [toyGet_put]
    simp only []
    rw [ih]

/-- `toyCodec` with points of the lengths of the curves -/
def toyCodec' : Codec := { toyCodec with
  compress := fun c v => v :: List.replicate (ptLength c - 1) 0
  decompress := fun c b => if b.length = ptLength c ∧ b.tail = List.replicate (ptLength c - 1) 0 then .ok (b.headD 0) else Go.err }

theorem toyPoint_ok (c : CurveId) (v : UInt8) : PointOk (⟨c, v⟩ : PointV toyCodec') ∧
    (toyCodec'.compress c v).length = ptLength c := by
  have hl : (toyCodec'.compress c v).length = ptLength c := by cases c <;> rfl
  exact ⟨if_pos ⟨hl, rfl⟩, hl⟩

/-- a scalar of the first group -/
abbrev toyS : ScalarV toyCodec' := ⟨.bls381, (7 : UInt8), some .bls381g1⟩

theorem toyS_ok : toyS.Of .bls381g1 ∧ toyS.Faithful := ⟨⟨rfl, rfl⟩, ⟨rfl, rfl⟩⟩

example : ∃ b, marshalWitness toyBare (some (⟨.bls381g1, (5 : UInt8)⟩ : PointV toyCodec')) (some toyS) = .ok b ∧
    unmarshalWitness toyBare toyCodec' b = .ok (⟨.bls381g1, (5 : UInt8)⟩, toyS) :=
  C214_witness toyBare_ok _ (toyPoint_ok _ _).1 (toyPoint_ok _ _).2 _ toyS_ok.1 toyS_ok.2

example : ∃ b, marshalParams toyBare (some (⟨.k256, (5 : UInt8)⟩ : PointV toyCodec')) (some ⟨.k256, (6 : UInt8)⟩) (some ⟨.k256, (9 : UInt8)⟩) = .ok b ∧
    unmarshalParams toyBare toyCodec' b = .ok (⟨.k256, (5 : UInt8)⟩, ⟨.k256, (6 : UInt8)⟩, ⟨.k256, (9 : UInt8)⟩) :=
  C214_params toyBare_ok _ _ _ (toyPoint_ok _ _).1 (toyPoint_ok _ _).1 (toyPoint_ok _ _).1 rfl rfl

example : ∃ b, marshalSecretKey toyBare (some toyS) = .ok b ∧ unmarshalSecretKey toyBare toyCodec' b = .ok toyS :=
  (C214_secret_key toyBare_ok toyS).2.1 _ toyS_ok.1 toyS_ok.2

example : unmarshalProof toyBare toyCodec' (marshalProof toyBare ⟨⟨.bls381g1, (5 : UInt8)⟩, ⟨.bls381g1, (6 : UInt8)⟩, ⟨.bls381g1, (9 : UInt8)⟩,
    toyS, toyS, toyS, toyS, toyS⟩) = .ok ⟨⟨.bls381g1, (5 : UInt8)⟩, ⟨.bls381g1, (6 : UInt8)⟩, ⟨.bls381g1, (9 : UInt8)⟩, toyS, toyS, toyS, toyS, toyS⟩ :=
  C214_proof toyBare_ok _ (toyPoint_ok _ _).1 (toyPoint_ok _ _).1 (toyPoint_ok _ _).1 rfl rfl
    (by intro s hs; simp only [List.mem_cons, List.not_mem_nil, or_false, or_self] at hs; subst hs; exact toyS_ok)

/-- a point of secp256k1 read as an accumulator, and a point of the first group read as a public key -/
example : (∃ b, unmarshalAccumulator toyBare toyCodec' b = .ok (⟨.k256, (5 : UInt8)⟩ : PointV toyCodec')) ∧
    (∃ b, unmarshalPublicKey toyBare toyCodec' b = .ok (⟨.bls381g1, (5 : UInt8)⟩ : PointV toyCodec')) :=
  ⟨(C214_foreign toyBare_ok _ (toyPoint_ok _ _).1).1, (C214_foreign toyBare_ok _ (toyPoint_ok _ _).1).2 rfl⟩

/-- a key of BLS12-377 is packed and refused -/
example : ∃ b, marshalPoint toyBare (some (⟨.bls377g2, (5 : UInt8)⟩ : PointV toyCodec')) = .ok b ∧
    unmarshalPublicKey toyBare toyCodec' b = Go.err := by
  obtain ⟨b, h1, -, h3⟩ := C214_public_key toyBare_ok (⟨.bls377g2, (5 : UInt8)⟩ : PointV toyCodec') (toyPoint_ok _ _).1
  exact ⟨b, h1, h3 (by decide) (by decide)⟩

example : verifyTypes .bls381g2 .bls381g1 .bls381 .bls381g1 = .ok () ∧ verifyTypes .bls381g2 .k256 .bls381 .bls381g1 = Go.err ∧
    verifyTypes .bls381g1 .bls381g1 .bls381 .bls381g1 = Go.crash := by decide +kernel

end Verif.Accum.Marshal
