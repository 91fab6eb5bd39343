import Verif.Bls381.SigBytesModel
import Verif.Bls381.SigProps
import Verif.Bls.Props
import Verif.Bls.ThresholdProps

/-!
# C217: BLS keys, signatures and their bytes
-/

namespace Verif.Bls381.SigBytes

open Verif.Native Verif.Bls381 Verif.Primes WeierstrassCurve.Affine

variable {F : Type} [Field F] [DecidableEq F]

/-! ## Specification -/

/-- the subgroup of order `r` of the curve `y² = x³ + b` -/
abbrev Sub (b : F) : AddSubgroup (curve 0 b).Point := (nsmulAddMonoidHom (α := (curve 0 b).Point) blsr).ker

theorem Sub.kill {b : F} (P : Sub b) : blsr • P = 0 := Subtype.ext P.2

noncomputable instance (b : F) : Module (ZMod blsr) (Sub b) := AddCommGroup.zmodModule Sub.kill

/-- what is used of `G1` and `G2` -/
structure Side.Ok (s : Side F) (b : F) (G : Sub b) : Prop where
  ok : GOk b s.m3b
  gen : GRep s.generator (G : (curve 0 b).Point)
  gen_ne : G ≠ 0
  len : ∀ p, (s.toC p).length = s.len
  roundtrip : ∀ {p} {P : (curve 0 b).Point}, GRep p P → blsr • P = 0 → ∃ q, s.fromC (s.toC p) = .ok q ∧ GRep q P
  refused : ∀ {p} {P : (curve 0 b).Point}, GRep p P → blsr • P ≠ 0 → s.fromC (s.toC p) = Go.err
  inj : ∀ {p q} {P Q : (curve 0 b).Point}, GRep p P → GRep q Q → (s.toC p = s.toC q ↔ P = Q)
  accepted : ∀ {l q}, l.length = s.len → s.fromC l = .ok q →
    ∃ P : (curve 0 b).Point, GRep q P ∧ blsr • P = 0 ∧ (P ≠ 0 → s.toC q = l)

theorem accepted_of {c : PtCodec F} {b : F} {m3b : F → F} (hc : c.Lawful) (h : GOk b m3b) {l : List UInt8} {q : Proj F}
    (hl : l.length = c.len) (hq : cFrom c b m3b l = .ok q) :
    ∃ P : (curve 0 b).Point, GRep q P ∧ blsr • P = 0 ∧ (P ≠ 0 → cTo c q = l) := by
  obtain ⟨⟨P, h1, h2⟩, h3⟩ := cFrom_ok hc h hq
  refine ⟨P, h1, h2, fun hP => h3 hl fun h6 => hP ?_⟩
  rcases l with _ | ⟨b0, t⟩
  · exact absurd h6 (by decide)
  · rw [List.headD_cons] at h6
    have hb : ∀ b0 : UInt8, (b0 >>> 6) &&& 1 = 1 → b0 &&& 0x80 = 0 ∨ b0 &&& 0xC0 = 0xC0 := by decide +kernel
    rcases hb b0 h6 with h0 | h0
    · rw [cFrom_flag t h0] at hq; cases hq
    · rw [cFrom_infinity t h0] at hq
      obtain rfl := Except.ok.inj hq
      exact h1.unique gRep_identity

theorem gS_ne : gS1 ≠ 0 ∧ gS2 ≠ 0 := by
  obtain ⟨K, _, ⟨T⟩⟩ := C148_tower_exists
  classical
  exact ⟨(C168_nondegenerate T).2.2.1, (C168_nondegenerate T).2.2.2.1⟩

theorem side1_ok : side1.Ok curveG1B gS1 := by
  constructor
  · exact g1Ok
  · exact gen1_rep
  · exact gS_ne.1
  · exact fun p => cTo_length codec1_lawful p
  · exact fun hp hr => (C157_g1_roundtrip hp hr).1
  · exact fun hp hr => (C157_refused.1 hp hr).1
  · exact fun hp hq => (C157_g1_injective hp hq).1
  · intro l q hl hq
    have hq : g1FromCompressed l = .ok q := hq
    rw [g1From_eq] at hq
    exact accepted_of codec1_lawful g1Ok hl hq

theorem side2_ok : side2.Ok curveG2B gS2 := by
  constructor
  · exact g2Ok
  · exact gen2_rep
  · exact gS_ne.2
  · exact fun p => cTo_length codec2_lawful p
  · exact fun hp hr => (C157_g2_roundtrip hp hr).1
  · exact fun hp hr => (C157_refused.2 hp hr).1
  · exact fun hp hq => (C157_g2_injective hp hq).1
  · intro l q hl hq
    have hq : g2FromCompressed l = .ok q := hq
    rw [g2From_eq] at hq
    exact accepted_of codec2_lawful g2Ok hl hq

variable {s : Side F} {b : F} {G : Sub b}

/-! ## Bytes -/

/-- what `UnmarshalBinary` accepts is the encoding of exactly one point, which is of order `r`; nothing else is accepted -/
theorem C217_accepted (h : s.Ok b G) (data : List UInt8) (q : Proj F) (hq : unmarshal s data = .ok q) :
    ∃ P : Sub b, GRep q (P : (curve 0 b).Point) ∧ P ≠ 0 ∧ marshal s q = data ∧ data.length = s.len := by
  simp only [unmarshal, Go.bind_eq_ok, Go.guard_eq_ok] at hq
  obtain ⟨-, hl, p, hp, -, hz, hq⟩ := hq
  obtain rfl := Except.ok.inj hq
  obtain ⟨P, h1, h2, h3⟩ := h.accepted hl hp
  have hP : P ≠ 0 := fun h0 => hz (h1.z_eq_zero.2 h0)
  exact ⟨⟨P, h2⟩, h1, fun h0 => hP (congrArg Subtype.val h0), h3 hP, hl⟩

theorem C217_roundtrip (h : s.Ok b G) {p : Proj F} {P : Sub b} (hp : GRep p (P : (curve 0 b).Point)) (hP : P ≠ 0) :
    ∃ q, unmarshal s (marshal s p) = .ok q ∧ unmarshalMulti s (marshal s p) = .ok q ∧ GRep q (P : (curve 0 b).Point) := by
  obtain ⟨q, h1, h2⟩ := h.roundtrip hp P.2
  have hz : q.z ≠ 0 := fun h0 => hP (Subtype.ext (h2.z_eq_zero.1 h0))
  have e : unmarshal s (marshal s p) = .ok q := by
    simp only [unmarshal, marshal, h1, h.len, Go.guard_true, Go.ok_bind]
    rw [Go.guard_true hz]; rfl
  refine ⟨q, e, ?_, h2⟩
  rw [unmarshalMulti, e, marshal, Go.guard_true (h.len p)]; rfl

/-- two encodings that are accepted and stand for the same point are the same bytes; so the bytes of a key or of a signature
cannot be changed without changing the point -/
theorem C217_canonical (h : s.Ok b G) {d d' : List UInt8} {q q' : Proj F} {P : (curve 0 b).Point}
    (hq : unmarshal s d = .ok q) (hq' : unmarshal s d' = .ok q') (hP : GRep q P) (hP' : GRep q' P) : d = d' := by
  obtain ⟨_, -, -, h1, -⟩ := C217_accepted h _ _ hq
  obtain ⟨_, -, -, h1', -⟩ := C217_accepted h _ _ hq'
  rw [← h1, ← h1', marshal, marshal, h.inj hP hP']

/-- the point at infinity and the points outside the subgroup are written, and refused when read: an aggregate that is the
point at infinity cannot be sent -/
theorem C217_refused (h : s.Ok b G) {p : Proj F} {P : (curve 0 b).Point} (hp : GRep p P) (hP : P = 0 ∨ blsr • P ≠ 0) :
    unmarshal s (marshal s p) = Go.err ∧ unmarshalMulti s (marshal s p) = Go.err := by
  have e : unmarshal s (marshal s p) = Go.err := by
    rw [unmarshal, marshal, Go.guard_true (h.len p)]
    rcases hP with rfl | hP
    · obtain ⟨q, h1, h2⟩ := h.roundtrip hp (smul_zero _)
      rw [h1, Go.ok_bind, Go.ok_bind, Go.guard_false (fun hz => hz (h2.z_eq_zero.2 rfl))]
      rfl
    · rw [h.refused hp hP]; rfl
  exact ⟨e, by rw [unmarshalMulti, e, marshal, Go.guard_true (h.len p)]; rfl⟩

theorem C217_length {d : List UInt8} (hd : d.length ≠ s.len) :
    unmarshal s d = Go.err ∧ unmarshalMulti s d = Go.err := by
  rw [unmarshalMulti, unmarshal, Go.guard_false hd]
  exact ⟨rfl, rfl⟩

/-! ## Operations -/

theorem mul_rep (h : s.Ok b G) {p : Proj F} {P : Sub b} (hp : GRep p (P : (curve 0 b).Point)) (k : ZMod blsr) :
    GRep (gMultiply s.m3b p (leBytes 32 k.val)) ((k • P : Sub b) : (curve 0 b).Point) := by
  have h1 := gRep_multiply h.ok hp (bytes := leBytes 32 k.val) (leBytes_length _ _)
  rw [leNat_leBytes 32 _ (lt_trans (ZMod.val_lt k) (by decide +kernel))] at h1
  have e : k • P = k.val • P := by
    conv_lhs => rw [← ZMod.natCast_zmod_val k]
    exact Nat.cast_smul_eq_nsmul _ _ _
  rw [e]
  exact h1

theorem inSub (h : s.Ok b G) {p : Proj F} {P : Sub b} (hp : GRep p (P : (curve 0 b).Point)) :
    gInSubgroup s.m3b p = true := (gInSubgroup_iff h.ok hp).2 P.2

theorem z_iff {p : Proj F} {P : Sub b} (hp : GRep p (P : (curve 0 b).Point)) : p.z = 0 ↔ P = 0 := by
  rw [hp.z_eq_zero]; simp

/-- the results of two functions agree: the same errors, and coordinates of the point -/
def RGo (x : Go (Proj F)) (X : Go (Sub b)) : Prop :=
  match x, X with
  | .ok p, .ok P => GRep p (P : (curve 0 b).Point)
  | .error e, .error e' => e = e'
  | _, _ => False

section
open Classical

/-- `GetPublicKey` is the abstract one -/
theorem C217_getPublicKey (h : s.Ok b G) (sk : ZMod blsr) :
    RGo (getPublicKey s sk) (Bls.getPublicKey G sk) := by
  have h1 := mul_rep h h.gen sk
  simp only [getPublicKey, Bls.getPublicKey, inSub h h1, z_iff h1, Bool.true_eq_false, false_or]
  by_cases h0 : sk • G = 0
  · rw [Go.guard_false (fun h' => h' h0)]; rfl
  · rw [Go.guard_true h0]; exact h1

/-- every non-zero secret gives a key, different secrets different keys, zero is refused -/
theorem C217_keys (h : s.Ok b G) :
    getPublicKey s 0 = Go.err ∧
    (∀ sk ≠ 0, ∃ p, getPublicKey s sk = .ok p ∧ GRep p ((sk • G : Sub b) : (curve 0 b).Point) ∧ sk • G ≠ 0) ∧
    ∀ sk sk' p p', getPublicKey s sk = .ok p → getPublicKey s sk' = .ok p' →
      (marshal s p = marshal s p' ↔ sk = sk') := by
  have hz : ∀ sk : ZMod blsr, sk • G = 0 → sk = 0 := fun sk e => (smul_eq_zero.1 e).resolve_right h.gen_ne
  have key : ∀ sk, getPublicKey s sk = if sk = 0 then Go.err else .ok (gMultiply s.m3b s.generator (leBytes 32 sk.val)) := by
    intro sk
    have h1 := mul_rep h h.gen sk
    simp only [getPublicKey, inSub h h1, z_iff h1, Bool.true_eq_false, false_or]
    split_ifs with h0
    · rw [Go.guard_false (fun h' => h' (by rw [h0, zero_smul]))]; rfl
    · have h2 : ¬ sk • G = 0 := fun e => h0 (hz _ e)
      rw [Go.guard_true h2]; rfl
  refine ⟨by rw [key, if_pos rfl], fun sk h0 => ⟨_, by rw [key, if_neg h0], mul_rep h h.gen sk, fun e => h0 (hz _ e)⟩, ?_⟩
  intro sk sk' p p' hp hp'
  rw [key] at hp hp'
  split_ifs at hp hp' with h0 h0'
  obtain rfl := Except.ok.inj hp
  obtain rfl := Except.ok.inj hp'
  rw [marshal, marshal, h.inj (mul_rep h h.gen sk) (mul_rep h h.gen sk'), Subtype.coe_inj]
  constructor
  · intro e
    rw [← sub_eq_zero, ← sub_smul] at e
    exact sub_eq_zero.1 (hz _ e)
  · rintro rfl; rfl

/-- `createSignature` is the abstract one -/
theorem C217_createSignature (h : s.Ok b G) {hash : List UInt8 → Proj F} {H : List UInt8 → List UInt8 → Sub b}
    {dst : List UInt8} (sk : ZMod blsr) (msg : Option (List UInt8))
    (hh : ∀ m, msg = some m → GRep (hash m) (H m dst : (curve 0 b).Point)) :
    RGo (createSignature s hash sk msg) (Bls.createSignature H sk msg dst) := by
  rcases msg with _ | m
  · rfl
  have h1 := mul_rep h (hh m rfl) sk
  simp only [createSignature, Bls.createSignature, Go.ofOption, Go.ok_bind, inSub h h1]
  by_cases h0 : sk = 0
  · simp only [Go.guard_false (fun h' : sk ≠ 0 => h' h0)]; rfl
  · simp only [Go.guard_true (show sk ≠ 0 from h0), Go.guard_true]; exact h1

theorem sign_ok (h : s.Ok b G) {hash : List UInt8 → Proj F} {H : Sub b} {m : List UInt8}
    (hh : GRep (hash m) (H : (curve 0 b).Point)) {sk : ZMod blsr} (hsk : sk ≠ 0) :
    ∃ sig, createSignature s hash sk (some m) = .ok sig ∧ GRep sig ((sk • H : Sub b) : (curve 0 b).Point) := by
  have h1 := mul_rep h hh sk
  refine ⟨_, ?_, h1⟩
  rw [createSignature, Go.ofOption, Go.ok_bind, Go.guard_true hsk]
  simp only [inSub h h1, Go.guard_true, Go.ok_bind]

/-- keys or signatures given as coordinates -/
def ORep : Option (Proj F) → Option (Sub b) → Prop
  | none, none => True
  | some p, some P => GRep p (P : (curve 0 b).Point)
  | _, _ => False

theorem fold_rep (h : s.Ok b G) {ps : List (Option (Proj F))} {Ps : List (Option (Sub b))}
    (hp : List.Forall₂ ORep ps Ps) : ∀ {a : Proj F} {A : Sub b}, GRep a (A : (curve 0 b).Point) →
    RGo (ps.foldlM (addStep s) a) (Ps.foldlM Bls.addStep A) := by
  induction hp with
  | nil => intro a A ha; exact ha
  | @cons p P ps Ps h1 h2 ih =>
    intro a A ha
    rcases p with _ | p <;> rcases P with _ | P
    · rfl
    · exact h1.elim
    · exact h1.elim
    have h1 : GRep p (P : (curve 0 b).Point) := h1
    simp only [List.foldlM_cons, addStep, Bls.addStep, inSub h h1, Go.guard_true, Go.ok_bind]
    exact ih (gRep_add h.ok ha h1)

/-- aggregation is the abstract one -/
theorem C217_aggregate (h : s.Ok b G) {ps : List (Option (Proj F))} {Ps : List (Option (Sub b))}
    (hp : List.Forall₂ ORep ps Ps) : RGo (aggregate s ps) (Bls.aggregate Ps) := by
  rw [aggregate, Bls.aggregate, hp.length_eq]
  by_cases h0 : Ps.length < 1
  · rw [Go.guard_false (fun h' => h' h0)]; rfl
  · rw [Go.guard_true h0]
    exact fold_rep h hp gRep_identity

/-- a point outside the subgroup anywhere in the list makes aggregation fail -/
theorem C217_aggregate_subgroup (h : s.Ok b G) {ps : List (Option (Proj F))} {p : Proj F} {P : (curve 0 b).Point}
    (hm : some p ∈ ps) (hp : GRep p P) (hP : blsr • P ≠ 0) : aggregate s ps = Go.err := by
  have e : ∀ (ps : List (Option (Proj F))) (a : Proj F), some p ∈ ps → ps.foldlM (addStep s) a = Go.err := by
    intro ps
    induction ps with
    | nil => intro a hm; cases hm
    | cons o ps ih =>
      intro a hm
      rw [List.foldlM_cons]
      rcases List.mem_cons.1 hm with rfl | hm'
      · rw [addStep, Go.guard_false (fun h' => hP ((gInSubgroup_iff h.ok hp).1 h'))]; rfl
      · rcases o with _ | o
        · rfl
        · rw [addStep]
          by_cases ho : gInSubgroup s.m3b o = true
          · rw [Go.guard_true ho]; exact ih _ hm'
          · rw [Go.guard_false ho]; rfl
  rw [aggregate, Go.guard_true]
  · exact e _ _ hm
  · intro hl
    rw [Nat.lt_one_iff, List.length_eq_zero_iff] at hl
    rw [hl] at hm
    cases hm

/-- a share `x` gives the multiple by `x` of the hash, under the identifier of the share -/
theorem C217_partialSign (h : s.Ok b G) {hash : List UInt8 → Proj F} {H : Sub b} {m : List UInt8}
    (hh : GRep (hash m) (H : (curve 0 b).Point)) (id : UInt8) (x : ZMod blsr) :
    ∃ r, partialSign s hash id x m = .ok ⟨id, r⟩ ∧ GRep r ((x • H : Sub b) : (curve 0 b).Point) := by
  have h1 := mul_rep h hh x
  refine ⟨_, ?_, h1⟩
  rw [partialSign]
  simp only [inSub h h1, Go.guard_true, Go.ok_bind]

/-- partial signatures given as coordinates -/
def SRepP : Option (Bls.Partial (Proj F)) → Option (Bls.Partial (Sub b)) → Prop
  | none, none => True
  | some p, some P => p.identifier = P.identifier ∧ GRep p.signature (P.signature : (curve 0 b).Point)
  | _, _ => False

/-- points with their abscissas -/
def XRep (p : ZMod blsr × Proj F) (P : ZMod blsr × Sub b) : Prop := p.1 = P.1 ∧ GRep p.2 (P.2 : (curve 0 b).Point)

theorem splitXY_rep (h : s.Ok b G) {ps : List (Option (Bls.Partial (Proj F)))} {Ps : List (Option (Bls.Partial (Sub b)))}
    (hp : List.Forall₂ SRepP ps Ps) : ∀ seen,
    (splitXY s seen ps = Go.err ∧ Bls.splitXY (F := ZMod blsr) seen Ps = Go.err) ∨
    ∃ l L, splitXY s seen ps = .ok l ∧ Bls.splitXY (F := ZMod blsr) seen Ps = .ok L ∧ List.Forall₂ XRep l L := by
  induction hp with
  | nil => intro seen; exact .inr ⟨[], [], rfl, rfl, .nil⟩
  | @cons p P ps Ps h1 h2 ih =>
    intro seen
    rcases p with _ | p <;> rcases P with _ | P
    · exact .inl ⟨rfl, rfl⟩
    · exact h1.elim
    · exact h1.elim
    obtain ⟨hi, hs⟩ : p.identifier = P.identifier ∧ GRep p.signature (P.signature : (curve 0 b).Point) := h1
    simp only [splitXY, Bls.splitXY, hi, inSub h hs]
    by_cases hm : P.identifier ∈ seen
    · rw [Go.guard_false (fun h' => h' hm)]; exact .inl ⟨rfl, rfl⟩
    · rw [Go.guard_true hm]
      rcases ih (P.identifier :: seen) with ⟨e1, e2⟩ | ⟨l, L, e1, e2, e3⟩
      · rw [e1, e2]; exact .inl ⟨rfl, rfl⟩
      · rw [e1, e2]; exact .inr ⟨_, _, rfl, rfl, .cons ⟨rfl, hs⟩ e3⟩

theorem combine_rep (h : s.Ok b G) (xs : List (ZMod blsr)) {l : List (ZMod blsr × Proj F)} {L : List (ZMod blsr × Sub b)}
    (hl : List.Forall₂ XRep l L) : ∀ (n : ℕ) {a : Proj F} {A : Sub b}, GRep a (A : (curve 0 b).Point) →
    RGo ((l.zipIdx n).foldlM (combineStep s xs) a) ((L.zipIdx n).foldlM (fun sig p => do
      let b ← Bls.basis xs p.2 p.1.1
      .ok (sig + b • p.1.2)) A) := by
  induction hl with
  | nil => intro n a A ha; exact ha
  | @cons p P l L h1 h2 ih =>
    intro n a A ha
    simp only [List.zipIdx_cons, List.foldlM_cons, combineStep, h1.1]
    rcases Bls.basis xs n P.1 with e | c
    · rfl
    · exact ih (n + 1) (gRep_add h.ok ha (mul_rep h h1.2 c))

/-- combination of the partial signatures is the abstract one -/
theorem C217_combineSigs (h : s.Ok b G) {ps : List (Option (Bls.Partial (Proj F)))}
    {Ps : List (Option (Bls.Partial (Sub b)))} (hp : List.Forall₂ SRepP ps Ps) :
    RGo (combineSigs s ps) (Bls.combineSigs (ZMod blsr) Ps) := by
  rw [combineSigs, Bls.combineSigs, hp.length_eq]
  by_cases h2 : Ps.length < 2
  · rw [Go.guard_false (fun h' => h' h2)]; rfl
  rw [Go.guard_true h2]
  by_cases h255 : Ps.length > 255
  · rw [Go.guard_false (fun h' => h' h255)]; rfl
  rw [Go.guard_true h255]
  rcases splitXY_rep h hp [] with ⟨e1, e2⟩ | ⟨l, L, e1, e2, e3⟩
  · rw [e1, e2]; rfl
  rw [e1, e2]
  have hx : l.map Prod.fst = L.map Prod.fst := by
    clear e1 e2
    induction e3 with
    | nil => rfl
    | cons h1 _ ih => rw [List.map_cons, List.map_cons, ih, h1.1]
  simp only [Go.ok_bind, Bls.combineLoop, hx]
  have h3 := combine_rep h (L.map Prod.fst) e3 0 (a := gIdentity) (A := 0) gRep_identity
  revert h3
  generalize (l.zipIdx).foldlM (combineStep s (L.map Prod.fst)) gIdentity = x
  generalize (L.zipIdx).foldlM (m := Go) _ (0 : Sub b) = X
  intro h3
  rcases x with e | x <;> rcases X with e' | X
  · exact h3
  · exact h3.elim
  · exact h3.elim
  · have h3 : GRep x (X : (curve 0 b).Point) := h3
    rw [Go.ok_bind, Go.guard_true (inSub h h3)]
    exact h3

/-! ## From the secret to the verification of the bytes -/

variable {K : Type} [Field K] (T : Tower Fq K)

/-- keys in `G1`, signatures in `G2`: key and signature are produced, written, read and verified -/
theorem C217_usual {sha : Hasher} {dst m : List UInt8} {H : S2} (hh : GRep (g2Hash sha m dst) (H : E2)) (hH : H ≠ 0)
    {sk : ZMod blsr} (hsk : sk ≠ 0) :
    ∃ pk sig pk' sig', getPublicKey side1 sk = .ok pk ∧
      createSignature side2 (fun m => g2Hash sha m dst) sk (some m) = .ok sig ∧
      unmarshal side1 (marshal side1 pk) = .ok pk' ∧ unmarshal side2 (marshal side2 sig) = .ok sig' ∧
      usualVerify sha pk' (some m) (some sig') dst = .ok true := by
  obtain ⟨K, _, ⟨T⟩⟩ := C148_tower_exists
  obtain ⟨pk, h1, h2, h3⟩ := (C217_keys side1_ok).2.1 sk hsk
  obtain ⟨sig, h5, h4⟩ := sign_ok side2_ok (hash := fun m => g2Hash sha m dst) hh hsk
  have hs : (sk • H : Sub curveG2B) ≠ 0 := fun e => (smul_eq_zero.1 e).elim hsk hH
  obtain ⟨pk', h6, -, h7⟩ := C217_roundtrip side1_ok h2 h3
  obtain ⟨sig', h8, -, h9⟩ := C217_roundtrip side2_ok h4 hs
  refine ⟨pk, sig, pk', sig', h1, h5, h6, h8, ?_⟩
  rw [C168_usual_verify T (P := sk • gS1) h7 (sig := some sig') (S := some (sk • H)) h9 (some m) dst (hash := fun _ _ => H)
    (fun m' e => by rw [Option.some.injEq] at e; rw [← e]; exact hh)]
  exact (Bls.C73_decision (C168_nondegenerate T).1 _ sk _ _ _ true).2 ⟨_, m, rfl, rfl, h3, hs, by simp⟩

/-- there is one signature per key and message, as bytes -/
theorem C217_usual_unique {sha : Hasher} {dst m : List UInt8} {H : S2} (hh : GRep (g2Hash sha m dst) (H : E2))
    {sk : ZMod blsr} {pk : Proj Fq} (hpk : getPublicKey side1 sk = .ok pk) {d d' : List UInt8} {sig sig' : Proj (Fp2 Fq)}
    (hd : unmarshal side2 d = .ok sig) (hd' : unmarshal side2 d' = .ok sig')
    (hv : usualVerify sha pk (some m) (some sig) dst = .ok true)
    (hv' : usualVerify sha pk (some m) (some sig') dst = .ok true) : d = d' := by
  obtain ⟨K, _, ⟨T⟩⟩ := C148_tower_exists
  have hsk : sk ≠ 0 := by
    rintro rfl
    rw [(C217_keys side1_ok).1] at hpk
    cases hpk
  obtain ⟨_, h1, h2, h3⟩ := (C217_keys side1_ok).2.1 sk hsk
  obtain rfl := Except.ok.inj (hpk.symm.trans h1)
  obtain ⟨S, hs, -⟩ := C217_accepted side2_ok _ _ hd
  obtain ⟨S', hs', -⟩ := C217_accepted side2_ok _ _ hd'
  have hm : ∀ m', some m = some m' → GRep (g2Hash sha m' dst) (H : E2) :=
    fun m' e => by rw [Option.some.injEq] at e; rw [← e]; exact hh
  rw [C168_usual_verify T (P := sk • gS1) h2 (sig := some sig) (S := some S) hs (some m) dst (hash := fun _ _ => H) hm] at hv
  rw [C168_usual_verify T (P := sk • gS1) h2 (sig := some sig') (S := some S') hs' (some m) dst (hash := fun _ _ => H) hm] at hv'
  have e : S = S' := Bls.C73_unique (C168_nondegenerate T).1 _ _ _ _ _ _ hv hv'
  rw [← e] at hs'
  exact C217_canonical side2_ok hd hd' hs hs'

theorem flip_nondegenerate [DecidableEq K] : ∀ S : S1, (pair T).flip gS2 S = 0 → S = 0 := (C168_nondegenerate T).2.1

/-- keys in `G2`, signatures in `G1` -/
theorem C217_tiny {sha : Hasher} {dst m : List UInt8} {H : S1} (hh : GRep (g1Hash sha m dst) (H : E1)) (hH : H ≠ 0)
    {sk : ZMod blsr} (hsk : sk ≠ 0) :
    ∃ pk sig pk' sig', getPublicKey side2 sk = .ok pk ∧
      createSignature side1 (fun m => g1Hash sha m dst) sk (some m) = .ok sig ∧
      unmarshal side2 (marshal side2 pk) = .ok pk' ∧ unmarshal side1 (marshal side1 sig) = .ok sig' ∧
      tinyVerify sha pk' (some m) (some sig') dst = .ok true := by
  obtain ⟨K, _, ⟨T⟩⟩ := C148_tower_exists
  obtain ⟨pk, h1, h2, h3⟩ := (C217_keys side2_ok).2.1 sk hsk
  obtain ⟨sig, h5, h4⟩ := sign_ok side1_ok (hash := fun m => g1Hash sha m dst) hh hsk
  have hs : (sk • H : Sub curveG1B) ≠ 0 := fun e => (smul_eq_zero.1 e).elim hsk hH
  obtain ⟨pk', h6, -, h7⟩ := C217_roundtrip side2_ok h2 h3
  obtain ⟨sig', h8, -, h9⟩ := C217_roundtrip side1_ok h4 hs
  refine ⟨pk, sig, pk', sig', h1, h5, h6, h8, ?_⟩
  rw [C168_tiny_verify T (P := sk • gS2) h7 (sig := some sig') (S := some (sk • H)) h9 (some m) dst (hash := fun _ _ => H)
    (fun m' e => by rw [Option.some.injEq] at e; rw [← e]; exact hh), Bls.C73_tiny]
  exact (Bls.C73_decision (flip_nondegenerate T) _ sk _ _ _ true).2 ⟨_, m, rfl, rfl, h3, hs, by simp⟩

theorem C217_tiny_unique {sha : Hasher} {dst m : List UInt8} {H : S1} (hh : GRep (g1Hash sha m dst) (H : E1))
    {sk : ZMod blsr} {pk : Proj (Fp2 Fq)} (hpk : getPublicKey side2 sk = .ok pk) {d d' : List UInt8} {sig sig' : Proj Fq}
    (hd : unmarshal side1 d = .ok sig) (hd' : unmarshal side1 d' = .ok sig')
    (hv : tinyVerify sha pk (some m) (some sig) dst = .ok true)
    (hv' : tinyVerify sha pk (some m) (some sig') dst = .ok true) : d = d' := by
  obtain ⟨K, _, ⟨T⟩⟩ := C148_tower_exists
  have hsk : sk ≠ 0 := by
    rintro rfl
    rw [(C217_keys side2_ok).1] at hpk
    cases hpk
  obtain ⟨_, h1, h2, h3⟩ := (C217_keys side2_ok).2.1 sk hsk
  obtain rfl := Except.ok.inj (hpk.symm.trans h1)
  obtain ⟨S, hs, -⟩ := C217_accepted side1_ok _ _ hd
  obtain ⟨S', hs', -⟩ := C217_accepted side1_ok _ _ hd'
  have hm : ∀ m', some m = some m' → GRep (g1Hash sha m' dst) (H : E1) :=
    fun m' e => by rw [Option.some.injEq] at e; rw [← e]; exact hh
  rw [C168_tiny_verify T (P := sk • gS2) h2 (sig := some sig) (S := some S) hs (some m) dst (hash := fun _ _ => H) hm, Bls.C73_tiny] at hv
  rw [C168_tiny_verify T (P := sk • gS2) h2 (sig := some sig') (S := some S') hs' (some m) dst (hash := fun _ _ => H) hm, Bls.C73_tiny] at hv'
  have e : S = S' := Bls.C73_unique (flip_nondegenerate T) _ _ _ _ _ _ hv hv'
  rw [← e] at hs'
  exact C217_canonical side1_ok hd hd' hs hs'

/-- proofs of possession: the proof for a key is a signature on the bytes of the key, and verifies -/
theorem C217_pop {sha : Hasher} {dst : List UInt8} {sk : ZMod blsr} (hsk : sk ≠ 0) :
    ∃ pk, getPublicKey side1 sk = .ok pk ∧ ∀ {H : S2}, GRep (g2Hash sha (marshal side1 pk) dst) (H : E2) → H ≠ 0 →
      ∃ pop pk' pop', createPop side1 side2 (fun m => g2Hash sha m dst) sk = .ok pop ∧
        unmarshal side1 (marshal side1 pk) = .ok pk' ∧ unmarshal side2 (marshal side2 pop) = .ok pop' ∧
        marshal side1 pk' = marshal side1 pk ∧
        usualVerify sha pk' (some (marshal side1 pk')) (some pop') dst = .ok true := by
  obtain ⟨pk, h1, h2, h3⟩ := (C217_keys side1_ok).2.1 sk hsk
  refine ⟨pk, h1, fun {H} hh hH => ?_⟩
  obtain ⟨_, pop, pk', pop', e1, e2, e3, e4, e5⟩ := C217_usual hh hH hsk
  obtain rfl := Except.ok.inj (h1.symm.trans e1)
  obtain ⟨_, -, -, e6, -⟩ := C217_accepted side1_ok _ _ e3
  refine ⟨pop, pk', pop', ?_, e3, e4, e6, by rw [e6]; exact e5⟩
  rw [createPop, h1, Go.ok_bind, e2]

end

/-! ## Examples -/

example : ∃ p, getPublicKey side1 5 = .ok p ∧ ∃ q, unmarshal side1 (marshal side1 p) = .ok q := by
  obtain ⟨p, h1, h2, h3⟩ := (C217_keys side1_ok).2.1 5 (by decide +kernel)
  obtain ⟨q, h4, -⟩ := C217_roundtrip side1_ok h2 h3
  exact ⟨p, h1, q, h4⟩

example : unmarshal side2 (marshal side2 gIdentity) = Go.err :=
  (C217_refused side2_ok gRep_identity (.inl rfl)).1

theorem two_keys (h : s.Ok b G) : ∃ g : Sub b, g ≠ 0 ∧ RGo (aggregate s [some s.generator, some s.generator])
    (Bls.aggregate [some g, some g]) :=
  ⟨G, h.gen_ne, C217_aggregate h (.cons h.gen (.cons h.gen .nil))⟩

open Classical in
theorem two_partials (h : s.Ok b G) : ∃ g : Sub b, g ≠ 0 ∧
    RGo (combineSigs s [some ⟨1, s.generator⟩, some ⟨2, s.generator⟩])
      (Bls.combineSigs (ZMod blsr) [some ⟨1, g⟩, some ⟨2, g⟩]) :=
  ⟨G, h.gen_ne, C217_combineSigs h (.cons ⟨rfl, h.gen⟩ (.cons ⟨rfl, h.gen⟩ .nil))⟩

example : ∃ g : Sub curveG1B, g ≠ 0 ∧ RGo (aggregate side1 [some side1.generator, some side1.generator])
    (Bls.aggregate [some g, some g]) := two_keys side1_ok

open Classical in
example : ∃ g : Sub curveG2B, g ≠ 0 ∧ RGo (combineSigs side2 [some ⟨1, side2.generator⟩, some ⟨2, side2.generator⟩])
      (Bls.combineSigs (ZMod blsr) [some ⟨1, g⟩, some ⟨2, g⟩]) := two_partials side2_ok

end Verif.Bls381.SigBytes
