import Verif.Curves.MarshalModel
import Verif.Curves.ScalarProps

/-!
# Serialization of scalars and points: what is accepted, what comes back

* C176 round trips, exact sets of accepted inputs, panics and ambiguities of the three formats
-/

set_option maxRecDepth 10000

namespace Verif.Curves

open Native

/-! ## Specification -/

/-- the names that stand for a curve: its own, and two that stand for groups G1 -/
def Named (n : List UInt8) (c : CurveId) : Prop :=
  n = c.name ∨ (n = ascii "BLS12831" ∧ c = .bls381g1) ∨ (n = ascii "BLS12377" ∧ c = .bls377g1)

/-- `d` is a sequence of pairs of hexadecimal digits, of either case, that stand for the bytes `b` -/
inductive HexPairs : List UInt8 → List UInt8 → Prop
  | nil : HexPairs [] []
  | cons {a b : UInt8} {x y : ℕ} {d r : List UInt8} : hexVal a = some x → hexVal b = some y → HexPairs d r →
      HexPairs (a :: b :: d) (UInt8.ofNat (16 * x + y) :: r)

/-- a scalar that its curve produces: type and `point` field are those of the curve `c` -/
def ScalarV.Of {K : Codec} (s : ScalarV K) (c : CurveId) : Prop := s.ty = c.scalarTy ∧ s.point = c.proto

/-- the value of a scalar survives `Bytes` and `SetBytes`, with 32 bytes -/
def ScalarV.Faithful {K : Codec} (s : ScalarV K) : Prop :=
  (K.bytes s.ty s.val).length = 32 ∧ K.setBytes s.ty (K.bytes s.ty s.val) = .ok s.val

/-- a text without characters that JSON escapes: printable ASCII, not `"`, `&`, `<`, `>`, `\` -/
def Plain (t : List UInt8) : Prop :=
  ∀ c ∈ t, 32 ≤ c.toNat ∧ c.toNat < 127 ∧ c ≠ 34 ∧ c ≠ 38 ∧ c ≠ 60 ∧ c ≠ 62 ∧ c ≠ 92

/-- the decoder of JSON reads what `json.Marshal` writes of plain texts -/
def Codec.JsonOk (K : Codec) : Prop := ∀ t v, Plain t → Plain v → K.json (jsonEncode t v) = .ok (t, v)

/-! ## Lemmas -/

theorem name_no_colon (c : CurveId) : ∀ x ∈ c.name, x ≠ 58 := by cases c <;> decide +kernel

theorem name_length (c : CurveId) : 5 ≤ c.name.length ∧ c.name.length ≤ 10 := by cases c <;> decide +kernel

theorem name_plain (c : CurveId) : Plain c.name := by
  unfold Plain
  cases c <;> decide +kernel

theorem named_no_colon {n c} (h : Named n c) : ∀ x ∈ n, x ≠ 58 := by
  rcases h with rfl | ⟨rfl, _⟩ | ⟨rfl, _⟩
  · exact name_no_colon c
  · decide +kernel
  · decide +kernel

theorem named_length {n c} (h : Named n c) : 5 ≤ n.length ∧ n.length ≤ 10 := by
  rcases h with rfl | ⟨rfl, _⟩ | ⟨rfl, _⟩
  · exact name_length c
  · decide +kernel
  · decide +kernel

/-- C176: `GetCurveByName` knows exactly the ten names. -/
theorem C176_names (n : List UInt8) (c : CurveId) : getCurveByName n = some c ↔ Named n c := by
  constructor
  · intro h
    unfold getCurveByName at h
    unfold Named
    split_ifs at h with h1 h2 h3 h4 h5 h6 h7 h8 h9 h10 <;>
      (cases h; first | exact Or.inl ‹_› | exact Or.inr (Or.inl ⟨‹_›, rfl⟩) | exact Or.inr (Or.inr ⟨‹_›, rfl⟩))
  · rintro (rfl | ⟨rfl, rfl⟩ | ⟨rfl, rfl⟩)
    · cases c <;> decide +kernel
    · decide +kernel
    · decide +kernel

theorem takeWhile_name {z : UInt8} {n d : List UInt8} (h : ∀ x ∈ n, x ≠ z) :
    (n ++ z :: d).takeWhile (· ≠ z) = n := by
  induction n with
  | nil => simp
  | cons a n ih =>
    have ha : a ≠ z := h a (by simp)
    have := ih fun x hx => h x (by simp [hx])
    simp only [List.cons_append, List.takeWhile_cons, ha, ne_eq, not_false_eq_true, decide_true, if_true]
    rw [this]

theorem unmarshalScalar_named {n c d} (h : Named n c) : unmarshalScalar (n ++ 58 :: d) = .ok (c, d) := by
  unfold unmarshalScalar
  rw [takeWhile_name (named_no_colon h)]
  simp only []
  rw [List.take_left, (C176_names n c).2 h]
  show (if _ then _ else _) = _
  rw [if_neg (by simp)]
  simp

theorem unmarshalScalar_ok (input : List UInt8) (c d) :
    unmarshalScalar input = .ok (c, d) ↔ ∃ n, Named n c ∧ input = n ++ 58 :: d := by
  constructor
  · intro h
    unfold unmarshalScalar at h
    rw [Go.bind_eq_ok] at h
    obtain ⟨c', hc, h⟩ := h
    rw [Go.ofOption_eq_ok, C176_names] at hc
    split_ifs at h with hl
    simp only [Except.ok.injEq, Prod.mk.injEq] at h
    obtain ⟨rfl, rfl⟩ := h
    refine ⟨_, hc, ?_⟩
    generalize hi : (input.takeWhile (· ≠ 58)).length = i at *
    have hlt : i < input.length := by omega
    have hi58 : input[i] = 58 := by
      have h1 := List.takeWhile_append_dropWhile (p := (· ≠ (58 : UInt8))) (l := input)
      have h2 : input.dropWhile (· ≠ (58 : UInt8)) = input.drop i := by
        conv_rhs => rw [← h1, ← hi]
        rw [List.drop_left]
      have h3 : input.drop i ≠ [] := by
        intro hh
        rw [List.drop_eq_nil_iff] at hh
        omega
      have h4 := List.head_dropWhile_not (fun x : UInt8 => decide (x ≠ 58)) (l := input) (by rw [h2]; exact h3)
      have h5 : (input.dropWhile (fun x : UInt8 => decide (x ≠ 58))).head (by rw [h2]; exact h3) = input[i] := by
        simp only [h2, List.head_drop]
      rw [h5] at h4
      simpa using h4
    rw [← hi58, List.getElem_cons_drop, List.take_append_drop]
  · rintro ⟨n, h, rfl⟩
    exact unmarshalScalar_named h

/-- without a colon the name is the whole input, so a long input is refused -/
theorem unmarshalScalar_no_panic {input : List UInt8} (h : 38 ≤ input.length) : unmarshalScalar input ≠ Go.crash := by
  intro hc
  unfold unmarshalScalar at hc
  simp only [] at hc
  cases hg : getCurveByName (input.take (input.takeWhile (· ≠ (58 : UInt8))).length) with
  | none => rw [hg] at hc; cases hc
  | some c =>
    rw [hg] at hc
    rw [C176_names] at hg
    have := (named_length hg).2
    rw [List.length_take] at this
    have h3 : (input.takeWhile (· ≠ (58 : UInt8))).length ≤ input.length := (List.takeWhile_prefix _).length_le
    change (if _ then _ else _) = _ at hc
    split_ifs at hc with hl
    omega

theorem hexVal_lt {c : UInt8} {x : ℕ} (h : hexVal c = some x) : x < 16 := by
  unfold hexVal at h
  split_ifs at h <;> cases h <;> omega

theorem hexVal_digit : ∀ n < 16, hexVal (hexDigit n) = some n := by decide

theorem hexEncode_length (b : List UInt8) : (hexEncode b).length = 2 * b.length := by
  induction b with
  | nil => rfl
  | cons a t ih => simp only [hexEncode, List.length_cons, ih]; omega

theorem hexPairs_encode (b : List UInt8) : HexPairs (hexEncode b) b := by
  induction b with
  | nil => exact .nil
  | cons a t ih =>
    have ha := a.toNat_lt
    have h := HexPairs.cons (hexVal_digit (a.toNat / 16) (by omega)) (hexVal_digit (a.toNat % 16) (by omega)) ih
    rwa [Nat.div_add_mod, UInt8.ofNat_toNat] at h

theorem HexPairs.length {d b} (h : HexPairs d b) : d.length = 2 * b.length := by
  induction h with
  | nil => rfl
  | cons _ _ _ ih => simp only [List.length_cons, ih]; omega

theorem HexPairs.det {d b b'} (h : HexPairs d b) (h' : HexPairs d b') : b = b' := by
  induction h generalizing b' with
  | nil => cases h'; rfl
  | cons hx hy _ ih =>
    cases h' with
    | cons hx' hy' h' =>
      rw [hx] at hx'; rw [hy] at hy'
      cases hx'; cases hy'
      rw [ih h']

theorem hexDecode_ok (n : ℕ) (d b : List UInt8) : hexDecode n d = .ok b ↔ HexPairs d b ∧ b.length ≤ n := by
  induction n, d using hexDecode.induct generalizing b with
  | case1 n =>
    rw [hexDecode]
    constructor
    · intro h; cases h; exact ⟨.nil, Nat.zero_le _⟩
    · rintro ⟨h, _⟩; cases h; rfl
  | case2 n a =>
    rw [hexDecode]
    exact ⟨fun h => by (cases h), fun ⟨h, _⟩ => by (cases h)⟩
  | case3 n x y t ih =>
   cases n with
   | zero =>
    rw [hexDecode]
    simp only [Go.bind_eq_ok, Go.ofOption_eq_ok]
    refine ⟨fun ⟨_, _, _, _, h⟩ => by (cases h), fun ⟨h, hl⟩ => ?_⟩
    cases h
    simp at hl
   | succ m =>
    simp only [] at ih
    rw [hexDecode]
    simp only [Go.bind_eq_ok, Go.ofOption_eq_ok]
    constructor
    · rintro ⟨a, ha, c, hc, r, hr, h⟩
      cases h
      rw [ih] at hr
      exact ⟨.cons ha hc hr.1, by simpa using hr.2⟩
    · rintro ⟨h, hl⟩
      cases h with
      | cons ha hc h => exact ⟨_, ha, _, hc, _, (ih _).2 ⟨h, by simpa using hl⟩, rfl⟩

/-- the store past the end happens when one pair more than there is room for consists of digits -/
theorem hexDecode_panic (n : ℕ) (d : List UInt8) :
    hexDecode n d = Go.crash ↔ 2 * n + 2 ≤ d.length ∧ ∀ c ∈ d.take (2 * n + 2), hexVal c ≠ none := by
  induction n, d using hexDecode.induct with
  | case1 n => rw [hexDecode]; simp
  | case2 n a => rw [hexDecode]; simp
  | case3 n x y t ih =>
   cases n with
   | zero =>
    rw [hexDecode]
    cases hx : hexVal x <;> cases hy : hexVal y <;> simp [Go.ofOption, hx, hy]
   | succ m =>
    simp only [] at ih
    rw [hexDecode]
    have e : 2 * (m + 1) + 2 = (2 * m + 2) + 1 + 1 := by omega
    rw [e, List.take_succ_cons, List.take_succ_cons]
    cases hx : hexVal x with
    | none => simp [Go.ofOption, hx]
    | some a =>
      cases hy : hexVal y with
      | none => simp [Go.ofOption, hx, hy]
      | some b =>
        have : (do let r ← hexDecode m t; Except.ok (UInt8.ofNat (16 * a + b) :: r) : Go (List UInt8)) = Go.crash ↔
            hexDecode m t = Go.crash := by
          cases hexDecode m t with
          | ok r => exact ⟨fun h => by (cases h), fun h => by (cases h)⟩
          | error e => exact ⟨fun h => by (cases h; rfl), fun h => by (cases h; rfl)⟩
        simp only [Go.ofOption, Go.ok_bind]
        rw [this, ih]
        simp [hx, hy]

theorem hexDecodeString_ok (d b : List UInt8) : hexDecodeString d = .ok b ↔ HexPairs d b := by
  unfold hexDecodeString
  rw [hexDecode_ok]
  exact ⟨fun h => h.1, fun h => ⟨h, by have := h.length; omega⟩⟩

theorem hexDecodeString_no_panic (d : List UInt8) : hexDecodeString d ≠ Go.crash := by
  unfold hexDecodeString
  rw [Ne, hexDecode_panic]
  omega

theorem hexDecodeString_encode (b : List UInt8) : hexDecodeString (hexEncode b) = .ok b :=
  (hexDecodeString_ok _ _).2 (hexPairs_encode b)

theorem hex_plain (b : List UInt8) : Plain (hexEncode b) := by
  have key : ∀ n < 16, 32 ≤ (hexDigit n).toNat ∧ (hexDigit n).toNat < 127 ∧ hexDigit n ≠ 34 ∧ hexDigit n ≠ 38 ∧
      hexDigit n ≠ 60 ∧ hexDigit n ≠ 62 ∧ hexDigit n ≠ 92 := by decide
  induction b with
  | nil => intro c hc; cases hc
  | cons a t ih =>
    have ha := a.toNat_lt
    intro c hc
    simp only [hexEncode, List.mem_cons] at hc
    rcases hc with rfl | rfl | hc
    · exact key _ (by omega)
    · exact key _ (by omega)
    · exact ih c hc

theorem fitTo_eq {n : ℕ} {b : List UInt8} (h : b.length = n) : fitTo n b = b := by
  simp [fitTo, ← h]

section
variable {K : Codec}

theorem curve_of {s : ScalarV K} {c} (h : s.Of c) : s.curve = .ok c := by
  obtain ⟨t, v, p⟩ := s
  obtain ⟨h1, h2⟩ := h
  simp only at h1 h2
  subst h1 h2
  cases c <;> rfl

theorem curveSetBytes_ok (c : CurveId) (d : List UInt8) (s : ScalarV K) : curveSetBytes K c d = .ok s ↔
    ∃ v, K.setBytes c.scalarTy d = .ok v ∧ s = ⟨c.scalarTy, v, c.proto⟩ := by
  unfold curveSetBytes
  rw [Go.bind_eq_ok]
  exact exists_congr fun v => and_congr_right fun _ => ⟨fun h => by (cases h; rfl), fun h => by (rw [h])⟩

theorem curveSetBytes_of {s : ScalarV K} {c} (h : s.Of c) (hf : s.Faithful) :
    curveSetBytes K c (K.bytes s.ty s.val) = .ok s := by
  obtain ⟨t, v, p⟩ := s
  obtain ⟨h1, h2⟩ := h
  simp only at h1 h2
  subst h1 h2
  rw [curveSetBytes_ok]
  exact ⟨v, hf.2, rfl⟩

/-! ## Scalars -/

/-- C176: `UnmarshalBinary` inverts `MarshalBinary`, including the group the scalar belongs to. -/
theorem C176_binary_roundtrip {s : ScalarV K} {c} (h : s.Of c) (hf : s.Faithful) :
    ∃ enc, scalarMarshalBinary s = .ok enc ∧ unmarshalBinary K s.ty enc = .ok s := by
  refine ⟨c.name ++ 58 :: K.bytes s.ty s.val, ?_, ?_⟩
  · unfold scalarMarshalBinary
    rw [curve_of h, Go.ok_bind, fitTo_eq hf.1]
  · have hl := name_length c
    unfold unmarshalBinary scalarUnmarshalBinary
    rw [Go.guard_true (by simp only [List.length_append, List.length_cons, hf.1]; omega), Go.ok_bind,
      unmarshalScalar_named (Or.inl rfl), Go.ok_bind]
    simp only []
    rw [curveSetBytes_of h hf, Go.ok_bind, Go.guard_true rfl, Go.ok_bind]

/-- C176: `UnmarshalText` inverts `MarshalText`, including the group. -/
theorem C176_text_roundtrip {s : ScalarV K} {c} (h : s.Of c) (hf : s.Faithful) :
    ∃ enc, scalarMarshalText s = .ok enc ∧ unmarshalText K s.ty enc = .ok s := by
  have hh : (hexEncode (K.bytes s.ty s.val)).length = 64 := by rw [hexEncode_length, hf.1]
  refine ⟨c.name ++ 58 :: hexEncode (K.bytes s.ty s.val), ?_, ?_⟩
  · unfold scalarMarshalText
    rw [curve_of h, Go.ok_bind]
    simp only []
    rw [if_neg (by omega), fitTo_eq hh]
  · have hl := name_length c
    unfold unmarshalText scalarUnmarshalText
    rw [Go.guard_true (by simp only [List.length_append, List.length_cons, hh]; omega), Go.ok_bind,
      unmarshalScalar_named (Or.inl rfl), Go.ok_bind]
    simp only []
    rw [(hexDecode_ok 32 _ (K.bytes s.ty s.val)).2 ⟨hexPairs_encode _, hf.1.le⟩, Go.ok_bind, fitTo_eq hf.1,
      curveSetBytes_of h hf, Go.ok_bind, Go.guard_true rfl, Go.ok_bind]

/-- C176: `UnmarshalJSON` of `MarshalJSON` gives the value; the group is the one the receiver had before. -/
theorem C176_json_roundtrip (hj : K.JsonOk) {s : ScalarV K} {c} (h : s.Of c) (hf : s.Faithful) (r : ScalarV K)
    (hr : s.ty = r.ty) :
    ∃ enc, scalarMarshalJson s = .ok enc ∧ unmarshalJson r enc = .ok ⟨s.ty, s.val, r.point⟩ := by
  refine ⟨jsonEncode c.name (hexEncode (K.bytes s.ty s.val)), ?_, ?_⟩
  · unfold scalarMarshalJson
    rw [curve_of h, Go.ok_bind]
  · unfold unmarshalJson scalarUnmarshalJson
    rw [hj _ _ (name_plain c) (hex_plain _), Go.ok_bind]
    simp only []
    rw [(C176_names c.name c).2 (Or.inl rfl)]
    simp only [Go.ofOption, Go.ok_bind]
    rw [hexDecodeString_encode, Go.ok_bind, curveSetBytes_of h hf, Go.ok_bind, Go.guard_true hr, Go.ok_bind]

/-- C176: so a BLS scalar read by `UnmarshalJSON` into a new object has no group: `Point` and every `Marshal…` panic. -/
theorem C176_json_no_group (hj : K.JsonOk) {s : ScalarV K} {c} (h : s.Of c) (hf : s.Faithful)
    (hb : s.ty = .bls381 ∨ s.ty = .bls377) (r : ScalarV K) (hr : s.ty = r.ty) (hn : r.point = none) :
    ∃ enc s', scalarMarshalJson s = .ok enc ∧ unmarshalJson r enc = .ok s' ∧ s' ≠ s ∧ s'.curve = Go.crash ∧
      scalarMarshalBinary s' = Go.crash ∧ scalarMarshalText s' = Go.crash ∧ scalarMarshalJson s' = Go.crash := by
  obtain ⟨enc, h1, h2⟩ := C176_json_roundtrip hj h hf r hr
  have hc : (⟨s.ty, s.val, r.point⟩ : ScalarV K).curve = Go.crash := by
    obtain ⟨t, v, p⟩ := s
    rcases hb with hb | hb <;> (simp only at hb; subst hb; rw [hn]; rfl)
  refine ⟨enc, _, h1, h2, ?_, hc, ?_, ?_, ?_⟩
  · intro he
    rw [he, curve_of h] at hc
    cases hc
  · unfold scalarMarshalBinary; rw [hc]; rfl
  · unfold scalarMarshalText; rw [hc]; rfl
  · unfold scalarMarshalJson; rw [hc]; rfl

/-- C176: exactly what `UnmarshalBinary` accepts: a name, a colon and the bytes of a scalar of the receiver's type, as soon as
`SetBytes` accepts only 32 bytes. -/
theorem C176_binary_accept (hlen : ∀ t d v, K.setBytes t d = .ok v → t ≠ .bls381gt → t ≠ .bls377gt → d.length = 32)
    (t : ScalarTy) (input : List UInt8) (s : ScalarV K) : unmarshalBinary K t input = .ok s ↔
    ∃ n c d v, Named n c ∧ input = n ++ 58 :: d ∧ c.scalarTy = t ∧ K.setBytes c.scalarTy d = .ok v ∧
      s = ⟨c.scalarTy, v, c.proto⟩ := by
  unfold unmarshalBinary scalarUnmarshalBinary
  constructor
  · intro h
    rw [Go.bind_eq_ok] at h
    obtain ⟨sc, h, h'⟩ := h
    rw [Go.guard_bind_eq_ok] at h h'
    obtain ⟨ht, h'⟩ := h'
    cases h'
    obtain ⟨_, h⟩ := h
    rw [Go.bind_eq_ok] at h
    obtain ⟨⟨c, d⟩, hu, h⟩ := h
    rw [unmarshalScalar_ok] at hu
    obtain ⟨n, hn, rfl⟩ := hu
    simp only [] at h
    rw [curveSetBytes_ok] at h
    obtain ⟨v, hv, rfl⟩ := h
    exact ⟨n, c, d, v, hn, rfl, ht, hv, rfl⟩
  · rintro ⟨n, c, d, v, hn, rfl, ht, hv, rfl⟩
    have hl := named_length hn
    have hd := hlen _ _ _ hv (by cases c <;> decide) (by cases c <;> decide)
    rw [Go.guard_true (by simp only [List.length_append, List.length_cons, hd]; omega), Go.ok_bind,
      unmarshalScalar_named hn, Go.ok_bind]
    simp only []
    rw [(curveSetBytes_ok c d _).2 ⟨v, hv, rfl⟩, Go.ok_bind, Go.guard_true ht, Go.ok_bind]

/-- C176: exactly what `UnmarshalText` accepts: at least 70 bytes, a name, a colon and at most 64 hexadecimal digits, completed
with zero bytes at the end. -/
theorem C176_text_accept (t : ScalarTy) (input : List UInt8) (s : ScalarV K) : unmarshalText K t input = .ok s ↔
    ∃ n c d b v, Named n c ∧ input = n ++ 58 :: d ∧ 70 ≤ input.length ∧ HexPairs d b ∧ b.length ≤ 32 ∧ c.scalarTy = t ∧
      K.setBytes c.scalarTy (b ++ List.replicate (32 - b.length) 0) = .ok v ∧ s = ⟨c.scalarTy, v, c.proto⟩ := by
  unfold unmarshalText scalarUnmarshalText
  have hfit : ∀ b : List UInt8, b.length ≤ 32 → fitTo 32 b = b ++ List.replicate (32 - b.length) 0 := by
    intro b hb
    rw [fitTo, List.take_of_length_le hb]
  constructor
  · intro h
    rw [Go.bind_eq_ok] at h
    obtain ⟨sc, h, h'⟩ := h
    rw [Go.guard_bind_eq_ok] at h h'
    obtain ⟨ht, h'⟩ := h'
    cases h'
    obtain ⟨hl, h⟩ := h
    rw [Go.bind_eq_ok] at h
    obtain ⟨⟨c, d⟩, hu, h⟩ := h
    rw [unmarshalScalar_ok] at hu
    obtain ⟨n, hn, rfl⟩ := hu
    simp only [] at h
    rw [Go.bind_eq_ok] at h
    obtain ⟨b, hb, h⟩ := h
    rw [hexDecode_ok] at hb
    rw [curveSetBytes_ok, hfit b hb.2] at h
    obtain ⟨v, hv, rfl⟩ := h
    exact ⟨n, c, d, b, v, hn, rfl, hl, hb.1, hb.2, ht, hv, rfl⟩
  · rintro ⟨n, c, d, b, v, hn, rfl, hl, hb, hb', ht, hv, rfl⟩
    rw [Go.guard_true hl, Go.ok_bind, unmarshalScalar_named hn, Go.ok_bind]
    simp only []
    rw [(hexDecode_ok 32 d b).2 ⟨hb, hb'⟩, Go.ok_bind, hfit b hb', (curveSetBytes_ok c _ _).2 ⟨v, hv, rfl⟩, Go.ok_bind,
      Go.guard_true ht, Go.ok_bind]

/-- C176: a shorter text is accepted: whenever name and digits make up 70 bytes, the missing bytes are zeros at the end, that
is at the least significant end for the big-endian curves. -/
theorem C176_text_short (c : CurveId) {b : List UInt8} (hb : b.length ≤ 32) (hl : 69 ≤ c.name.length + 2 * b.length) :
    unmarshalText K c.scalarTy (c.name ++ 58 :: hexEncode b) =
    unmarshalText K c.scalarTy (c.name ++ 58 :: hexEncode (b ++ List.replicate (32 - b.length) 0)) := by
  have hn : ∀ b : List UInt8, b.length ≤ 32 → 69 ≤ c.name.length + 2 * b.length →
      unmarshalText K c.scalarTy (c.name ++ 58 :: hexEncode b) =
      (do let sc ← curveSetBytes K c (b ++ List.replicate (32 - b.length) 0)
          Go.guard (sc.ty = c.scalarTy)
          .ok sc) := by
    intro b hb hl
    unfold unmarshalText scalarUnmarshalText
    rw [Go.guard_true (by simp only [List.length_append, List.length_cons, hexEncode_length]; omega), Go.ok_bind,
      unmarshalScalar_named (Or.inl rfl), Go.ok_bind]
    simp only []
    rw [(hexDecode_ok 32 _ b).2 ⟨hexPairs_encode _, hb⟩, Go.ok_bind, fitTo, List.take_of_length_le hb]
  rw [hn b hb hl, hn _ (by simp; omega) (by have := (name_length c).1; simp; omega)]
  have e : (b ++ List.replicate (32 - b.length) (0 : UInt8)) ++
      List.replicate (32 - (b ++ List.replicate (32 - b.length) (0 : UInt8)).length) 0 =
      b ++ List.replicate (32 - b.length) 0 := by
    have : 32 - (b ++ List.replicate (32 - b.length) (0 : UInt8)).length = 0 := by simp; omega
    rw [this, List.replicate_zero, List.append_nil]
  rw [e]

/-- C176: `UnmarshalText` panics exactly on inputs with a known name and 66 or more hexadecimal digits after the colon, when
`SetBytes` does not panic. -/
theorem C176_text_panic (hp : ∀ t d, K.setBytes t d ≠ Go.crash) (t : ScalarTy) (input : List UInt8) :
    unmarshalText K t input = Go.crash ↔
    ∃ n c d, Named n c ∧ input = n ++ 58 :: d ∧ 66 ≤ d.length ∧ ∀ x ∈ d.take 66, hexVal x ≠ none := by
  unfold unmarshalText scalarUnmarshalText
  constructor
  · intro h
    by_cases hl : 32 * 2 + 5 + 1 ≤ input.length
    · rw [Go.guard_true hl, Go.ok_bind] at h
      cases hu : unmarshalScalar input with
      | error e =>
        rw [hu] at h
        have : e = .panic := by
          cases e
          · cases h
          · rfl
        rw [this] at hu
        exact absurd hu (unmarshalScalar_no_panic (by omega))
      | ok cd =>
        obtain ⟨c, d⟩ := cd
        rw [hu, Go.ok_bind] at h
        simp only [] at h
        rw [unmarshalScalar_ok] at hu
        obtain ⟨n, hn, rfl⟩ := hu
        refine ⟨n, c, d, hn, rfl, ?_⟩
        rw [← hexDecode_panic 32 d]
        cases hd : hexDecode 32 d with
        | error e =>
          rw [hd] at h
          cases e
          · cases h
          · rfl
        | ok b =>
          rw [hd, Go.ok_bind] at h
          cases hs : K.setBytes c.scalarTy (fitTo 32 b) with
          | error e =>
            rw [curveSetBytes, hs] at h
            cases e
            · cases h
            · exact absurd hs (hp _ _)
          | ok v =>
            rw [curveSetBytes, hs, Go.ok_bind, Go.ok_bind] at h
            unfold Go.guard at h
            split_ifs at h <;> cases h
    · rw [Go.guard_false hl] at h
      cases h
  · rintro ⟨n, c, d, hn, rfl, hd⟩
    have hl := (named_length hn).1
    rw [Go.guard_true (by simp only [List.length_append, List.length_cons]; omega), Go.ok_bind,
      unmarshalScalar_named hn, Go.ok_bind]
    simp only []
    rw [(hexDecode_panic 32 d).2 hd]
    rfl

/-- C176: `UnmarshalBinary` never panics, when `SetBytes` does not; `UnmarshalJSON` neither. -/
theorem C176_no_panic (hp : ∀ t d, K.setBytes t d ≠ Go.crash) (hj : ∀ i, K.json i ≠ Go.crash) (t : ScalarTy)
    (r : ScalarV K) (input : List UInt8) :
    unmarshalBinary K t input ≠ Go.crash ∧ unmarshalJson r input ≠ Go.crash := by
  have hs : ∀ c d, curveSetBytes K c d ≠ Go.crash := by
    intro c d h
    unfold curveSetBytes at h
    cases hs : K.setBytes c.scalarTy d with
    | error e =>
      rw [hs] at h
      cases e
      · cases h
      · exact hp _ _ hs
    | ok v => rw [hs] at h; cases h
  constructor
  · intro h
    unfold unmarshalBinary scalarUnmarshalBinary at h
    by_cases hl : 32 + 1 + 5 ≤ input.length
    · rw [Go.guard_true hl, Go.ok_bind] at h
      cases hu : unmarshalScalar input with
      | error e =>
        rw [hu] at h
        cases e
        · cases h
        · exact unmarshalScalar_no_panic (by omega) hu
      | ok cd =>
        obtain ⟨c, d⟩ := cd
        rw [hu, Go.ok_bind] at h
        simp only [] at h
        cases hc : curveSetBytes K c d with
        | error e =>
          rw [hc] at h
          cases e
          · cases h
          · exact hs _ _ hc
        | ok v =>
          rw [hc, Go.ok_bind] at h
          unfold Go.guard at h
          split_ifs at h <;> cases h
    · rw [Go.guard_false hl] at h; cases h
  · intro h
    unfold unmarshalJson scalarUnmarshalJson at h
    cases hu : K.json input with
    | error e =>
      rw [hu] at h
      cases e
      · cases h
      · exact hj _ hu
    | ok cd =>
      rw [hu, Go.ok_bind] at h
      simp only [] at h
      cases hg : getCurveByName cd.1 with
      | none => rw [hg] at h; cases h
      | some c =>
        rw [hg] at h
        simp only [Go.ofOption, Go.ok_bind] at h
        cases hd : hexDecodeString cd.2 with
        | error e =>
          rw [hd] at h
          cases e
          · cases h
          · exact hexDecodeString_no_panic _ hd
        | ok b =>
          rw [hd, Go.ok_bind] at h
          cases hc : curveSetBytes K c b with
          | error e =>
            rw [hc] at h
            cases e
            · cases h
            · exact hs _ _ hc
          | ok v =>
            rw [hc, Go.ok_bind] at h
            unfold Go.guard at h
            split_ifs at h <;> cases h

/-- C176: different scalars have different binary and text encodings, also across curves. -/
theorem C176_injective {s s' : ScalarV K} {c c'} (h : s.Of c) (h' : s'.Of c') (hf : s.Faithful) (hf' : s'.Faithful) :
    (scalarMarshalBinary s = scalarMarshalBinary s' → s = s') ∧ (scalarMarshalText s = scalarMarshalText s' → s = s') := by
  constructor
  · intro he
    obtain ⟨e1, h1, h2⟩ := C176_binary_roundtrip h hf
    obtain ⟨e2, h3, h4⟩ := C176_binary_roundtrip h' hf'
    have : e1 = e2 := by rw [h1, h3] at he; exact Except.ok.inj he
    subst this
    unfold unmarshalBinary at h2 h4
    rw [Go.bind_eq_ok] at h2 h4
    obtain ⟨a, ha, h2⟩ := h2
    obtain ⟨b, hb, h4⟩ := h4
    rw [Go.guard_bind_eq_ok] at h2 h4
    rw [ha] at hb
    cases hb
    exact (Except.ok.inj h2.2).symm.trans (Except.ok.inj h4.2)
  · intro he
    obtain ⟨e1, h1, h2⟩ := C176_text_roundtrip h hf
    obtain ⟨e2, h3, h4⟩ := C176_text_roundtrip h' hf'
    have : e1 = e2 := by rw [h1, h3] at he; exact Except.ok.inj he
    subst this
    unfold unmarshalText at h2 h4
    rw [Go.bind_eq_ok] at h2 h4
    obtain ⟨a, ha, h2⟩ := h2
    obtain ⟨b, hb, h4⟩ := h4
    rw [Go.guard_bind_eq_ok] at h2 h4
    rw [ha] at hb
    cases hb
    exact (Except.ok.inj h2.2).symm.trans (Except.ok.inj h4.2)

/-- C176: an element of a target group cannot be read back by any of the three decoders; `MarshalText` of it panics; and
`MarshalBinary` keeps only its first 32 bytes, so different elements are marshalled alike. -/
theorem C176_target (t : ScalarTy) (ht : t = .bls381gt ∨ t = .bls377gt) (v w : K.S t) (r : ScalarV K) (hr : r.ty = t) :
    (∀ input s, unmarshalBinary K t input ≠ .ok s ∧ unmarshalText K t input ≠ .ok s ∧ unmarshalJson r input ≠ .ok s) ∧
    (32 < (K.bytes t v).length → scalarMarshalText (⟨t, v, none⟩ : ScalarV K) = Go.crash) ∧
    (32 ≤ (K.bytes t v).length → 32 ≤ (K.bytes t w).length → (K.bytes t v).take 32 = (K.bytes t w).take 32 →
      scalarMarshalBinary (⟨t, v, none⟩ : ScalarV K) = scalarMarshalBinary (⟨t, w, none⟩ : ScalarV K)) := by
  have hne : ∀ c : CurveId, c.scalarTy ≠ t := by
    intro c h
    rcases ht with rfl | rfl <;> cases c <;> cases h
  have hc : ∀ u : K.S t, ∃ c, (⟨t, u, none⟩ : ScalarV K).curve = .ok c ∧ ∀ u', (⟨t, u', none⟩ : ScalarV K).curve = .ok c := by
    intro u
    rcases ht with rfl | rfl
    · exact ⟨_, rfl, fun _ => rfl⟩
    · exact ⟨_, rfl, fun _ => rfl⟩
  have hty : ∀ c d (s : ScalarV K), curveSetBytes K c d = .ok s → s.ty ≠ t := by
    intro c d s h
    rw [curveSetBytes_ok] at h
    obtain ⟨_, _, rfl⟩ := h
    exact hne c
  refine ⟨fun input s => ⟨fun h => ?_, fun h => ?_, fun h => ?_⟩, fun hl => ?_, fun h1 h2 h3 => ?_⟩
  · unfold unmarshalBinary scalarUnmarshalBinary at h
    rw [Go.bind_eq_ok] at h
    obtain ⟨sc, h, h'⟩ := h
    rw [Go.guard_bind_eq_ok] at h h'
    obtain ⟨_, h⟩ := h
    rw [Go.bind_eq_ok] at h
    obtain ⟨⟨c, d⟩, _, h⟩ := h
    exact hty _ _ _ h h'.1
  · unfold unmarshalText scalarUnmarshalText at h
    rw [Go.bind_eq_ok] at h
    obtain ⟨sc, h, h'⟩ := h
    rw [Go.guard_bind_eq_ok] at h h'
    obtain ⟨_, h⟩ := h
    rw [Go.bind_eq_ok] at h
    obtain ⟨⟨c, d⟩, _, h⟩ := h
    simp only [] at h
    rw [Go.bind_eq_ok] at h
    obtain ⟨b, _, h⟩ := h
    exact hty _ _ _ h h'.1
  · unfold unmarshalJson scalarUnmarshalJson at h
    rw [Go.bind_eq_ok] at h
    obtain ⟨sc, h, h'⟩ := h
    rw [Go.guard_bind_eq_ok] at h'
    rw [Go.bind_eq_ok] at h
    obtain ⟨⟨ty, value⟩, _, h⟩ := h
    simp only [] at h
    rw [Go.bind_eq_ok] at h
    obtain ⟨c, _, h⟩ := h
    rw [Go.bind_eq_ok] at h
    obtain ⟨b, _, h⟩ := h
    exact hty _ _ _ h (h'.1.trans hr)
  · obtain ⟨c, hc, _⟩ := hc v
    unfold scalarMarshalText
    rw [hc, Go.ok_bind]
    simp only []
    rw [if_pos (by rw [hexEncode_length]; omega)]
  · obtain ⟨c, hc, hc'⟩ := hc v
    unfold scalarMarshalBinary
    rw [hc, hc', Go.ok_bind, Go.ok_bind]
    have e : ∀ b : List UInt8, 32 ≤ b.length → fitTo 32 b = b.take 32 := by
      intro b hb
      have : 32 - b.length = 0 := by omega
      rw [fitTo, this, List.replicate_zero, List.append_nil]
    simp only []
    rw [e _ h1, e _ h2, h3]

/-! ## Points -/

theorem curveDecompress_ok (c : CurveId) (d : List UInt8) (p : PointV K) : curveDecompress K c d = .ok p ↔
    ∃ v, K.decompress c d = .ok v ∧ p = ⟨c, v⟩ := by
  unfold curveDecompress
  rw [Go.bind_eq_ok]
  exact exists_congr fun v => and_congr_right fun _ => ⟨fun h => by (cases h; rfl), fun h => by (rw [h])⟩

/-- C176: the three round trips of points, for points that survive compression with at least 32 bytes. -/
theorem C176_point_roundtrip (hj : K.JsonOk) (p : PointV K) (hl : 32 ≤ (K.compress p.curve p.val).length)
    (hf : K.decompress p.curve (K.compress p.curve p.val) = .ok p.val) :
    pointAssert p.curve (pointUnmarshalBinary K (pointMarshalBinary p)) = .ok p ∧
    pointAssert p.curve (pointUnmarshalText K (pointMarshalText p)) = .ok p ∧
    pointAssert p.curve (pointUnmarshalJson K (pointMarshalJson p)) = .ok p := by
  have hn := name_length p.curve
  have hd : curveDecompress K p.curve (K.compress p.curve p.val) = .ok p := (curveDecompress_ok _ _ _).2 ⟨_, hf, rfl⟩
  have ha : pointAssert p.curve (.ok p) = .ok p := by
    unfold pointAssert
    rw [Go.ok_bind, Go.guard_true rfl, Go.ok_bind]
  refine ⟨?_, ?_, ?_⟩
  · unfold pointUnmarshalBinary pointMarshalBinary
    rw [Go.guard_true (by simp only [List.length_append, List.length_cons]; omega), Go.ok_bind,
      unmarshalScalar_named (Or.inl rfl), Go.ok_bind]
    simp only []
    rw [hd, ha]
  · unfold pointUnmarshalText pointMarshalText
    rw [Go.guard_true (by simp only [List.length_append, List.length_cons, hexEncode_length]; omega), Go.ok_bind,
      unmarshalScalar_named (Or.inl rfl), Go.ok_bind]
    simp only []
    have e : ((hexEncode (K.compress p.curve p.val)).length + 1) / 2 = (K.compress p.curve p.val).length := by
      rw [hexEncode_length]; omega
    rw [e, (hexDecode_ok _ _ (K.compress p.curve p.val)).2 ⟨hexPairs_encode _, le_rfl⟩, Go.ok_bind, fitTo_eq rfl, hd, ha]
  · unfold pointUnmarshalJson pointMarshalJson
    rw [hj _ _ (name_plain _) (hex_plain _), Go.ok_bind]
    simp only []
    rw [(C176_names _ p.curve).2 (Or.inl rfl)]
    simp only [Go.ofOption, Go.ok_bind]
    rw [hexDecodeString_encode, Go.ok_bind, hd, ha]

/-- C176: exactly what the decoders of points accept.  A name of another curve is refused, also when its point types have
encodings of the same length; the text is not completed with zeros. -/
theorem C176_point_accept (c : CurveId) (input : List UInt8) (p : PointV K) :
    (pointAssert c (pointUnmarshalBinary K input) = .ok p ↔ 38 ≤ input.length ∧
      ∃ n d v, Named n c ∧ input = n ++ 58 :: d ∧ K.decompress c d = .ok v ∧ p = ⟨c, v⟩) ∧
    (pointAssert c (pointUnmarshalText K input) = .ok p ↔ 70 ≤ input.length ∧
      ∃ n d b v, Named n c ∧ input = n ++ 58 :: d ∧ HexPairs d b ∧ K.decompress c b = .ok v ∧ p = ⟨c, v⟩) := by
  have ha : ∀ r : Go (PointV K), pointAssert c r = .ok p ↔ r = .ok p ∧ p.curve = c := by
    intro r
    unfold pointAssert
    rw [Go.bind_eq_ok]
    constructor
    · rintro ⟨q, rfl, h⟩
      rw [Go.guard_bind_eq_ok] at h
      obtain ⟨h1, h2⟩ := h
      cases h2
      exact ⟨rfl, h1⟩
    · rintro ⟨rfl, h⟩
      exact ⟨p, rfl, by rw [Go.guard_true h, Go.ok_bind]⟩
  rw [ha, ha]
  constructor
  · unfold pointUnmarshalBinary
    rw [Go.guard_bind_eq_ok]
    constructor
    · rintro ⟨⟨hl, h⟩, hc⟩
      rw [Go.bind_eq_ok] at h
      obtain ⟨⟨c', d⟩, hu, h⟩ := h
      rw [unmarshalScalar_ok] at hu
      obtain ⟨n, hn, rfl⟩ := hu
      simp only [] at h
      rw [curveDecompress_ok] at h
      obtain ⟨v, hv, rfl⟩ := h
      simp only at hc
      subst hc
      exact ⟨hl, n, d, v, hn, rfl, hv, rfl⟩
    · rintro ⟨hl, n, d, v, hn, rfl, hv, rfl⟩
      refine ⟨⟨hl, ?_⟩, rfl⟩
      rw [unmarshalScalar_named hn, Go.ok_bind]
      simp only []
      exact (curveDecompress_ok _ _ _).2 ⟨v, hv, rfl⟩
  · unfold pointUnmarshalText
    rw [Go.guard_bind_eq_ok]
    have hfit : ∀ d b : List UInt8, HexPairs d b → fitTo ((d.length + 1) / 2) b = b := by
      intro d b h
      exact fitTo_eq (by rw [h.length]; omega)
    constructor
    · rintro ⟨⟨hl, h⟩, hc⟩
      rw [Go.bind_eq_ok] at h
      obtain ⟨⟨c', d⟩, hu, h⟩ := h
      rw [unmarshalScalar_ok] at hu
      obtain ⟨n, hn, rfl⟩ := hu
      simp only [] at h
      rw [Go.bind_eq_ok] at h
      obtain ⟨b, hb, h⟩ := h
      rw [hexDecode_ok] at hb
      rw [curveDecompress_ok, hfit d b hb.1] at h
      obtain ⟨v, hv, rfl⟩ := h
      simp only at hc
      subst hc
      exact ⟨hl, n, d, b, v, hn, rfl, hb.1, hv, rfl⟩
    · rintro ⟨hl, n, d, b, v, hn, rfl, hb, hv, rfl⟩
      refine ⟨⟨hl, ?_⟩, rfl⟩
      rw [unmarshalScalar_named hn, Go.ok_bind]
      simp only []
      rw [(hexDecode_ok _ d b).2 ⟨hb, by have := hb.length; omega⟩, Go.ok_bind, hfit d b hb]
      exact (curveDecompress_ok _ _ _).2 ⟨v, hv, rfl⟩

/-- C176: the decoders of points never panic, when decompression does not. -/
theorem C176_point_no_panic (hp : ∀ c d, K.decompress c d ≠ Go.crash) (hj : ∀ i, K.json i ≠ Go.crash) (input : List UInt8) :
    pointUnmarshalBinary K input ≠ Go.crash ∧ pointUnmarshalText K input ≠ Go.crash ∧
    pointUnmarshalJson K input ≠ Go.crash := by
  have hs : ∀ c d, curveDecompress K c d ≠ Go.crash := by
    intro c d h
    unfold curveDecompress at h
    cases hs : K.decompress c d with
    | error e =>
      rw [hs] at h
      cases e
      · cases h
      · exact hp _ _ hs
    | ok v => rw [hs] at h; cases h
  refine ⟨fun h => ?_, fun h => ?_, fun h => ?_⟩
  · unfold pointUnmarshalBinary at h
    by_cases hl : 32 + 1 + 5 ≤ input.length
    · rw [Go.guard_true hl, Go.ok_bind] at h
      cases hu : unmarshalScalar input with
      | error e =>
        rw [hu] at h
        cases e
        · cases h
        · exact unmarshalScalar_no_panic (by omega) hu
      | ok cd =>
        rw [hu, Go.ok_bind] at h
        exact hs _ _ h
    · rw [Go.guard_false hl] at h; cases h
  · unfold pointUnmarshalText at h
    by_cases hl : 32 * 2 + 1 + 5 ≤ input.length
    · rw [Go.guard_true hl, Go.ok_bind] at h
      cases hu : unmarshalScalar input with
      | error e =>
        rw [hu] at h
        cases e
        · cases h
        · exact unmarshalScalar_no_panic (by omega) hu
      | ok cd =>
        rw [hu, Go.ok_bind] at h
        simp only [] at h
        cases hd : hexDecode ((cd.2.length + 1) / 2) cd.2 with
        | error e =>
          rw [hd] at h
          cases e
          · cases h
          · rw [hexDecode_panic] at hd; omega
        | ok b =>
          rw [hd, Go.ok_bind] at h
          exact hs _ _ h
    · rw [Go.guard_false hl] at h; cases h
  · unfold pointUnmarshalJson at h
    cases hu : K.json input with
    | error e =>
      rw [hu] at h
      cases e
      · cases h
      · exact hj _ hu
    | ok cd =>
      rw [hu, Go.ok_bind] at h
      simp only [] at h
      cases hg : getCurveByName cd.1 with
      | none => rw [hg] at h; cases h
      | some c =>
        rw [hg] at h
        simp only [Go.ofOption, Go.ok_bind] at h
        cases hd : hexDecodeString cd.2 with
        | error e =>
          rw [hd] at h
          cases e
          · cases h
          · exact hexDecodeString_no_panic _ hd
        | ok b =>
          rw [hd, Go.ok_bind] at h
          exact hs _ _ h

end

/-! ## The concrete scalar fields -/

/-- the codec with the native fields of secp256k1, P-256, BLS12-381 and Pallas; the rest as in `R` -/
def stdCodec (R : Codec) : Codec where
  S := fun t => match t with
    | .k256 => Limbs
    | .p256 => Limbs
    | .bls381 => Limbs
    | .pallas => Limbs
    | t => R.S t
  bytes := fun t => match t with
    | .k256 => scBytes k256Scalar
    | .p256 => scBytes p256Scalar
    | .bls381 => scBytes blsScalar
    | .pallas => bytesOf pastaFq
    | .ed25519 => R.bytes .ed25519
    | .bls377 => R.bytes .bls377
    | .bls381gt => R.bytes .bls381gt
    | .bls377gt => R.bytes .bls377gt
  setBytes := fun t => match t with
    | .k256 => scSetBytes k256Scalar
    | .p256 => scSetBytes p256Scalar
    | .bls381 => scSetBytes blsScalar
    | .pallas => fun b => do
      Go.guard (b.length = 32)
      pastaSetBytes pastaFq b
    | .ed25519 => R.setBytes .ed25519
    | .bls377 => R.setBytes .bls377
    | .bls381gt => R.setBytes .bls381gt
    | .bls377gt => R.setBytes .bls377gt
  Pt := R.Pt
  compress := R.compress
  decompress := R.decompress
  json := R.json

/-- C176: every scalar of secp256k1, P-256 and of either group of BLS12-381 survives the binary and the text encoding. -/
theorem C176_std (R : Codec) (x : k256Fq.Ring) (y : p256Fq.Ring) (z : blsFq.Ring) (s : ScalarV (stdCodec R))
    (hs : s = ⟨.k256, encode k256Fq x, none⟩ ∨ s = ⟨.p256, encode p256Fq y, none⟩ ∨
      s = ⟨.bls381, encode blsFq z, some .bls381g1⟩ ∨ s = ⟨.bls381, encode blsFq z, some .bls381g2⟩) :
    ∃ b t, scalarMarshalBinary s = .ok b ∧ unmarshalBinary (stdCodec R) s.ty b = .ok s ∧
      scalarMarshalText s = .ok t ∧ unmarshalText (stdCodec R) s.ty t = .ok s := by
  have key : (∃ c, s.Of c) ∧ s.Faithful := by
    rcases hs with rfl | rfl | rfl | rfl
    · exact ⟨⟨.k256, rfl, rfl⟩, (C177_bytes k256Scalar_ok x).1, (C177_roundtrip k256Scalar_ok x).1⟩
    · exact ⟨⟨.p256, rfl, rfl⟩, (C177_bytes p256Scalar_ok y).1, (C177_roundtrip p256Scalar_ok y).1⟩
    · exact ⟨⟨.bls381g1, rfl, rfl⟩, (C177_bytes blsScalar_ok z).1, (C177_roundtrip blsScalar_ok z).1⟩
    · exact ⟨⟨.bls381g2, rfl, rfl⟩, (C177_bytes blsScalar_ok z).1, (C177_roundtrip blsScalar_ok z).1⟩
  obtain ⟨⟨c, hc⟩, hf⟩ := key
  obtain ⟨b, h1, h2⟩ := C176_binary_roundtrip hc hf
  obtain ⟨t, h3, h4⟩ := C176_text_roundtrip hc hf
  exact ⟨b, t, h1, h2, h3, h4⟩

/-- C176: a Pallas scalar does not always: the encoding of `-2^63` that `MarshalBinary` returns is refused. -/
theorem C176_pallas (R : Codec) : ∃ b, scalarMarshalBinary
      (⟨.pallas, encode pastaFq (-(2 ^ 63)), none⟩ : ScalarV (stdCodec R)) = .ok b ∧
    unmarshalBinary (stdCodec R) .pallas b = Go.err := by
  have hb : (bytesOf pastaFq (encode pastaFq (-(2 ^ 63)))).length = 32 := by
    rw [C57_bytes pastaFq_shape.ok, leBytes_length]
  refine ⟨CurveId.pallas.name ++ 58 :: bytesOf pastaFq (encode pastaFq (-(2 ^ 63))), ?_, ?_⟩
  · show (Except.ok _ : Go _) = _
    rw [← fitTo_eq hb]
    rfl
  · have hl := name_length .pallas
    unfold unmarshalBinary scalarUnmarshalBinary
    rw [Go.guard_true (by simp only [List.length_append, List.length_cons, hb]; omega), Go.ok_bind,
      unmarshalScalar_named (Or.inl rfl), Go.ok_bind]
    have : curveSetBytes (stdCodec R) .pallas (bytesOf pastaFq (encode pastaFq (-(2 ^ 63)))) = Go.err := by
      show ((Go.guard _ >>= fun _ => pastaSetBytes pastaFq _) >>= _) = _
      rw [Go.guard_true hb, Go.ok_bind, C112_roundtrip_fails pastaFq pastaFq_shape]
      rfl
    simp only []
    rw [this]
    rfl

/-! ## The hypotheses can be met -/

/-- a decoder of two-entry maps -/
def toyJson (i : List UInt8) : Go (List UInt8 × List UInt8) :=
  let t := (i.drop 9).takeWhile (· ≠ 34)
  .ok (t, ((i.drop 9).drop (t.length + 11)).takeWhile (· ≠ 34))

/-- one-byte values, encoded with 31 zeros -/
def toyCodec : Codec where
  S := fun _ => UInt8
  bytes := fun _ v => v :: List.replicate 31 0
  setBytes := fun _ b => if b.length = 32 ∧ b.tail = List.replicate 31 0 then .ok (b.headD 0) else Go.err
  Pt := fun _ => UInt8
  compress := fun _ v => v :: List.replicate 31 0
  decompress := fun _ b => if b.length = 32 ∧ b.tail = List.replicate 31 0 then .ok (b.headD 0) else Go.err
  json := toyJson

theorem toyCodec_json : toyCodec.JsonOk := by
  intro t v ht hv
  have h1 : (jsonEncode t v).drop 9 = t ++ 34 :: (ascii ",\"value\":\"" ++ (v ++ 34 :: ascii "}")) := by
    have : ascii "{\"type\":\"" = [123, 34, 116, 121, 112, 101, 34, 58, 34] := by decide +kernel
    have h2 : ascii "\",\"value\":\"" = 34 :: ascii ",\"value\":\"" := by decide +kernel
    have h3 : ascii "\"}" = 34 :: ascii "}" := by decide +kernel
    simp only [jsonEncode, this, h2, h3, List.append_assoc, List.cons_append, List.nil_append, List.drop_succ_cons,
      List.drop_zero]
  have h4 : ∀ w : List UInt8, (t ++ 34 :: (ascii ",\"value\":\"" ++ w)).drop (t.length + 11) = w := by
    intro w
    have e : t ++ 34 :: (ascii ",\"value\":\"" ++ w) = (t ++ 34 :: ascii ",\"value\":\"") ++ w := by simp
    rw [e]
    have hl : (t ++ 34 :: ascii ",\"value\":\"").length = t.length + 11 := by
      have : (ascii ",\"value\":\"").length = 10 := by decide +kernel
      simp [this]
    rw [← hl, List.drop_left]
  show toyJson _ = _
  unfold toyJson
  rw [h1]
  rw [takeWhile_name (fun x hx => (ht x hx).2.2.1)]
  simp only []
  rw [h4, takeWhile_name (fun x hx => (hv x hx).2.2.1)]

/-- the value of a result of `toyCodec`; `none` for a panic, 255 for an error -/
def toyVal : Go (ScalarV toyCodec) → Option UInt8
  | .ok s => some (show UInt8 from s.val)
  | .error .error => some 255
  | .error .panic => none

example : (⟨.bls381, (7 : UInt8), some .bls381g2⟩ : ScalarV toyCodec).Of .bls381g2 ∧
    (⟨.bls381, (7 : UInt8), some .bls381g2⟩ : ScalarV toyCodec).Faithful ∧ toyCodec.JsonOk :=
  ⟨⟨rfl, rfl⟩, ⟨by decide, rfl⟩, toyCodec_json⟩

example : toyVal (unmarshalText toyCodec .k256 (ascii "secp256k1:0A" ++ List.replicate 62 48)) = some 10 ∧
    toyVal (unmarshalText toyCodec .k256 (ascii "secp256k1:0A" ++ List.replicate 58 48)) = some 10 ∧
    toyVal (unmarshalText toyCodec .k256 (ascii "secp256k1:0A" ++ List.replicate 56 48)) = some 255 ∧
    toyVal (unmarshalText toyCodec .k256 (ascii "secp256k1:0A" ++ List.replicate 64 48)) = none := by decide +kernel

end Verif.Curves
