import Verif.Bls381.GLemmas

/-!
# The encodings of the points: lemmas shared by `G1` and `G2`
-/

set_option linter.unusedSectionVars false

namespace Verif.Bls381

open Verif.Primes Verif.Native WeierstrassCurve.Affine

/-! ## `fp.pow` and `fp.Sqrt` on residues -/

theorem powLimb1_spec (base : Fq) (e : UInt64) (n : ℕ) (hn : n ≤ 64) (res : Fq) :
    powLimb1 base e n res = res ^ 2 ^ n * base ^ (e.toNat % 2 ^ n) := by
  induction n generalizing res with
  | zero => rw [powLimb1]; simp [Nat.mod_one]
  | succ n ih =>
    have hbit : (((e >>> UInt64.ofNat n) &&& 1) == 1) = decide (e.toNat / 2 ^ n % 2 = 1) := by
      rw [Bool.eq_iff_iff, beq_iff_eq, decide_eq_true_eq, ← UInt64.toNat_inj, UInt64.toNat_and]
      have h1 : ∀ a : ℕ, a &&& (1 : UInt64).toNat = a % 2 := fun a => Nat.and_two_pow_sub_one_eq_mod _ 1
      rw [h1, UInt64.toNat_shiftRight, UInt64.toNat_ofNat', Nat.shiftRight_eq_div_pow]
      have : n % 2 ^ 64 % 64 = n := by omega
      rw [this]; rfl
    have hsplit : e.toNat % 2 ^ (n + 1) = 2 ^ n * (e.toNat / 2 ^ n % 2) + e.toNat % 2 ^ n := by
      rw [pow_succ, Nat.mod_mul, add_comm]
    rw [powLimb1, ih (by omega), hbit, hsplit, pow_add, pow_mul]
    rcases Nat.mod_two_eq_zero_or_one (e.toNat / 2 ^ n) with h | h
    · simp only [h, sel]
      rw [if_neg (by decide)]; ring
    · simp only [h, sel]
      rw [if_pos (by decide)]; ring

theorem pow1_eq (base : Fq) (e : List UInt64) : pow1 base e = base ^ limbVal e := by
  induction e with
  | nil => simp [pow1, limbVal]
  | cons w ws ih =>
    have hstep : pow1 base (w :: ws) = powLimb1 base w 64 (pow1 base ws) := by
      rw [pow1, List.foldr_cons]; rfl
    rw [hstep, powLimb1_spec _ _ _ le_rfl, ih, Nat.mod_eq_of_lt (toNat_lt w), limbVal_cons, pow_add, ← pow_mul]
    ring

theorem sqrt1_spec (f a : Fq) : ((sqrt1 f a).2 = true ↔ IsSquare a) ∧
    ((sqrt1 f a).2 = true → (sqrt1 f a).1 * (sqrt1 f a).1 = a) ∧ ((sqrt1 f a).2 = false → (sqrt1 f a).1 = f) := by
  have he : limbVal fpSqrtExp = (blsp + 1) / 4 := by decide +kernel
  have hr : IsSquare a → pow1 a fpSqrtExp * pow1 a fpSqrtExp = a := by
    rintro ⟨r, rfl⟩
    rw [pow1_eq, he, ← pow_add]
    rcases eq_or_ne r 0 with h0 | h0
    · rw [h0, mul_zero, zero_pow (by decide +kernel)]
    · have h1 := ZMod.pow_card_sub_one_eq_one h0
      have h2 : 2 * ((blsp + 1) / 4 + (blsp + 1) / 4) = (blsp - 1) + 2 := by decide +kernel
      rw [← sq, ← pow_mul, h2, pow_add, h1, one_mul, sq]
  simp only [sqrt1]
  generalize pow1 a fpSqrtExp = z at hr
  by_cases h : z * z = a
  · simp only [h, decide_true, sel, if_true, true_iff, forall_const]
    exact ⟨⟨z, h.symm⟩, by simp, by simp⟩
  · simp only [h, decide_false, sel]
    exact ⟨by simpa using fun hs => h (hr hs), by simp, by simp⟩

/-! ## Flag bits -/

/-- a decidable property of all bytes can be checked on all bytes -/
instance decAllBytes (P : UInt8 → Prop) [DecidablePred P] : Decidable (∀ b, P b) :=
  decidable_of_iff (∀ n : Fin 256, P (UInt8.ofNat n.1))
    ⟨fun h b => by simpa using h ⟨b.toNat, b.toNat_lt⟩, fun h n => h _⟩

theorem orHead_cons (f b : UInt8) (bs : List UInt8) : orHead f (b :: bs) = (b ||| f) :: bs := rfl

theorem byte_flags : ∀ b : UInt8, b < 0x20 →
    ((b ||| 0x80) &&& 0x1F = b ∧ (b ||| 0x80 ||| 0x20) &&& 0x1F = b ∧ b &&& 0x1F = b) := by
  decide +kernel

theorem byte_back : ∀ b : UInt8, (b >>> 7) &&& 1 = 1 → (b >>> 6) &&& 1 ≠ 1 →
    (b &&& 0x1F) ||| 0x80 ||| 0 ||| (if (b >>> 5) &&& 1 == 1 then 0x20 else 0) = b := by
  decide +kernel

/-! ## Generic codec -/

section Generic
variable {F : Type} [Field F] [DecidableEq F]

/-- what `G1` and `G2` do differently: writing and reading a coordinate, the order on ordinates, `Sqrt` -/
structure PtCodec (F : Type) where
  len : ℕ
  enc : F → List UInt8
  dec : List UInt8 → F × Bool
  lex : F → Bool
  sqrt : F → F × Bool

structure PtCodec.Lawful (c : PtCodec F) : Prop where
  enc_len : ∀ x, (c.enc x).length = c.len
  enc_head : ∀ x, ∃ h t, c.enc x = h :: t ∧ h < 0x20
  dec_enc : ∀ x, c.dec (c.enc x) = (x, true)
  enc_dec : ∀ l, l.length = c.len → (c.dec l).2 = true → c.enc (c.dec l).1 = l
  lex_neg : ∀ y, y ≠ 0 → c.lex (-y) = !c.lex y
  sqrt_iff : ∀ a, (c.sqrt a).2 = true ↔ IsSquare a
  sqrt_eq : ∀ a, (c.sqrt a).2 = true → (c.sqrt a).1 * (c.sqrt a).1 = a
  enc_zero : c.enc 0 = List.replicate c.len 0

variable (c : PtCodec F) (b : F) (m3b : F → F)

def cTo (g : Proj F) : List UInt8 :=
  let t := gToAffine g
  let out := c.enc t.x
  let isInfinity := decide (g.z = 0)
  let out := orHead 0x80 out
  let out := orHead (if isInfinity then 0x40 else 0) out
  orHead (if isInfinity then 0 else if c.lex t.y then 0x20 else 0) out

def cFrom (input : List UInt8) : Go (Proj F) := do
  let b0 := input.headD 0
  Go.guard (((b0 >>> 7) &&& 1 == 1) = true)
  if (b0 >>> 6) &&& 1 == 1 then return gIdentity
  let x := c.dec (maskHead input)
  Go.guard (x.2 = true)
  let s := c.sqrt (x.1 * x.1 * x.1 + b)
  Go.guard (s.2 = true)
  let y := sel s.1 (-s.1) (xor (c.lex s.1) ((b0 >>> 5) &&& 1 == 1))
  let p : Proj F := ⟨x.1, y, 1⟩
  Go.guard (gInSubgroup m3b p = true)
  return p

def cUTo (g : Proj F) : List UInt8 :=
  let t := gToAffine g
  orHead (if g.z = 0 then 0x40 else 0) (c.enc t.x ++ c.enc t.y)

def cUFrom (input : List UInt8) : Go (Proj F) := do
  if (input.headD 0 >>> 6) &&& 1 == 1 then return gIdentity
  let x := c.dec (maskHead (input.take c.len))
  Go.guard (x.2 = true)
  let y := c.dec (input.drop c.len)
  Go.guard (y.2 = true)
  let p : Proj F := ⟨x.1, y.1, 1⟩
  Go.guard (gIsOnCurve b p = true)
  Go.guard (gInSubgroup m3b p = true)
  return p

variable {c b m3b}

theorem cFrom_infinity {b0 : UInt8} (t : List UInt8) (h : b0 &&& 0xC0 = 0xC0) :
    cFrom c b m3b (b0 :: t) = .ok gIdentity := by
  have hb : ∀ b0 : UInt8, b0 &&& 0xC0 = 0xC0 → ((b0 >>> 7) &&& 1 == 1) = true ∧ ((b0 >>> 6) &&& 1 == 1) = true := by
    decide +kernel
  obtain ⟨h1, h2⟩ := hb b0 h
  simp only [cFrom, List.headD_cons, h1, h2, Go.guard_true, Go.ok_bind, if_true]
  rfl

theorem cFrom_flag {b0 : UInt8} (t : List UInt8) (h : b0 &&& 0x80 = 0) :
    cFrom c b m3b (b0 :: t) = Go.err := by
  have hb : ∀ b0 : UInt8, b0 &&& 0x80 = 0 → ((b0 >>> 7) &&& 1 == 1) = false := by decide +kernel
  simp only [cFrom, List.headD_cons, hb b0 h]
  rfl

theorem cUFrom_infinity {b0 : UInt8} (t : List UInt8) (h : b0 &&& 0x40 = 0x40) :
    cUFrom c b m3b (b0 :: t) = .ok gIdentity := by
  have hb : ∀ b0 : UInt8, b0 &&& 0x40 = 0x40 → ((b0 >>> 6) &&& 1 == 1) = true := by decide +kernel
  simp only [cUFrom, List.headD_cons, hb b0 h, if_true]
  rfl

theorem cTo_zero (hc : c.Lawful) {p : Proj F} (h : p.z = 0) :
    ∃ t, c.enc 0 = 0 :: t ∧ cTo c p = 0xC0 :: t := by
  obtain ⟨hd, t, he, hlt⟩ := hc.enc_head 0
  have h0 : hd = 0 := by
    have h1 := hc.enc_zero
    rw [he] at h1
    rcases hl : c.len with _ | n
    · rw [hl] at h1; cases h1
    · rw [hl, List.replicate_succ] at h1
      exact (List.cons.inj h1).1
  subst h0
  refine ⟨t, he, ?_⟩
  have hx : (gToAffine p).x = 0 := by simp [gToAffine, h, sel]
  simp only [cTo, hx, h, he, orHead_cons, decide_true, if_true]
  rfl

theorem cTo_some (hc : c.Lawful) {p : Proj F} {x y : F} (h : p.z ≠ 0) (ha : gToAffine p = ⟨x, y, 1⟩) :
    ∃ hd t, c.enc x = hd :: t ∧ hd < 0x20 ∧ cTo c p = (hd ||| 0x80 ||| 0 ||| (if c.lex y then 0x20 else 0)) :: t := by
  obtain ⟨hd, t, he, hlt⟩ := hc.enc_head x
  refine ⟨hd, t, he, hlt, ?_⟩
  simp only [cTo, ha, h, he, orHead_cons, decide_false]
  rfl

theorem flags_some : ∀ (b : UInt8), b < 0x20 → ∀ s : Bool,
    let v := b ||| 0x80 ||| 0 ||| (if s then (0x20 : UInt8) else 0)
    ((v >>> 7) &&& 1 == 1) = true ∧ ((v >>> 6) &&& 1 == 1) = false ∧ ((v >>> 5) &&& 1 == 1) = s ∧
      v &&& 0x1F = b := by
  decide +kernel

/-- the point decoded from a valid abscissa, with the ordinate of the given order bit -/
theorem root_choice (hc : c.Lawful) {y a : F} (hy : y ≠ 0) (ha : y * y = a) :
    (c.sqrt a).2 = true ∧ sel (c.sqrt a).1 (-(c.sqrt a).1) (xor (c.lex (c.sqrt a).1) (c.lex y)) = y := by
  have h1 : (c.sqrt a).2 = true := (hc.sqrt_iff a).2 ⟨y, ha.symm⟩
  refine ⟨h1, ?_⟩
  have h2 := hc.sqrt_eq a h1
  generalize (c.sqrt a).1 = s at h2 ⊢
  rw [← ha, mul_self_eq_mul_self_iff] at h2
  rcases h2 with rfl | rfl
  · simp [sel]
  · rw [hc.lex_neg y hy]
    cases c.lex y <;> simp [sel]

theorem cFrom_cTo_some (hc : c.Lawful) (h : GOk b m3b) {p : Proj F} {x y : F} {hn}
    (hp : GRep p (Point.some x y hn : (curve 0 b).Point)) (ha : gToAffine p = ⟨x, y, 1⟩) :
    cFrom c b m3b (cTo c p) = (Go.guard (gInSubgroup m3b ⟨x, y, 1⟩ = true) >>= fun _ => .ok ⟨x, y, 1⟩) := by
  have hz : p.z ≠ 0 := (gRep_some.1 hp).1
  obtain ⟨hd, t, he, hlt, ht⟩ := cTo_some hc hz ha
  obtain ⟨f7, f6, f5, f0⟩ := flags_some hd hlt (c.lex y)
  have hq : GRep (⟨x, y, 1⟩ : Proj F) (Point.some x y hn : (curve 0 b).Point) :=
    gRep_some.2 ⟨one_ne_zero, by simp, by simp⟩
  have hy : y ≠ 0 := by simpa using hq.y_ne h
  have heq : y * y = x * x * x + b := by
    have := equation_curve.1 hn.1
    linear_combination this
  obtain ⟨r1, r2⟩ := root_choice hc hy heq
  rw [ht]
  generalize hv : (hd ||| 0x80 ||| 0 ||| (if c.lex y then (0x20 : UInt8) else 0)) = v at f7 f6 f5 f0 ⊢
  simp only [cFrom, List.headD_cons, f7, f6, f5, maskHead, f0, ← he, hc.dec_enc, r1, r2,
    Go.guard_true, Go.ok_bind]
  rfl

theorem cFrom_cTo (hc : c.Lawful) (h : GOk b m3b) {p : Proj F} {P : (curve 0 b).Point} (hp : GRep p P)
    (hr : blsr • P = 0) : cFrom c b m3b (cTo c p) = .ok (if p.z = 0 then gIdentity else gToAffine p) := by
  rcases gToAffine_rep hp with ⟨rfl, ha⟩ | ⟨x, y, hn, rfl, ha⟩
  · have hz : p.z = 0 := hp.z_eq_zero.2 rfl
    obtain ⟨t, -, ht⟩ := cTo_zero hc hz
    rw [ht, if_pos hz, cFrom_infinity t (by decide)]
  · have hz : p.z ≠ 0 := (gRep_some.1 hp).1
    have hq : GRep (⟨x, y, 1⟩ : Proj F) (Point.some x y hn : (curve 0 b).Point) :=
      gRep_some.2 ⟨one_ne_zero, by simp, by simp⟩
    rw [cFrom_cTo_some hc h hp ha, (gInSubgroup_iff h hq).2 hr, if_neg hz, ha]
    rfl

theorem cFrom_cTo_refused (hc : c.Lawful) (h : GOk b m3b) {p : Proj F} {P : (curve 0 b).Point} (hp : GRep p P)
    (hr : blsr • P ≠ 0) : cFrom c b m3b (cTo c p) = Go.err := by
  rcases gToAffine_rep hp with ⟨rfl, ha⟩ | ⟨x, y, hn, rfl, ha⟩
  · exact absurd (smul_zero _) hr
  · have hq : GRep (⟨x, y, 1⟩ : Proj F) (Point.some x y hn : (curve 0 b).Point) :=
      gRep_some.2 ⟨one_ne_zero, by simp, by simp⟩
    rw [cFrom_cTo_some hc h hp ha, Go.guard_false (fun h' => hr ((gInSubgroup_iff h hq).1 h'))]
    rfl

theorem cTo_injective (hc : c.Lawful) (h : GOk b m3b) {p q : Proj F} {P Q : (curve 0 b).Point} (hp : GRep p P)
    (hq : GRep q Q) : cTo c p = cTo c q ↔ P = Q := by
  constructor
  · intro e
    rcases gToAffine_rep hp with ⟨rfl, ha⟩ | ⟨x, y, hn, rfl, ha⟩ <;>
      rcases gToAffine_rep hq with ⟨rfl, ha'⟩ | ⟨x', y', hn', rfl, ha'⟩
    · rfl
    · obtain ⟨t, -, ht⟩ := cTo_zero hc (hp.z_eq_zero.2 rfl)
      obtain ⟨hd, t', -, hlt, ht'⟩ := cTo_some hc (gRep_some.1 hq).1 ha'
      rw [ht, ht'] at e
      have f6 := (flags_some hd hlt (c.lex y')).2.1
      rw [← (List.cons.inj e).1] at f6
      exact absurd f6 (by decide)
    · obtain ⟨t, -, ht⟩ := cTo_zero hc (hq.z_eq_zero.2 rfl)
      obtain ⟨hd, t', -, hlt, ht'⟩ := cTo_some hc (gRep_some.1 hp).1 ha
      rw [ht, ht'] at e
      have f6 := (flags_some hd hlt (c.lex y)).2.1
      rw [(List.cons.inj e).1] at f6
      exact absurd f6 (by decide)
    · obtain ⟨hd, t, he, hlt, ht⟩ := cTo_some hc (gRep_some.1 hp).1 ha
      obtain ⟨hd', t', he', hlt', ht'⟩ := cTo_some hc (gRep_some.1 hq).1 ha'
      obtain ⟨-, -, f5, f0⟩ := flags_some hd hlt (c.lex y)
      obtain ⟨-, -, f5', f0'⟩ := flags_some hd' hlt' (c.lex y')
      rw [ht, ht'] at e
      obtain ⟨e1, e2⟩ := List.cons.inj e
      rw [e1] at f5 f0
      have hl : c.lex y = c.lex y' := f5.symm.trans f5'
      have hhd : hd = hd' := f0.symm.trans f0'
      have hx : x = x' := by
        have e3 : c.enc x = c.enc x' := by rw [he, he', hhd, e2]
        have := congrArg (fun l => (c.dec l).1) e3
        simpa [hc.dec_enc] using this
      subst hx
      have hy : y ^ 2 = y' ^ 2 := by rw [equation_curve.1 hn.1, equation_curve.1 hn'.1]
      have hne : y ≠ 0 := by
        intro h0
        exact h.no x (by rw [← equation_curve.1 hn.1, h0]; ring)
      rcases sq_eq_sq_iff_eq_or_eq_neg.1 hy with rfl | hy
      · rfl
      · have hne' : y' ≠ 0 := fun h0 => hne (by rw [hy, h0, neg_zero])
        rw [hy, hc.lex_neg _ hne'] at hl
        cases hb : c.lex y' <;> rw [hb] at hl <;> exact absurd hl (by decide)
  · rintro rfl
    rcases gToAffine_rep hp with ⟨rfl, ha⟩ | ⟨x, y, hn, rfl, ha⟩
    · obtain ⟨t, h1, ht⟩ := cTo_zero hc (hp.z_eq_zero.2 rfl)
      obtain ⟨t', h2, ht'⟩ := cTo_zero hc (hq.z_eq_zero.2 rfl)
      rw [ht, ht', (List.cons.inj (h1.symm.trans h2)).2]
    · rcases gToAffine_rep hq with ⟨h0, -⟩ | ⟨x', y', hn', h0, ha'⟩
      · cases h0
      · rw [Point.some.injEq] at h0
        obtain ⟨rfl, rfl⟩ := h0
        obtain ⟨hd, t, he, hlt, ht⟩ := cTo_some hc (gRep_some.1 hp).1 ha
        obtain ⟨hd', t', he', hlt', ht'⟩ := cTo_some hc (gRep_some.1 hq).1 ha'
        obtain ⟨rfl, rfl⟩ := List.cons.inj (he.symm.trans he')
        rw [ht, ht']

/-- everything `cFrom` accepts -/
theorem cFrom_ok (hc : c.Lawful) (h : GOk b m3b) {l : List UInt8} {q : Proj F} (hq : cFrom c b m3b l = .ok q) :
    (∃ P : (curve 0 b).Point, GRep q P ∧ blsr • P = 0) ∧
      (l.length = c.len → (l.headD 0 >>> 6) &&& 1 ≠ 1 → cTo c q = l) := by
  simp only [cFrom] at hq
  rw [Go.guard_bind_eq_ok] at hq
  obtain ⟨h7, hq⟩ := hq
  by_cases h6 : ((l.headD 0 >>> 6) &&& 1 == 1) = true
  · rw [if_pos h6] at hq
    obtain rfl : gIdentity = q := Except.ok.inj hq
    exact ⟨⟨0, gRep_identity, by simp⟩, fun _ h0 => absurd (by simpa using h6) h0⟩
  · rw [if_neg h6, Go.guard_bind_eq_ok] at hq
    obtain ⟨hx, hq⟩ := hq
    rw [Go.guard_bind_eq_ok] at hq
    obtain ⟨hs, hq⟩ := hq
    rw [Go.guard_bind_eq_ok] at hq
    obtain ⟨hsub, hq⟩ := hq
    set x := (c.dec (maskHead l)).1 with hxd
    set s := (c.sqrt (x * x * x + b)).1 with hsd
    set y := sel s (-s) (xor (c.lex s) ((l.headD 0 >>> 5) &&& 1 == 1)) with hyd
    obtain rfl : (⟨x, y, 1⟩ : Proj F) = q := Except.ok.inj hq
    have hss : s * s = x * x * x + b := hc.sqrt_eq _ hs
    have hyy : y ^ 2 = x ^ 3 + 0 * x + b := by
      have : y * y = s * s := by
        rw [hyd, sel]; split <;> ring
      linear_combination this.trans hss
    have hy : y ≠ 0 := fun h0 => h.no x (by rw [← hyy, h0]; ring)
    have hn := nonsingular_curve h.two hy hyy
    have hrep : GRep (⟨x, y, 1⟩ : Proj F) (Point.some x y hn : (curve 0 b).Point) :=
      gRep_some.2 ⟨one_ne_zero, by simp, by simp⟩
    refine ⟨⟨_, hrep, (gInSubgroup_iff h hrep).1 hsub⟩, fun hlen _ => ?_⟩
    have ha : gToAffine (⟨x, y, 1⟩ : Proj F) = ⟨x, y, 1⟩ := by simp [gToAffine, sel]
    obtain ⟨hd, t, he, hlt, ht⟩ := cTo_some hc (p := ⟨x, y, 1⟩) one_ne_zero ha
    rw [ht]
    rcases l with _ | ⟨b0, bs⟩
    · exact absurd h7 (by decide)
    · have hml : (maskHead (b0 :: bs)).length = c.len := hlen
      have hdec := hc.enc_dec _ hml hx
      rw [he] at hdec
      obtain ⟨e1, e2⟩ := List.cons.inj hdec
      have hlex : c.lex y = ((b0 >>> 5) &&& 1 == 1) := by
        have hs0 : s ≠ 0 := by
          intro h0
          rw [hyd, h0] at hy
          apply hy
          rw [sel]; split <;> simp
        rw [hyd, List.headD_cons, sel]
        rcases hcs : c.lex s <;> rcases hb0 : ((b0 >>> 5) &&& 1 == 1) <;>
          simp [hcs, hc.lex_neg s hs0]
      rw [e2, hlex, e1, byte_back b0 (by simpa using h7) (by simpa using h6)]

/-! uncompressed -/

theorem cUTo_zero (hc : c.Lawful) {p : Proj F} (h : p.z = 0) :
    ∃ t, cUTo c p = 0x40 :: t ∧ 0 :: t = List.replicate (c.len + c.len) 0 := by
  obtain ⟨t, h1, -⟩ := cTo_zero hc h
  refine ⟨t ++ c.enc 0, ?_, ?_⟩
  · have hx : (gToAffine p).x = 0 := by simp [gToAffine, h, sel]
    have hy : (gToAffine p).y = 0 := by simp [gToAffine, h, sel]
    simp only [cUTo, hx, hy, h, h1, if_true, List.cons_append, orHead_cons]
    rfl
  · rw [← List.cons_append, ← h1, hc.enc_zero, List.replicate_append_replicate]

theorem cUTo_some {p : Proj F} {x y : F} (h : p.z ≠ 0) (ha : gToAffine p = ⟨x, y, 1⟩) :
    cUTo c p = c.enc x ++ c.enc y := by
  simp only [cUTo, ha, h, if_false]
  rcases c.enc x ++ c.enc y with _ | ⟨b0, t⟩
  · rfl
  · rw [orHead_cons]; simp

theorem flags_zero : ∀ b : UInt8, b < 0x20 → ((b >>> 6) &&& 1 == 1) = false ∧ b &&& 0x1F = b := by
  decide +kernel

theorem maskHead_enc (hc : c.Lawful) (x : F) : maskHead (c.enc x) = c.enc x := by
  obtain ⟨hd, t, he, hlt⟩ := hc.enc_head x
  rw [he, maskHead, (flags_zero hd hlt).2]

theorem cUFrom_cUTo_some (hc : c.Lawful) (h : GOk b m3b) {p : Proj F} {x y : F} {hn}
    (hp : GRep p (Point.some x y hn : (curve 0 b).Point)) (ha : gToAffine p = ⟨x, y, 1⟩) :
    cUFrom c b m3b (cUTo c p) = (Go.guard (gInSubgroup m3b ⟨x, y, 1⟩ = true) >>= fun _ => .ok ⟨x, y, 1⟩) := by
  have hz : p.z ≠ 0 := (gRep_some.1 hp).1
  have hq : GRep (⟨x, y, 1⟩ : Proj F) (Point.some x y hn : (curve 0 b).Point) :=
    gRep_some.2 ⟨one_ne_zero, by simp, by simp⟩
  have hon := (gIsOnCurve_iff h (⟨x, y, 1⟩ : Proj F) (by simp)).2 ⟨_, hq⟩
  obtain ⟨hd, t, he, hlt⟩ := hc.enc_head x
  have hhead : (c.enc x ++ c.enc y).headD 0 = hd := by rw [he]; rfl
  rw [cUTo_some hz ha]
  simp only [cUFrom, hhead, (flags_zero hd hlt).1, List.take_left' (hc.enc_len x),
    List.drop_left' (hc.enc_len x), maskHead_enc hc, hc.dec_enc, hon, Go.guard_true, Go.ok_bind]
  rfl

theorem cUFrom_cUTo (hc : c.Lawful) (h : GOk b m3b) {p : Proj F} {P : (curve 0 b).Point} (hp : GRep p P)
    (hr : blsr • P = 0) : cUFrom c b m3b (cUTo c p) = .ok (if p.z = 0 then gIdentity else gToAffine p) := by
  rcases gToAffine_rep hp with ⟨rfl, ha⟩ | ⟨x, y, hn, rfl, ha⟩
  · have hz : p.z = 0 := hp.z_eq_zero.2 rfl
    obtain ⟨t, ht, -⟩ := cUTo_zero hc hz
    rw [ht, if_pos hz, cUFrom_infinity t (by decide)]
  · have hz : p.z ≠ 0 := (gRep_some.1 hp).1
    have hq : GRep (⟨x, y, 1⟩ : Proj F) (Point.some x y hn : (curve 0 b).Point) :=
      gRep_some.2 ⟨one_ne_zero, by simp, by simp⟩
    rw [cUFrom_cUTo_some hc h hp ha, (gInSubgroup_iff h hq).2 hr, if_neg hz, ha]
    rfl

theorem cUFrom_cUTo_refused (hc : c.Lawful) (h : GOk b m3b) {p : Proj F} {P : (curve 0 b).Point} (hp : GRep p P)
    (hr : blsr • P ≠ 0) : cUFrom c b m3b (cUTo c p) = Go.err := by
  rcases gToAffine_rep hp with ⟨rfl, ha⟩ | ⟨x, y, hn, rfl, ha⟩
  · exact absurd (smul_zero _) hr
  · have hq : GRep (⟨x, y, 1⟩ : Proj F) (Point.some x y hn : (curve 0 b).Point) :=
      gRep_some.2 ⟨one_ne_zero, by simp, by simp⟩
    rw [cUFrom_cUTo_some hc h hp ha, Go.guard_false (fun h' => hr ((gInSubgroup_iff h hq).1 h'))]
    rfl

theorem cUTo_length (hc : c.Lawful) (p : Proj F) : (cUTo c p).length = c.len + c.len := by
  have ho : ∀ (f : UInt8) (l : List UInt8), (orHead f l).length = l.length := by
    rintro f (_ | ⟨a, l⟩) <;> rfl
  rw [cUTo, ho, List.length_append, hc.enc_len, hc.enc_len]

theorem cTo_length (hc : c.Lawful) (p : Proj F) : (cTo c p).length = c.len := by
  have ho : ∀ (f : UInt8) (l : List UInt8), (orHead f l).length = l.length := by
    rintro f (_ | ⟨a, l⟩) <;> rfl
  rw [cTo, ho, ho, ho, hc.enc_len]

theorem cUFrom_ok (hc : c.Lawful) (h : GOk b m3b) {l : List UInt8} {q : Proj F} (hq : cUFrom c b m3b l = .ok q) :
    (∃ P : (curve 0 b).Point, GRep q P ∧ blsr • P = 0) ∧
      (l.length = c.len + c.len → (l.headD 0 >>> 6) &&& 1 ≠ 1 → cUTo c q = maskHead l) := by
  simp only [cUFrom] at hq
  by_cases h6 : ((l.headD 0 >>> 6) &&& 1 == 1) = true
  · rw [if_pos h6] at hq
    obtain rfl : gIdentity = q := Except.ok.inj hq
    exact ⟨⟨0, gRep_identity, by simp⟩, fun _ h0 => absurd (by simpa using h6) h0⟩
  · rw [if_neg h6, Go.guard_bind_eq_ok] at hq
    obtain ⟨hx, hq⟩ := hq
    rw [Go.guard_bind_eq_ok] at hq
    obtain ⟨hy, hq⟩ := hq
    rw [Go.guard_bind_eq_ok] at hq
    obtain ⟨hon, hq⟩ := hq
    rw [Go.guard_bind_eq_ok] at hq
    obtain ⟨hsub, hq⟩ := hq
    set x := (c.dec (maskHead (l.take c.len))).1 with hxd
    set y := (c.dec (l.drop c.len)).1 with hyd
    obtain rfl : (⟨x, y, 1⟩ : Proj F) = q := Except.ok.inj hq
    obtain ⟨P, hP⟩ := (gIsOnCurve_iff h (⟨x, y, 1⟩ : Proj F) (by simp)).1 hon
    refine ⟨⟨P, hP, (gInSubgroup_iff h hP).1 hsub⟩, fun hlen _ => ?_⟩
    have ha : gToAffine (⟨x, y, 1⟩ : Proj F) = ⟨x, y, 1⟩ := by simp [gToAffine, sel]
    rw [cUTo_some (p := ⟨x, y, 1⟩) one_ne_zero ha]
    have hm : ∀ l : List UInt8, (maskHead l).length = l.length := by
      rintro (_ | ⟨a, l⟩) <;> rfl
    rw [hxd, hc.enc_dec _ (by rw [hm, List.length_take]; omega) hx, hyd,
      hc.enc_dec _ (by rw [List.length_drop]; omega) hy]
    have hpos : 0 < c.len := by
      rw [← hc.enc_len 0]
      obtain ⟨hd, t, he, -⟩ := hc.enc_head 0
      rw [he]; simp
    rcases l with _ | ⟨a, l⟩
    · simp at hlen; omega
    · obtain ⟨n, hn⟩ : ∃ n, c.len = n + 1 := ⟨c.len - 1, by omega⟩
      rw [hn, List.take_succ_cons, List.drop_succ_cons, maskHead, maskHead, List.cons_append, List.take_append_drop]

theorem cUTo_injective (hc : c.Lawful) {p q : Proj F} {P Q : (curve 0 b).Point} (hp : GRep p P)
    (hq : GRep q Q) : cUTo c p = cUTo c q ↔ P = Q := by
  have key : ∀ {p : Proj F} {q : Proj F} {x y : F}, p.z = 0 → q.z ≠ 0 → gToAffine q = ⟨x, y, 1⟩ →
      cUTo c p ≠ cUTo c q := by
    intro p q x y hz hz' ha e
    obtain ⟨t, ht, -⟩ := cUTo_zero hc hz
    obtain ⟨hd, t', he, hlt⟩ := hc.enc_head x
    rw [ht, cUTo_some hz' ha, he, List.cons_append] at e
    rw [← (List.cons.inj e).1] at hlt
    exact absurd hlt (by decide)
  constructor
  · intro e
    rcases gToAffine_rep hp with ⟨rfl, ha⟩ | ⟨x, y, hn, rfl, ha⟩ <;>
      rcases gToAffine_rep hq with ⟨rfl, ha'⟩ | ⟨x', y', hn', rfl, ha'⟩
    · rfl
    · exact absurd e (key (hp.z_eq_zero.2 rfl) (gRep_some.1 hq).1 ha')
    · exact absurd e.symm (key (hq.z_eq_zero.2 rfl) (gRep_some.1 hp).1 ha)
    · rw [cUTo_some (gRep_some.1 hp).1 ha, cUTo_some (gRep_some.1 hq).1 ha'] at e
      obtain ⟨e1, e2⟩ := List.append_inj e (by rw [hc.enc_len, hc.enc_len])
      have hx := congrArg (fun l => (c.dec l).1) e1
      have hy := congrArg (fun l => (c.dec l).1) e2
      simp only [hc.dec_enc] at hx hy
      subst hx hy
      rfl
  · rintro rfl
    rcases gToAffine_rep hp with ⟨rfl, ha⟩ | ⟨x, y, hn, rfl, ha⟩
    · obtain ⟨t, ht, h1⟩ := cUTo_zero hc (hp.z_eq_zero.2 rfl)
      obtain ⟨t', ht', h2⟩ := cUTo_zero hc (hq.z_eq_zero.2 rfl)
      rw [ht, ht', (List.cons.inj (h1.trans h2.symm)).2]
    · rcases gToAffine_rep hq with ⟨h0, -⟩ | ⟨x', y', hn', h0, ha'⟩
      · cases h0
      · rw [Point.some.injEq] at h0
        obtain ⟨rfl, rfl⟩ := h0
        rw [cUTo_some (gRep_some.1 hp).1 ha, cUTo_some (gRep_some.1 hq).1 ha']

/-- bits 7 and 5 of the first byte are ignored -/
theorem cUFrom_bits (hlen : 0 < c.len) (b0 : UInt8) (t : List UInt8) :
    cUFrom c b m3b (b0 :: t) = cUFrom c b m3b ((b0 &&& 0x5F) :: t) := by
  have hb : ∀ b0 : UInt8, ((b0 >>> 6) &&& 1 == 1) = (((b0 &&& 0x5F) >>> 6) &&& 1 == 1) ∧
      b0 &&& 0x1F = (b0 &&& 0x5F) &&& 0x1F := by decide +kernel
  obtain ⟨h1, h2⟩ := hb b0
  obtain ⟨n, hn⟩ : ∃ n, c.len = n + 1 := ⟨c.len - 1, by omega⟩
  simp only [cUFrom, List.headD_cons, h1, hn, List.take_succ_cons, List.drop_succ_cons, maskHead, h2]

end Generic

end Verif.Bls381
