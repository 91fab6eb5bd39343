import Verif.Fiat.Sound
import Verif.Fiat.Bytes
import Verif.Fiat.K256Fp
import Verif.Fiat.K256Fq
import Verif.Fiat.P256Fp
import Verif.Fiat.P256Fq
import Verif.Fiat.PastaFp
import Verif.Fiat.PastaFq
import Verif.Native.LimbProps
import Verif.Native.EncodeProps
import Verif.Native.FieldModel
import Verif.Curves.ScalarModel

/-!
# C198: the generated field arithmetic

For all arguments, also unreduced ones where the callers pass them, the straight-line programs compute the modular operations, and so
agree with the functions on integers used in `Verif.Native`.
-/

namespace Verif.Fiat
open Verif.Native

/-- the six fields: the generated code and the constants of the hand-written part -/
def fields : List (FieldCode × FieldParams) :=
  [(K256Fp.code, k256Fp), (K256Fq.code, k256Fq), (P256Fp.code, p256Fp), (P256Fq.code, p256Fq), (PastaFp.code, pastaFp),
    (PastaFq.code, pastaFq)]

theorem pastaFp_ok : pastaFp.Ok := by constructor <;> decide +kernel
theorem pastaFq_ok : pastaFq.Ok := by constructor <;> decide +kernel

theorem fields_ok : ∀ f ∈ fields, f.2.Ok ∧ f.1.ok f.2.modulus.val = true := by
  obtain ⟨⟨h1, -⟩, ⟨h2, -⟩, ⟨h3, -⟩, ⟨h4, -⟩⟩ := C111_constants
  intro f hf
  simp only [fields, List.mem_cons, List.not_mem_nil, or_false] at hf
  rcases hf with rfl | rfl | rfl | rfl | rfl | rfl
  · exact ⟨h1, by rw [show k256Fp.modulus.val = Primes.k256p by decide +kernel]; exact K256Fp.code_ok⟩
  · exact ⟨h2, by rw [show k256Fq.modulus.val = Primes.k256q by decide +kernel]; exact K256Fq.code_ok⟩
  · exact ⟨h3, by rw [show p256Fp.modulus.val = Primes.p256p by decide +kernel]; exact P256Fp.code_ok⟩
  · exact ⟨h4, by rw [show p256Fq.modulus.val = Primes.p256q by decide +kernel]; exact P256Fq.code_ok⟩
  · exact ⟨pastaFp_ok, by rw [show pastaFp.modulus.val = Primes.pallasp by decide +kernel]; exact PastaFp.code_ok⟩
  · exact ⟨pastaFq_ok, by rw [show pastaFq.modulus.val = Primes.pallasq by decide +kernel]; exact PastaFq.code_ok⟩

theorem W4 : W ^ 4 = 2 ^ 256 := by norm_num

theorem lval_exMul_b (σ : St) : lval σ (exMul .b) = σ.arg1.val * σ.arg2.val := by
  rw [Limbs.val_v4, Limbs.val_v4]
  simp only [exMul, List.range, List.range.loop, List.flatMap_cons, List.flatMap_nil, List.map_cons, List.map_nil, List.append_nil,
    List.cons_append, List.nil_append, lval, At.val, E.nv, E.eval, limb, v4]
  ring

theorem lval_exMul_a (σ : St) : lval σ (exMul .a) = σ.arg1.val * σ.arg1.val := by
  rw [Limbs.val_v4]
  simp only [exMul, List.range, List.range.loop, List.flatMap_cons, List.flatMap_nil, List.map_cons, List.map_nil, List.append_nil,
    List.cons_append, List.nil_append, lval, At.val, E.nv, E.eval, limb, v4]
  ring

theorem lval_exArg (σ : St) (c : ℕ) : lval σ (exArg c) = c * σ.arg1.val := by
  rw [Limbs.val_v4]
  simp only [exArg, List.range, List.range.loop, List.map_cons, List.map_nil, lval, At.val, E.nv, E.eval, limb, v4]
  ring

theorem lval_exAdd (σ : St) : lval σ exAdd = σ.arg1.val + σ.arg2.val := by
  rw [Limbs.val_v4, Limbs.val_v4]
  simp only [exAdd, exArg, List.range, List.range.loop, List.map_cons, List.map_nil, List.cons_append, List.nil_append, lval, At.val,
    E.nv, E.eval, limb, v4]
  ring

section
variable {c : FieldCode} {P : FieldParams}

theorem ok_parts {m : ℕ} (h : c.ok m = true) :
    redOk c.mul m 4 (exMul .b) = true ∧ redOk c.square m 4 (exMul .a) = true ∧ redOk c.add m 0 exAdd = true ∧
      subOk c.sub m .a .b = true ∧ subOk c.opp m (fun _ => .k 0) .a = true ∧ redOk c.fromMontgomery m 4 (exArg 1) = true ∧
      redOk c.toMontgomery m 4 (exArg (2 ^ 512 % m)) = true := by
  simp only [FieldCode.ok, Bool.and_eq_true] at h
  tauto

/-- a reduction below `m·2^256` satisfies the requirement of the checker -/
theorem below_of {X m : ℕ} (h : X < m * W ^ 4) : X + m * (W ^ 4 - 1) < 2 * m * W ^ 4 := by
  have : m * (W ^ 4 - 1) ≤ m * W ^ 4 := Nat.mul_le_mul_left _ (Nat.sub_le _ _)
  have e : 2 * m * W ^ 4 = m * W ^ 4 + m * W ^ 4 := by ring
  omega

theorem W_eq_mod (hP : P.Ok) {x : Limbs} {X : P.Ring} (hx : x.val < P.modulus.val) (h : (x.val : P.Ring) * 2 ^ 256 = X) :
    x = Limbs.ofNat (X * (2 ^ 256 : P.Ring)⁻¹).val := by
  have := hP.neZero
  rw [← h, hP.cancel, ZMod.val_natCast, Nat.mod_eq_of_lt hx, Limbs.ofNat_val]

theorem red_eq (hP : P.Ok) {p : Prog} {ex : LF} (h : redOk p P.modulus.val 4 ex = true) (x y : Limbs) (X : ℕ)
    (hX : ∀ σ : St, σ.arg1 = x → σ.arg2 = y → lval σ ex = X) (hlt : X < P.modulus.val * W ^ 4) :
    p.run x y = Limbs.ofNat ((X : P.Ring) * (2 ^ 256 : P.Ring)⁻¹).val := by
  obtain ⟨h1, σ, h2, h3, h4⟩ := redOk_sound h (by rw [W4]; exact P.modulus.val_lt) x y
    (fun σ e1 e2 => by rw [hX σ e1 e2]; exact below_of hlt)
  rw [hX σ h2 h3, W4] at h4
  refine W_eq_mod hP h1 ?_
  have := (ZMod.natCast_eq_natCast_iff' _ _ _).2 h4
  rw [Nat.cast_mul, Nat.cast_pow] at this
  exact this

end

/-- C198: Montgomery multiplication. The arguments need not be reduced; it is enough that `a·b < m·2^256`, for instance that one of
them is (as in `SetBytesWide`, `field.go:196-222`). -/
theorem C198_mul : ∀ f ∈ fields, ∀ a b : Limbs, a.val * b.val < f.2.modulus.val * 2 ^ 256 →
    f.1.mul.run a b = montMul f.2 a b := by
  intro f hf a b h
  obtain ⟨hP, hc⟩ := fields_ok f hf
  rw [red_eq hP (ok_parts hc).1 a b (a.val * b.val) (fun σ e1 e2 => by rw [lval_exMul_b, e1, e2]) (by rw [W4]; exact h)]
  rw [Nat.cast_mul]; rfl

/-- C198: squaring -/
theorem C198_square : ∀ f ∈ fields, ∀ a y : Limbs, a.val * a.val < f.2.modulus.val * 2 ^ 256 →
    f.1.square.run a y = montMul f.2 a a := by
  intro f hf a y h
  obtain ⟨hP, hc⟩ := fields_ok f hf
  rw [red_eq hP (ok_parts hc).2.1 a y (a.val * a.val) (fun σ e1 e2 => by rw [lval_exMul_a, e1]) (by rw [W4]; exact h)]
  rw [Nat.cast_mul]; rfl

/-- C198: out of Montgomery form, for arbitrary limbs -/
theorem C198_from : ∀ f ∈ fields, ∀ a y : Limbs, f.1.fromMontgomery.run a y = fromMont f.2 a := by
  intro f hf a y
  obtain ⟨hP, hc⟩ := fields_ok f hf
  have h1 := a.val_lt
  have h2 := hP.one_lt
  rw [red_eq hP (ok_parts hc).2.2.2.2.2.1 a y a.val (fun σ e1 e2 => by rw [lval_exArg, e1, Nat.one_mul])
    (by rw [W4]; exact lt_of_lt_of_le h1 (Nat.le_mul_of_pos_left _ (by omega)))]
  rfl

/-- C198: into Montgomery form, for arbitrary limbs (`SetRaw`, `pasta/fp/fp.go:194-197`, does not check them) -/
theorem C198_to : ∀ f ∈ fields, ∀ a y : Limbs, f.1.toMontgomery.run a y = toMont f.2 a := by
  intro f hf a y
  obtain ⟨hP, hc⟩ := fields_ok f hf
  have h1 := a.val_lt
  have h2 := hP.one_lt
  have hlt : 2 ^ 512 % f.2.modulus.val < f.2.modulus.val := Nat.mod_lt _ (by omega)
  rw [red_eq hP (ok_parts hc).2.2.2.2.2.2 a y (2 ^ 512 % f.2.modulus.val * a.val) (fun σ e1 e2 => by rw [lval_exArg, e1])
    (by rw [W4]; exact Nat.mul_lt_mul'' hlt h1)]
  unfold toMont
  congr 2
  have e : ((2 ^ 512 % f.2.modulus.val : ℕ) : f.2.Ring) = 2 ^ 256 * 2 ^ 256 := by
    rw [ZMod.natCast_mod, Nat.cast_pow, ← pow_add]; rfl
  rw [Nat.cast_mul, e]
  linear_combination (a.val : f.2.Ring) * hP.cancel (2 ^ 256)

/-- C198: addition -/
theorem C198_add : ∀ f ∈ fields, ∀ a b : Limbs, a.val + b.val < 2 * f.2.modulus.val → f.1.add.run a b = montAdd f.2 a b := by
  intro f hf a b h
  obtain ⟨hP, hc⟩ := fields_ok f hf
  have := hP.neZero
  have hX : ∀ σ : St, σ.arg1 = a → σ.arg2 = b → lval σ exAdd = a.val + b.val := fun σ e1 e2 => by rw [lval_exAdd, e1, e2]
  obtain ⟨h1, σ, h2, h3, h4⟩ := redOk_sound (ok_parts hc).2.2.1 (by rw [W4]; exact f.2.modulus.val_lt) a b
    (fun σ e1 e2 => by rw [hX σ e1 e2]; simpa using h)
  rw [hX σ h2 h3, pow_zero, Nat.mul_one, Nat.mod_eq_of_lt h1] at h4
  rw [← Limbs.ofNat_val (f.1.add.run a b), h4]
  unfold montAdd
  rw [← Nat.cast_add, ZMod.val_natCast]

theorem sub_cast {m a b : ℕ} (hb : b ≤ m) : (((if a < b then a + m - b else a - b : ℕ)) : ZMod m) = a - b := by
  split
  · rw [Nat.cast_sub (by omega), Nat.cast_add, ZMod.natCast_self, add_zero]
  · rw [Nat.cast_sub (by omega)]

/-- C198: subtraction -/
theorem C198_sub : ∀ f ∈ fields, ∀ a b : Limbs, a.val < f.2.modulus.val → b.val ≤ f.2.modulus.val →
    f.1.sub.run a b = Curves.montSub f.2 a b := by
  intro f hf a b ha hb
  obtain ⟨hP, hc⟩ := fields_ok f hf
  have := hP.neZero
  have h := subOk_sound (ok_parts hc).2.2.2.1 (by rw [W4]; exact f.2.modulus.val_lt) a b a.val b.val
    (fun σ e1 e2 => by rw [Limbs.val_v4, ← e1]; rfl) (fun σ e1 e2 => by rw [Limbs.val_v4 b, ← e2]; rfl) ha hb
  have hlt : (f.1.sub.run a b).val < f.2.modulus.val := by rw [h]; split <;> omega
  unfold Curves.montSub
  rw [← sub_cast hb, ← h, ZMod.val_natCast, Nat.mod_eq_of_lt hlt, Limbs.ofNat_val]

/-- C198: negation; zero stays zero -/
theorem C198_opp : ∀ f ∈ fields, ∀ a y : Limbs, a.val ≤ f.2.modulus.val →
    f.1.opp.run a y = Curves.fiatNeg f.2 a ∧ f.1.opp.run a y = montNeg f.2 a := by
  intro f hf a y ha
  obtain ⟨hP, hc⟩ := fields_ok f hf
  have := hP.neZero
  have h1 := hP.one_lt
  have h := subOk_sound (ok_parts hc).2.2.2.2.1 (by rw [W4]; exact f.2.modulus.val_lt) a y 0 a.val
    (fun σ e1 e2 => by simp [nv_k]) (fun σ e1 e2 => by rw [Limbs.val_v4 a, ← e1]; rfl) (by omega) ha
  have hlt : (f.1.opp.run a y).val < f.2.modulus.val := by rw [h]; split <;> omega
  have key : f.1.opp.run a y = Limbs.ofNat (-(a.val : f.2.Ring)).val := by
    have e := sub_cast (a := 0) ha
    rw [← h, Nat.cast_zero, zero_sub] at e
    rw [← e, ZMod.val_natCast, Nat.mod_eq_of_lt hlt, Limbs.ofNat_val]
  exact ⟨key, key⟩

/-- C198: in all executions, for arbitrary limbs, the carries and borrows handed to `bits.Add64` and `bits.Sub64` and the conditions of the
conditional moves are 0 or 1, as these functions require -/
theorem C198_carries : ∀ f ∈ fields, ∀ p ∈ [f.1.mul, f.1.square, f.1.add, f.1.sub, f.1.opp, f.1.fromMontgomery, f.1.toMontgomery],
    ∀ a b : Limbs, ∀ s ∈ p.code, match s with
      | .add _ _ _ _ z => z.eval (p.final a b) = 0 ∨ z.eval (p.final a b) = 1
      | .sub _ _ _ _ z => z.eval (p.final a b) = 0 ∨ z.eval (p.final a b) = 1
      | .cmov _ c _ _ => c.eval (p.final a b) = 0 ∨ c.eval (p.final a b) = 1
      | _ => True := by
  intro f hf p hp a b
  obtain ⟨h1, h2, h3, h4, h5, h6, h7⟩ := ok_parts (fields_ok f hf).2
  have key : ssa 1 p.code = true ∧ carriesOk p.code = true := by
    have hr : ∀ {q : Prog} {m sh : ℕ} {ex : LF}, redOk q m sh ex = true → ssa 1 q.code = true ∧ carriesOk q.code = true := by
      intro q m sh ex h
      simp only [redOk, Bool.and_eq_true] at h
      exact h.1
    have hs : ∀ {q : Prog} {m : ℕ} {x y : ℕ → E}, subOk q m x y = true → ssa 1 q.code = true ∧ carriesOk q.code = true := by
      intro q m x y h
      simp only [subOk, Bool.and_eq_true] at h
      exact h.1
    simp only [List.mem_cons, List.not_mem_nil, or_false] at hp
    rcases hp with rfl | rfl | rfl | rfl | rfl | rfl | rfl
    · exact hr h1
    · exact hr h2
    · exact hr h3
    · exact hs h4
    · exact hs h5
    · exact hr h6
    · exact hr h7
  exact carriesOk_sound (final_holds key.1 a b) key.2

/-- C198 as a whole: on residues in Montgomery form the code computes the field operations -/
theorem C198_field : ∀ f ∈ fields, ∀ x y : f.2.Ring, ∀ z : Limbs,
    f.1.mul.run (encode f.2 x) (encode f.2 y) = encode f.2 (x * y) ∧
    f.1.square.run (encode f.2 x) z = encode f.2 (x * x) ∧
    f.1.add.run (encode f.2 x) (encode f.2 y) = encode f.2 (x + y) ∧
    f.1.sub.run (encode f.2 x) (encode f.2 y) = encode f.2 (x - y) ∧
    f.1.opp.run (encode f.2 x) z = encode f.2 (-x) ∧
    (f.1.fromMontgomery.run (encode f.2 x) z).val = x.val ∧
    f.1.toMontgomery.run (Limbs.ofNat x.val) z = encode f.2 x := by
  intro f hf x y z
  obtain ⟨hP, hc⟩ := fields_ok f hf
  have := hP.neZero
  have hlt : ∀ x : f.2.Ring, (encode f.2 x).val < f.2.modulus.val := fun x => by
    unfold encode
    rw [Limbs.val_ofNat (hP.val_lt _)]; exact ZMod.val_lt _
  have hmul : ∀ x y : f.2.Ring, (encode f.2 x).val * (encode f.2 y).val < f.2.modulus.val * 2 ^ 256 := fun x y =>
    Nat.mul_lt_mul'' (hlt x) (Limbs.val_lt _)
  refine ⟨?_, ?_, ?_, ?_, ?_, ?_, ?_⟩
  · rw [C198_mul f hf _ _ (hmul x y), montMul_encode hP]
  · rw [C198_square f hf _ _ (hmul x x), montMul_encode hP]
  · have h1 := hlt x
    have h2 := hlt y
    rw [C198_add f hf _ _ (by omega)]
    unfold montAdd
    rw [encode_val hP, encode_val hP, ← add_mul]; rfl
  · rw [C198_sub f hf _ _ (hlt x) (hlt y).le]
    unfold Curves.montSub
    rw [encode_val hP, encode_val hP, ← sub_mul]; rfl
  · rw [(C198_opp f hf _ _ (hlt x).le).2, montNeg_encode hP]
  · rw [C198_from f hf, fromMont_encode hP]
  · rw [C198_to f hf]
    unfold toMont encode
    rw [hP.val_ofNat]

/-! ## Bytes -/

theorem limbBytes_eq (x : UInt64) : limbBytes x = leBytes 8 x.toNat := by
  have hx := x.toNat_lt
  have h8 : (255 : UInt8) = -1 := by decide
  simp only [limbBytes, h8, UInt8.and_neg_one, leBytes]
  have e : ∀ (y : UInt64), (y >>> 8).toNat = y.toNat / 256 := fun y => by
    rw [UInt64.toNat_shiftRight]; simp [Nat.shiftRight_eq_div_pow]
  have f : ∀ (y : UInt64), y.toUInt8 = UInt8.ofNat y.toNat := fun y => by
    apply UInt8.toNat_inj.1; simp
  simp only [f, e]

theorem leBytes_split (j k n : ℕ) : leBytes (j + k) n = leBytes j n ++ leBytes k (n / 256 ^ j) := by
  induction j generalizing n with
  | zero => simp [leBytes]
  | succ j ih =>
    rw [Nat.add_right_comm, leBytes, leBytes, ih (n / 256), List.cons_append, Nat.div_div_eq_div_mul, pow_succ']

theorem leBytes_add_mul (j a b : ℕ) : leBytes j (a + 256 ^ j * b) = leBytes j a := by
  induction j generalizing a b with
  | zero => rfl
  | succ j ih =>
    rw [leBytes, leBytes]
    have e : a + 256 ^ (j + 1) * b = a + 256 * (256 ^ j * b) := by ring
    rw [e, Nat.add_mul_div_left _ _ (by norm_num), ih]
    congr 1
    apply UInt8.toNat_inj.1
    simp only [UInt8.toNat_ofNat']
    exact Nat.add_mul_mod_self_left _ _ _

/-- C198: `ToBytes` writes the 32 bytes of the number, least significant first, for arbitrary limbs -/
theorem C198_toBytes (a : Limbs) : toBytes a = leBytes 32 a.val ∧ toBytes a = Native.toBytes a := by
  have h0 := a.l0.toNat_lt; have h1 := a.l1.toNat_lt; have h2 := a.l2.toNat_lt; have h3 := a.l3.toNat_lt
  have key : toBytes a = leBytes 32 a.val := by
    unfold toBytes
    rw [limbBytes_eq, limbBytes_eq, limbBytes_eq, limbBytes_eq]
    rw [show 32 = 8 + (8 + (8 + 8)) from rfl, leBytes_split, leBytes_split, leBytes_split, List.append_assoc, List.append_assoc]
    unfold Limbs.val
    have p : (256 : ℕ) ^ 8 = 2 ^ 64 := by norm_num
    have d : ∀ x y : ℕ, x < 2 ^ 64 → (x + 2 ^ 64 * y) / 256 ^ 8 = y := fun x y hx => by rw [p]; omega
    rw [d _ _ h0, d _ _ h1, d _ _ h2, ← p, leBytes_add_mul, leBytes_add_mul, leBytes_add_mul]
  exact ⟨key, key⟩

theorem bytesLimb_eq (b : ℕ → UInt8) (i : ℕ) :
    (bytesLimb b i).toNat = leNat [b i, b (i + 1), b (i + 2), b (i + 3), b (i + 4), b (i + 5), b (i + 6), b (i + 7)] := by
  have e : ∀ (y : UInt8) (k : UInt64), y.toUInt64 <<< k = UInt64.ofNat (y.toNat * 2 ^ (k.toNat % 64)) := fun y k => by
    apply UInt64.toNat_inj.1
    rw [UInt64.toNat_shiftLeft, UInt64.toNat_ofNat', Nat.shiftLeft_eq]; simp
  have g : ∀ (y : UInt8), y.toUInt64 = UInt64.ofNat y.toNat := fun y => by apply UInt64.toNat_inj.1; simp
  simp only [bytesLimb, e, show UInt64.toNat 56 = 56 from rfl, show UInt64.toNat 48 = 48 from rfl, show UInt64.toNat 40 = 40 from rfl,
    show UInt64.toNat 32 = 32 from rfl, show UInt64.toNat 24 = 24 from rfl, show UInt64.toNat 16 = 16 from rfl,
    show UInt64.toNat 8 = 8 from rfl]
  rw [g (b i)]
  simp only [← UInt64.ofNat_add, UInt64.toNat_ofNat', leNat, List.foldr]
  have h0 := (b i).toNat_lt; have h1 := (b (i + 1)).toNat_lt; have h2 := (b (i + 2)).toNat_lt; have h3 := (b (i + 3)).toNat_lt
  have h4 := (b (i + 4)).toNat_lt; have h5 := (b (i + 5)).toNat_lt; have h6 := (b (i + 6)).toNat_lt; have h7 := (b (i + 7)).toNat_lt
  norm_num
  omega

/-- C198: `FromBytes` reads 32 bytes as a number, least significant first -/
theorem C198_fromBytes (b : List UInt8) (hb : b.length = 32) : (fromBytes b).val = leNat b ∧ fromBytes b = Native.fromBytes b := by
  have key : (fromBytes b).val = leNat b := by
    have hl : b = (List.range 32).map fun i => b.getD i 0 := by
      apply List.ext_getElem
      · simp [hb]
      · intro i h1 h2; simp [List.getD_eq_getElem?_getD, h1]
    generalize hf : (fun i => b.getD i 0) = f at *
    conv_rhs => rw [hl]
    simp only [fromBytes, hf, Limbs.val, bytesLimb_eq]
    simp only [List.range, List.range.loop, List.map_cons, List.map_nil, leNat, List.foldr]
    norm_num
    ring
  refine ⟨key, ?_⟩
  unfold Native.fromBytes
  rw [← key, Limbs.ofNat_val]

theorem montMul_lt {P : FieldParams} (hP : P.Ok) (a b : Limbs) : (montMul P a b).val < P.modulus.val := by
  have := hP.neZero
  unfold montMul
  rw [Limbs.val_ofNat (hP.val_lt _)]; exact ZMod.val_lt _

/-- C198: `SetBytesWide` (`field.go:196-222`, `pasta/fp/fp.go:141-162`) with the generated functions is the function on integers, for
all 64 bytes; the halves are passed to `Mul` unreduced -/
theorem C198_wide : ∀ f ∈ fields, ∀ b : List UInt8, b.length = 64 →
    f.1.add.run (f.1.mul.run (fromBytes (b.take 32)) f.2.R2) (f.1.mul.run (fromBytes (b.drop 32)) f.2.R3) = setBytesWide f.2 b := by
  intro f hf b hb
  obtain ⟨hP, hc⟩ := fields_ok f hf
  have hm := hP.one_lt
  have h2 : f.2.R2.val < f.2.modulus.val := by rw [hP.R2]; exact Nat.mod_lt _ (by omega)
  have h3 : f.2.R3.val < f.2.modulus.val := by rw [hP.R3]; exact Nat.mod_lt _ (by omega)
  have hmul : ∀ a r : Limbs, r.val < f.2.modulus.val → a.val * r.val < f.2.modulus.val * 2 ^ 256 := fun a r hr => by
    rw [Nat.mul_comm]; exact Nat.mul_lt_mul'' hr a.val_lt
  have l1 := montMul_lt hP (Native.fromBytes (b.take 32)) f.2.R2
  have l2 := montMul_lt hP (Native.fromBytes (b.drop 32)) f.2.R3
  rw [C198_mul f hf _ _ (hmul _ _ h2), C198_mul f hf _ _ (hmul _ _ h3), (C198_fromBytes (b.take 32) (by simp [hb])).2,
    (C198_fromBytes (b.drop 32) (by simp [hb])).2, C198_add f hf _ _ (by omega)]
  rfl

/-- C198: `Nonzero` is zero exactly for the number zero -/
theorem C198_nonzero (a : Limbs) : nonzeroWord a = 0 ↔ a.val = 0 := by
  have e : a.val = 0 ↔ a.l0.toNat = 0 ∧ a.l1.toNat = 0 ∧ a.l2.toNat = 0 ∧ a.l3.toNat = 0 := by unfold Limbs.val; omega
  have z : ∀ x : UInt64, x.toNat = 0 ↔ x = 0 := fun x => ⟨fun h => UInt64.toNat_inj.1 h, fun h => by rw [h]; rfl⟩
  rw [e, z, z, z, z]
  unfold nonzeroWord
  simp only [UInt64.or_eq_zero_iff]

/-- C198: `Selectznz` in both forms chooses its second argument for 0 and the third for 1; the two forms agree on every word -/
theorem C198_select (c : UInt64) (x y : Limbs) :
    selectznz 0 x y = x ∧ selectznz 1 x y = y ∧ selectznz c x y = selectznzPasta c x y := by
  refine ⟨?_, ?_, ?_⟩ <;> simp only [selectznz, selectznzPasta, cmovMul_eq, cmovMask_zero, cmovMask_one]

/-- C198: `SetOne` is one in Montgomery form -/
theorem C198_setOne : setOneK256Fp = encode k256Fp 1 ∧ setOneK256Fq = encode k256Fq 1 ∧ setOneP256Fp = encode p256Fp 1 ∧
    setOneP256Fq = encode p256Fq 1 := by
  obtain ⟨⟨h1, -⟩, ⟨h2, -⟩, ⟨h3, -⟩, ⟨h4, -⟩⟩ := C111_constants
  refine ⟨?_, ?_, ?_, ?_⟩
  · rw [← R_encode h1]; rfl
  · rw [← R_encode h2]; rfl
  · rw [← R_encode h3]; rfl
  · rw [← R_encode h4]; rfl

/-! ## Cases -/

/-- 64 bytes of ones: both halves exceed every modulus -/
example : ∀ f ∈ fields, f.2.modulus.val ≤ (fromBytes ((List.replicate 64 255).take 32)).val := by decide +kernel


/-- an unreduced factor: the largest number of four limbs, times the constant `R3`, in every field -/
example : ∀ f ∈ fields, let a : Limbs := ⟨0xffffffffffffffff, 0xffffffffffffffff, 0xffffffffffffffff, 0xffffffffffffffff⟩
    f.2.modulus.val ≤ a.val ∧ a.val * f.2.R3.val < f.2.modulus.val * 2 ^ 256 := by decide +kernel

/-- running the program for `Mul` of secp256k1: `7 · 2^256 · (p-1)·2^256` gives `(p-7)·2^256` -/
example : K256Fp.mul.run (encode k256Fp 7) (encode k256Fp (-1)) = encode k256Fp (-7) := by decide +kernel

/-- both branches of the subtraction occur -/
example : (PastaFq.sub.run ⟨5, 0, 0, 0⟩ ⟨3, 0, 0, 0⟩).val = 2 ∧
    (PastaFq.sub.run ⟨3, 0, 0, 0⟩ ⟨5, 0, 0, 0⟩).val = pastaFq.modulus.val - 2 := by decide +kernel

/-- beyond the bound the result need not be reduced: the square of the largest number of four limbs in the field of the Pallas curve -/
example : pastaFp.modulus.val ≤ (PastaFp.square.run ⟨0xffffffffffffffff, 0xffffffffffffffff, 0xffffffffffffffff, 0xffffffffffffffff⟩
    ⟨0, 0, 0, 0⟩).val := by decide +kernel

example : toBytes ⟨0x0807060504030201, 0, 0, 0xff00000000000000⟩ =
    [1, 2, 3, 4, 5, 6, 7, 8] ++ List.replicate 23 0 ++ [255] := by decide +kernel

example : fromBytes ([1, 2, 3, 4, 5, 6, 7, 8] ++ List.replicate 23 0 ++ [255]) = ⟨0x0807060504030201, 0, 0, 0xff00000000000000⟩ := by
  decide +kernel

end Verif.Fiat
