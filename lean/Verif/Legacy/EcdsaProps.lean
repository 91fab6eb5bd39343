import Verif.Legacy.EcdsaModel
import Verif.DklsV0.SignProps
import Mathlib.Data.Nat.Size

/-!
# C222: `VerifyEcdsa` decides the ECDSA equation

The specification is `Dkls.EcdsaValid`, the textbook equation in the group, and "the leftmost bits of the digest" as the integer part of a
quotient.  The curve is any that computes in a group of prime order (`Lawful`); `Koblitz256` is one.
-/

namespace Verif.Legacy
open Verif.Core Verif.Native

theorem beNat_append (a b : List UInt8) : beNat (a ++ b) = beNat a * 256 ^ b.length + beNat b := by
  rw [beNat_eq_leNat_reverse, List.reverse_append, beNat_eq_leNat_reverse a, beNat_eq_leNat_reverse b]
  have key : ∀ x y : List UInt8, leNat (x ++ y) = leNat x + 256 ^ x.length * leNat y := by
    intro x y
    induction x with
    | nil => simp [leNat]
    | cons u x ih => rw [List.cons_append, leNat_cons, leNat_cons, ih, List.length_cons, pow_succ]; ring
  rw [key, List.length_reverse]; ring

theorem beNat_take (l : List UInt8) (n : ℕ) : beNat (l.take n) = beNat l / 2 ^ (8 * (l.length - n)) := by
  have h1 := beNat_append (l.take n) (l.drop n)
  rw [List.take_append_drop, List.length_drop] at h1
  have h2 := beNat_lt (l.drop n)
  rw [List.length_drop] at h2
  rw [pow_mul, h1, Nat.add_comm, show (2 : ℕ) ^ 8 = 256 from rfl, Nat.add_mul_div_right _ _ (by positivity), Nat.div_eq_of_lt h2, Nat.zero_add]

/-- C222: the integer of a digest is its leftmost bits, as many as the order has; a shorter digest is taken whole -/
theorem C222_digest (N : ℤ) (hash : List UInt8) :
    hashToInt N hash = beNat hash / 2 ^ (8 * hash.length - N.natAbs.size) := by
  unfold hashToInt
  generalize N.natAbs.size = bits
  by_cases h : hash.length > (bits + 7) / 8
  · simp only [h, if_true, List.length_take]
    have hm : min ((bits + 7) / 8) hash.length = (bits + 7) / 8 := by omega
    rw [hm, beNat_take hash]
    by_cases h2 : (bits + 7) / 8 * 8 > bits
    · rw [if_pos h2, Nat.shiftRight_eq_div_pow, Nat.div_div_eq_div_mul, ← pow_add]
      congr 2; omega
    · rw [if_neg h2]
      congr 2; omega
  · simp only [h, if_false]
    by_cases h2 : hash.length * 8 > bits
    · rw [if_pos h2, Nat.shiftRight_eq_div_pow]
      congr 2; omega
    · rw [if_neg h2, show 8 * hash.length - bits = 0 by omega, pow_zero, Nat.div_one]

/-- for an order of 521 bits a digest of 66 bytes loses its last seven bits; one of 67 bytes its last fifteen -/
example : hashToInt (2 ^ 520 + 1) (List.replicate 65 0 ++ [255]) = 1 ∧ hashToInt (2 ^ 520 + 1) (List.replicate 65 0 ++ [255, 7]) = 1 ∧
    hashToInt (2 ^ 520 + 1) [255, 7] = 65287 := by
  simp only [C222_digest]
  have : (2 ^ 520 + 1 : ℤ).natAbs.size = 521 := by decide +kernel
  rw [this]
  decide +kernel

section
variable {c : ECurve} {A : Type} [AddCommGroup A] (L : Lawful c A) {q : ℕ} [hp : Fact q.Prime] [Module (ZMod q) A]

theorem intBytes_smul (hN : c.params.N = q) (hq : 0 < q) (u : ℤ) (Q : A) : beNat (intBytes (u % c.params.N)) • Q = ((u : ZMod q)) • Q ∧
    (beNat (intBytes (u % c.params.N)) : ℤ) < c.params.N := by
  have hq0 : (0 : ℤ) < c.params.N := by rw [hN]; exact_mod_cast hq
  have h0 := Int.emod_nonneg u hq0.ne'
  have hb : (beNat (intBytes (u % c.params.N)) : ℤ) = u % c.params.N := by rw [intBytes, beNat_natBytes, Int.natAbs_of_nonneg h0]
  refine ⟨?_, by rw [hb]; exact Int.emod_lt_of_pos u hq0⟩
  rw [← Nat.cast_smul_eq_nsmul (ZMod q), ← Int.cast_natCast, hb, hN, ZMod.intCast_mod]

theorem verifyGeneric_eq (hN : c.params.N = q) (P : A) (hash : List UInt8) (r s : ℤ) (hs : 0 < s) (hsq : s < q) :
    verifyGeneric c (some (L.xy P).1) (some (L.xy P).2) hash r s =
      (let Q := (((hashToInt q hash : ℕ) : ZMod q) * (s : ZMod q)⁻¹) • L.g + ((r : ZMod q) * (s : ZMod q)⁻¹) • P
       .ok (decide (L.xy Q ≠ (0, 0) ∧ (L.xy Q).1 % q = r))) := by
  have hpos : 0 < q := hp.out.pos
  have hN0 : c.params.N ≠ 0 := by rw [hN]; exact_mod_cast hpos.ne'
  have hsz : (s : ZMod q) ≠ 0 := by
    intro h
    rw [ZMod.intCast_zmod_eq_zero_iff_dvd] at h
    exact absurd (Int.le_of_dvd hs h) (by omega)
  obtain ⟨w, hw, hwi⟩ : ∃ w, Big.modInverse s c.params.N = some w ∧ (w : ZMod q) = (s : ZMod q)⁻¹ := by
    have hg : Int.gcd s c.params.N = 1 := by
      rw [hN, Int.gcd_comm]
      have : Nat.Coprime q s.natAbs := (Nat.Prime.coprime_iff_not_dvd hp.out).2 fun hd =>
        absurd (Nat.le_of_dvd (by omega) hd) (by omega)
      exact this
    obtain ⟨w, hw⟩ := Option.isSome_iff_exists.1 (Big.modInverse_isSome.2 hg)
    refine ⟨w, hw, ?_⟩
    have h1 := ((Big.modInverse_eq_some (by rw [hN]; exact_mod_cast hpos)).1 hw).2.2
    rw [hN] at h1
    have h2 := (ZMod.intCast_eq_intCast_iff _ _ _).2 h1
    push_cast at h2
    rw [mul_comm] at h2
    exact eq_inv_of_mul_eq_one_left h2
  have e1 := intBytes_smul hN hpos (hashToInt c.params.N hash * w) L.g
  have e2 := intBytes_smul hN hpos (r * w) P
  have m1 := L.baseMul _ e1.2
  have m2 := L.mul P _ e2.2
  rw [e1.1] at m1
  rw [e2.1] at m2
  unfold verifyGeneric
  simp only [hw, Big.mod, if_neg hN0, Go.ok_bind, m1, m2, L.add]
  push_cast
  rw [hwi, hN]
  generalize (((hashToInt q hash : ℕ) : ZMod q) * (s : ZMod q)⁻¹) • L.g + ((r : ZMod q) * (s : ZMod q)⁻¹) • P = Q
  by_cases h0 : (L.xy Q).1 = 0 ∧ (L.xy Q).2 = 0
  · rw [if_pos h0, decide_eq_false]
    rintro ⟨h, -⟩
    exact h (Prod.ext h0.1 h0.2)
  · rw [if_neg h0]
    congr 1
    rw [decide_eq_decide]
    constructor
    · exact fun h => ⟨fun e => h0 ⟨congrArg Prod.fst e, congrArg Prod.snd e⟩, h⟩
    · exact fun h => h.2

/-- C222: for every public key on the curve, the identity included, every digest and all integers `r` and `s`, `VerifyEcdsa` ends without a
panic, and returns true exactly when `(r, s)` satisfies the ECDSA equation for the leftmost bits of the digest.  `V` plays no part. -/
theorem C222_verify (hN : c.params.N = q) (P : A) (hash : List UInt8) (v r s : ℤ) :
    ∃ b, verifyEcdsa (some (L.pt P)) hash (some ⟨v, some r, some s⟩) = .ok b ∧ (b = true ↔
      Dkls.EcdsaValid (ZMod q) q L.g P (fun Q => (L.xy Q).1.toNat) (beNat hash / 2 ^ (8 * hash.length - q.size)) r.toNat s.toNat) := by
  have hx : ∀ Q : A, L.xy Q ≠ (0, 0) ↔ Q ≠ 0 := fun Q => by rw [← L.zero, L.inj.ne_iff]
  show ∃ b, (if r ≤ 0 then Except.ok false else if s ≤ 0 then Except.ok false else
    if r ≥ c.params.N ∨ s ≥ c.params.N then Except.ok false else verifyGeneric c (some (L.xy P).1) (some (L.xy P).2) hash r s : Go Bool) = .ok b ∧ _
  by_cases hr : r ≤ 0
  · rw [if_pos hr]
    exact ⟨false, rfl, by simp only [Bool.false_eq_true, false_iff]; exact fun h => absurd h.1 (by omega)⟩
  rw [if_neg hr]
  by_cases hs : s ≤ 0
  · rw [if_pos hs]
    exact ⟨false, rfl, by simp only [Bool.false_eq_true, false_iff]; exact fun h => absurd h.2.2.1 (by omega)⟩
  rw [if_neg hs, hN]
  by_cases hge : r ≥ q ∨ s ≥ q
  · rw [if_pos hge]
    refine ⟨false, rfl, ?_⟩
    simp only [Bool.false_eq_true, false_iff]
    intro h
    have := h.2.1
    have := h.2.2.2.1
    omega
  rw [if_neg hge, verifyGeneric_eq L hN P hash r s (by omega) (by omega)]
  refine ⟨_, rfl, ?_⟩
  have er : ((r.toNat : ℕ) : ZMod q) = (r : ZMod q) := by rw [← Int.cast_natCast, Int.toNat_of_nonneg (by omega)]
  have es : ((s.toNat : ℕ) : ZMod q) = (s : ZMod q) := by rw [← Int.cast_natCast, Int.toNat_of_nonneg (by omega)]
  rw [decide_eq_true_iff, C222_digest, Int.natAbs_natCast]
  unfold Dkls.EcdsaValid
  rw [er, es, hx]
  generalize (((beNat hash / 2 ^ (8 * hash.length - q.size) : ℕ) : ZMod q) * (s : ZMod q)⁻¹) • L.g + ((r : ZMod q) * (s : ZMod q)⁻¹) • P = Q
  have hm : (L.xy Q).1 % q = r ↔ (L.xy Q).1.toNat % q = r.toNat := by
    have h0 := (L.range Q).1
    generalize (L.xy Q).1 = z at h0 ⊢
    obtain ⟨n, rfl⟩ := Int.eq_ofNat_of_zero_le h0
    rw [Int.toNat_natCast, ← Int.natCast_mod]
    omega
  rw [hm]
  constructor
  · rintro ⟨h1, h2⟩
    exact ⟨by omega, by omega, by omega, by omega, h1, h2⟩
  · rintro ⟨-, -, -, -, h1, h2⟩
    exact ⟨h1, h2⟩

omit hp [Module (ZMod q) A] in
/-- C222: a nil key, signature, `R`, or `S` beside a positive `R` panics; nil `S` beside another `R` is refused -/
theorem C222_nil (P : EcPoint) (hash : List UInt8) (sig : Option EcdsaSig) (v r : ℤ) (t : Option ℤ) :
    verifyEcdsa none hash sig = Go.crash ∧ verifyEcdsa (some P) hash none = Go.crash ∧
    verifyEcdsa (some P) hash (some ⟨v, none, t⟩) = Go.crash ∧
    (0 < r → verifyEcdsa (some P) hash (some ⟨v, some r, none⟩) = Go.crash) ∧
    (r ≤ 0 → verifyEcdsa (some P) hash (some ⟨v, some r, t⟩) = .ok false) := by
  refine ⟨rfl, rfl, rfl, fun h => ?_, fun h => ?_⟩
  · show (if r ≤ 0 then _ else _) = _
    rw [if_neg (by omega)]
  · show (if r ≤ 0 then _ else _) = _
    rw [if_pos h]

/-- true, false and never a panic: the statement of C222 as an equation -/
theorem verify_iff (hN : c.params.N = q) (P : A) (hash : List UInt8) (v r s : ℤ) :
    verifyEcdsa (some (L.pt P)) hash (some ⟨v, some r, some s⟩) = .ok true ↔
      Dkls.EcdsaValid (ZMod q) q L.g P (fun Q => (L.xy Q).1.toNat) (beNat hash / 2 ^ (8 * hash.length - q.size)) r.toNat s.toNat := by
  obtain ⟨b, h1, h2⟩ := C222_verify L hN P hash v r s
  rw [h1, ← h2, Except.ok.injEq]

/-- C222: textbook signatures are accepted: for every secret key `sk`, nonce `k` and digest `e`, with `r` the abscissa of `k·G` modulo the
order and `s = (e + r·sk)/k`, but for the zeros that ECDSA excludes; with any `V` -/
theorem C222_complete (hN : c.params.N = q) (hash : List UInt8) (sk k : ZMod q) (hk : k • L.g ≠ 0) (v : ℤ) (r : ℕ) (s : ZMod q)
    (hr : r = (L.xy (k • L.g)).1.toNat % q) (hr0 : r ≠ 0)
    (hs : s = (((beNat hash / 2 ^ (8 * hash.length - q.size) : ℕ) : ZMod q) + r * sk) / k) (hs0 : s ≠ 0) :
    verifyEcdsa (some (L.pt (sk • L.g))) hash (some ⟨v, some r, some s.val⟩) = .ok true := by
  have hk0 : k ≠ 0 := by rintro rfl; exact hk (zero_smul _ _)
  have : NeZero q := ⟨hp.out.ne_zero⟩
  rw [verify_iff L hN]
  simp only [Int.toNat_natCast]
  classical
  have hpt := Dkls.verify_point L.g (sk • L.g) _ (r : ZMod q) sk k s hk0 hs0 rfl hs
  refine ⟨by omega, ?_, ?_, ZMod.val_lt s, ?_, ?_⟩
  · rw [hr]; exact Nat.mod_lt _ hp.out.pos
  · exact Nat.pos_of_ne_zero fun h => hs0 ((ZMod.val_eq_zero s).1 h)
  · rw [ZMod.natCast_zmod_val, hpt]; exact hk
  · rw [ZMod.natCast_zmod_val, hpt, hr]

/-- the opposite of a point has its abscissa -/
theorem xy_neg (Q : A) : (L.xy (-Q)).1 = (L.xy Q).1 := by
  by_cases h : Q = 0
  · rw [h, neg_zero]
  · rw [L.neg Q h]

/-- C222: signatures are malleable: `(r, N - s)` is accepted exactly when `(r, s)` is; low `s` is not asked for -/
theorem C222_malleable (hN : c.params.N = q) (P : A) (hash : List UInt8) (v v' r s : ℤ) (hs : 0 < s) (hsq : s < q) :
    verifyEcdsa (some (L.pt P)) hash (some ⟨v, some r, some (q - s)⟩) =
      verifyEcdsa (some (L.pt P)) hash (some ⟨v', some r, some s⟩) := by
  have key : ∀ s : ℤ, 0 < s → s < q →
      Dkls.EcdsaValid (ZMod q) q L.g P (fun Q => (L.xy Q).1.toNat) (beNat hash / 2 ^ (8 * hash.length - q.size)) r.toNat s.toNat →
      Dkls.EcdsaValid (ZMod q) q L.g P (fun Q => (L.xy Q).1.toNat) (beNat hash / 2 ^ (8 * hash.length - q.size)) r.toNat (q - s).toNat := by
    rintro s h0 h1 ⟨a, b, -, -, d, e⟩
    have es : (((q - s).toNat : ℕ) : ZMod q) = -((s.toNat : ℕ) : ZMod q) := by
      rw [← Int.cast_natCast, Int.toNat_of_nonneg (by omega), ← Int.cast_natCast s.toNat, Int.toNat_of_nonneg (by omega)]
      push_cast
      rw [ZMod.natCast_self, zero_sub]
    refine ⟨a, b, by omega, by omega, ?_⟩
    rw [es, inv_neg, mul_neg, mul_neg, neg_smul, neg_smul, ← neg_add, neg_ne_zero]
    refine ⟨d, ?_⟩
    show (L.xy (-_)).1.toNat % q = _
    rw [xy_neg L]
    exact e
  obtain ⟨b, h1, h2⟩ := C222_verify L hN P hash v r (q - s)
  obtain ⟨b', h1', h2'⟩ := C222_verify L hN P hash v' r s
  rw [h1, h1']
  congr 1
  rw [Bool.eq_iff_iff, h2, h2']
  constructor
  · intro h
    have := key (q - s) (by omega) (by omega) h
    rwa [sub_sub_cancel] at this
  · exact key s hs hsq

/-- C222: the identity is not refused as a public key, and under it anybody signs any digest: `(x(G), e)` with `e` the digest, unless one of
them is zero modulo the order -/
theorem C222_identity_key (hN : c.params.N = q) (hash : List UInt8) (v : ℤ) (hg : L.g ≠ 0)
    (hr : (L.xy L.g).1 % q ≠ 0) (he : (beNat hash / 2 ^ (8 * hash.length - q.size)) % q ≠ 0) :
    verifyEcdsa (some ⟨c, some 0, some 0⟩) hash
      (some ⟨v, some ((L.xy L.g).1 % q), some ((beNat hash / 2 ^ (8 * hash.length - q.size) % q : ℕ) : ℤ)⟩) = .ok true := by
  have hpt : (⟨c, some 0, some 0⟩ : EcPoint) = L.pt 0 := by rw [Computes.pt, L.zero]
  rw [hpt, verify_iff L hN]
  generalize beNat hash / 2 ^ (8 * hash.length - q.size) = e at he ⊢
  have hq := hp.out.pos
  have h0 := Int.emod_nonneg (L.xy L.g).1 (show (q : ℤ) ≠ 0 by exact_mod_cast hq.ne')
  have h1 := Int.emod_lt_of_pos (L.xy L.g).1 (show (0 : ℤ) < q by exact_mod_cast hq)
  have h2 := Nat.mod_lt e hq
  have hez : ((e % q : ℕ) : ZMod q) ≠ 0 := by
    intro h
    rw [ZMod.natCast_mod, ZMod.natCast_eq_zero_iff] at h
    exact he (Nat.mod_eq_zero_of_dvd h)
  have hx := (L.range L.g).1
  refine ⟨by omega, by omega, by omega, by omega, ?_⟩
  rw [Int.toNat_natCast, smul_zero, add_zero, show ((e : ℕ) : ZMod q) = ((e % q : ℕ) : ZMod q) by rw [ZMod.natCast_mod],
    mul_inv_cancel₀ hez, one_smul]
  refine ⟨hg, ?_⟩
  show (L.xy L.g).1.toNat % q = _
  obtain ⟨n, hn⟩ := Int.eq_ofNat_of_zero_le hx
  rw [hn, Int.toNat_natCast, ← Int.natCast_mod, Int.toNat_natCast]

/-- C222: the argument is the digest, not the message: for every key and every `a` with `x(a·G + P)` not zero modulo the order there is a
digest with a signature that is accepted, found without the secret key -/
theorem C222_digest_forgery (hN : c.params.N = q) (hq : q.size % 8 = 0) (P : A) (a : ZMod q) (v : ℤ) (r : ℕ)
    (hr : r = (L.xy (a • L.g + P)).1.toNat % q) (hr0 : r ≠ 0) :
    verifyEcdsa (some (L.pt P)) (beBytes (q.size / 8) (a * r).val) (some ⟨v, some r, some r⟩) = .ok true := by
  have : NeZero q := ⟨hp.out.ne_zero⟩
  have hlt : (a * r).val < 256 ^ (q.size / 8) := by
    rw [show (256 : ℕ) = 2 ^ 8 from rfl, ← pow_mul]
    refine lt_of_lt_of_le (ZMod.val_lt _) ((Nat.lt_size_self q).le.trans (Nat.pow_le_pow_right (by decide) (by omega)))
  have hlen : (beBytes (q.size / 8) (a * r).val).length = q.size / 8 := by rw [beBytes, List.length_reverse, leBytes_length]
  have hrq : r < q := by rw [hr]; exact Nat.mod_lt _ hp.out.pos
  have hrz : (r : ZMod q) ≠ 0 := by
    intro h
    rw [ZMod.natCast_eq_zero_iff] at h
    exact absurd (Nat.le_of_dvd (by omega) h) (by omega)
  rw [verify_iff L hN, hlen, show 8 * (q.size / 8) - q.size = 0 by omega, pow_zero, Nat.div_one, beNat_beBytes _ _ hlt]
  simp only [Int.toNat_natCast]
  have hpt : (((a * r).val : ℕ) : ZMod q) * (r : ZMod q)⁻¹ = a := by
    rw [ZMod.natCast_zmod_val, mul_assoc, mul_inv_cancel₀ hrz, mul_one]
  refine ⟨by omega, hrq, by omega, hrq, ?_⟩
  rw [hpt, mul_inv_cancel₀ hrz, one_smul]
  refine ⟨fun h => hr0 ?_, hr.symm⟩
  rw [hr, h, L.zero]; rfl

end

/-! ## secp256k1 -/

/-- C222 on `Koblitz256`: the verdict is the ECDSA equation for the first 32 bytes of the digest -/
theorem C222_k256 (refs : List ℕ) (P : K256.Group) (hash : List UInt8) (v r s : ℤ) :
    ∃ b, verifyEcdsa (some ((k256Lawful refs).pt P)) hash (some ⟨v, some r, some s⟩) = .ok b ∧ (b = true ↔
      Dkls.EcdsaValid (ZMod Primes.k256q) Primes.k256q (k256Lawful refs).g P (fun Q => (coords Q).1.toNat) (beNat (hash.take 32)) r.toNat s.toNat) := by
  obtain ⟨b, h1, h2⟩ := C222_verify (q := Primes.k256q) (k256Lawful refs) rfl P hash v r s
  refine ⟨b, h1, h2.trans ?_⟩
  have hsz : Primes.k256q.size = 256 := by decide +kernel
  have : beNat hash / 2 ^ (8 * hash.length - Primes.k256q.size) = beNat (hash.take 32) := by
    rw [hsz]
    by_cases h : 32 ≤ hash.length
    · rw [beNat_take hash 32, show 8 * (hash.length - 32) = 8 * hash.length - 256 by omega]
    · rw [List.take_of_length_le (by omega), show 8 * hash.length - 256 = 0 by omega, pow_zero, Nat.div_one]
  rw [this]
  rfl

theorem k256_gx (refs : List ℕ) : (k256Lawful refs).xy (k256Lawful refs).g =
    ((0x79be667ef9dcbbac55a06295ce870b07029bfcdb2dce28d959f2815b16f81798 : ℤ), ((K256.generator.y.val : ℕ) : ℤ)) := by
  rw [(k256Lawful refs).base]
  refine Prod.ext ?_ rfl
  show ((K256.generator.x.val : ℕ) : ℤ) = _
  decide +kernel

theorem k256_g_ne (refs : List ℕ) : (k256Lawful refs).g ≠ 0 := by
  intro h
  have := k256_gx refs
  rw [h, (k256Lawful refs).zero] at this
  exact absurd (congrArg Prod.fst this) (by decide)

/-- the signature of the digest `7` with secret key 1 and nonce 1 is accepted, with any recovery bit, and so is its other `s` -/
example (refs : List ℕ) (v v' : ℤ) : verifyEcdsa (some ((k256Lawful refs).pt (k256Lawful refs).g)) [7]
      (some ⟨v, some 0x79be667ef9dcbbac55a06295ce870b07029bfcdb2dce28d959f2815b16f81798,
        some 0x79be667ef9dcbbac55a06295ce870b07029bfcdb2dce28d959f2815b16f8179f⟩) = .ok true ∧
    verifyEcdsa (some ((k256Lawful refs).pt (k256Lawful refs).g)) [7]
      (some ⟨v', some 0x79be667ef9dcbbac55a06295ce870b07029bfcdb2dce28d959f2815b16f81798,
        some (Primes.k256q - 0x79be667ef9dcbbac55a06295ce870b07029bfcdb2dce28d959f2815b16f8179f)⟩) = .ok true := by
  have hr : 0x79be667ef9dcbbac55a06295ce870b07029bfcdb2dce28d959f2815b16f81798 =
      ((k256Lawful refs).xy ((1 : ZMod Primes.k256q) • (k256Lawful refs).g)).1.toNat % Primes.k256q := by
    rw [one_smul, k256_gx]; decide +kernel
  have h := C222_complete (q := Primes.k256q) (k256Lawful refs) rfl [7] 1 1 (by rw [one_smul]; exact k256_g_ne refs) v _ _ hr
    (by decide +kernel) rfl (by decide +kernel)
  rw [one_smul] at h
  have hv : ((((((beNat [7] / 2 ^ (8 * [(7 : UInt8)].length - Primes.k256q.size) : ℕ) : ZMod Primes.k256q) +
      ((0x79be667ef9dcbbac55a06295ce870b07029bfcdb2dce28d959f2815b16f81798 : ℕ) : ZMod Primes.k256q) * 1) / 1 : ZMod Primes.k256q).val : ℕ) : ℤ) =
      0x79be667ef9dcbbac55a06295ce870b07029bfcdb2dce28d959f2815b16f8179f := by
    rw [div_one]
    decide +kernel
  rw [hv] at h
  refine ⟨h, ?_⟩
  rw [C222_malleable (q := Primes.k256q) (k256Lawful refs) rfl _ _ v' v _ _ (by decide) (by decide +kernel)]
  exact h

/-- under the key `(0, 0)` the digest `7` has the signature `(x(G), 7)` -/
example (refs : List ℕ) : verifyEcdsa (some ⟨k256Curve refs, some 0, some 0⟩) [7]
    (some ⟨0, some 0x79be667ef9dcbbac55a06295ce870b07029bfcdb2dce28d959f2815b16f81798, some 7⟩) = .ok true := by
  have h := C222_identity_key (q := Primes.k256q) (k256Lawful refs) rfl [7] 0 (k256_g_ne refs) (by rw [k256_gx]; decide +kernel) (by decide +kernel)
  rw [k256_gx, show (0x79be667ef9dcbbac55a06295ce870b07029bfcdb2dce28d959f2815b16f81798 : ℤ) % Primes.k256q =
    0x79be667ef9dcbbac55a06295ce870b07029bfcdb2dce28d959f2815b16f81798 by decide +kernel,
    show ((beNat [7] / 2 ^ (8 * [(7 : UInt8)].length - Primes.k256q.size) % Primes.k256q : ℕ) : ℤ) = 7 by decide +kernel] at h
  exact h

theorem zero_smul_add {A : Type} [AddCommGroup A] {q : ℕ} [Module (ZMod q) A] (g : A) : (0 : ZMod q) • g + g = g := by
  rw [zero_smul, zero_add]

/-- under the key `G` a digest with a signature is found without the secret key: `a = 0` gives `(x(G), x(G))` for the digest 0 -/
example (refs : List ℕ) : verifyEcdsa (some ((k256Lawful refs).pt (k256Lawful refs).g)) (beBytes 32 0)
    (some ⟨0, some 0x79be667ef9dcbbac55a06295ce870b07029bfcdb2dce28d959f2815b16f81798,
      some 0x79be667ef9dcbbac55a06295ce870b07029bfcdb2dce28d959f2815b16f81798⟩) = .ok true := by
  have hsz : Primes.k256q.size = 256 := by decide +kernel
  have hz : (0 : ZMod Primes.k256q) • (k256Lawful refs).g + (k256Lawful refs).g = (k256Lawful refs).g := zero_smul_add _
  have h := C222_digest_forgery (q := Primes.k256q) (k256Lawful refs) rfl (by rw [hsz]) (k256Lawful refs).g 0 0
    0x79be667ef9dcbbac55a06295ce870b07029bfcdb2dce28d959f2815b16f81798 (by rw [hz, k256_gx]; decide +kernel) (by decide)
  rw [zero_mul, ZMod.val_zero, hsz] at h
  exact h

/-- C222: this is what the older two-party signing assumes of the verification, so a signature that Bob returns is accepted by
`VerifyEcdsa`, whatever Alice sent -/
theorem C222_dklsv0 (sha : List UInt8 → Ot.Digest) (shake : ℕ → UInt8) :
    let ev : EcPoint → List UInt8 → ℤ → ℤ → Bool := fun p d r s => decide (verifyEcdsa (some p) d (some ⟨0, some r, some s⟩) = .ok true)
    DklsV0.VerifySpec (DklsV0.k256Sound [] sha shake ev) := by
  intro ev P d r s
  obtain ⟨b, h1, h2⟩ := C222_k256 [] P d 0 r s
  show decide (verifyEcdsa (some ((k256Lawful []).pt P)) d (some ⟨0, some r, some s⟩) = .ok true) = true ↔ _
  rw [decide_eq_true_iff, h1, Except.ok.injEq]
  exact h2

/-- C222: on `Koblitz256` a public key with coordinates that are not of a point is not an answer but a panic, once `r` and `s` are in range -/
theorem C222_off_curve (refs : List ℕ) (x y : ℤ) (hxy : ¬ ∃ P : K256.Group, coords P = (x % Primes.k256p, y % Primes.k256p))
    (hash : List UInt8) (v r s : ℤ) (hr : 0 < r) (hrq : r < Primes.k256q) (hs : 0 < s) (hsq : s < Primes.k256q) :
    verifyEcdsa (some ⟨k256Curve refs, some x, some y⟩) hash (some ⟨v, some r, some s⟩) = Go.crash := by
  show (if r ≤ 0 then Except.ok false else if s ≤ 0 then Except.ok false else
    if r ≥ (Primes.k256q : ℤ) ∨ s ≥ (Primes.k256q : ℤ) then Except.ok false else verifyGeneric (k256Curve refs) (some x) (some y) hash r s : Go Bool) = _
  rw [if_neg (by omega), if_neg (by omega), if_neg (by omega)]
  have hg := ((natSet_eq (p := Primes.k256p) K256.two_ne K256.no_root x y).2.2 hxy)
  have hm : ∀ k, (k256Curve refs).scalarMult (some x) (some y) k = .ok (none, none) := by
    intro k
    show orNil (natSet _ _ (some x) (some y)) _ = _
    rw [hg]; rfl
  have hN0 : (k256Curve refs).params.N ≠ 0 := (k256Lawful refs).pos.ne'
  have hadd : ∀ Q : K256.Group, (k256Curve refs).add (some ((k256Lawful refs).xy Q).1) (some ((k256Lawful refs).xy Q).2) none none = Go.crash := by
    intro Q
    obtain ⟨p, h, -⟩ := natSet_coords K256.two_ne K256.no_root Q
    show orNil (natSet _ _ (some (coords Q).1) (some (coords Q).2)) _ = _
    rw [h]; rfl
  unfold verifyGeneric
  rcases hw : Big.modInverse s (k256Curve refs).params.N with _ | w
  · simp only [hw]
  · simp only [hw]
    have e1 := intBytes_smul (c := k256Curve refs) (q := Primes.k256q) (A := K256.Group) rfl (Fact.out : Primes.k256q.Prime).pos
      (hashToInt (k256Curve refs).params.N hash * w) 0
    have m1 := (k256Lawful refs).baseMul _ e1.2
    simp only [Big.mod, if_neg hN0, Go.ok_bind, m1, hm]
    rw [hadd]
    rfl

/-- `(1, 1)` is not on secp256k1 -/
example (refs : List ℕ) : verifyEcdsa (some ⟨k256Curve refs, some 1, some 1⟩) [7] (some ⟨0, some 1, some 1⟩) = Go.crash := by
  refine C222_off_curve refs 1 1 ?_ _ _ _ _ (by decide) (by decide +kernel) (by decide) (by decide +kernel)
  rw [← (C186_isOnCurve refs (fun _ _ _ => Go.err) 1 1).1]
  intro h
  have : natIsOnCurve 0 K256.b (some 1) (some 1) = .ok false := by decide +kernel
  rw [show (k256Curve refs).isOnCurve (some 1) (some 1) = natIsOnCurve 0 K256.b (some 1) (some 1) from rfl, this] at h
  cases h

/-- C222 on `Koblitz256`: coordinates are reduced first, so a key with other coordinates of the same residues verifies the same signatures,
although it does not equal the key -/
theorem C222_unreduced (refs : List ℕ) (P : K256.Group) (x y : ℤ) (h : coords P = (x % Primes.k256p, y % Primes.k256p)) (hash : List UInt8)
    (sig : Option EcdsaSig) : verifyEcdsa (some ⟨k256Curve refs, some x, some y⟩) hash sig = verifyEcdsa (some ((k256Lawful refs).pt P)) hash sig := by
  have hset : natSet 0 K256.b (some x) (some y) = natSet 0 K256.b (some (coords P).1) (some (coords P).2) := by
    rw [h]
    simp only [natSet, setBigInt, ZMod.intCast_mod]
  have hmul : ∀ k, (k256Curve refs).scalarMult (some x) (some y) k = (k256Curve refs).scalarMult (some (coords P).1) (some (coords P).2) k := by
    intro k
    show natScalarMult _ _ _ _ _ _ _ = natScalarMult _ _ _ _ _ _ _
    unfold natScalarMult
    rw [hset]
  have hgen : ∀ r s, verifyGeneric (k256Curve refs) (some x) (some y) hash r s =
      verifyGeneric (k256Curve refs) (some (coords P).1) (some (coords P).2) hash r s := by
    intro r s
    unfold verifyGeneric
    simp only [hmul]
  cases sig with
  | none => rfl
  | some sig =>
    obtain ⟨v, r, s⟩ := sig
    cases r with
    | none => rfl
    | some r =>
      cases s with
      | none => rfl
      | some s =>
        show (if r ≤ 0 then Except.ok false else if s ≤ 0 then Except.ok false else
          if r ≥ _ ∨ s ≥ _ then Except.ok false else verifyGeneric (k256Curve refs) (some x) (some y) hash r s : Go Bool) =
          (if r ≤ 0 then Except.ok false else if s ≤ 0 then Except.ok false else
          if r ≥ _ ∨ s ≥ _ then Except.ok false else verifyGeneric (k256Curve refs) (some (coords P).1) (some (coords P).2) hash r s)
        rw [hgen]
        rfl

end Verif.Legacy
