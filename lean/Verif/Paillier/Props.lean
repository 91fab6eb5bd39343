import Verif.Paillier.Lemmas
import Mathlib.Tactic.NormNum.Prime
import Mathlib.Algebra.Squarefree.Basic
import Mathlib.Data.Nat.Squarefree
import Mathlib.Data.ZMod.Coprime

/-!
# Properties of `pkg/paillier` (C16, C17, C18, C90)
-/

set_option linter.unusedSectionVars false

namespace Verif.Paillier

/-! ## the honest key -/

/-- What `NewSecretKey` returns for honest primes. -/
theorem newSecretKey_honest {p q : ℕ} (h : HonestPrimes p q) :
    ∃ U : ℤ, newSecretKey (some p) (some q) = .ok
      ⟨⟨p * q, p * q * (p * q)⟩, (Nat.lcm (p - 1) (q - 1) : ℕ), (p - 1) * (q - 1), U⟩ ∧
      (Nat.lcm (p - 1) (q - 1) : ℤ) * U ≡ 1 [ZMOD p * q] := by
  have hN := h.N_pos
  set N : ℤ := (p : ℤ) * q with hNdef
  set lam := Nat.lcm (p - 1) (q - 1) with hlam
  have hNN : (0 : ℤ) < N * N := by positivity
  have hexp : Big.exp (N + 1) (lam : ℤ) (N * N) = some ((N + 1) ^ lam % (N * N)) := by
    unfold Big.exp
    rw [if_neg hNN.ne', if_pos (by positivity), Int.toNat_natCast]
  set x := (N + 1) ^ lam % (N * N) with hx
  have x0 : 0 ≤ x := Int.emod_nonneg _ hNN.ne'
  have x1 : x < N * N := Int.emod_lt_of_pos _ hNN
  have xe : x ≡ 1 + lam * N [ZMOD N * N] := by
    refine (Int.mod_modEq _ _).trans ?_
    have := one_add_mul_pow N 1 lam
    simpa [add_comm, mul_comm, mul_left_comm] using this
  have xN : x ≡ 1 [ZMOD N] := by
    refine (xe.of_mul_right _).trans ?_
    rw [Int.modEq_iff_dvd]; exact ⟨-lam, by ring⟩
  obtain ⟨hl, hl2⟩ := (l_eq hN x0 x1).1 xN
  have hle : (x - 1) / N ≡ lam [ZMOD N] := by
    rw [← one_add_modEq (by omega : N ≠ 0), ← hl2]; exact xe
  have hg : Int.gcd ((x - 1) / N) N = 1 := by
    have h1 : IsCoprime ((x - 1) / N) N := by
      have hc : IsCoprime (lam : ℤ) N := by
        have := coprime_lambda h
        rw [hNdef, ← Nat.cast_mul, Nat.isCoprime_iff_coprime]
        exact this.symm
      obtain ⟨k, hk⟩ := Int.modEq_iff_dvd.1 hle
      have : (x - 1) / N = lam + N * (-k) := by linarith
      rw [this]
      exact hc.add_mul_left_left _
    exact Int.isCoprime_iff_gcd_eq_one.1 h1
  obtain ⟨i, hi⟩ := Option.isSome_iff_exists.1 (Big.modInverse_isSome.2 hg)
  refine ⟨i, ?_, ?_⟩
  · unfold newSecretKey
    simp only
    rw [lambda_eq h, ← hNdef, ← hlam, hexp]
    simp only [Option.getD_some]
    rw [hl]
    simp only [Go.ok_bind, hi, Option.getD_some]
  · have := ((Big.modInverse_eq_some (by omega)).1 hi).2.2
    exact (hle.symm.mul_right i).trans this

theorem isCoprime_of_pow {c N : ℤ} {e : ℕ} (he : e ≠ 0) (h : c ^ e ≡ 1 [ZMOD N]) :
    IsCoprime c N := by
  obtain ⟨k, hk⟩ := Int.modEq_iff_dvd.1 h
  have : IsCoprime (c ^ e) N := ⟨1, k, by linarith⟩
  exact (IsCoprime.pow_left_iff (Nat.pos_of_ne_zero he)).1 this

theorem lam_pos {p q : ℕ} (h : HonestPrimes p q) : 1 < Nat.lcm (p - 1) (q - 1) := by
  have hp := h.pp.two_le
  have hq := h.qp.two_le
  by_contra hc
  have h1 : Nat.lcm (p - 1) (q - 1) ≠ 0 := Nat.lcm_ne_zero (by omega) (by omega)
  have h2 : Nat.lcm (p - 1) (q - 1) = 1 := by omega
  have a := Nat.dvd_one.1 (h2 ▸ Nat.dvd_lcm_left (p - 1) (q - 1))
  have b := Nat.dvd_one.1 (h2 ▸ Nat.dvd_lcm_right (p - 1) (q - 1))
  exact h.ne (by omega)

/-- The value computed by `Decrypt` from a unit. -/
theorem decrypt_unit {p q : ℕ} (h : HonestPrimes p q) (sk : SecretKey)
    (hsk : newSecretKey (some p) (some q) = .ok sk) (c : ℤ) (c0 : 0 ≤ c)
    (c1 : c < p * q * (p * q)) :
    (IsCoprime c (p * q) → ∃ l : ℤ, sk.decrypt (some c) = .ok (l * sk.U % (p * q)) ∧
      c ^ Nat.lcm (p - 1) (q - 1) ≡ 1 + l * (p * q) [ZMOD p * q * (p * q)]) ∧
    (¬ IsCoprime c (p * q) → sk.decrypt (some c) = Go.err) := by
  have hN := h.N_pos
  obtain ⟨U, hU, _⟩ := newSecretKey_honest h
  obtain rfl := Except.ok.inj (hU.symm.trans hsk)
  set N : ℤ := (p : ℤ) * q with hNdef
  set lam := Nat.lcm (p - 1) (q - 1) with hlam
  have hNN : (0 : ℤ) < N * N := by positivity
  have hexp : Big.exp c (lam : ℤ) (N * N) = some (c ^ lam % (N * N)) := by
    unfold Big.exp
    rw [if_neg hNN.ne', if_pos (by positivity), Int.toNat_natCast]
  set x := c ^ lam % (N * N) with hx
  have x0 : 0 ≤ x := Int.emod_nonneg _ hNN.ne'
  have x1 : x < N * N := Int.emod_lt_of_pos _ hNN
  have xc : x ≡ c ^ lam [ZMOD N * N] := Int.mod_modEq _ _
  have hin : Core.inZm (some c) (some (N * N)) = .ok () := by
    unfold Core.inZm
    simp only
    rw [Go.guard_true ⟨by omega, c1⟩]
  unfold SecretKey.decrypt
  simp only [hin, Go.ok_bind, hexp, Go.ofOption]
  constructor
  · intro hc
    have xN : x ≡ 1 [ZMOD N] := (xc.of_mul_right _).trans (pow_lambda h hc)
    obtain ⟨hl, hl2⟩ := (l_eq hN x0 x1).1 xN
    refine ⟨(x - 1) / N, ?_, ?_⟩
    · rw [hl]
      simp only [Go.ok_bind, Core.mul, Big.mod]
      rw [if_neg (by omega)]
    · rw [← hl2]; exact xc.symm
  · intro hc
    have xN : ¬ x ≡ 1 [ZMOD N] := fun hx1 => hc
      (isCoprime_of_pow (by have := lam_pos h; omega) ((xc.of_mul_right N).symm.trans hx1))
    rw [(l_eq hN x0 x1).2 xN]
    rfl

/-! ## C16 -/

/-- `c` is a Paillier encryption of `m` with nonce `r` under modulus `N` (specification). -/
def IsEnc (N m r c : ℤ) : Prop := c ≡ (1 + N) ^ m.toNat * r ^ N.toNat [ZMOD N * N]

/-- Decryption is exactly the inverse relation of encryption: for every ciphertext in range,
`Decrypt` returns `m` iff `m` is in `[0,N)` and the ciphertext is an encryption of `m` for some
nonce that is a unit. -/
theorem C16_decrypt_iff {p q : ℕ} (h : HonestPrimes p q) (sk : SecretKey)
    (hsk : newSecretKey (some p) (some q) = .ok sk) (c : ℤ) (c0 : 0 ≤ c)
    (c1 : c < p * q * (p * q)) (m : ℤ) :
    sk.decrypt (some c) = .ok m ↔
      (0 ≤ m ∧ m < p * q) ∧ ∃ r, IsCoprime r ((p : ℤ) * q) ∧ IsEnc (p * q) m r c := by
  obtain ⟨du, dn⟩ := decrypt_unit h sk hsk c c0 c1
  have hN := h.N_pos
  have hl1 := lam_pos h
  have hcl := coprime_lambda h
  obtain ⟨U, hU, hUl⟩ := newSecretKey_honest h
  have hsk' := Except.ok.inj (hU.symm.trans hsk)
  have eU : sk.U = U := by rw [← hsk']
  rw [eU] at du
  have hpl := fun r hr => pow_lambda (r := r) h hr
  have hnat : ((p : ℤ) * q).toNat = p * q := by
    rw [← Nat.cast_mul, Int.toNat_natCast]
  unfold IsEnc
  rw [hnat]
  set lam := Nat.lcm (p - 1) (q - 1) with hlam
  have hNcast : (p : ℤ) * q = ((p * q : ℕ) : ℤ) := by push_cast; rfl
  set n := p * q with hn
  rw [hNcast] at du dn hN hUl hpl c1 ⊢
  set N : ℤ := (n : ℤ) with hNdef
  constructor
  · intro hd
    have hc : IsCoprime c N := by
      by_contra hc
      rw [dn hc] at hd
      exact absurd hd (by simp)
    obtain ⟨l, hl, hcl2⟩ := du hc
    rw [hl] at hd
    obtain rfl := Except.ok.inj hd
    set m := l * U % N with hm
    have m0 : 0 ≤ m := Int.emod_nonneg _ (by omega)
    refine ⟨⟨m0, Int.emod_lt_of_pos _ (by omega)⟩, ?_⟩
    -- the nonce part
    set w := c * (1 + -m * N) with hw
    have hwl : w ^ lam ≡ 1 [ZMOD N * N] := by
      rw [hw, mul_pow]
      refine (hcl2.mul (one_add_mul_pow N (-m) lam)).trans ?_
      have hmod : l - lam * m ≡ 0 [ZMOD N] := by
        have e1 : m ≡ l * U [ZMOD N] := Int.mod_modEq _ _
        have e2 : lam * m ≡ l [ZMOD N] := by
          refine (e1.mul_left _).trans ?_
          rw [show (lam : ℤ) * (l * U) = l * (lam * U) by ring]
          simpa using hUl.mul_left l
        simpa using (Int.ModEq.refl l).sub e2
      obtain ⟨k, hk⟩ := Int.modEq_iff_dvd.1 hmod
      rw [Int.modEq_iff_dvd]
      refine ⟨k + l * lam * m, ?_⟩
      have : l - lam * m = -(N * k) := by linarith
      have h2 : l = lam * m - N * k := by linarith
      rw [h2]; ring
    obtain ⟨a, ha⟩ := Nat.exists_mul_mod_eq_one_of_coprime hcl hl1
    obtain ⟨b, hb⟩ : ∃ b, n * a = 1 + lam * b := by
      refine ⟨n * a / lam, ?_⟩
      have := Nat.div_add_mod (n * a) lam
      omega
    refine ⟨w ^ a, ?_, ?_⟩
    · have : IsCoprime w N := isCoprime_of_pow (by omega) (hwl.of_mul_right N)
      exact this.pow_left
    · have e1 : (w ^ a) ^ n ≡ w [ZMOD N * N] := by
        rw [← pow_mul, mul_comm a n, hb, pow_add, pow_one, pow_mul]
        simpa using (hwl.pow b).mul_left w
      have e2 : (1 + N) ^ m.toNat ≡ 1 + m * N [ZMOD N * N] := by
        have := one_add_mul_pow N 1 m.toNat
        rwa [one_mul, mul_one, Int.toNat_of_nonneg m0] at this
      refine ((e2.mul e1).trans ?_).symm
      rw [Int.modEq_iff_dvd, hw]
      exact ⟨c * m * m, by ring⟩
  · rintro ⟨⟨m0, m1⟩, r, hr, hcr⟩
    have e2 : (1 + N) ^ m.toNat ≡ 1 + m * N [ZMOD N * N] := by
      have := one_add_mul_pow N 1 m.toNat
      rwa [one_mul, mul_one, Int.toNat_of_nonneg m0] at this
    have hcl3 : c ^ lam ≡ 1 + lam * m * N [ZMOD N * N] := by
      refine (hcr.pow lam).trans ?_
      rw [mul_pow, ← pow_mul r, mul_comm n lam, pow_mul r]
      have e3 := pow_N_of_one (by omega : 0 < N) (hpl r hr)
      rw [hNdef, Int.toNat_natCast] at e3
      have e4 := (e2.pow lam).trans (one_add_mul_pow N m lam)
      simpa using e4.mul e3
    have hc : IsCoprime c N := by
      refine isCoprime_of_pow (e := lam) (by omega) ((hcl3.of_mul_right N).trans ?_)
      rw [Int.modEq_iff_dvd]; exact ⟨-(lam * m), by ring⟩
    obtain ⟨l, hl, hcl2⟩ := du hc
    rw [hl]
    congr 1
    have hlm : l ≡ lam * m [ZMOD N] :=
      (one_add_modEq (by omega : N ≠ 0)).1 (hcl2.symm.trans hcl3)
    have : l * U ≡ m [ZMOD N] := by
      refine (hlm.mul_right U).trans ?_
      rw [show (lam : ℤ) * m * U = m * (lam * U) by ring]
      simpa using hUl.mul_left m
    unfold Int.ModEq at this
    rw [this, Int.emod_eq_of_lt m0 m1]

/-- Non-units are rejected with an error, every unit decrypts. -/
theorem C16_decrypt_total {p q : ℕ} (h : HonestPrimes p q) (sk : SecretKey)
    (hsk : newSecretKey (some p) (some q) = .ok sk) (c : ℤ) (c0 : 0 ≤ c)
    (c1 : c < p * q * (p * q)) :
    ((∃ m, sk.decrypt (some c) = .ok m) ↔ IsCoprime c ((p : ℤ) * q)) ∧
    (sk.decrypt (some c) = Go.err ↔ ¬ IsCoprime c ((p : ℤ) * q)) := by
  obtain ⟨du, dn⟩ := decrypt_unit h sk hsk c c0 c1
  by_cases hc : IsCoprime c ((p : ℤ) * q)
  · obtain ⟨l, hl, _⟩ := du hc
    rw [hl]; simp [hc]
  · rw [dn hc]; simp [hc]

/-- Exact acceptance condition and value of `encrypt`. -/
theorem encrypt_eq_ok {N m r c : ℤ} (hN : 1 < N) :
    PublicKey.encrypt ⟨N, N * N⟩ (some m) (some r) = .ok c ↔
      (0 ≤ m ∧ m < N) ∧ (0 < r ∧ r < N) ∧ (0 ≤ c ∧ c < N * N) ∧ IsEnc N m r c := by
  have hNN : (0 : ℤ) < N * N := by positivity
  unfold PublicKey.encrypt IsEnc
  simp only [Core.inZm, Go.guard_bind_eq_ok, Big.exp, if_neg hNN.ne']
  have e : ∀ m : ℤ, 0 ≤ m → ∀ a : ℤ, (if 0 ≤ m then some (a ^ m.toNat % (N * N)) else
      Option.map (fun i => i ^ (-m).toNat % (N * N)) (Big.modInverse a (N * N))) =
      some (a ^ m.toNat % (N * N)) := fun m hm a => if_pos hm
  constructor
  · rintro ⟨⟨m0, m1⟩, ⟨r0, r1⟩, r2, hc⟩
    rw [e m (by omega), e N (by omega)] at hc
    simp only [Go.ofOption, Go.ok_bind, Core.mul, Big.mod, if_neg hNN.ne'] at hc
    obtain rfl := Except.ok.inj hc
    refine ⟨⟨by omega, m1⟩, ⟨by omega, r1⟩, ⟨Int.emod_nonneg _ hNN.ne', Int.emod_lt_of_pos _ hNN⟩, ?_⟩
    refine (Int.mod_modEq _ _).trans ?_
    rw [add_comm 1 N]
    exact (Int.mod_modEq _ _).mul (Int.mod_modEq _ _)
  · rintro ⟨⟨m0, m1⟩, ⟨r0, r1⟩, ⟨c0, c1⟩, hc⟩
    refine ⟨⟨by omega, m1⟩, ⟨by omega, r1⟩, by omega, ?_⟩
    rw [e m (by omega), e N (by omega)]
    simp only [Go.ofOption, Go.ok_bind, Core.mul, Big.mod, if_neg hNN.ne']
    congr 1
    have hc' : c ≡ (N + 1) ^ m.toNat % (N * N) * (r ^ N.toNat % (N * N)) [ZMOD N * N] := by
      refine hc.trans ?_
      rw [add_comm 1 N]
      exact (Int.mod_modEq _ _).symm.mul (Int.mod_modEq _ _).symm
    unfold Int.ModEq at hc'
    rw [← hc', Int.emod_eq_of_lt c0 c1]

theorem pk_honest {p q : ℕ} (h : HonestPrimes p q) {sk : SecretKey}
    (hsk : newSecretKey (some p) (some q) = .ok sk) : sk.pk = ⟨p * q, p * q * (p * q)⟩ := by
  obtain ⟨U, hU, _⟩ := newSecretKey_honest h
  rw [← Except.ok.inj (hU.symm.trans hsk)]

/-- Round trip: for every message in `[0,N)` and every nonce in `[1,N)` encryption succeeds; if the
nonce is a unit decryption returns the message; if it is not (it then reveals a factor) decryption
is refused. -/
theorem C16_round_trip {p q : ℕ} (h : HonestPrimes p q) (sk : SecretKey)
    (hsk : newSecretKey (some p) (some q) = .ok sk) (m r : ℤ) (m0 : 0 ≤ m) (m1 : m < p * q)
    (r0 : 0 < r) (r1 : r < p * q) :
    ∃ c, sk.pk.encrypt (some m) (some r) = .ok c ∧
      (IsCoprime r ((p : ℤ) * q) → sk.decrypt (some c) = .ok m) ∧
      (¬ IsCoprime r ((p : ℤ) * q) → sk.decrypt (some c) = Go.err) := by
  have hN := h.N_pos
  have hNN : (0 : ℤ) < p * q * (p * q) := by positivity
  set N : ℤ := (p : ℤ) * q with hNdef
  have henc : IsEnc N m r ((1 + N) ^ m.toNat * r ^ N.toNat % (N * N)) := Int.mod_modEq _ _
  set c := (1 + N) ^ m.toNat * r ^ N.toNat % (N * N) with hc
  have c0 : 0 ≤ c := Int.emod_nonneg _ hNN.ne'
  have c1 : c < N * N := Int.emod_lt_of_pos _ hNN
  refine ⟨c, ?_, fun hr => ?_, fun hr => ?_⟩
  · rw [pk_honest h hsk]
    exact (encrypt_eq_ok hN).2 ⟨⟨m0, m1⟩, ⟨r0, r1⟩, ⟨c0, c1⟩, henc⟩
  · exact (C16_decrypt_iff h sk hsk c c0 c1 m).2 ⟨⟨m0, m1⟩, r, hr, henc⟩
  · refine (C16_decrypt_total h sk hsk c c0 c1).2.2 fun hcc => hr ?_
    -- `c` coprime to `N` forces `r` coprime to `N`
    obtain ⟨k, hk⟩ := Int.modEq_iff_dvd.1 henc
    have e : (1 + N) ^ m.toNat * r ^ N.toNat = c + N * (N * k) := by linarith
    have h1 : IsCoprime ((1 + N) ^ m.toNat * r ^ N.toNat) N := by
      rw [e]; exact hcc.add_mul_left_left _
    have h2 : IsCoprime (r ^ N.toNat) N := IsCoprime.of_mul_left_right h1
    exact (IsCoprime.pow_left_iff (by omega)).1 h2

/-- Out-of-range inputs are refused: messages or nonces outside their range, ciphertexts outside
`[0, N²)`, nil pointers. -/
theorem C16_range_checks (sk : SecretKey) (m r : Option ℤ) (c : ℤ)
    (hbad : m = none ∨ r = none ∨ (∃ x, m = some x ∧ ¬ (0 ≤ x ∧ x < sk.pk.N)) ∨
      (∃ x, r = some x ∧ ¬ (0 < x ∧ x < sk.pk.N))) (hc : ¬ (0 ≤ c ∧ c < sk.pk.N2)) :
    sk.pk.encrypt m r = Go.err ∧ sk.decrypt (some c) = Go.err ∧ sk.decrypt none = Go.err := by
  refine ⟨?_, ?_, rfl⟩
  · match m, r with
    | none, _ => rfl
    | some m, none => rfl
    | some m, some r =>
      simp only [Option.some.injEq, exists_eq_left', reduceCtorEq, false_or] at hbad
      unfold PublicKey.encrypt Core.inZm
      simp only
      by_cases hm : ¬ m < 0 ∧ m < sk.pk.N
      · rw [Go.guard_true hm]
        simp only [Go.ok_bind]
        by_cases hr : ¬ r < 0 ∧ r < sk.pk.N
        · rw [Go.guard_true hr]
          simp only [Go.ok_bind]
          rw [Go.guard_false (by omega)]
          rfl
        · rw [Go.guard_false hr]; rfl
      · rw [Go.guard_false hm]; rfl
  · unfold SecretKey.decrypt Core.inZm
    simp only
    rw [Go.guard_false (by omega)]
    rfl

/-- Two different pointers to equal primes pass the `p == q` loop of key generation; the resulting
key decrypts wrongly without any error (here `p = q = 5`, message 1, nonce 2). -/
theorem C16_equal_primes_accepted :
    ∃ sk, keyGenerator (.ok 5) (.ok 5) = .ok sk ∧ ∃ c m', sk.pk.encrypt (some 1) (some 2) = .ok c ∧
      sk.decrypt (some c) = .ok m' ∧ m' ≠ 1 :=
  ⟨⟨⟨25, 625⟩, 4, 16, 19⟩, by decide +kernel, 232, 11, by decide +kernel⟩

theorem honest_5_7 : HonestPrimes 5 7 :=
  ⟨by norm_num, by norm_num, by norm_num, by decide⟩

example : ∃ sk, newSecretKey (some (5 : ℕ)) (some (7 : ℕ)) = .ok sk ∧
    ∃ c, sk.pk.encrypt (some 3) (some 2) = .ok c ∧ sk.decrypt (some c) = .ok 3 := by
  obtain ⟨U, hU, _⟩ := newSecretKey_honest honest_5_7
  obtain ⟨c, h1, h2, _⟩ := C16_round_trip honest_5_7 _ hU 3 2 (by norm_num) (by norm_num)
    (by norm_num) (by norm_num)
  exact ⟨_, hU, c, h1, h2 (by rw [Int.isCoprime_iff_gcd_eq_one]; decide +kernel)⟩

/-! ## C17: homomorphism -/

theorem add_eq_ok {N2 c d e : ℤ} (hN : 0 < N2) {N : ℤ} :
    PublicKey.add ⟨N, N2⟩ (some c) (some d) = .ok e ↔
      (0 ≤ c ∧ c < N2) ∧ (0 ≤ d ∧ d < N2) ∧ e = c * d % N2 := by
  unfold PublicKey.add
  simp only [Core.inZm, Go.guard_bind_eq_ok, Core.mul, Big.mod, if_neg hN.ne', Except.ok.injEq]
  constructor
  · rintro ⟨⟨a, b⟩, ⟨x, y⟩, rfl⟩; exact ⟨⟨by omega, b⟩, ⟨by omega, y⟩, rfl⟩
  · rintro ⟨⟨a, b⟩, ⟨x, y⟩, rfl⟩; exact ⟨⟨by omega, b⟩, ⟨by omega, y⟩, rfl⟩

theorem mul_eq_ok {N2 N a c e : ℤ} (hN : 0 < N2) :
    PublicKey.mul ⟨N, N2⟩ (some a) (some c) = .ok e ↔
      (0 ≤ a ∧ a < N) ∧ (0 ≤ c ∧ c < N2) ∧ e = c ^ a.toNat % N2 := by
  unfold PublicKey.mul
  simp only [Core.inZm, Go.guard_bind_eq_ok, Big.exp, if_neg hN.ne']
  constructor
  · rintro ⟨⟨x, y⟩, ⟨z, w⟩, h⟩
    rw [if_pos (by omega)] at h
    exact ⟨⟨by omega, y⟩, ⟨by omega, w⟩, (Except.ok.inj h).symm⟩
  · rintro ⟨⟨x, y⟩, ⟨z, w⟩, rfl⟩
    refine ⟨⟨by omega, y⟩, ⟨by omega, w⟩, ?_⟩
    rw [if_pos x]; rfl

theorem one_add_pow_congr {N a b : ℤ} (hN : 0 < N) (ha : 0 ≤ a) (hb : 0 ≤ b)
    (h : a ≡ b [ZMOD N]) : (1 + N) ^ a.toNat ≡ (1 + N) ^ b.toNat [ZMOD N * N] := by
  have e : ∀ x : ℤ, 0 ≤ x → (1 + N) ^ x.toNat ≡ 1 + x * N [ZMOD N * N] := by
    intro x hx
    have := one_add_mul_pow N 1 x.toNat
    rwa [one_mul, mul_one, Int.toNat_of_nonneg hx] at this
  exact (e a ha).trans (((one_add_modEq hN.ne').2 h).trans (e b hb).symm)

/-- Adding ciphertexts adds plaintexts modulo `N`. -/
theorem C17_add {p q : ℕ} (h : HonestPrimes p q) (sk : SecretKey)
    (hsk : newSecretKey (some p) (some q) = .ok sk) (c d m1 m2 : ℤ)
    (hc : sk.decrypt (some c) = .ok m1) (hd : sk.decrypt (some d) = .ok m2)
    (hcr : 0 ≤ c ∧ c < p * q * (p * q)) (hdr : 0 ≤ d ∧ d < p * q * (p * q)) :
    ∃ e, sk.pk.add (some c) (some d) = .ok e ∧
      sk.decrypt (some e) = .ok ((m1 + m2) % (p * q)) := by
  have hN := h.N_pos
  have hNN : (0 : ℤ) < p * q * (p * q) := by positivity
  obtain ⟨⟨a0, a1⟩, r1, hr1, e1⟩ := (C16_decrypt_iff h sk hsk c hcr.1 hcr.2 m1).1 hc
  obtain ⟨⟨b0, b1⟩, r2, hr2, e2⟩ := (C16_decrypt_iff h sk hsk d hdr.1 hdr.2 m2).1 hd
  refine ⟨c * d % (p * q * (p * q)), ?_, ?_⟩
  · rw [pk_honest h hsk]
    exact (add_eq_ok hNN).2 ⟨hcr, hdr, rfl⟩
  · refine (C16_decrypt_iff h sk hsk _ (Int.emod_nonneg _ hNN.ne') (Int.emod_lt_of_pos _ hNN) _).2
      ⟨⟨Int.emod_nonneg _ (by omega), Int.emod_lt_of_pos _ (by omega)⟩, r1 * r2,
        hr1.mul_left hr2, ?_⟩
    unfold IsEnc at *
    refine (Int.mod_modEq _ _).trans ((e1.mul e2).trans ?_)
    rw [mul_pow, mul_mul_mul_comm ((1 + (p : ℤ) * q) ^ m1.toNat), ← pow_add,
      ← Int.toNat_add a0 b0]
    exact (one_add_pow_congr (by omega) (by omega) (Int.emod_nonneg _ (by omega))
      (Int.mod_modEq _ _).symm).mul_right _

/-- Multiplying a ciphertext by a scalar in `[0, N)` multiplies the plaintext modulo `N`. -/
theorem C17_mul {p q : ℕ} (h : HonestPrimes p q) (sk : SecretKey)
    (hsk : newSecretKey (some p) (some q) = .ok sk) (c m a : ℤ)
    (hc : sk.decrypt (some c) = .ok m) (hcr : 0 ≤ c ∧ c < p * q * (p * q))
    (ha : 0 ≤ a ∧ a < p * q) :
    ∃ e, sk.pk.mul (some a) (some c) = .ok e ∧ sk.decrypt (some e) = .ok (a * m % (p * q)) := by
  have hN := h.N_pos
  have hNN : (0 : ℤ) < p * q * (p * q) := by positivity
  obtain ⟨⟨a0, a1⟩, r1, hr1, e1⟩ := (C16_decrypt_iff h sk hsk c hcr.1 hcr.2 m).1 hc
  refine ⟨c ^ a.toNat % (p * q * (p * q)), ?_, ?_⟩
  · rw [pk_honest h hsk]
    exact (mul_eq_ok hNN).2 ⟨ha, hcr, rfl⟩
  · refine (C16_decrypt_iff h sk hsk _ (Int.emod_nonneg _ hNN.ne') (Int.emod_lt_of_pos _ hNN) _).2
      ⟨⟨Int.emod_nonneg _ (by omega), Int.emod_lt_of_pos _ (by omega)⟩, r1 ^ a.toNat,
        hr1.pow_left, ?_⟩
    unfold IsEnc at *
    refine (Int.mod_modEq _ _).trans ((e1.pow a.toNat).trans ?_)
    rw [mul_pow, ← pow_mul, ← pow_mul r1, ← pow_mul r1, mul_comm ((p : ℤ) * q).toNat a.toNat,
      mul_comm m.toNat a.toNat, ← Int.toNat_mul ha.1 a0]
    exact (one_add_pow_congr (by omega) (mul_nonneg ha.1 a0) (Int.emod_nonneg _ (by omega))
      (Int.mod_modEq _ _).symm).mul_right _

/-- Operand checks of the homomorphic operations. -/
theorem C17_range_checks (pk : PublicKey) (c d a : ℤ) :
    (¬ ((0 ≤ c ∧ c < pk.N2) ∧ (0 ≤ d ∧ d < pk.N2)) → pk.add (some c) (some d) = Go.err) ∧
    (¬ ((0 ≤ a ∧ a < pk.N) ∧ (0 ≤ c ∧ c < pk.N2)) → pk.mul (some a) (some c) = Go.err) := by
  constructor
  · intro h
    unfold PublicKey.add Core.inZm
    simp only
    by_cases h1 : ¬ c < 0 ∧ c < pk.N2
    · rw [Go.guard_true h1, Go.ok_bind, Go.guard_false (by omega)]; rfl
    · rw [Go.guard_false h1]; rfl
  · intro h
    unfold PublicKey.mul Core.inZm
    simp only
    by_cases h1 : ¬ a < 0 ∧ a < pk.N
    · rw [Go.guard_true h1, Go.ok_bind, Go.guard_false (by omega)]; rfl
    · rw [Go.guard_false h1]; rfl

end Verif.Paillier
