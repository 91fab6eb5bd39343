import Mathlib.GroupTheory.OrderOfElement
import Mathlib.Data.List.GetD
import Mathlib.Tactic.Abel
import Mathlib.Tactic.NormNum.Prime
import Mathlib.Tactic.LinearCombination
import Verif.Nem.Model

/-!
# C81, C140, C141: NEM signatures
-/

namespace Verif.Nem

set_option exponentiation.threshold 600
set_option linter.unusedSectionVars false
set_option linter.unusedDecidableInType false

/-- what is needed of the curve library and the hash: encodings have 32 bytes and decode, hashes have 64
bytes, the base point has the order `q` of the scalars, whose encodings leave the top three bits free -/
structure Lawful {G : Type} [AddCommGroup G] (q : ℕ) (E : Env G) : Prop where
  penc_length : ∀ P, (E.penc P).length = 32
  pdec_penc : ∀ P, E.pdec (E.penc P) = some P
  keccak_length : ∀ b, (E.keccak b).length = 64
  order : addOrderOf E.base = q
  small : q < 2 ^ 253

section Props
variable {q : ℕ} [hq : Fact q.Prime] {G : Type} [AddCommGroup G] [DecidableEq G] {E : Env G}

theorem q_smul (hE : Lawful q E) : q • E.base = 0 := by
  rw [← hE.order]
  exact addOrderOf_nsmul_eq_zero _

theorem cast_smul (hE : Lawful q E) (n : ℕ) : ((n : ZMod q)).val • E.base = n • E.base := by
  rw [ZMod.val_natCast]
  conv_rhs => rw [← Nat.div_add_mod n q, add_smul, mul_comm, mul_smul, q_smul hE, smul_zero, zero_add]

theorem add_smul_base (hE : Lawful q E) (a b : ZMod q) :
    (a + b).val • E.base = a.val • E.base + b.val • E.base := by
  have : NeZero q := ⟨hq.out.ne_zero⟩
  have h := cast_smul hE (a.val + b.val)
  rw [Nat.cast_add, ZMod.natCast_zmod_val, ZMod.natCast_zmod_val] at h
  rw [h, add_smul]

theorem mul_smul_base (hE : Lawful q E) (a b : ZMod q) :
    (a * b).val • E.base = a.val • (b.val • E.base) := by
  have : NeZero q := ⟨hq.out.ne_zero⟩
  have h := cast_smul hE (a.val * b.val)
  rw [Nat.cast_mul, ZMod.natCast_zmod_val, ZMod.natCast_zmod_val] at h
  rw [h, mul_smul]

theorem smul_base_inj (hE : Lawful q E) {a b : ZMod q} (h : a.val • E.base = b.val • E.base) : a = b := by
  have : NeZero q := ⟨hq.out.ne_zero⟩
  have h1 := (nsmul_eq_nsmul_iff_modEq (x := E.base)).1 h
  rw [hE.order] at h1
  have h2 : ((a.val : ℕ) : ZMod q) = (b.val : ℕ) := (ZMod.natCast_eq_natCast_iff _ _ _).2 h1
  rwa [ZMod.natCast_zmod_val, ZMod.natCast_zmod_val] at h2

/-- C81: exactly which signatures are accepted -/
theorem C81_verify_iff (hE : Lawful q E) (pub msg sig : List UInt8) :
    verify E q pub msg sig = .ok true ↔
      pub.length = 32 ∧ sig.length = 64 ∧ sig.getD 63 0 &&& 224 = 0 ∧ leNat (sig.drop 32) < q ∧
      ∃ A, E.pdec pub = some A ∧ sig.take 32 = E.penc
        (leNat (sig.drop 32) • E.base -
          (leNat (E.keccak (sig.take 32 ++ pub ++ msg)) % q) • A) := by
  have hk := hE.keccak_length (sig.take 32 ++ pub ++ msg)
  unfold verify uniform canonical
  rw [Go.guard_bind_eq_ok, Go.guard_bind_eq_ok]
  simp only [Go.bind_eq_ok, Go.ofOption_eq_ok, Go.guard_eq_ok, Go.pure_eq_ok, not_or, not_not]
  constructor
  · rintro ⟨h1, ⟨h2, h3⟩, A, hA, h, ⟨-, -, hh⟩, s, ⟨-, -, -, h4, hs⟩, h5⟩
    obtain rfl := Except.ok.inj hh
    obtain rfl := Except.ok.inj hs
    have h6 := of_decide_eq_true (Except.ok.inj h5)
    refine ⟨h1, h2, h3, h4, A, hA, ?_⟩
    rw [ZMod.val_natCast, ZMod.val_natCast_of_lt h4, smul_neg, add_comm, ← sub_eq_add_neg] at h6
    exact h6
  · rintro ⟨h1, h2, h3, h4, A, hA, h5⟩
    refine ⟨h1, ⟨h2, h3⟩, A, hA, _, ⟨(), hk, rfl⟩, _, ⟨(), by simp [h2], (), h4, rfl⟩, ?_⟩
    congr 1
    rw [decide_eq_true_eq, ZMod.val_natCast, ZMod.val_natCast_of_lt h4, smul_neg, add_comm,
      ← sub_eq_add_neg]
    exact h5

/-- C81: verification never panics -/
theorem C81_verify_no_panic (pub msg sig : List UInt8) : verify E q pub msg sig ≠ Go.crash := by
  have hg : ∀ (c : Prop) [Decidable c] {α : Type} (f : Unit → Go α), (∀ u, f u ≠ Go.crash) →
      (Go.guard c >>= f) ≠ Go.crash := by
    intro c _ α f hf
    by_cases h : c
    · rw [Go.guard_true h]; exact hf ()
    · rw [Go.guard_false h]; exact fun h => by cases h
  unfold verify
  refine hg _ _ fun _ => hg _ _ fun _ => ?_
  cases E.pdec pub with
  | none => exact fun h => by cases h
  | some A =>
    simp only [Go.ofOption, Go.ok_bind]
    unfold uniform canonical
    by_cases h1 : (E.keccak (sig.take 32 ++ pub ++ msg)).length = 64
    · rw [Go.guard_true h1]
      simp only [Go.ok_bind, Go.pure_eq_ok]
      by_cases h2 : (sig.drop 32).length = 32
      · rw [Go.guard_true h2]
        simp only [Go.ok_bind]
        by_cases h3 : leNat (sig.drop 32) < q
        · rw [Go.guard_true h3]; exact fun h => by cases h
        · rw [Go.guard_false h3]; exact fun h => by cases h
      · rw [Go.guard_false h2]; exact fun h => by cases h
    · rw [Go.guard_false h1]; exact fun h => by cases h

/-- the secret scalar of a seed -/
def secret (E : Env G) (q : ℕ) (seed : List UInt8) : ZMod q :=
  ((leNat (((((E.keccak seed.reverse).take 32)).modify 0 (· &&& 248)).modify 31
    (fun x => (x &&& 63) ||| 64)) : ℕ) : ZMod q)

/-- the nonce of a seed and a message -/
def nonce (E : Env G) (q : ℕ) (seed msg : List UInt8) : ZMod q :=
  ((leNat (E.keccak ((E.keccak seed.reverse).drop 32 ++ msg)) : ℕ) : ZMod q)

theorem clamp_ok (hE : Lawful q E) (seed : List UInt8) :
    clamp q ((E.keccak seed.reverse).take 32) = .ok (secret E q seed) := by
  unfold clamp
  rw [Go.guard_true (by rw [List.length_take, hE.keccak_length]; norm_num)]
  rfl

theorem uniform_ok (hE : Lawful q E) (b : List UInt8) :
    uniform q (E.keccak b) = .ok ((leNat (E.keccak b) : ℕ) : ZMod q) := by
  unfold uniform
  rw [Go.guard_true (hE.keccak_length b)]
  rfl

/-- C81: the key made from 32 bytes is the seed and the public key of its secret; other lengths are
refused -/
theorem C81_newKey (hE : Lawful q E) (seed : List UInt8) :
    newKeyFromSeed E q seed = if seed.length = 32 then
      .ok (seed ++ E.penc (baseMult E (secret E q seed))) else Go.err := by
  unfold newKeyFromSeed
  by_cases h : seed.length = 32
  · rw [Go.guard_true h, if_pos h, Go.ok_bind]
    simp only [clamp_ok hE, Go.ok_bind]
    rfl
  · rw [Go.guard_false h, if_neg h]; rfl

/-- what signing returns, for any key of 64 bytes -/
theorem sign_eq (hE : Lawful q E) (priv msg : List UInt8) (hp : priv.length = 64) :
    sign E q priv msg = .ok
      (E.penc (baseMult E (nonce E q (priv.take 32) msg)) ++ leBytes 32
        (((leNat (E.keccak (E.penc (baseMult E (nonce E q (priv.take 32) msg)) ++ priv.drop 32 ++ msg)) :
          ℕ) : ZMod q) * secret E q (priv.take 32) + nonce E q (priv.take 32) msg).val) := by
  unfold sign
  rw [Go.guard_true hp, Go.ok_bind]
  simp only [clamp_ok hE, uniform_ok hE, Go.ok_bind]
  rfl

theorem scalar_top (n : ℕ) (hn : n < 2 ^ 253) : (leBytes 32 n).getD 31 0 &&& 224 = 0 := by
  have hget : ∀ k n i, i < k → (leBytes k n).getD i 0 = UInt8.ofNat (n / 256 ^ i) := by
    intro k
    induction k with
    | zero => intro n i h; omega
    | succ k ih =>
      intro n i h
      cases i with
      | zero => simp [leBytes]
      | succ i =>
        rw [leBytes, List.getD_cons_succ, ih (n / 256) i (by omega), Nat.div_div_eq_div_mul, pow_succ']
  rw [hget 32 n 31 (by norm_num)]
  have h : n / 256 ^ 31 < 32 := by
    rw [Nat.div_lt_iff_lt_mul (by positivity)]
    omega
  have key : ∀ f : Fin 32, UInt8.ofNat f.val &&& 224 = 0 := by decide +kernel
  exact key ⟨_, h⟩

theorem scalar_bytes (hE : Lawful q E) (s : ZMod q) :
    (leBytes 32 s.val).length = 32 ∧ leNat (leBytes 32 s.val) = s.val ∧ s.val < 2 ^ 253 := by
  have : NeZero q := ⟨hq.out.ne_zero⟩
  have h := ZMod.val_lt s
  have h2 := hE.small
  refine ⟨leBytes_length _ _, leNat_leBytes _ _ ?_, by omega⟩
  calc s.val < 2 ^ 256 := by omega
    _ = _ := by norm_num

theorem halves (hE : Lawful q E) (P : G) (s : ZMod q) (sig : List UInt8)
    (hs : sig = E.penc P ++ leBytes 32 s.val) :
    sig.length = 64 ∧ sig.getD 63 0 &&& 224 = 0 ∧ sig.take 32 = E.penc P ∧
      sig.drop 32 = leBytes 32 s.val := by
  obtain ⟨h1, -, h3⟩ := scalar_bytes hE s
  have h4 := hE.penc_length P
  subst hs
  refine ⟨by simp [h1, h4], ?_, List.take_left' h4, List.drop_left' h4⟩
  rw [List.getD_append_right _ _ _ _ (by omega), h4]
  exact scalar_top _ h3

/-- C81: signatures made with a key from `NewKeyFromSeed` are accepted for its public half and the signed
message -/
theorem C81_sign_verifies (hE : Lawful q E) (seed msg priv sig : List UInt8)
    (hk : newKeyFromSeed E q seed = .ok priv) (hs : sign E q priv msg = .ok sig) :
    verify E q (priv.drop 32) msg sig = .ok true := by
  rw [C81_newKey hE] at hk
  split_ifs at hk with hl
  obtain rfl := Except.ok.inj hk
  have hpl : (seed ++ E.penc (baseMult E (secret E q seed))).length = 64 := by
    rw [List.length_append, hl, hE.penc_length]
  rw [sign_eq hE _ _ hpl, List.take_left' hl, List.drop_left' hl] at hs
  rw [List.drop_left' hl]
  have hsig := (Except.ok.inj hs).symm
  obtain ⟨a1, a2, a3, a4⟩ := halves hE _ _ _ hsig
  rw [C81_verify_iff hE, a3, a4, (scalar_bytes hE _).2.1]
  have : NeZero q := ⟨hq.out.ne_zero⟩
  refine ⟨hE.penc_length _, a1, a2, ZMod.val_lt _, _, hE.pdec_penc _, ?_⟩
  congr 1
  rw [add_smul_base hE, mul_smul_base hE, ← ZMod.val_natCast]
  unfold baseMult
  abel

/-- C81: signing succeeds for every key of 64 bytes and every message, and refuses other lengths and hashed
messages -/
theorem C81_sign_total (hE : Lawful q E) (priv msg : List UInt8) :
    (priv.length = 64 → ∃ sig, signOpts E q priv msg false = .ok sig ∧ sign E q priv msg = .ok sig ∧
      sig.length = 64) ∧
    (priv.length ≠ 64 → sign E q priv msg = Go.err) ∧ signOpts E q priv msg true = Go.err := by
  refine ⟨fun h => ?_, fun h => ?_, rfl⟩
  · refine ⟨_, ?_, sign_eq hE priv msg h, (halves hE _ _ _ rfl).1⟩
    unfold signOpts
    rw [Go.guard_true rfl, Go.ok_bind, sign_eq hE priv msg h]
  · unfold sign
    rw [Go.guard_false h]
    rfl

/-- C81: `Public` and `Seed` of a generated key; both panic for keys of fewer than 32 bytes -/
theorem C81_parts (hE : Lawful q E) (seed pub priv : List UInt8)
    (h : generateKey E q seed = .ok (pub, priv)) :
    publicOf priv = .ok pub ∧ seedOf priv = .ok seed ∧ priv.length = 64 ∧
      pub = E.penc (baseMult E (secret E q seed)) := by
  unfold generateKey at h
  rw [C81_newKey hE] at h
  split_ifs at h with hl
  · rw [Go.ok_bind] at h
    obtain ⟨h1, h2⟩ := Prod.mk.inj (Except.ok.inj h)
    have h4 := hE.penc_length (baseMult E (secret E q seed))
    have hpl : priv.length = 64 := by rw [← h2, List.length_append, hl, h4]
    rw [List.drop_left' hl] at h1
    unfold publicOf seedOf
    rw [if_neg (by omega), if_neg (by omega), ← h2, ← h1, List.drop_left' hl, List.take_left' hl, h4,
      List.take_of_length_le h4.le]
    simp [hl, h4]
  · cases h

/-! ### C140: what else is accepted -/

/-- C140: the second half of a signature is determined by the rest: no other string in its place is
accepted, in particular not the same scalar plus the order -/
theorem C140_unique (hE : Lawful q E) (hpe : Function.Injective E.penc) (pub msg R s s' : List UInt8)
    (hR : R.length = 32) (h : verify E q pub msg (R ++ s) = .ok true)
    (h' : verify E q pub msg (R ++ s') = .ok true) : s = s' := by
  rw [C81_verify_iff hE] at h h'
  simp only [List.take_left' hR, List.drop_left' hR] at h h'
  obtain ⟨-, h1, -, h2, A, hA, h3⟩ := h
  obtain ⟨-, h1', -, h2', A', hA', h3'⟩ := h'
  obtain rfl : A = A' := Option.some.inj (hA.symm.trans hA')
  have h4 := hpe (h3.symm.trans h3')
  have h5 : leNat s • E.base = leNat s' • E.base := sub_left_injective h4
  rw [nsmul_eq_nsmul_iff_modEq, hE.order] at h5
  have h6 : leNat s = leNat s' := Nat.ModEq.eq_of_lt_of_lt h5 h2 h2'
  rw [List.length_append] at h1 h1'
  rw [← leBytes_leNat s, ← leBytes_leNat s', h6, show s.length = s'.length by omega]

/-- C140: the public key of the identity, and any other that decodes to it, accepts signatures made
without a secret, for every message: the response is any scalar, the commitment its multiple -/
theorem C140_identity_key (hE : Lawful q E) (pub msg : List UInt8) (hl : pub.length = 32)
    (hA : E.pdec pub = some 0) (s : ZMod q) :
    verify E q pub msg (E.penc (baseMult E s) ++ leBytes 32 s.val) = .ok true := by
  have : NeZero q := ⟨hq.out.ne_zero⟩
  obtain ⟨a1, a2, a3, a4⟩ := halves hE (baseMult E s) s _ rfl
  rw [C81_verify_iff hE, a3, a4, (scalar_bytes hE _).2.1]
  exact ⟨hl, a1, a2, ZMod.val_lt _, 0, hA, by rw [smul_zero, sub_zero]; rfl⟩

/-- C140: a public key of small order `k` accepts the commitment `s B` for all messages whose hash,
reduced, is a multiple of `k` -/
theorem C140_small_order (hE : Lawful q E) (pub msg : List UInt8) (hl : pub.length = 32) (A : G)
    (hA : E.pdec pub = some A) (k : ℕ) (hk : k • A = 0) (s : ZMod q)
    (hd : k ∣ leNat (E.keccak (E.penc (baseMult E s) ++ pub ++ msg)) % q) :
    verify E q pub msg (E.penc (baseMult E s) ++ leBytes 32 s.val) = .ok true := by
  have : NeZero q := ⟨hq.out.ne_zero⟩
  obtain ⟨a1, a2, a3, a4⟩ := halves hE (baseMult E s) s _ rfl
  rw [C81_verify_iff hE, a3, a4, (scalar_bytes hE _).2.1]
  refine ⟨hl, a1, a2, ZMod.val_lt _, A, hA, ?_⟩
  obtain ⟨c, hc⟩ := hd
  rw [hc, mul_comm, mul_smul, hk, smul_zero, sub_zero]
  rfl

/-! ### C141: the public half of a private key is trusted -/

/-- C141: `Sign` uses the public half of the private key without checking it. Two signatures of one message
with the same seed and different public halves give the secret scalar away, unless their challenges
agree. -/
theorem C141_two_halves (hE : Lawful q E) (seed pub pub' msg sig sig' : List UInt8)
    (hl : seed.length = 32)
    (h : sign E q (seed ++ pub) msg = .ok sig) (h' : sign E q (seed ++ pub') msg = .ok sig') :
    sig.take 32 = sig'.take 32 ∧
    ((leNat (E.keccak (sig.take 32 ++ pub ++ msg)) : ZMod q) -
        (leNat (E.keccak (sig.take 32 ++ pub' ++ msg)) : ZMod q)) * secret E q seed =
      (leNat (sig.drop 32) : ZMod q) - (leNat (sig'.drop 32) : ZMod q) := by
  have : NeZero q := ⟨hq.out.ne_zero⟩
  have hlen : (seed ++ pub).length = 64 := by
    by_contra hc
    rw [(C81_sign_total hE _ _).2.1 hc] at h
    cases h
  have hlen' : (seed ++ pub').length = 64 := by
    by_contra hc
    rw [(C81_sign_total hE _ _).2.1 hc] at h'
    cases h'
  rw [sign_eq hE _ _ hlen, List.take_left' hl, List.drop_left' hl] at h
  rw [sign_eq hE _ _ hlen', List.take_left' hl, List.drop_left' hl] at h'
  obtain ⟨-, -, a3, a4⟩ := halves hE _ _ _ (Except.ok.inj h).symm
  obtain ⟨-, -, b3, b4⟩ := halves hE _ _ _ (Except.ok.inj h').symm
  refine ⟨a3.trans b3.symm, ?_⟩
  rw [a3, a4, b4, (scalar_bytes hE _).2.1, (scalar_bytes hE _).2.1, ZMod.natCast_zmod_val,
    ZMod.natCast_zmod_val]
  ring

/-- C141: a private key whose public half is not that of its seed makes signatures that are accepted for
that half exactly when the challenge maps the difference of the keys to the identity -/
theorem C141_wrong_half (hE : Lawful q E) (hpe : Function.Injective E.penc) (seed msg sig : List UInt8)
    (A : G) (hl : seed.length = 32) (h : sign E q (seed ++ E.penc A) msg = .ok sig) :
    verify E q (E.penc A) msg sig = .ok true ↔
      (leNat (E.keccak (sig.take 32 ++ E.penc A ++ msg)) % q) •
        (baseMult E (secret E q seed) - A) = 0 := by
  have : NeZero q := ⟨hq.out.ne_zero⟩
  have hlen : (seed ++ E.penc A).length = 64 := by rw [List.length_append, hl, hE.penc_length]
  rw [sign_eq hE _ _ hlen, List.take_left' hl, List.drop_left' hl] at h
  obtain ⟨a1, a2, a3, a4⟩ := halves hE _ _ _ (Except.ok.inj h).symm
  rw [C81_verify_iff hE, a3, a4, (scalar_bytes hE _).2.1]
  have key : ∀ (c : ℕ), (((c : ZMod q) * secret E q seed + nonce E q seed msg).val • E.base -
      (c % q) • A) = (c % q) • (baseMult E (secret E q seed) - A) +
        baseMult E (nonce E q seed msg) := by
    intro c
    rw [add_smul_base hE, mul_smul_base hE, ← ZMod.val_natCast, smul_sub]
    unfold baseMult
    abel
  constructor
  · rintro ⟨-, -, -, -, B, hB, h5⟩
    obtain rfl : A = B := Option.some.inj ((hE.pdec_penc A).symm.trans hB)
    rw [key] at h5
    have := hpe h5
    exact left_eq_add.1 (by rw [add_comm] at this; exact this)
  · intro h5
    refine ⟨hE.penc_length _, a1, a2, ZMod.val_lt _, A, hE.pdec_penc _, ?_⟩
    rw [key, h5, zero_add]

end Props

/-! ### examples: the curve is the cyclic group of order `8 * 13`, the base point has order 13 -/

instance : Fact (Nat.Prime 13) := ⟨by norm_num⟩

/-- see above; the hash is a polynomial -/
def exEnv : Env (ZMod 104) where
  base := 8
  penc P := leBytes 32 P.val
  pdec b := if b.length = 32 ∧ leNat b < 104 then some (leNat b : ZMod 104) else none
  keccak b := leBytes 64 (leNat b % 1009 * 7 + 2 ^ 300)

theorem ex_dec (P : ZMod 104) : exEnv.pdec (exEnv.penc P) = some P := by
  have h : P.val < 104 := ZMod.val_lt P
  have hl : leNat (leBytes 32 P.val) = P.val := leNat_leBytes _ _ (lt_of_lt_of_le h (by norm_num))
  have hd : ∀ b, exEnv.pdec b =
      if b.length = 32 ∧ leNat b < 104 then some (leNat b : ZMod 104) else none := fun _ => rfl
  have he : exEnv.penc P = leBytes 32 P.val := rfl
  rw [hd, he, hl, if_pos ⟨leBytes_length _ _, h⟩, ZMod.natCast_zmod_val]

theorem ex_order : addOrderOf (8 : ZMod 104) = 13 := by
  apply addOrderOf_eq_prime
  · decide +kernel
  · decide +kernel

theorem ex_keccak (b : List UInt8) : (exEnv.keccak b).length = 64 := by
  unfold exEnv
  rw [leBytes_length]

theorem exLawful : Lawful 13 exEnv :=
  ⟨fun _ => leBytes_length _ _, ex_dec, ex_keccak, ex_order, by norm_num⟩

theorem exPenc : Function.Injective exEnv.penc := by
  intro P Q h
  have h1 : leNat (leBytes 32 P.val) = leNat (leBytes 32 Q.val) := congrArg leNat h
  have hP : P.val < 104 := ZMod.val_lt P
  have hQ : Q.val < 104 := ZMod.val_lt Q
  rw [leNat_leBytes _ _ (lt_of_lt_of_le hP (by norm_num)),
    leNat_leBytes _ _ (lt_of_lt_of_le hQ (by norm_num))] at h1
  exact ZMod.val_injective _ h1

/-- a private key -/
def exPriv : List UInt8 := match newKeyFromSeed exEnv 13 (List.replicate 32 3) with
  | .ok p => p
  | .error _ => []

/-- a signature of 1 2 3 -/
def exSig : List UInt8 := match sign exEnv 13 exPriv [1, 2, 3] with
  | .ok s => s
  | .error _ => []

example : newKeyFromSeed exEnv 13 (List.replicate 32 3) = .ok exPriv ∧
    sign exEnv 13 exPriv [1, 2, 3] = .ok exSig ∧
    verify exEnv 13 (exPriv.drop 32) [1, 2, 3] exSig = .ok true ∧
    verify exEnv 13 (exPriv.drop 32) [1, 2, 4] exSig = .ok false ∧
    verify exEnv 13 (exPriv.drop 32) [1, 2, 3] (exSig.set 63 32) = Go.err ∧
    verify exEnv 13 (exPriv.drop 32) [1, 2, 3] (exSig ++ [0]) = Go.err := by decide +kernel
-- the scalar plus the order is refused
example : verify exEnv 13 (exPriv.drop 32) [1, 2, 3] (exSig.set 32 (exSig.getD 32 0 + 13)) = Go.err := by
  decide +kernel
-- the identity as a key, and a key of order two
example : verify exEnv 13 (List.replicate 32 0) [9, 9] (exEnv.penc (baseMult exEnv (5 : ZMod 13)) ++
    leBytes 32 (5 : ZMod 13).val) = .ok true :=
  C140_identity_key exLawful _ _ (by decide) (by decide) _
example : (2 : ℕ) • (52 : ZMod 104) = 0 ∧ exEnv.pdec (exEnv.penc 52) = some 52 ∧
    2 ∣ leNat (exEnv.keccak (exEnv.penc (baseMult exEnv (5 : ZMod 13)) ++ exEnv.penc 52 ++ [3])) % 13 := by
  decide +kernel
-- two public halves
example : (sign exEnv 13 (List.replicate 32 3 ++ List.replicate 32 1) [7]).isOk = true ∧
    (sign exEnv 13 (List.replicate 32 3 ++ List.replicate 32 2) [7]).isOk = true ∧
    ((leNat (exEnv.keccak (List.replicate 32 1 ++ [7])) : ℕ) : ZMod 13) ≠
      ((leNat (exEnv.keccak (List.replicate 32 2 ++ [7])) : ℕ) : ZMod 13) := by decide +kernel

end Verif.Nem
