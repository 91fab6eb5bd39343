import Mathlib.Tactic.Module
import Verif.Mina.BitsLemmas
import Verif.Mina.PoseidonProps

/-!
# C77, C78, C136, C137: Mina signatures
-/

namespace Verif.Mina

open Primes

set_option exponentiation.threshold 600
set_option maxRecDepth 10000
set_option linter.unusedSectionVars false
set_option linter.unusedDecidableInType false

/-- what the theorems need of the coordinates: those of a curve in Weierstrass form without points of
order two, the identity having coordinates zero -/
structure Lawful {p q : ℕ} {G : Type} [AddCommGroup G] (E : Env p q G) : Prop where
  gen_ne : E.gen ≠ 0
  x_zero : E.x 0 = 0
  x_neg : ∀ P, E.x (-P) = E.x P
  y_neg : ∀ P, E.y (-P) = -E.y P
  y_ne : ∀ P, P ≠ 0 → E.y P ≠ 0
  x_eq : ∀ P Q, P ≠ 0 → Q ≠ 0 → E.x P = E.x Q → P = Q ∨ P = -Q

section Keys
variable {p q : ℕ} [hp : Fact p.Prime] [hq : Fact q.Prime] {G : Type} [AddCommGroup G]
  [Module (ZMod q) G] [DecidableEq G] {E : Env p q G}

theorem isOdd_neg (h2 : p ≠ 2) {f : ZMod p} (hf : f ≠ 0) : isOdd (-f) = !isOdd f := by
  have hodd : p % 2 = 1 := by
    rcases hp.out.eq_two_or_odd with h | h
    · exact absurd h h2
    · exact h
  have hpos := hp.out.pos
  have : NeZero p := ⟨by omega⟩
  have hv : f.val ≠ 0 := fun h => hf ((ZMod.val_eq_zero f).1 h)
  have hlt := ZMod.val_lt f
  unfold isOdd
  rw [ZMod.neg_val, if_neg hf]
  by_cases h : f.val % 2 = 1
  · rw [show (p - f.val) % 2 = 0 by omega, h]; rfl
  · rw [show (p - f.val) % 2 = 1 by omega, show f.val % 2 = 0 by omega]; rfl

/-- C77: exactly which signatures are accepted -/
theorem C77_verify_iff (pk : G) (sig : Sig p q) (input : RoInput p) (net : ℤ) :
    finishVerify E pk sig input net = .ok () ↔
      pk ≠ 0 ∧ sig.R ≠ 0 ∧ sig.S ≠ 0 ∧ ∃ e, msgHash E pk sig.R input net = .ok e ∧
        E.x (sig.S • E.gen - e • pk) = sig.R ∧ (E.y (sig.S • E.gen - e • pk)).val % 2 = 0 := by
  unfold finishVerify
  rw [Go.guard_bind_eq_ok, Go.guard_bind_eq_ok, Go.bind_eq_ok]
  simp only [Go.guard_eq_ok, not_or, isOdd, ← sub_eq_add_neg]
  constructor
  · rintro ⟨h1, ⟨h2, h3⟩, e, h4, h5, h6⟩
    refine ⟨h1, h2, h3, e, h4, h6, ?_⟩
    have : ¬ ((E.y (sig.S • E.gen - e • pk)).val % 2 = 1) := by simpa using h5
    omega
  · rintro ⟨h1, h2, h3, e, h4, h5, h6⟩
    exact ⟨h1, ⟨h2, h3⟩, e, h4, by rw [h6]; rfl, h5⟩

/-- C77: every signature that `finishSchnorrSign` returns verifies with the public key of the secret key,
for the same input and network -/
theorem C77_sign_verifies (hE : Lawful E) (h2 : p ≠ 2) (sk : ZMod q) (input : RoInput p) (net : ℤ)
    (sig : Sig p q) (h : finishSign E sk input net = .ok sig) :
    finishVerify E (publicKey E sk) sig input net = .ok () := by
  unfold finishSign at h
  rw [Go.guard_bind_eq_ok, Go.guard_bind_eq_ok] at h
  simp only [Go.bind_eq_ok, Go.guard_eq_ok, Go.pure_eq_ok, not_or] at h
  obtain ⟨hsk, hk, e, he, u, ⟨hrx, hs⟩, hsig⟩ := h
  obtain rfl := Except.ok.inj hsig
  set k := msgDerive E sk input (publicKey E sk) net with hkdef
  rw [C77_verify_iff]
  refine ⟨smul_ne_zero hsk hE.gen_ne, hrx, hs, e, he, ?_⟩
  simp only
  have hr : (k • E.gen : G) ≠ 0 := smul_ne_zero hk hE.gen_ne
  have hy := hE.y_ne _ hr
  have key : ∀ k' : ZMod q, (k' + e * sk) • E.gen - e • publicKey E sk = k' • E.gen := by
    intro k'
    unfold publicKey
    module
  rw [key]
  by_cases ho : isOdd (E.y (k • E.gen)) = true
  · rw [if_pos ho, neg_smul, hE.x_neg, hE.y_neg]
    refine ⟨rfl, ?_⟩
    have h1 := isOdd_neg h2 hy
    rw [ho] at h1
    have : ¬ ((-E.y (k • E.gen)).val % 2 = 1) := by simpa [isOdd] using h1
    omega
  · rw [if_neg ho]
    refine ⟨rfl, ?_⟩
    have : ¬ ((E.y (k • E.gen)).val % 2 = 1) := by simpa [isOdd] using ho
    omega

/-- C77: signed messages verify -/
theorem C77_message (hE : Lawful E) (h2 : p ≠ 2) (sk : ZMod q) (m : List UInt8) (sig : Sig p q)
    (h : signMessage E sk m = .ok sig) : verifyMessage E (publicKey E sk) sig m = .ok () :=
  C77_sign_verifies hE h2 sk _ _ sig h

/-- C77: exactly when signing fails: the key or the nonce is zero, the network is unknown (a panic), or
one of the two parts of the signature is zero -/
theorem C77_sign_fails (sk : ZMod q) (input : RoInput p) (net : ℤ) :
    (sk = 0 → finishSign E sk input net = Go.err) ∧
    (sk ≠ 0 → msgDerive E sk input (publicKey E sk) net = 0 → finishSign E sk input net = Go.err) ∧
    (sk ≠ 0 → msgDerive E sk input (publicKey E sk) net ≠ 0 →
      (net ≠ 0 ∧ net ≠ 1 ∧ net ≠ 2 → finishSign E sk input net = Go.crash)) := by
  unfold finishSign
  refine ⟨fun h => ?_, fun h h' => ?_, fun h h' hn => ?_⟩
  · rw [Go.guard_false (by simpa using h)]; rfl
  · rw [Go.guard_true h, Go.ok_bind]
    simp only
    rw [Go.guard_false (by simpa using h')]
    rfl
  · rw [Go.guard_true h, Go.ok_bind]
    simp only
    rw [Go.guard_true h', Go.ok_bind]
    have : ∀ rx, msgHash E (publicKey E sk) rx input net = Go.crash := by
      intro rx
      unfold msgHash spongeHash initSponge
      rw [if_pos (show net ≠ testNet ∧ net ≠ mainNet ∧ net ≠ nullNet from hn)]
    simp only [this]
    rfl

/-! ### C136 -/

/-- two points with the coordinate the verifier compares and an even second coordinate are equal -/
theorem point_unique (hE : Lawful E) (h2 : p ≠ 2) {P Q : G} (hx : E.x P = E.x Q) (h0 : E.x P ≠ 0)
    (hP : (E.y P).val % 2 = 0) (hQ : (E.y Q).val % 2 = 0) : P = Q := by
  have hP0 : P ≠ 0 := by rintro rfl; exact h0 hE.x_zero
  have hQ0 : Q ≠ 0 := by rintro rfl; exact h0 (hx.trans hE.x_zero)
  rcases hE.x_eq P Q hP0 hQ0 hx with h | h
  · exact h
  · exfalso
    have h1 := isOdd_neg h2 (hE.y_ne Q hQ0)
    rw [h, hE.y_neg] at hP
    simp [isOdd, hP, hQ] at h1

/-- C136: a signature is not malleable in its second part: for a key, an input, a network and a first
part there is at most one second part -/
theorem C136_unique (hE : Lawful E) (h2 : p ≠ 2) (pk : G) (R : ZMod p) (S S' : ZMod q)
    (input : RoInput p) (net : ℤ) (h : finishVerify E pk ⟨R, S⟩ input net = .ok ())
    (h' : finishVerify E pk ⟨R, S'⟩ input net = .ok ()) : S = S' := by
  rw [C77_verify_iff] at h h'
  obtain ⟨-, hR, -, e, he, hx, hy⟩ := h
  obtain ⟨-, -, -, e', he', hx', hy'⟩ := h'
  simp only at *
  rw [he] at he'
  obtain rfl := Except.ok.inj he'
  have := point_unique hE h2 (hx.trans hx'.symm) (by rw [hx]; exact hR) hy hy'
  have h3 : (S - S') • E.gen = (0 : G) := by
    rw [sub_smul, sub_eq_zero]
    exact sub_left_injective this
  rcases smul_eq_zero.1 h3 with h4 | h4
  · exact sub_eq_zero.1 h4
  · exact absurd h4 hE.gen_ne

/-- C136: two accepted signatures with one first part and different challenges give the secret key away:
the discrete logarithm of the public key is computed from them. Hence a nonce must never serve two
inputs. -/
theorem C136_nonce_reuse (hE : Lawful E) (h2 : p ≠ 2) (pk : G) (R : ZMod p) (S S' e e' : ZMod q)
    (i i' : RoInput p) (net net' : ℤ) (h : finishVerify E pk ⟨R, S⟩ i net = .ok ())
    (h' : finishVerify E pk ⟨R, S'⟩ i' net' = .ok ())
    (he : msgHash E pk R i net = .ok e) (he' : msgHash E pk R i' net' = .ok e') (hne : e ≠ e') :
    pk = publicKey E ((S - S') * (e - e')⁻¹) := by
  rw [C77_verify_iff] at h h'
  obtain ⟨-, hR, -, f, hf, hx, hy⟩ := h
  obtain ⟨-, -, -, f', hf', hx', hy'⟩ := h'
  simp only at *
  rw [hf] at he
  rw [hf'] at he'
  obtain rfl := Except.ok.inj he
  obtain rfl := Except.ok.inj he'
  have hP := point_unique hE h2 (hx.trans hx'.symm) (by rw [hx]; exact hR) hy hy'
  have h3 : (S - S') • E.gen = (f - f') • pk := by
    rw [sub_smul, sub_smul]
    exact sub_eq_sub_iff_sub_eq_sub.1 hP
  have hd : f - f' ≠ 0 := sub_ne_zero.2 hne
  unfold publicKey
  rw [mul_comm, mul_smul, h3, smul_smul, inv_mul_cancel₀ hd, one_smul]

/-- C136: a signature accepted for two inputs is accepted because their challenges are equal -/
theorem C136_same_challenge (hE : Lawful E) (h2 : p ≠ 2) (pk : G) (sig : Sig p q)
    (i i' : RoInput p) (net net' : ℤ) (h : finishVerify E pk sig i net = .ok ())
    (h' : finishVerify E pk sig i' net' = .ok ()) :
    ∃ e, msgHash E pk sig.R i net = .ok e ∧ msgHash E pk sig.R i' net' = .ok e := by
  have hpk := ((C77_verify_iff pk sig i net).1 h).1
  obtain ⟨-, hR, -, f, hf, hx, hy⟩ := (C77_verify_iff pk sig i net).1 h
  obtain ⟨-, -, -, f', hf', hx', hy'⟩ := (C77_verify_iff pk sig i' net').1 h'
  have hP := point_unique hE h2 (hx.trans hx'.symm) (by rw [hx]; exact hR) hy hy'
  have h3 : (f - f') • pk = 0 := by
    rw [sub_smul, sub_eq_zero]
    exact sub_right_injective hP
  rcases smul_eq_zero.1 h3 with h4 | h4
  · exact ⟨f, hf, (sub_eq_zero.1 h4) ▸ hf'⟩
  · exact absurd h4 hpk

/-! ### C78 -/

/-- the number of field elements a message of `n` bytes fills -/
def chunkCount (n : ℕ) : ℕ := (8 * n + 253) / 254

theorem message_fields (pk : G) (rx : ZMod p) (m : List UInt8) :
    (hashInput E pk rx (messageInput m)).toFields = [E.x pk, E.y pk, rx] ++
      (chunks (byteBits m).length (byteBits m)).map (fun n : ℕ => (n : ZMod p)) := rfl

theorem message_chunks (m : List UInt8) :
    chunkVal (chunks (byteBits m).length (byteBits m)) = leNat m ∧
    (chunks (byteBits m).length (byteBits m)).length = chunkCount m.length ∧
    ∀ c ∈ chunks (byteBits m).length (byteBits m), c < 2 ^ 254 := by
  obtain ⟨h1, h2, h3⟩ := chunks_spec _ (byteBits m) le_rfl
  refine ⟨by rw [h1, bitsNat_byteBits], ?_, h3⟩
  rw [h2, byteBits_length]
  rfl

theorem chunkCount_mono (n k : ℕ) : chunkCount n ≤ chunkCount (n + k) := by
  unfold chunkCount
  exact Nat.div_le_div_right (by omega)

theorem message_zeros (m : List UInt8) (k : ℕ) :
    chunks (byteBits (m ++ List.replicate k 0)).length (byteBits (m ++ List.replicate k 0)) =
      chunks (byteBits m).length (byteBits m) ++
        List.replicate (chunkCount (m.length + k) - chunkCount m.length) 0 := by
  obtain ⟨h1, h2, h3⟩ := message_chunks m
  obtain ⟨g1, g2, g3⟩ := message_chunks (m ++ List.replicate k 0)
  have hlen : (m ++ List.replicate k (0 : UInt8)).length = m.length + k := by simp
  apply chunkVal_inj
  · rw [g2, hlen, List.length_append, h2, List.length_replicate]
    have := chunkCount_mono m.length k
    omega
  · exact g3
  · intro c hc
    rcases List.mem_append.1 hc with hc | hc
    · exact h3 c hc
    · rw [List.eq_of_mem_replicate hc]; positivity
  · rw [g1, chunkVal_append_zeros, h1]
    exact (leNat_eq_iff _ _).2 (same_append_zeros m k)

/-- C78: a signature of a message is also one of the message followed by zero bytes, as long as these do
not start a new block of the sponge (a block takes two field elements; three are in front of the
message). -/
theorem C78_trailing_zeros (hr : E.params.rate = 2) (pk : G) (sig : Sig p q) (m : List UInt8) (k : ℕ)
    (hk : (3 + chunkCount (m.length + k) + 1) / 2 = (3 + chunkCount m.length + 1) / 2) :
    verifyMessage E pk sig (m ++ List.replicate k 0) = verifyMessage E pk sig m := by
  have key : msgHash E pk sig.R (messageInput (m ++ List.replicate k 0)) mainNet =
      msgHash E pk sig.R (messageInput m) mainNet := by
    unfold msgHash
    rw [message_fields, message_fields, message_zeros, List.map_append, List.map_replicate,
      Nat.cast_zero, ← List.append_assoc]
    apply C78_sponge
    · omega
    · rw [hr, List.length_append, List.length_map, (message_chunks m).2.1]
      have := chunkCount_mono m.length k
      unfold filled
      simp only [List.length_cons, List.length_nil]
      rw [if_neg (by omega)]
      omega
  unfold verifyMessage finishVerify
  rw [key]

theorem cast_inj {a b : ℕ} (hpp : 2 ^ 254 < p) (ha : a < 2 ^ 254) (hb : b < 2 ^ 254)
    (h : (a : ZMod p) = b) : a = b := by
  have := congrArg ZMod.val h
  rwa [ZMod.val_natCast_of_lt (by omega), ZMod.val_natCast_of_lt (by omega)] at this

theorem map_cast_getD (l : List ℕ) (i : ℕ) :
    (l.map (fun n : ℕ => (n : ZMod p))).getD i 0 = ((l.getD i 0 : ℕ) : ZMod p) := by
  simp only [List.getD_eq_getElem?_getD, List.getElem?_map]
  cases l[i]? <;> simp

theorem getD_lt {l : List ℕ} (h : ∀ c ∈ l, c < 2 ^ 254) (i : ℕ) : l.getD i 0 < 2 ^ 254 := by
  rw [List.getD_eq_getElem?_getD]
  cases hi : l[i]? with
  | none => simp
  | some c => exact h c (List.mem_of_getElem? hi)

/-- lists of chunks whose elements agree up to zeros have equal values -/
theorem chunks_same (hpp : 2 ^ 254 < p) {a b : List ℕ} (ha : ∀ c ∈ a, c < 2 ^ 254)
    (hb : ∀ c ∈ b, c < 2 ^ 254)
    (h : SameUpToZeros (a.map (fun n : ℕ => (n : ZMod p))) (b.map (fun n : ℕ => (n : ZMod p)))) :
    chunkVal a = chunkVal b := by
  apply chunkVal_eq_of_same
  intro i
  have := h i
  rw [map_cast_getD, map_cast_getD] at this
  exact cast_inj hpp (getD_lt ha i) (getD_lt hb i) this

/-- C78: trailing zero bytes are the only freedom. One signature accepted for two messages under a key
means that the messages agree up to zero bytes at the end, or that the sponge maps two named lists of
field elements, which differ even when extended by zeros, to one challenge. -/
theorem C78_binding (hE : Lawful E) (h2 : p ≠ 2) (hpp : 2 ^ 254 < p) (pk : G) (sig : Sig p q)
    (m m' : List UInt8) (h : verifyMessage E pk sig m = .ok ())
    (h' : verifyMessage E pk sig m' = .ok ()) :
    SameUpToZeros m m' ∨
      (¬ SameUpToZeros (hashInput E pk sig.R (messageInput m)).toFields
          (hashInput E pk sig.R (messageInput m')).toFields ∧
        spongeHash q E.params .threeW mainNet (hashInput E pk sig.R (messageInput m)).toFields =
          spongeHash q E.params .threeW mainNet (hashInput E pk sig.R (messageInput m')).toFields) := by
  obtain ⟨e, he, he'⟩ := C136_same_challenge hE h2 pk sig _ _ _ _ h h'
  by_cases hs : SameUpToZeros (hashInput E pk sig.R (messageInput m)).toFields
      (hashInput E pk sig.R (messageInput m')).toFields
  · left
    rw [← leNat_eq_iff, ← (message_chunks m).1, ← (message_chunks m').1]
    apply chunks_same hpp (message_chunks m).2.2 (message_chunks m').2.2
    intro i
    have := hs (i + 3)
    rw [message_fields, message_fields] at this
    simpa using this
  · right
    refine ⟨hs, ?_⟩
    unfold msgHash at he he'
    rw [he, he']

/-- C78: conversely, messages that agree up to zero bytes give the sponge lists that agree up to zeros -/
theorem C78_same_input (pk : G) (rx : ZMod p) (m m' : List UInt8) (h : SameUpToZeros m m') :
    SameUpToZeros (hashInput E pk rx (messageInput m)).toFields
      (hashInput E pk rx (messageInput m')).toFields := by
  have h0 := (leNat_eq_iff m m').2 h
  obtain ⟨h1, h2, h3⟩ := message_chunks m
  obtain ⟨g1, g2, g3⟩ := message_chunks m'
  rw [message_fields, message_fields]
  generalize chunks (byteBits m).length (byteBits m) = a at *
  generalize chunks (byteBits m').length (byteBits m') = b at *
  have hab : a ++ List.replicate b.length 0 = b ++ List.replicate a.length 0 := by
    apply chunkVal_inj
    · simp [add_comm]
    · intro c hc
      rcases List.mem_append.1 hc with hc | hc
      · exact h3 c hc
      · rw [List.eq_of_mem_replicate hc]; positivity
    · intro c hc
      rcases List.mem_append.1 hc with hc | hc
      · exact g3 c hc
      · rw [List.eq_of_mem_replicate hc]; positivity
    · rw [chunkVal_append_zeros, chunkVal_append_zeros, h1, g1, h0]
  have hs : ∀ i, a.getD i 0 = b.getD i 0 := by
    intro i
    rw [← same_append_zeros a b.length i, hab, same_append_zeros b a.length i]
  intro i
  match i with
  | 0 => rfl
  | 1 => rfl
  | 2 => rfl
  | i + 3 =>
    show (a.map (fun n : ℕ => (n : ZMod p))).getD i 0 = (b.map (fun n : ℕ => (n : ZMod p))).getD i 0
    rw [map_cast_getD, map_cast_getD, hs i]

/-! ### C137 -/

theorem flatMap_bits_length {α : Type} (l : List α) (f : α → ℕ) (k : ℕ) :
    (l.flatMap (fun a => bitsOf (f a) k)).length = k * l.length := by
  induction l with
  | nil => rfl
  | cons a l ih => rw [List.flatMap_cons, List.length_append, bitsOf_length, ih, List.length_cons]; ring

theorem flatMap_bits_inj {α : Type} (f : α → ℕ) (k : ℕ) (hf : ∀ a b, f a = f b → a = b)
    (hlt : ∀ a, f a < 2 ^ k) (l l' : List α) (hl : l.length = l'.length)
    (h : l.flatMap (fun a => bitsOf (f a) k) = l'.flatMap (fun a => bitsOf (f a) k)) : l = l' := by
  induction l generalizing l' with
  | nil => cases l' with
    | nil => rfl
    | cons => simp at hl
  | cons a l ih =>
    cases l' with
    | nil => simp at hl
    | cons b l' =>
      rw [List.flatMap_cons, List.flatMap_cons] at h
      obtain ⟨h1, h2⟩ := List.append_inj h (by rw [bitsOf_length, bitsOf_length])
      rw [hf _ _ (bitsOf_inj (hlt a) (hlt b) h1), ih l' (by simpa using hl) h2]

/-- the bytes of inputs with as many fields and bits determine the input -/
theorem bytes_inj (hpp : p < 2 ^ 255) (i i' : RoInput p) (hf : i.fields.length = i'.fields.length)
    (hb : i.bits.length = i'.bits.length) (h : i.bytes = i'.bytes) : i = i' := by
  have hv : ∀ a b : ZMod p, a.val = b.val → a = b := fun a b hab => ZMod.val_injective p hab
  have : NeZero p := ⟨hp.out.ne_zero⟩
  have hlt : ∀ a : ZMod p, a.val < 2 ^ 255 := fun a => lt_trans (ZMod.val_lt a) hpp
  unfold RoInput.bytes at h
  rw [← hf, ← hb] at h
  have h1 := packBytes_inj (by
      rw [List.length_append, List.length_append, flatMap_bits_length, flatMap_bits_length, hf, hb])
    (by rw [List.length_append, flatMap_bits_length]; omega) h
  obtain ⟨h2, h3⟩ := List.append_inj h1 (by rw [flatMap_bits_length, flatMap_bits_length, hf])
  obtain ⟨f, b⟩ := i
  obtain ⟨f', b'⟩ := i'
  simp only at *
  rw [flatMap_bits_inj ZMod.val 255 hv hlt f f' hf h2, h3]

/-- C137: the bytes the nonce is hashed from determine the secret key, the signed input and the last
byte of the network, among inputs with as many fields and bits -/
theorem C137_nonce_input (hpp : p < 2 ^ 255) (hqq : q < 2 ^ 255) (sk sk' : ZMod q)
    (i i' : RoInput p) (pk pk' : G) (net net' : ℤ) (hf : i.fields.length = i'.fields.length)
    (hb : i.bits.length = i'.bits.length)
    (h : (deriveInput E sk i pk net).bytes = (deriveInput E sk' i' pk' net').bytes) :
    sk = sk' ∧ i = i' ∧ UInt8.ofInt net = UInt8.ofInt net' ∧ E.x pk = E.x pk' ∧ E.y pk = E.y pk' := by
  have : NeZero q := ⟨hq.out.ne_zero⟩
  have h1 := bytes_inj hpp (deriveInput E sk i pk net) (deriveInput E sk' i' pk' net')
    (by simp [deriveInput, RoInput.addFp, RoInput.addFq, RoInput.addBytes, hf])
    (by simp [deriveInput, RoInput.addFp, RoInput.addFq, RoInput.addBytes, hb, bitsOf_length,
      byteBits_length]) h
  obtain ⟨f, b⟩ := i
  obtain ⟨f', b'⟩ := i'
  simp only [deriveInput, RoInput.addFp, RoInput.addFq, RoInput.addBytes, RoInput.mk.injEq] at h1 hf hb
  obtain ⟨hfs, hbs⟩ := h1
  obtain ⟨h2, h3⟩ := List.append_inj hbs (by simp [bitsOf_length, hb])
  obtain ⟨h4, h5⟩ := List.append_inj h2 hb
  obtain ⟨h6, h7⟩ := List.append_inj hfs (by simp [hf])
  obtain ⟨h8, h9⟩ := List.append_inj h6 hf
  have hsk := bitsOf_inj (lt_trans (ZMod.val_lt sk) hqq) (lt_trans (ZMod.val_lt sk') hqq) h5
  have hn : bitsOf (UInt8.ofInt net).toNat 8 = bitsOf (UInt8.ofInt net').toNat 8 := by
    simpa [byteBits] using h3
  refine ⟨ZMod.val_injective q hsk, by rw [h8, h4], ?_, by simpa using h9, by simpa using h7⟩
  exact UInt8.toNat_inj.1 (bitsOf_inj (UInt8.toNat_lt _) (UInt8.toNat_lt _) hn)

/-- C137: two messages signed with one key have different inputs to the hash that makes the nonce, so
equal nonces come from a collision of that hash (on 254 bits of its output) on these two strings -/
theorem C137_message_nonce (hpp : p < 2 ^ 255) (hqq : q < 2 ^ 255) (sk : ZMod q) (pk : G)
    (m m' : List UInt8) (hne : m ≠ m') :
    (deriveInput E sk (messageInput m) pk mainNet).bytes ≠
      (deriveInput E sk (messageInput m') pk mainNet).bytes := by
  intro h
  have hl := congrArg List.length h
  have hlen : ∀ m : List UInt8, (deriveInput E sk (messageInput m) pk mainNet).bytes.length =
      m.length + 97 := by
    intro m
    unfold RoInput.bytes
    rw [packBytes_length]
    simp only [deriveInput, RoInput.addFp, RoInput.addFq, RoInput.addBytes, messageInput, RoInput.init,
      List.length_append, byteBits_length, bitsOf_length, List.length_nil, List.length_cons]
    omega
  rw [hlen, hlen] at hl
  have hml : m.length = m'.length := by omega
  obtain ⟨-, hi, -⟩ := C137_nonce_input hpp hqq sk sk (messageInput m) (messageInput m') pk pk mainNet
    mainNet rfl (by simp [messageInput, RoInput.addBytes, RoInput.init, byteBits_length, hml]) h
  simp only [messageInput, RoInput.addBytes, RoInput.init, List.nil_append, RoInput.mk.injEq,
    true_and] at hi
  exact hne (flatMap_bits_inj (fun b : UInt8 => b.toNat) 8 (fun a b hab => UInt8.toNat_inj.1 hab)
    (fun a => a.toNat_lt) m m' hml hi)

end Keys

/-! ### a concrete environment

The real fields and the real sponge; the group is that of the scalars, with coordinates that satisfy the
laws. -/

/-- see above -/
def exEnv : Env pallasp pallasq (ZMod pallasq) where
  gen := 1
  x P := ((min P.val (pallasq - P.val) : ℕ) : ZMod pallasp)
  y P := if P = 0 then 0 else if P.val ≤ pallasq / 2 then 1 else -1
  params := contexts .threeW
  blake b := leBytes 32 (leNat b % 2 ^ 250 + 12345)

theorem ex_min_lt (P : ZMod pallasq) : min P.val (pallasq - P.val) < pallasp := by
  have : P.val < pallasq := ZMod.val_lt P
  have h : pallasq / 2 < pallasp := by decide
  omega

theorem ex_val_pos {P : ZMod pallasq} (h : P ≠ 0) : 0 < P.val :=
  Nat.pos_of_ne_zero fun h' => h ((ZMod.val_eq_zero P).1 h')

theorem exLawful : Lawful exEnv where
  gen_ne := by
    show (1 : ZMod pallasq) ≠ 0
    exact one_ne_zero
  x_zero := by
    show ((min (0 : ZMod pallasq).val (pallasq - (0 : ZMod pallasq).val) : ℕ) : ZMod pallasp) = 0
    rw [ZMod.val_zero, Nat.zero_min, Nat.cast_zero]
  x_neg P := by
    show ((min (-P).val (pallasq - (-P).val) : ℕ) : ZMod pallasp) =
      ((min P.val (pallasq - P.val) : ℕ) : ZMod pallasp)
    by_cases h : P = 0
    · rw [h, neg_zero]
    · rw [ZMod.neg_val, if_neg h, Nat.sub_sub_self (ZMod.val_lt P).le, min_comm]
  y_neg P := by
    show (if -P = 0 then (0 : ZMod pallasp) else if (-P).val ≤ pallasq / 2 then 1 else -1) =
      -(if P = 0 then (0 : ZMod pallasp) else if P.val ≤ pallasq / 2 then 1 else -1)
    by_cases h : P = 0
    · rw [h]; simp
    · rw [if_neg (neg_ne_zero.2 h), if_neg h, ZMod.neg_val, if_neg h]
      have h1 : P.val < pallasq := ZMod.val_lt P
      have h3 : pallasq % 2 = 1 := by decide
      by_cases h2 : P.val ≤ pallasq / 2
      · rw [if_pos h2, if_neg (by omega)]
      · rw [if_neg h2, if_pos (by omega), neg_neg]
  y_ne P h := by
    show (if P = 0 then (0 : ZMod pallasp) else if P.val ≤ pallasq / 2 then 1 else -1) ≠ 0
    rw [if_neg h]
    split_ifs
    · exact one_ne_zero
    · exact neg_ne_zero.2 one_ne_zero
  x_eq P Q hP hQ h := by
    have h' : ((min P.val (pallasq - P.val) : ℕ) : ZMod pallasp) =
      ((min Q.val (pallasq - Q.val) : ℕ) : ZMod pallasp) := h
    have hv := congrArg ZMod.val h'
    rw [ZMod.val_natCast_of_lt (ex_min_lt P), ZMod.val_natCast_of_lt (ex_min_lt Q)] at hv
    have h1 : P.val < pallasq := ZMod.val_lt P
    have h2 : Q.val < pallasq := ZMod.val_lt Q
    have h3 := ex_val_pos hP
    have h4 := ex_val_pos hQ
    by_cases he : P.val = Q.val
    · exact Or.inl (ZMod.val_injective _ he)
    · right
      apply ZMod.val_injective
      rw [ZMod.neg_val, if_neg hQ]
      omega

/-- a signature of "Mina" -/
def exSig : Sig pallasp pallasq := match signMessage exEnv 1234567 [77, 105, 110, 97] with
  | .ok s => s
  | .error _ => ⟨0, 0⟩

theorem exSig_ok : signMessage exEnv 1234567 [77, 105, 110, 97] = .ok exSig := by decide +kernel

-- signing succeeds and what is signed verifies, for that message and with zero bytes after it, and for no
-- other message or key
example : verifyMessage exEnv (publicKey exEnv 1234567) exSig [77, 105, 110, 97] = .ok () :=
  C77_message exLawful (by decide) _ _ _ exSig_ok
example : verifyMessage exEnv 1234567 exSig [77, 105, 110, 98] = Go.err := by decide +kernel
example : verifyMessage exEnv 1234568 exSig [77, 105, 110, 97] = Go.err := by decide +kernel
example : verifyMessage exEnv 1234567 exSig ([77, 105, 110, 97] ++ List.replicate 20 0) =
    verifyMessage exEnv 1234567 exSig [77, 105, 110, 97] :=
  C78_trailing_zeros rfl _ _ _ _ (by decide)
example : verifyMessage exEnv 1234567 exSig ([77, 105, 110, 97] ++ List.replicate 27 0) = .ok () := by
  decide +kernel
example : verifyMessage exEnv 1234567 exSig ([77, 105, 110, 97] ++ List.replicate 28 0) = Go.err := by
  decide +kernel
-- another network
example : finishVerify exEnv 1234567 exSig (messageInput [77, 105, 110, 97]) testNet = Go.err := by
  decide +kernel
example : finishVerify exEnv 1234567 exSig (messageInput [77, 105, 110, 97]) 3 = Go.crash := by
  decide +kernel
example : finishSign exEnv 1234567 (messageInput [77]) 3 = Go.crash ∧
    signMessage exEnv 0 [77] = Go.err := by decide +kernel
-- the hypotheses of C136 and C137
example : msgHash exEnv 1234567 5 (messageInput [77]) mainNet ≠
    msgHash exEnv 1234567 5 (messageInput [78]) mainNet := by decide +kernel
example : 2 ^ 254 < pallasp ∧ pallasp < 2 ^ 255 ∧ pallasq < 2 ^ 255 := by decide +kernel
example : (deriveInput exEnv 7 (messageInput [1]) 7 mainNet).bytes ≠
    (deriveInput exEnv 7 (messageInput [1, 0]) 7 mainNet).bytes :=
  C137_message_nonce (by decide) (by decide) _ _ _ _ (by decide)
-- messages that only differ in zero bytes at the end get different nonces although their challenges for
-- one commitment are the same
example : SameUpToZeros ([1] : List UInt8) [1, 0] := by
  intro i
  match i with
  | 0 => rfl
  | 1 => rfl
  | i + 2 => rfl

-- nonce reuse gives the key away: the signatures with one nonce 5 and challenges 3 and 4 of the key 9
example : publicKey exEnv ((((5 + 3 * 9) - (5 + 4 * 9)) * (3 - 4)⁻¹ : ZMod pallasq)) =
    publicKey exEnv 9 := by
  have : ((((5 + 3 * 9) - (5 + 4 * 9)) * (3 - 4)⁻¹ : ZMod pallasq)) = 9 := by
    rw [show (3 - 4 : ZMod pallasq) = -1 by ring, inv_neg, inv_one]
    ring
  rw [this]

/-- C77: `NewKeysFromReader` returns a pair of a nonzero secret key and its public key, or an error for
zero -/
theorem C77_newKeys {p q : ℕ} [Fact p.Prime] [Fact q.Prime] {G : Type} [AddCommGroup G]
    [Module (ZMod q) G] [DecidableEq G] {E : Env p q G} (hE : Lawful E) (t : ZMod q) :
    newKeys E t = if t = 0 then Go.err else .ok (publicKey E t, t) := by
  unfold newKeys
  by_cases h : t = 0
  · rw [Go.guard_false (by simpa using h), if_pos h]; rfl
  · rw [Go.guard_true h, Go.ok_bind, if_neg h]
    simp only
    rw [Go.guard_true (smul_ne_zero h hE.gen_ne)]
    rfl

example : newKeys exEnv 5 = .ok (publicKey exEnv 5, 5) := by
  rw [C77_newKeys exLawful, if_neg (by decide +kernel)]

end Verif.Mina
