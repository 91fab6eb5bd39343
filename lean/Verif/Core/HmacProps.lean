import Verif.Core.HmacModel
import Verif.Core.Props

/-!
# C227: commitments bind under collision resistance of the hash itself
-/

namespace Verif.Core

theorem xor_inj (c : UInt8) : Function.Injective fun x : UInt8 => x ^^^ c := by
  intro x y h
  have := congrArg (· ^^^ c) h
  simpa [UInt8.xor_assoc] using this

theorem ipad_inj {k k' : List UInt8} (h : ipad k = ipad k') : k = k' := List.map_injective_iff.2 (xor_inj _) h
theorem opad_inj {k k' : List UInt8} (h : opad k = opad k') : k = k' := List.map_injective_iff.2 (xor_inj _) h

theorem hmacKey_length {H : List UInt8 → List UInt8} {b : ℕ} (hH : ∀ x, (H x).length ≤ b) (k : List UInt8) : (hmacKey H b k).length = b := by
  unfold hmacKey
  simp only [List.length_append, List.length_replicate]
  split_ifs with h
  · have := hH k; omega
  · omega

theorem hmacKey_short {H : List UInt8 → List UInt8} {b : ℕ} {k : List UInt8} (h : k.length ≤ b) :
    hmacKey H b k = k ++ List.replicate (b - k.length) 0 := by
  unfold hmacKey
  simp only [if_neg (Nat.not_lt.2 h)]

/-- C227: two keys of one length that fits in a block, and two messages: if the codes agree, the keys and messages agree or two inputs that
were hashed on the way collide -/
theorem C227_collision {H : List UInt8 → List UInt8} {b : ℕ} (hH : ∀ x, (H x).length ≤ b) {k k' m m' : List UInt8} (hl : k.length = k'.length)
    (hb : k.length ≤ b) (h : hmac H b k m = hmac H b k' m') : (k = k' ∧ m = m') ∨ ∃ x y, x ≠ y ∧ H x = H y := by
  by_cases h1 : opad (hmacKey H b k) ++ H (ipad (hmacKey H b k) ++ m) = opad (hmacKey H b k') ++ H (ipad (hmacKey H b k') ++ m')
  · have hlen : (opad (hmacKey H b k)).length = (opad (hmacKey H b k')).length := by
      simp only [opad, List.length_map, hmacKey_length hH]
    obtain ⟨e1, e2⟩ := List.append_inj h1 hlen
    have e1 := opad_inj e1
    have hk : k = k' := by
      rw [hmacKey_short hb, hmacKey_short (hl ▸ hb)] at e1
      exact (List.append_inj e1 hl).1
    by_cases h2 : ipad (hmacKey H b k) ++ m = ipad (hmacKey H b k') ++ m'
    · rw [e1] at h2
      exact Or.inl ⟨hk, List.append_cancel_left h2⟩
    · exact Or.inr ⟨_, _, h2, e2⟩
  · exact Or.inr ⟨_, _, h1, h⟩

/-- C227: two different openings of one commitment contain a collision of the hash -/
theorem C227_binding {H : List UInt8 → List UInt8} (hH : ∀ x, (H x).length = 32) (c : List UInt8) (d d' : Witness) (hr : d.r.length = 32)
    (hr' : d'.r.length = 32) (h : openHash H c d = .ok true) (h' : openHash H c d' = .ok true) : d = d' ∨ ∃ x y, x ≠ y ∧ H x = H y := by
  have key : ∀ w : Witness, openHash H c w = .ok true → hmac H 64 w.r w.msg = c := by
    intro w hw
    unfold openHash at hw
    obtain ⟨-, hw⟩ := Go.guard_bind_eq_ok.1 hw
    have := Except.ok.inj hw
    simpa using this
  rcases C227_collision (b := 64) (fun x => by rw [hH x]; decide) (hr.trans hr'.symm) (by omega) ((key d h).trans (key d' h').symm) with ⟨e1, e2⟩ | hc
  · left
    cases d; cases d'
    simp only at e1 e2
    rw [e1, e2]
  · exact Or.inr hc

/-- C227: `Open` with HMAC spelled out is `Open` of C13 -/
theorem C227_open (H : List UInt8 → List UInt8) (c : List UInt8) (d : Witness) : openHash H c d = openC (hmac H 64) c d := rfl

/-- C227: `ComputeHMAC` fails exactly for a nil function; the result has the length of a digest -/
theorem C227_compute (f : Option (List UInt8 → List UInt8)) (b : ℕ) (msg k : List UInt8) :
    (computeHMAC f b msg k = Go.err ↔ f = none) ∧ computeHMAC f b msg k ≠ Go.crash ∧
    ∀ H, f = some H → ∀ n, (∀ x, (H x).length = n) → ∃ v, computeHMAC f b msg k = .ok v ∧ v.length = n := by
  cases f with
  | none => exact ⟨⟨fun _ => rfl, fun _ => rfl⟩, fun h => by simp [computeHMAC] at h, fun H h => by simp at h⟩
  | some H =>
    refine ⟨⟨fun h => by simp [computeHMAC] at h, fun h => by simp at h⟩, fun h => by simp [computeHMAC] at h, fun H' h n hn => ?_⟩
    obtain rfl := Option.some.inj h
    exact ⟨_, rfl, hn _⟩

/-- C227: keys of different lengths need not differ: trailing zeros within a block do not count, and a long key is its digest -/
theorem C227_equal_keys (H : List UInt8 → List UInt8) (b : ℕ) (msg k : List UInt8) :
    (∀ n, k.length + n ≤ b → computeHMAC (some H) b msg (k ++ List.replicate n 0) = computeHMAC (some H) b msg k) ∧
    (k.length > b → (H k).length ≤ b → computeHMAC (some H) b msg (H k) = computeHMAC (some H) b msg k) := by
  constructor
  · intro n hn
    have e : hmacKey H b (k ++ List.replicate n 0) = hmacKey H b k := by
      rw [hmacKey_short (by simpa using hn), hmacKey_short (by omega), List.append_assoc, ← List.replicate_add]
      congr 2
      simp only [List.length_append, List.length_replicate]
      omega
    simp only [computeHMAC, hmac, e]
  · intro h1 h2
    have e : hmacKey H b (H k) = hmacKey H b k := by
      rw [hmacKey_short h2]
      unfold hmacKey
      simp only [if_pos h1]
    simp only [computeHMAC, hmac, e]

/-- a hash of 32 bytes for the examples: the length and the sum of the bytes, padded -/
def toyHash (x : List UInt8) : List UInt8 := UInt8.ofNat x.length :: x.foldl (· + ·) 7 :: List.replicate 30 0

/-- the hypotheses of `C227_binding` hold with two different witnesses of one commitment, since the hash of the example collides -/
example : (∀ x, (toyHash x).length = 32) ∧ (List.replicate 32 (1 : UInt8)).length = 32 ∧
    openHash toyHash (hmac toyHash 64 (List.replicate 32 1) [1, 2]) ⟨[1, 2], List.replicate 32 1⟩ = .ok true ∧
    openHash toyHash (hmac toyHash 64 (List.replicate 32 1) [1, 2]) ⟨[2, 1], List.replicate 32 1⟩ = .ok true :=
  ⟨fun x => by simp [toyHash], by decide, by decide +kernel, by decide +kernel⟩

/-- and those of `C227_equal_keys` -/
example : computeHMAC (some toyHash) 64 [5] [9, 0, 0] = computeHMAC (some toyHash) 64 [5] [9] :=
  (C227_equal_keys toyHash 64 [5] [9]).1 2 (by decide)

end Verif.Core
