import Verif.Core.Lemmas
import Mathlib.Algebra.Field.ZMod
import Mathlib.Tactic.NormNum.Prime

/-!
# Properties of `pkg/core` (C11 - C15, C88, C89)
-/

set_option linter.unusedSectionVars false

namespace Verif.Core

/-! ## C11: I2OSP / OS2IP -/

/-- `I2OSP` never errors; it panics exactly for negative lengths, otherwise yields `n` bytes, and
these bytes denote `b` exactly when `0 ≤ b < 256^n`. -/
theorem C11_i2osp_correct_iff (b n : ℤ) :
    (n < 0 ∧ i2osp b n = Go.crash) ∨
    (0 ≤ n ∧ ∃ os, i2osp b n = .ok os ∧ (os.length : ℤ) = n ∧
      ((os2ip os : ℤ) = b ↔ 0 ≤ b ∧ b < 256 ^ n.toNat)) := by
  by_cases hn : n < 0
  · left
    refine ⟨hn, ?_⟩
    unfold i2osp
    simp only
    rw [if_neg (by omega), if_pos hn]
  · right
    obtain ⟨os, hos⟩ := i2osp_total (b := b) (n := n) (by omega)
    have hl := (i2osp_length hos).2
    refine ⟨by omega, os, hos, hl, ?_, ?_⟩
    · intro h
      have := beNat_lt os
      unfold os2ip at h
      have e : os.length = n.toNat := by omega
      rw [e] at this
      refine ⟨by omega, ?_⟩
      rw [← h]
      exact_mod_cast this
    · rintro ⟨h0, h1⟩
      lift b to ℕ using h0
      lift n to ℕ using (by omega)
      have h1' : b < 256 ^ n := by simpa using (by exact_mod_cast h1 : b < 256 ^ ((n : ℤ).toNat))
      rw [i2osp_ok h1'] at hos
      obtain rfl := Except.ok.inj hos
      unfold os2ip
      rw [beNat_beBytes _ _ h1']

/-- Decoding then encoding with the same length is the identity on byte strings. -/
theorem C11_os2ip_i2osp (os : List UInt8) : i2osp (os2ip os) os.length = .ok os := by
  unfold os2ip
  rw [i2osp_ok (beNat_lt os), beBytes_beNat]

/-- The silent failures: the sign is dropped, and too large integers are cut on the wrong side. -/
theorem C11_silent_failures (b n : ℤ) :
    i2osp (-b) n = i2osp b n ∧ i2osp 256 1 = i2osp 1 1 := by
  refine ⟨?_, by decide +kernel⟩
  unfold i2osp intBytes
  rw [Int.natAbs_neg]

example : i2osp 258 3 = .ok [0, 1, 2] ∧ os2ip [0, 1, 2] = 258 := by decide +kernel

/-! ## C12: the Fiat-Shamir chain -/

/-- The inputs on which the key derivation function is called (specification of a run): step `i`
hashes the counter, the value and the previous output. -/
def queries (kdf : List UInt8 → List UInt8) : ℕ → List UInt8 → List (List UInt8) → List (List UInt8)
  | _, _, [] => []
  | i, okm, v :: vs =>
    (fAt i ++ v ++ okm) :: queries kdf (i + 1) (kdf (fAt i ++ v ++ okm)) vs

theorem queries_append (kdf : List UInt8 → List UInt8) (i : ℕ) (vs ws : List (List UInt8))
    (okm : List UInt8) :
    queries kdf i okm (vs ++ ws) = queries kdf i okm vs ++
      queries kdf (i + vs.length) (chain kdf (fAt i) okm vs) ws := by
  induction vs generalizing i okm with
  | nil => rfl
  | cons v vs ih =>
    simp only [List.cons_append, queries, chain, ih, fAt_succ, List.length_cons]
    rw [show i + 1 + vs.length = i + (vs.length + 1) by omega]

theorem queries_snoc (kdf : List UInt8 → List UInt8) (vs : List (List UInt8)) (v : List UInt8) :
    queries kdf 0 okm0 (vs ++ [v]) = queries kdf 0 okm0 vs ++
      [fAt vs.length ++ v ++ chain kdf f0 okm0 vs] := by
  rw [queries_append, zero_add]; rfl

/-- The digest is the key derivation function applied to the last query. -/
theorem C12_digest_is_last_query (kdf : List UInt8 → List UInt8) (vs : List ℤ) (hne : vs ≠ []) :
    ∃ q, (queries kdf 0 okm0 (vs.map intBytes)).getLast? = some q ∧
      fiatShamir kdf (vs.map some) = .ok (kdf q) := by
  rcases List.eq_nil_or_concat vs with rfl | ⟨ws, w, rfl⟩
  · exact absurd rfl hne
  · refine ⟨fAt ws.length ++ intBytes w ++ chain kdf f0 okm0 (ws.map intBytes), ?_, ?_⟩
    · rw [List.concat_eq_append, List.map_append, List.map_cons, List.map_nil, queries_snoc]
      simp
    · unfold fiatShamir
      rw [(mapM_id_some _ _).2 rfl]
      simp only
      rw [List.concat_eq_append, List.map_append, List.map_cons, List.map_nil, chain_snoc]
      simp

theorem chain_binding_same (kdf : List UInt8 → List UInt8) (hk : ∀ x, (kdf x).length = 32)
    (vs : List (List UInt8)) : ∀ ws : List (List UInt8), vs.length = ws.length →
    chain kdf f0 okm0 vs = chain kdf f0 okm0 ws →
    vs = ws ∨ ∃ a ∈ queries kdf 0 okm0 vs, ∃ b ∈ queries kdf 0 okm0 ws, a ≠ b ∧ kdf a = kdf b := by
  induction vs using List.reverseRecOn with
  | nil => intro ws h _; left; exact (List.length_eq_zero_iff.1 h.symm).symm
  | append_singleton vs v ih =>
    intro ws hlen heq
    rcases List.eq_nil_or_concat ws with rfl | ⟨ws, w, rfl⟩
    · simp at hlen
    rw [List.concat_eq_append] at hlen heq ⊢
    have hlen' : vs.length = ws.length := by simpa using hlen
    rw [chain_snoc, chain_snoc] at heq
    rw [queries_snoc, queries_snoc]
    by_cases hq : fAt vs.length ++ v ++ chain kdf f0 okm0 vs =
        fAt ws.length ++ w ++ chain kdf f0 okm0 ws
    · obtain ⟨_, h2, h3⟩ := append_split (by rw [hlen'])
        (by rw [chain_length kdf hk, chain_length kdf hk]) hq
      rcases ih ws hlen' h3 with h | ⟨a, ha, b, hb, hab⟩
      · left; rw [h, h2]
      · right
        exact ⟨a, List.mem_append_left _ ha, b, List.mem_append_left _ hb, hab⟩
    · right
      exact ⟨_, List.mem_append_right _ (List.mem_singleton_self _), _,
        List.mem_append_right _ (List.mem_singleton_self _), hq, heq⟩

/-- Binding of the chain for arbitrary byte strings and lengths up to `255^32`. -/
theorem chain_binding (kdf : List UInt8 → List UInt8) (hk : ∀ x, (kdf x).length = 32)
    (vs ws : List (List UInt8)) (hv : vs ≠ []) (hw : ws ≠ [])
    (hvl : vs.length ≤ 255 ^ 32) (hwl : ws.length ≤ 255 ^ 32)
    (heq : chain kdf f0 okm0 vs = chain kdf f0 okm0 ws) :
    vs = ws ∨ ∃ a ∈ queries kdf 0 okm0 vs, ∃ b ∈ queries kdf 0 okm0 ws, a ≠ b ∧ kdf a = kdf b := by
  by_cases hlen : vs.length = ws.length
  · exact chain_binding_same kdf hk vs ws hlen heq
  right
  rcases List.eq_nil_or_concat vs with rfl | ⟨vs, v, rfl⟩
  · exact absurd rfl hv
  rcases List.eq_nil_or_concat ws with rfl | ⟨ws, w, rfl⟩
  · exact absurd rfl hw
  simp only [List.concat_eq_append] at *
  simp only [List.length_append, List.length_singleton] at hlen hvl hwl
  rw [chain_snoc, chain_snoc] at heq
  rw [queries_snoc, queries_snoc]
  refine ⟨_, List.mem_append_right _ (List.mem_singleton_self _), _,
        List.mem_append_right _ (List.mem_singleton_self _), fun h => ?_, heq⟩
  obtain ⟨h1, _⟩ := append_split (by rw [(fAt_good _).2, (fAt_good _).2])
    (by rw [chain_length kdf hk, chain_length kdf hk]) h
  exact hlen (by rw [fAt_inj (by omega) (by omega) h1])

/-- Equal digests of two non-empty argument lists: the lists have the same absolute values in the
same order, or two different inputs of the key derivation function made in these two runs collide.
This covers lists of different lengths (up to `255^32`). -/
theorem C12_fiatShamir_binding (kdf : List UInt8 → List UInt8) (hk : ∀ x, (kdf x).length = 32)
    (vs ws : List ℤ) (hv : vs ≠ []) (hw : ws ≠ [])
    (hvl : vs.length ≤ 255 ^ 32) (hwl : ws.length ≤ 255 ^ 32) (d : List UInt8)
    (h1 : fiatShamir kdf (vs.map some) = .ok d) (h2 : fiatShamir kdf (ws.map some) = .ok d) :
    vs.map Int.natAbs = ws.map Int.natAbs ∨
    ∃ a ∈ queries kdf 0 okm0 (vs.map intBytes), ∃ b ∈ queries kdf 0 okm0 (ws.map intBytes),
      a ≠ b ∧ kdf a = kdf b := by
  unfold fiatShamir at h1 h2
  rw [(mapM_id_some _ _).2 rfl] at h1 h2
  have heq := (Except.ok.inj h1).trans (Except.ok.inj h2).symm
  rcases chain_binding kdf hk _ _ (by simpa using hv) (by simpa using hw) (by simpa using hvl)
    (by simpa using hwl) heq with h | h
  · left
    have e : ∀ l : List ℤ, l.map intBytes = (l.map Int.natAbs).map natBytes := by
      intro l; rw [List.map_map]; rfl
    rw [e, e] at h
    exact List.map_injective_iff.2 natBytes_injective h
  · exact Or.inr h

/-- Signs are not part of the transcript. -/
theorem C12_sign_ignored (kdf : List UInt8 → List UInt8) (vs ws : List ℤ)
    (h : vs.map Int.natAbs = ws.map Int.natAbs) :
    fiatShamir kdf (vs.map some) = fiatShamir kdf (ws.map some) := by
  unfold fiatShamir
  rw [(mapM_id_some _ _).2 rfl, (mapM_id_some _ _).2 rfl]
  have e : ∀ l : List ℤ, l.map intBytes = (l.map Int.natAbs).map natBytes := by
    intro l; rw [List.map_map]; rfl
  simp only [e, h]

/-- An error is returned exactly when some argument is nil. -/
theorem C12_nil_rejected (kdf : List UInt8 → List UInt8) (vs : List (Option ℤ)) :
    fiatShamir kdf vs = Go.err ↔ none ∈ vs := by
  unfold fiatShamir
  rw [← mapM_id_none]
  cases h : vs.mapM id <;> simp

/-- `internal.Hash` binds the byte strings themselves. -/
theorem C12_internalHash_binding (kdf : List UInt8 → List UInt8) (hk : ∀ x, (kdf x).length = 32)
    (vs ws : List (List UInt8)) (hv : vs ≠ []) (hw : ws ≠ [])
    (hvl : vs.length ≤ 255 ^ 32) (hwl : ws.length ≤ 255 ^ 32) (d : List UInt8)
    (h1 : internalHash kdf (vs.map some) = .ok d) (h2 : internalHash kdf (ws.map some) = .ok d) :
    vs = ws ∨ ∃ a ∈ queries kdf 0 okm0 vs, ∃ b ∈ queries kdf 0 okm0 ws,
      a ≠ b ∧ kdf a = kdf b := by
  unfold internalHash at h1 h2
  rw [(mapM_id_some _ _).2 rfl] at h1 h2
  exact chain_binding kdf hk _ _ hv hw hvl hwl ((Except.ok.inj h1).trans (Except.ok.inj h2).symm)

/-- The counter bytes of the first `255^32` steps are pairwise different and 32 bytes long. -/
theorem C12_counter_distinct (i j : ℕ) (hi : i < 255 ^ 32) (hj : j < 255 ^ 32) (hij : i ≠ j) :
    (byteSub 1)^[i] f0 ≠ (byteSub 1)^[j] f0 ∧ ((byteSub 1)^[i] f0).length = 32 :=
  ⟨fun h => hij (fAt_inj hi hj h), (fAt_good i).2⟩

example : ∃ kdf : List UInt8 → List UInt8, (∀ x, (kdf x).length = 32) ∧
    ∃ d, fiatShamir kdf ([3, -4].map some) = .ok d ∧ fiatShamir kdf ([-3, 4].map some) = .ok d :=
  ⟨fun x => (x ++ List.replicate 32 0).take 32, by simp, _, rfl,
    C12_sign_ignored _ [-3, 4] [3, -4] (by decide)⟩

/-! ## C13: commitments -/

/-- Opening an honest commitment succeeds. -/
theorem C13_open_commit (hmac : List UInt8 → List UInt8 → List UInt8)
    (hl : ∀ k m, (hmac k m).length = 32) (msg r : List UInt8) :
    openC hmac (commit hmac msg r).1 (commit hmac msg r).2 = .ok true := by
  unfold openC commit
  rw [Go.guard_true (hl _ _)]
  simp

/-- A commitment opened by two witnesses: they are equal or they are themselves an HMAC collision. -/
theorem C13_binding (hmac : List UInt8 → List UInt8 → List UInt8) (c : List UInt8)
    (d d' : Witness) (h : openC hmac c d = .ok true) (h' : openC hmac c d' = .ok true) :
    d = d' ∨ ((d.r, d.msg) ≠ (d'.r, d'.msg) ∧ hmac d.r d.msg = hmac d'.r d'.msg) := by
  unfold openC at h h'
  rw [Go.guard_bind_eq_ok] at h h'
  have e := of_decide_eq_true (Except.ok.inj h.2)
  have e' := of_decide_eq_true (Except.ok.inj h'.2)
  by_cases hd : d = d'
  · exact Or.inl hd
  · right
    refine ⟨fun hp => hd ?_, e.trans e'.symm⟩
    cases d; cases d'; simp_all

/-- Full decision of `Open`: an error exactly for a wrong length, otherwise comparison with the
recomputed value. -/
theorem C13_open_decision (hmac : List UInt8 → List UInt8 → List UInt8) (c : List UInt8)
    (d : Witness) :
    (openC hmac c d = Go.err ↔ c.length ≠ 32) ∧
    (openC hmac c d = .ok true ↔ c.length = 32 ∧ hmac d.r d.msg = c) := by
  unfold openC
  by_cases h : c.length = 32
  · rw [Go.guard_true h]; simp [h]
  · rw [Go.guard_false h]; simp [h]

example : ∃ hmac : List UInt8 → List UInt8 → List UInt8, (∀ k m, (hmac k m).length = 32) ∧
    hmac [1] [2] ≠ hmac [2] [2] :=
  ⟨fun k m => ((k ++ m) ++ List.replicate 32 0).take 32, by simp; omega, by decide⟩

/-! ## C14: constant-time equality -/

/-- `ConstantTimeEq` is equality of (possibly nil) integers. -/
theorem C14_constantTimeEq (a b : Option ℤ) : constantTimeEq a b = true ↔ a = b := by
  unfold constantTimeEq constantTimeEqByte
  match a, b with
  | none, none => simp
  | none, some _ => simp
  | some _, none => simp
  | some a, some b =>
    simp only [Option.some.injEq, beq_iff_eq]
    constructor
    · intro h
      by_cases h1 : intBytes a = intBytes b <;> by_cases h2 : a.sign = b.sign <;>
        simp only [h1, h2, if_true, if_false] at h
      · have := intBytes_inj h1
        rw [← Int.sign_mul_natAbs a, ← Int.sign_mul_natAbs b, h2, this]
      all_goals exact absurd h (by decide)
    · rintro rfl
      simp

/-- The byte-valued variant only returns 0 or 1. -/
theorem C14_byte_range (a b : Option ℤ) :
    constantTimeEqByte a b = if a = b then 1 else 0 := by
  have h := C14_constantTimeEq a b
  unfold constantTimeEq at h
  rw [beq_iff_eq] at h
  split
  · rename_i e; exact h.2 e
  · rename_i e
    have hne := fun x => e (h.1 x)
    revert hne
    unfold constantTimeEqByte
    match a, b with
    | none, none => simp
    | none, some _ => simp
    | some _, none => simp
    | some a, some b =>
      intro hne
      simp only at hne ⊢
      by_cases h1 : intBytes a = intBytes b <;> by_cases h2 : a.sign = b.sign <;>
        simp [h1, h2] at hne ⊢

/-! ## C15: modular helpers -/

/-- `In` accepts exactly `0 ≤ x < m`. -/
theorem C15_in (x m : Option ℤ) :
    inZm x m = .ok () ↔ ∃ x' m', x = some x' ∧ m = some m' ∧ 0 ≤ x' ∧ x' < m' := by
  unfold inZm
  match x, m with
  | some x, some m => simp only [Go.guard_eq_ok]; simp
  | none, _ => simp
  | some _, none => simp

/-- For a positive modulus `Add`, `Mul`, `Neg` return the unique representative in `[0, m)` of
sum, product and negative; without modulus (`nil`) `Add`/`Mul` are the integer operations. -/
theorem C15_ring_ops (x y m : ℤ) (hm : 0 < m) :
    (∃ r, add (some x) (some y) (some m) = .ok r ∧ 0 ≤ r ∧ r < m ∧ m ∣ (x + y) - r) ∧
    (∃ r, mul (some x) (some y) (some m) = .ok r ∧ 0 ≤ r ∧ r < m ∧ m ∣ (x * y) - r) ∧
    (∃ r, neg (some x) (some m) = .ok r ∧ 0 ≤ r ∧ r < m ∧ m ∣ (-x) - r) ∧
    add (some x) (some y) none = .ok (x + y) ∧ mul (some x) (some y) none = .ok (x * y) := by
  have key : ∀ z : ℤ, ∃ r, Big.mod z m = .ok r ∧ 0 ≤ r ∧ r < m ∧ m ∣ z - r := fun z =>
    ⟨z % m, by simp [Big.mod, hm.ne'], Int.emod_nonneg _ hm.ne', Int.emod_lt_of_pos _ hm,
      Int.dvd_self_sub_emod⟩
  exact ⟨key _, key _, key _, rfl, rfl⟩

/-- A zero modulus panics. -/
theorem C15_zero_modulus (x y : ℤ) :
    add (some x) (some y) (some 0) = Go.crash ∧ mul (some x) (some y) (some 0) = Go.crash ∧
    neg (some x) (some 0) = Go.crash ∧ inv (some x) (some 0) = Go.crash := ⟨rfl, rfl, rfl, rfl⟩

/-- `Inv` returns the unique inverse in `[0, m)` when `gcd(x, m) = 1` and an error otherwise. -/
theorem C15_inv (x m : ℤ) (hm : 0 < m) :
    (∀ r, inv (some x) (some m) = .ok r ↔ 0 ≤ r ∧ r < m ∧ m ∣ 1 - x * r) ∧
    ((∃ r, inv (some x) (some m) = .ok r) ↔ Int.gcd x m = 1) ∧
    (inv (some x) (some m) = Go.err ↔ Int.gcd x m ≠ 1) := by
  unfold inv
  simp only [if_neg hm.ne']
  refine ⟨fun r => ?_, ?_, ?_⟩
  · rw [Go.ofOption_eq_ok, Big.modInverse_eq_some hm, Int.modEq_iff_dvd]
  · rw [← Big.modInverse_isSome, Option.isSome_iff_exists]
    simp only [Go.ofOption_eq_ok]
  · rw [← Big.modInverse_eq_none]
    cases Big.modInverse x m <;> simp [Go.ofOption]

/-- `Exp` for a positive modulus: for `y ≥ 0` the canonical power; for `y < 0` the canonical
power of the inverse if it exists and otherwise a nil pointer without an error. -/
theorem C15_exp (x y m : ℤ) (hm : 0 < m) :
    (0 ≤ y → ∃ r, exp (some x) (some y) (some m) = .ok (some r) ∧ 0 ≤ r ∧ r < m ∧
      m ∣ x ^ y.toNat - r) ∧
    (y < 0 → Int.gcd x m = 1 → ∃ r, exp (some x) (some y) (some m) = .ok (some r) ∧ 0 ≤ r ∧
      r < m ∧ m ∣ 1 - x ^ (-y).toNat * r) ∧
    (y < 0 → Int.gcd x m ≠ 1 → exp (some x) (some y) (some m) = .ok none) := by
  unfold exp Big.exp
  simp only [Option.getD_some, if_neg hm.ne']
  refine ⟨fun h => ?_, fun h hg => ?_, fun h hg => ?_⟩
  · rw [if_pos h]
    exact ⟨_, rfl, Int.emod_nonneg _ hm.ne', Int.emod_lt_of_pos _ hm, Int.dvd_self_sub_emod⟩
  · rw [if_neg (by omega)]
    obtain ⟨i, hi⟩ := Option.isSome_iff_exists.1 (Big.modInverse_isSome.2 hg)
    rw [hi]
    refine ⟨_, rfl, Int.emod_nonneg _ hm.ne', Int.emod_lt_of_pos _ hm, ?_⟩
    have h3 := ((Big.modInverse_eq_some hm).1 hi).2.2
    rw [← Int.modEq_iff_dvd]
    have e1 : x ^ (-y).toNat * (i ^ (-y).toNat % m) ≡ x ^ (-y).toNat * i ^ (-y).toNat [ZMOD m] :=
      (Int.mod_modEq _ _).mul_left _
    refine e1.trans ?_
    rw [← mul_pow]
    simpa using h3.pow (-y).toNat
  · rw [if_neg (by omega), Big.modInverse_eq_none.2 hg]
    rfl

/-- Nil arguments are errors. -/
theorem C15_nil (x y m : Option ℤ) (h : x = none ∨ y = none) :
    add x y m = Go.err ∧ mul x y m = Go.err ∧ exp x y m = Go.err ∧ neg x y = Go.err ∧
    inv x y = Go.err ∧ inZm x y = Go.err := by
  rcases h with rfl | rfl
  · exact ⟨rfl, rfl, rfl, rfl, rfl, rfl⟩
  · cases x <;> exact ⟨rfl, rfl, rfl, rfl, rfl, rfl⟩

theorem rand_spec (draws : ℕ → ℤ) : ∀ fuel i r, rand draws fuel i = some r →
    ∃ k < fuel, r = draws (i + k) ∧ 1 < r ∧ ∀ j < k, draws (i + j) ≤ 1 := by
  intro fuel
  induction fuel with
  | zero => intro i r h; simp [rand] at h
  | succ fuel ih =>
    intro i r h
    unfold rand at h
    split at h
    · rename_i h1
      obtain rfl := Option.some.inj h
      exact ⟨0, by omega, rfl, h1, by simp⟩
    · rename_i h1
      obtain ⟨k, hk, e, hr, hj⟩ := ih (i + 1) r h
      refine ⟨k + 1, by omega, by rw [e]; congr 1; omega, hr, fun j hj' => ?_⟩
      rcases Nat.eq_zero_or_pos j with rfl | hp
      · simpa using h1
      · have := hj (j - 1) (by omega)
        rwa [show i + 1 + (j - 1) = i + j by omega] at this

/-- `Rand(m)`: what it returns lies strictly between 1 and `m` and is the first suitable draw; for
`m ≤ 2` (a legal bound for the draws being `[0, m)`) it never returns. -/
theorem C15_rand (m : ℤ) (draws : ℕ → ℤ) (hd : ∀ i, 0 ≤ draws i ∧ draws i < m) (fuel : ℕ) :
    (∀ r, rand draws fuel 0 = some r → 1 < r ∧ r < m) ∧
    (m ≤ 2 → rand draws fuel 0 = none) := by
  have h1 : ∀ r, rand draws fuel 0 = some r → 1 < r ∧ r < m := by
    intro r h
    obtain ⟨k, _, e, hr, _⟩ := rand_spec draws fuel 0 r h
    exact ⟨hr, by rw [e]; exact (hd _).2⟩
  refine ⟨h1, fun hm => ?_⟩
  cases h : rand draws fuel 0 with
  | none => rfl
  | some r => have := h1 r h; omega

example : inv (some 3) (some 7) = .ok 5 ∧ inv (some 6) (some 9) = Go.err ∧
    exp (some 3) (some (-2)) (some 7) = .ok (some 4) := by decide +kernel

/-! ## C88: field elements -/

/-- The element of the field `ZMod p` (specification). -/
def ofZ (p : ℕ) (a : ZMod p) : Element := ⟨p, a.val⟩

section
variable {p : ℕ} [hp : Fact p.Prime]

theorem newElement_ofZ (z : ℤ) (a : ZMod p) (h : (z : ZMod p) = a) :
    newElement p (some (z % p)) = .ok (ofZ p a) := by
  have hp0 : (0 : ℤ) < p := by exact_mod_cast hp.out.pos
  have h0 := Int.emod_nonneg z hp0.ne'
  have h1 := Int.emod_lt_of_pos z hp0
  unfold newElement
  simp only
  rw [if_pos ⟨h1, Int.sign_nonneg_iff.2 h0⟩]
  unfold ofZ
  congr 2
  have : NeZero p := ⟨hp.out.ne_zero⟩
  refine Big.eq_of_cast h0 h1 (by positivity) (by exact_mod_cast ZMod.val_lt a) ?_
  rw [ZMod.intCast_mod, h]
  simp

theorem mod_p (z : ℤ) : Big.mod z p = .ok (z % p) := by
  have : (p : ℤ) ≠ 0 := by exact_mod_cast hp.out.ne_zero
  unfold Big.mod
  rw [if_neg this]

theorem cast_val (a : ZMod p) : ((a.val : ℤ) : ZMod p) = a := by
  have : NeZero p := ⟨hp.out.ne_zero⟩
  simp

/-- Every operation on elements of one prime field is the operation of `ZMod p`. -/
theorem C88_refinement (a b : ZMod p) :
    (ofZ p a).add (ofZ p b) = .ok (ofZ p (a + b)) ∧
    (ofZ p a).sub (ofZ p b) = .ok (ofZ p (a - b)) ∧
    (ofZ p a).mul (ofZ p b) = .ok (ofZ p (a * b)) ∧
    (ofZ p a).neg = .ok (ofZ p (-a)) ∧
    (ofZ p a).pow (ofZ p b) = .ok (ofZ p (a ^ b.val)) ∧
    (ofZ p a).clone = .ok (ofZ p a) ∧
    ((ofZ p a).isEqual (ofZ p b) = true ↔ a = b) := by
  have hv : validateFields (ofZ p a) (ofZ p b) = .ok () := by simp [validateFields, ofZ]
  have hp0 : (p : ℤ) ≠ 0 := by exact_mod_cast hp.out.ne_zero
  have : NeZero p := ⟨hp.out.ne_zero⟩
  refine ⟨?_, ?_, ?_, ?_, ?_, ?_, ?_⟩
  · unfold Element.add; rw [hv]; simp only [ofZ, mod_p, Go.ok_bind]
    exact newElement_ofZ _ _ (by push_cast; simp)
  · unfold Element.sub; rw [hv]; simp only [ofZ, mod_p, Go.ok_bind]
    exact newElement_ofZ _ _ (by push_cast; simp)
  · unfold Element.mul; rw [hv]; simp only [ofZ, mod_p, Go.ok_bind]
    exact newElement_ofZ _ _ (by push_cast; simp)
  · unfold Element.neg; simp only [ofZ, mod_p, Go.ok_bind]
    exact newElement_ofZ _ _ (by push_cast; simp)
  · unfold Element.pow; rw [hv, Go.ok_bind]
    have e : Big.exp (a.val : ℤ) (b.val : ℤ) (p : ℤ) = some ((a.val : ℤ) ^ b.val % p) := by
      unfold Big.exp
      rw [if_neg hp0, if_pos (by positivity), Int.toNat_natCast]
    have h1 := newElement_ofZ (p := p) ((a.val : ℤ) ^ b.val) (a ^ b.val) (by push_cast; simp)
    rw [← e] at h1
    exact h1
  · unfold Element.clone elementFromBytes Element.bytes ofZ intBytes
    simp only [Int.natAbs_natCast, beNat_natBytes]
    have h1 := newElement_ofZ (p := p) (a.val : ℤ) a (cast_val a)
    rw [Int.emod_eq_of_lt (by positivity) (by exact_mod_cast ZMod.val_lt a)] at h1
    exact h1
  · unfold Element.isEqual ofZ
    rw [if_pos rfl, decide_eq_true_iff, Nat.cast_inj]
    exact ⟨fun h => ZMod.val_injective p h, fun h => by rw [h]⟩

/-- Division and inversion: by non-zero elements the field operation, by zero a panic. -/
theorem C88_division (a b : ZMod p) :
    (b ≠ 0 → (ofZ p a).div (ofZ p b) = .ok (ofZ p (a / b)) ∧
      (ofZ p b).invert = .ok (ofZ p b⁻¹)) ∧
    (ofZ p a).div (ofZ p 0) = Go.crash ∧ (ofZ p 0).invert = Go.crash := by
  have hv : ∀ b, validateFields (ofZ p a) (ofZ p b) = .ok () := by simp [validateFields, ofZ]
  have hp0 : (p : ℤ) ≠ 0 := by exact_mod_cast hp.out.ne_zero
  have : NeZero p := ⟨hp.out.ne_zero⟩
  have hzero : Big.modInverse (((0 : ZMod p).val : ℕ) : ℤ) (p : ℤ) = none := by
    rw [Big.modInverse_eq_none]
    simp only [ZMod.val_zero, Nat.cast_zero, Int.gcd_zero_left, Int.natAbs_natCast]
    exact hp.out.one_lt.ne'
  refine ⟨fun hb => ?_, ?_, ?_⟩
  · obtain ⟨i, hi, i0, i1, hc⟩ := Big.modInverse_cast (g := (b.val : ℤ)) (n := p) hp.out.pos
      (u := Units.mk0 b hb) (by rw [cast_val]; rfl)
    have hc' : (i : ZMod p) = b⁻¹ := by rw [hc]; simp
    constructor
    · unfold Element.div; rw [hv]; simp only [ofZ, Go.ok_bind, if_neg hp0, hi, mod_p]
      exact newElement_ofZ _ _ (by push_cast; rw [hc', div_eq_mul_inv]; simp)
    · unfold Element.invert ofZ
      simp only [if_neg hp0, hi]
      have h1 := newElement_ofZ i b⁻¹ hc'
      rwa [Int.emod_eq_of_lt i0 i1] at h1
  · unfold Element.div; rw [hv]; simp only [ofZ, Go.ok_bind, if_neg hp0, hzero]
  · unfold Element.invert ofZ
    simp only [if_neg hp0, hzero, newElement]

/-- Elements of different fields: every binary operation panics, comparison is false. -/
theorem C88_mismatch (x y : Element) (h : x.modulus ≠ y.modulus) :
    x.add y = Go.crash ∧ x.sub y = Go.crash ∧ x.mul y = Go.crash ∧ x.div y = Go.crash ∧
    x.pow y = Go.crash ∧ x.isEqual y = false := by
  have hv : validateFields x y = Go.crash := by simp [validateFields, h]
  simp [Element.add, Element.sub, Element.mul, Element.div, Element.pow, Element.isEqual, hv, h]

/-- Byte conversions: `ElementFromBytes` panics exactly for integers not below `p`;
`ReducedElementFromBytes` reduces. -/
theorem C88_bytes (b : List UInt8) :
    (elementFromBytes p b = if beNat b < p then .ok (ofZ p (beNat b)) else Go.crash) ∧
    reducedElementFromBytes p b = .ok (ofZ p (beNat b)) := by
  constructor
  · split
    · rename_i h
      have h1 := newElement_ofZ (p := p) (beNat b : ℤ) (beNat b : ZMod p) (by simp)
      rw [Int.emod_eq_of_lt (by positivity) (by exact_mod_cast h)] at h1
      exact h1
    · rename_i h
      unfold elementFromBytes newElement
      simp only
      rw [if_neg (fun hh => h (by exact_mod_cast hh.1))]
  · unfold reducedElementFromBytes
    rw [mod_p]
    exact newElement_ofZ _ _ (by simp)

/-- The valid elements of the field are exactly those of the form used above. -/
theorem C88_valid (x : Element) (v : Option ℤ) (h : newElement p v = .ok x) :
    ∃ a : ZMod p, x = ofZ p a := by
  unfold newElement at h
  match v with
  | none => exact absurd h (by simp)
  | some v =>
    simp only at h
    split at h
    · rename_i hh
      obtain rfl := Except.ok.inj h
      have h0 : 0 ≤ v := Int.sign_nonneg_iff.1 hh.2
      have h1 := newElement_ofZ (p := p) v (v : ZMod p) rfl
      rw [Int.emod_eq_of_lt h0 hh.1] at h1
      unfold newElement at h1
      simp only [if_pos hh] at h1
      exact ⟨_, Except.ok.inj h1⟩
    · exact absurd h (by simp)

end

instance : Fact (Nat.Prime 7) := ⟨by norm_num⟩

example : (⟨7, 3⟩ : Element).div ⟨7, 5⟩ = .ok ⟨7, 2⟩ := by decide +kernel

/-! ## C89: ExpandMessageXmd -/

/-- `DST_prime` of the specification. -/
def specDst (dst : List UInt8) : List UInt8 := dst ++ [UInt8.ofNat dst.length]

/-- `b_0` input of the specification. -/
def specIn0 (block : ℕ) (msg dst : List UInt8) (len : ℕ) : List UInt8 :=
  List.replicate block 0 ++ msg ++ [UInt8.ofNat (len / 256), UInt8.ofNat len] ++ [0] ++ specDst dst

/-- The blocks `b_i`, `i ≥ 1`, of expand_message_xmd (RFC 9380, 5.3.1). -/
def specB (H : List UInt8 → List UInt8) (block : ℕ) (msg dst : List UInt8) (len : ℕ) :
    ℕ → List UInt8
  | 0 => []
  | 1 => H (H (specIn0 block msg dst len) ++ [1] ++ specDst dst)
  | i + 2 => H (List.zipWith (· ^^^ ·) (H (specIn0 block msg dst len))
      (specB H block msg dst len (i + 1)) ++ [UInt8.ofNat (i + 2)] ++ specDst dst)

theorem i2osp_zero (n : ℕ) : i2osp 0 n = .ok (List.replicate n 0) := by
  have := i2osp_ok (b := 0) (n := n) (by positivity)
  rw [Nat.cast_zero] at this
  rw [this]
  congr 1
  have : ∀ m, leBytes m 0 = List.replicate m 0 := by
    intro m
    induction m with
    | zero => rfl
    | succ m ih => simp [leBytes, ih, List.replicate_succ]
  unfold beBytes
  rw [this]; simp

/-- Exact behaviour for a DST of at most 255 bytes. -/
theorem C89_expand_spec (H : List UInt8 → List UInt8) (size block : ℕ) (hs : 0 < size)
    (hs2 : size ≤ 256) (msg dst : List UInt8) (hdst : dst.length ≤ 255) (len : ℤ) :
    (len ≤ 0 → expandXmd H size block msg dst len = Go.crash) ∧
    (255 * size < len → expandXmd H size block msg dst len = Go.err) ∧
    (0 < len → len ≤ 255 * size → expandXmd H size block msg dst len =
      .ok ((((List.range ((len.toNat + size - 1) / size)).map fun i =>
        specB H block msg dst len.toNat (i + 1)).flatten).take len.toNat)) := by
  have hsz : (0 : ℤ) < size := by exact_mod_cast hs
  refine ⟨fun h => ?_, fun h => ?_, fun h1 h2 => ?_⟩
  · have h3 : (len + size - 1) / (size : ℤ) ≤ 0 := by
      have : (len + size - 1) / (size : ℤ) < 1 := Int.ediv_lt_of_lt_mul hsz (by omega)
      omega
    unfold expandXmd
    simp only
    rw [Go.guard_true (by omega)]
    simp only [Go.ok_bind, if_pos h3]
  · unfold expandXmd
    have h3 : 255 < (len + size - 1) / (size : ℤ) := by
      have : 256 ≤ (len + size - 1) / (size : ℤ) := Int.le_ediv_of_mul_le hsz (by omega)
      omega
    simp only
    rw [Go.guard_false (by omega)]
    rfl
  · lift len to ℕ using h1.le
    have hl0 : 0 < len := by exact_mod_cast h1
    have hl1 : len ≤ 255 * size := by exact_mod_cast h2
    simp only [Int.toNat_natCast]
    have ecast : ((len : ℤ) + size - 1) / (size : ℤ) = ((len + size - 1) / size : ℕ) := by
      push_cast
      congr 1
      omega
    set ell := (len + size - 1) / size with hell
    have hell1 : 1 ≤ ell := (Nat.one_le_div_iff hs).2 (by omega)
    have hell2 : ell ≤ 255 := by
      have : ell < 256 := Nat.div_lt_of_lt_mul (by rw [mul_comm]; omega)
      omega
    unfold expandXmd
    simp only [ecast]
    rw [Go.guard_true (by omega)]
    simp only [Go.ok_bind]
    rw [if_neg (by omega)]
    have d1 : i2osp (dst.length : ℤ) 1 = .ok [UInt8.ofNat dst.length] := by
      have := i2osp_ok (b := dst.length) (n := 1) (by omega)
      simpa [beBytes, leBytes] using this
    have d2 : i2osp (len : ℤ) 2 = .ok [UInt8.ofNat (len / 256), UInt8.ofNat len] := by
      have := i2osp_ok (b := len) (n := 2) (by
        have : 255 * size ≤ 255 * 256 := Nat.mul_le_mul_left _ hs2
        omega)
      simpa [beBytes, leBytes] using this
    have d3 : i2osp 0 1 = .ok [0] := i2osp_zero 1
    have d4 : i2osp 1 1 = .ok [1] := by
      have := i2osp_ok (b := 1) (n := 1) (by omega)
      simpa [beBytes, leBytes] using this
    rw [d1, i2osp_zero, d2, d3, d4]
    simp only [Go.ok_bind]
    have hb := xmdBlocks_spec H (H (specIn0 block msg dst len)) (specDst dst)
      (specB H block msg dst len) (by
        intro i hi _
        obtain ⟨i, rfl⟩ : ∃ k, i = k + 1 := ⟨i - 1, by omega⟩
        rfl) (ell - 1) 1 (le_refl _) (by omega)
    rw [show (1 + 1 : ℕ) = 2 from rfl] at hb
    have hb' := hb
    unfold specB at hb'
    unfold specIn0 specDst at hb'
    simp only [List.append_assoc] at hb' ⊢
    rw [show ((ell : ℕ) : ℤ).toNat - 1 = ell - 1 by simp]
    rw [hb']
    simp only [Go.ok_bind]
    obtain ⟨k, hk⟩ : ∃ k, ell = k + 1 := ⟨ell - 1, by omega⟩
    rw [hk]
    rw [List.range_succ_eq_map (n := k)]
    simp only [List.map_cons, List.map_map, Nat.add_sub_cancel]
    congr 4
    · simp [specB, specIn0, specDst]
    · refine List.map_congr_left fun j _ => ?_
      simp only [Function.comp]
      rw [show 1 + 1 + j = j.succ + 1 by omega]
      simp only [specB, specIn0, specDst, List.append_assoc]

/-- Number of bytes returned: exactly as requested. -/
theorem C89_expand_length (H : List UInt8 → List UInt8) (size block : ℕ) (hs : 0 < size)
    (hs2 : size ≤ 256) (hH : ∀ x, (H x).length = size) (msg dst : List UInt8)
    (hdst : dst.length ≤ 255) (len : ℤ) (h1 : 0 < len) (h2 : len ≤ 255 * size) :
    ∃ out, expandXmd H size block msg dst len = .ok out ∧ (out.length : ℤ) = len := by
  refine ⟨_, (C89_expand_spec H size block hs hs2 msg dst hdst len).2.2 h1 h2, ?_⟩
  have hB : ∀ i, (specB H block msg dst len.toNat (i + 1)).length = size := by
    intro i
    cases i <;> exact hH _
  rw [List.length_take, List.length_flatten, List.map_map]
  have : (List.map (List.length ∘ fun i => specB H block msg dst len.toNat (i + 1))
      (List.range ((len.toNat + size - 1) / size))).sum =
      ((len.toNat + size - 1) / size) * size := by
    have e : (List.length ∘ fun i => specB H block msg dst len.toNat (i + 1)) = fun _ => size :=
      funext hB
    rw [e]
    simp
  rw [this]
  have h3 : len.toNat ≤ ((len.toNat + size - 1) / size) * size := by
    have := Nat.div_add_mod (len.toNat + size - 1) size
    have hm := Nat.mod_lt (len.toNat + size - 1) hs
    rw [mul_comm] at this
    omega
  omega

/-- Binding: equal outputs (of at least one block) for two message/DST pairs and the same requested
length imply that both agree, or one of the two named pairs of hash inputs is a collision. -/
theorem C89_expand_binding (H : List UInt8 → List UInt8) (size block : ℕ) (hs : 0 < size)
    (hs2 : size ≤ 256) (hH : ∀ x, (H x).length = size) (msg dst msg' dst' : List UInt8)
    (hdst : dst.length ≤ 255) (hdst' : dst'.length ≤ 255) (len : ℤ) (h1 : size ≤ len)
    (h2 : len ≤ 255 * size)
    (heq : expandXmd H size block msg dst len = expandXmd H size block msg' dst' len) :
    (msg = msg' ∧ dst = dst') ∨
    (let a := specIn0 block msg dst len.toNat
     let b := specIn0 block msg' dst' len.toNat
     a ≠ b ∧ H a = H b) ∨
    (let a := H (specIn0 block msg dst len.toNat) ++ [1] ++ specDst dst
     let b := H (specIn0 block msg' dst' len.toNat) ++ [1] ++ specDst dst'
     a ≠ b ∧ H a = H b) := by
  have hsz : (0 : ℤ) < size := by exact_mod_cast hs
  rw [(C89_expand_spec H size block hs hs2 msg dst hdst len).2.2 (by omega) h2,
    (C89_expand_spec H size block hs hs2 msg' dst' hdst' len).2.2 (by omega) h2] at heq
  have heq := Except.ok.inj heq
  obtain ⟨k, hk⟩ : ∃ k, (len.toNat + size - 1) / size = k + 1 := by
    have : 1 ≤ (len.toNat + size - 1) / size := (Nat.one_le_div_iff hs).2 (by omega)
    exact ⟨_, (Nat.sub_add_cancel this).symm⟩
  rw [hk, List.range_succ_eq_map] at heq
  simp only [List.map_cons, List.flatten_cons] at heq
  have heq := congrArg (List.take size) heq
  rw [List.take_take, List.take_take, min_eq_left (by omega)] at heq
  simp only [zero_add] at heq
  rw [List.take_append_of_le_length (by rw [specB, hH]),
    List.take_append_of_le_length (by rw [specB, hH]),
    List.take_of_length_le (by rw [specB, hH]), List.take_of_length_le (by rw [specB, hH])] at heq
  simp only [specB] at heq
  by_cases q1 : H (specIn0 block msg dst len.toNat) ++ [1] ++ specDst dst =
      H (specIn0 block msg' dst' len.toNat) ++ [1] ++ specDst dst'
  · have hd : H (specIn0 block msg dst len.toNat) = H (specIn0 block msg' dst' len.toNat) ∧
        [1] ++ specDst dst = [1] ++ specDst dst' := by
      rw [List.append_assoc, List.append_assoc] at q1
      exact List.append_inj q1 (by rw [hH, hH])
    have hd2 : specDst dst = specDst dst' := List.append_cancel_left hd.2
    have hdd : dst = dst' := (List.append_inj' hd2 rfl).1
    by_cases q0 : specIn0 block msg dst len.toNat = specIn0 block msg' dst' len.toNat
    · left
      refine ⟨?_, hdd⟩
      unfold specIn0 at q0
      rw [hdd] at q0
      exact List.append_cancel_left (List.append_cancel_right (List.append_cancel_right
        (List.append_cancel_right q0)))
    · right; left
      exact ⟨q0, hd.1⟩
  · right; right
    exact ⟨q1, heq⟩

/-- `Hash` of a supported curve never fails and returns a canonical residue; for an unsupported
curve it is an error. -/
theorem C89_hash_total (H : List UInt8 → List UInt8) (hH : ∀ x, (H x).length = 32) (p : ℤ)
    (hp : 0 < p) (msg : List UInt8) :
    (∃ r, hashToField H (some p) msg = .ok r ∧ 0 ≤ r ∧ r < p) ∧ hashToField H none msg = Go.err := by
  refine ⟨?_, rfl⟩
  obtain ⟨out, ho, _⟩ := C89_expand_length H 32 64 (by omega) (by omega) hH msg dstCoinbase
    (by decide +kernel) 48 (by omega) (by omega)
  unfold hashToField
  simp only
  rw [ho]
  simp only [Go.ok_bind, Big.mod, if_neg hp.ne']
  exact ⟨_, rfl, Int.emod_nonneg _ hp.ne', Int.emod_lt_of_pos _ hp⟩

/-- A DST of 256 bytes gets the length byte 1 instead of an error or being hashed first (the
specification's requirement): its `DST_prime` ends like that of a one-byte DST. -/
theorem C89_oversize_dst : i2osp ((List.replicate 256 (7 : UInt8)).length) 1 = .ok [1] := by
  decide +kernel

example : ∃ H : List UInt8 → List UInt8, (∀ x, (H x).length = 32) ∧ H [1] ≠ H [2] :=
  ⟨fun x => (x ++ List.replicate 32 0).take 32, by simp, by decide⟩

end Verif.Core
