import Verif.Gg20.ProofModel
import Verif.Paillier.Props
import Verif.Core.Props
import Verif.Common.GoList

/-! # Lemmas about modular powers and the helpers of the GG20 proofs -/

set_option linter.unusedSectionVars false

namespace Verif.Gg20

/-- Specification: `x` is the power `g ^ k` modulo `n`, for an exponent of either sign. -/
def IsPow (n g k x : ℤ) : Prop :=
  (0 ≤ k ∧ x ≡ g ^ k.toNat [ZMOD n]) ∨ (k < 0 ∧ x * g ^ (-k).toNat ≡ 1 [ZMOD n])

theorem coprime_iff_unit {n : ℕ} {g : ℤ} :
    IsCoprime g (n : ℤ) ↔ ∃ u : (ZMod n)ˣ, (g : ZMod n) = u := by
  rw [isCoprime_comm, ← ZMod.coe_int_isUnit_iff_isCoprime, IsUnit]
  constructor
  · rintro ⟨u, hu⟩; exact ⟨u, hu.symm⟩
  · rintro ⟨u, hu⟩; exact ⟨u, hu.symm⟩

theorem isCoprime_comm_unit {n : ℕ} {g : ℤ} :
    IsCoprime (n : ℤ) g ↔ ∃ u : (ZMod n)ˣ, (g : ZMod n) = u := by
  rw [isCoprime_comm, coprime_iff_unit]

theorem isPow_unit {n : ℕ} {u : (ZMod n)ˣ} {g k x : ℤ} (hu : (g : ZMod n) = u) :
    IsPow n g k x ↔ (x : ZMod n) = ((u ^ k : (ZMod n)ˣ) : ZMod n) := by
  unfold IsPow
  simp only [← ZMod.intCast_eq_intCast_iff]
  push_cast
  rw [hu]
  rcases le_or_gt 0 k with hk | hk
  · simp only [hk, true_and, not_lt.2 hk, false_and, or_false]
    lift k to ℕ using hk
    simp
  · simp only [hk, true_and, not_le.2 hk, false_and, false_or]
    obtain ⟨j, rfl⟩ : ∃ j : ℕ, k = -j := ⟨(-k).toNat, by omega⟩
    simp only [neg_neg, Int.toNat_natCast, zpow_neg, zpow_natCast]
    rw [← Units.val_pow_eq_pow_val, Units.mul_eq_one_iff_eq_inv]

theorem isPow_congr {n g k x y : ℤ} (h : x ≡ y [ZMOD n]) : IsPow n g k x ↔ IsPow n g k y := by
  unfold IsPow
  have h1 : x ≡ g ^ k.toNat [ZMOD n] ↔ y ≡ g ^ k.toNat [ZMOD n] :=
    ⟨fun a => h.symm.trans a, fun a => h.trans a⟩
  have h2 : x * g ^ (-k).toNat ≡ 1 [ZMOD n] ↔ y * g ^ (-k).toNat ≡ 1 [ZMOD n] :=
    ⟨fun a => (h.symm.mul_right _).trans a, fun a => (h.mul_right _).trans a⟩
  rw [h1, h2]

theorem isPow_base_congr {n g g' k x : ℤ} (h : g ≡ g' [ZMOD n]) :
    IsPow n g k x ↔ IsPow n g' k x := by
  unfold IsPow
  have h1 : x ≡ g ^ k.toNat [ZMOD n] ↔ x ≡ g' ^ k.toNat [ZMOD n] :=
    ⟨fun a => a.trans (h.pow _), fun a => a.trans (h.symm.pow _)⟩
  have h2 : x * g ^ (-k).toNat ≡ 1 [ZMOD n] ↔ x * g' ^ (-k).toNat ≡ 1 [ZMOD n] :=
    ⟨fun a => ((h.symm.pow _).mul_left _).trans a, fun a => ((h.pow _).mul_left _).trans a⟩
  rw [h1, h2]

theorem isPow_nonneg {n g k x : ℤ} (hk : 0 ≤ k) :
    IsPow n g k x ↔ x ≡ g ^ k.toNat [ZMOD n] := by
  unfold IsPow
  simp [hk, not_lt.2 hk]

/-- A negative power exists only for units. -/
theorem IsPow.coprime {n g k x : ℤ} (h : IsPow n g k x) (hk : k < 0) : IsCoprime g n := by
  rcases h with ⟨h0, _⟩ | ⟨_, h⟩
  · omega
  · obtain ⟨d, hd⟩ := Int.modEq_iff_dvd.1 h
    obtain ⟨j, hj⟩ : ∃ j : ℕ, (-k).toNat = j + 1 := ⟨(-k).toNat - 1, by omega⟩
    rw [hj, pow_succ] at hd
    exact ⟨x * g ^ j, d, by linarith⟩

theorem exp_eq_some {n g k x : ℤ} (hn : 0 < n) :
    Big.exp g k n = some x ↔ (0 ≤ x ∧ x < n) ∧ IsPow n g k x := by
  rcases le_or_gt 0 k with hk | hk
  · rw [isPow_nonneg hk]
    unfold Big.exp
    rw [if_neg hn.ne', if_pos hk, Option.some.injEq]
    constructor
    · rintro rfl
      exact ⟨⟨Int.emod_nonneg _ hn.ne', Int.emod_lt_of_pos _ hn⟩, Int.mod_modEq _ _⟩
    · rintro ⟨⟨a, b⟩, c⟩
      unfold Int.ModEq at c
      rw [← c, Int.emod_eq_of_lt a b]
  · have key : IsCoprime g n → ∀ x, Big.exp g k n = some x ↔ (0 ≤ x ∧ x < n) ∧ IsPow n g k x := by
      intro hc x
      lift n to ℕ using hn.le
      have hn' : 0 < n := by exact_mod_cast hn
      obtain ⟨u, hu⟩ := coprime_iff_unit.1 hc
      rw [isPow_unit hu]
      obtain ⟨r, h1, h2, h3, h4⟩ := Big.exp_cast (y := k) hn' hu
      rw [h1, Option.some.injEq, ← h4]
      constructor
      · rintro rfl; exact ⟨⟨h2, h3⟩, rfl⟩
      · rintro ⟨⟨a, b⟩, c⟩; exact (Big.eq_of_cast a b h2 h3 c).symm
    by_cases hc : IsCoprime g n
    · exact key hc x
    · constructor
      · intro h
        unfold Big.exp at h
        rw [if_neg hn.ne', if_neg (by omega), Big.modInverse_eq_none.2] at h
        · exact absurd h (by simp)
        · rwa [Ne, ← Int.isCoprime_iff_gcd_eq_one]
      · rintro ⟨_, h⟩
        exact absurd (h.coprime hk) hc

/-- The power, computed, exists for a unit. -/
theorem exists_isPow {n g k : ℤ} (hn : 0 < n) (hc : IsCoprime g n) :
    ∃ x, (0 ≤ x ∧ x < n) ∧ IsPow n g k x := by
  lift n to ℕ using hn.le
  obtain ⟨u, hu⟩ := coprime_iff_unit.1 hc
  obtain ⟨r, _, h2, h3, h4⟩ := Big.exp_cast (y := k) (by exact_mod_cast hn) hu
  exact ⟨r, ⟨h2, h3⟩, (isPow_unit hu).2 h4⟩

theorem exists_isPow_nonneg {n g k : ℤ} (hn : 0 < n) (hk : 0 ≤ k) :
    ∃ x, (0 ≤ x ∧ x < n) ∧ IsPow n g k x :=
  ⟨g ^ k.toNat % n, ⟨Int.emod_nonneg _ hn.ne', Int.emod_lt_of_pos _ hn⟩,
    (isPow_nonneg hk).2 (Int.mod_modEq _ _)⟩

theorem mod_eq_iff {n a v : ℤ} (hn : 0 < n) : a % n = v ↔ (0 ≤ v ∧ v < n) ∧ v ≡ a [ZMOD n] := by
  constructor
  · rintro rfl
    exact ⟨⟨Int.emod_nonneg _ hn.ne', Int.emod_lt_of_pos _ hn⟩, Int.mod_modEq _ _⟩
  · rintro ⟨⟨a, b⟩, c⟩
    unfold Int.ModEq at c
    rw [← c, Int.emod_eq_of_lt a b]

theorem mul_some_eq_ok {n a b v : ℤ} (hn : 0 < n) :
    Core.mul (some a) (some b) (some n) = .ok v ↔ (0 ≤ v ∧ v < n) ∧ v ≡ a * b [ZMOD n] := by
  unfold Core.mul Big.mod
  simp only [if_neg hn.ne', Except.ok.injEq]
  exact mod_eq_iff hn

theorem mul_opt_eq_ok {n v : ℤ} {x y : Option ℤ} (hn : 0 < n) :
    Core.mul x y (some n) = .ok v ↔
      ∃ a b, x = some a ∧ y = some b ∧ (0 ≤ v ∧ v < n) ∧ v ≡ a * b [ZMOD n] := by
  constructor
  · intro h
    match x, y, h with
    | some a, some b, h => exact ⟨a, b, rfl, rfl, (mul_some_eq_ok hn).1 h⟩
  · rintro ⟨a, b, rfl, rfl, h⟩; exact (mul_some_eq_ok hn).2 h

theorem core_exp_eq_ok {n g k : ℤ} {o : Option ℤ} :
    Core.exp (some g) (some k) (some n) = .ok o ↔ Big.exp g k n = o := by
  unfold Core.exp; simp

theorem core_inv_eq_ok {n z i : ℤ} (hn : 0 < n) :
    Core.inv (some z) (some n) = .ok i ↔ (0 ≤ i ∧ i < n) ∧ z * i ≡ 1 [ZMOD n] := by
  unfold Core.inv
  simp only [if_neg hn.ne', Go.ofOption_eq_ok, Big.modInverse_eq_some hn, and_assoc]

theorem exists_inv {n z : ℤ} (hn : 0 < n) (hz : IsCoprime z n) :
    ∃ i, (0 ≤ i ∧ i < n) ∧ z * i ≡ 1 [ZMOD n] := by
  obtain ⟨a, b, hab⟩ := hz
  refine ⟨a % n, ⟨Int.emod_nonneg _ hn.ne', Int.emod_lt_of_pos _ hn⟩, ?_⟩
  refine ((Int.mod_modEq a n).mul_left z).trans ?_
  rw [Int.modEq_iff_dvd]
  exact ⟨b, by linarith⟩

theorem coprime_of_inv {n z i : ℤ} (h : z * i ≡ 1 [ZMOD n]) : IsCoprime z n := by
  obtain ⟨d, hd⟩ := Int.modEq_iff_dvd.1 h
  exact ⟨i, d, by linarith⟩

theorem pedersen_eq_ok {g h a b n v : ℤ} (hn : 0 < n) :
    pedersen (some g) (some h) (some a) (some b) (some n) = .ok v ↔
      (0 ≤ v ∧ v < n) ∧ ∃ x y, IsPow n g a x ∧ IsPow n h b y ∧ v ≡ x * y [ZMOD n] := by
  unfold pedersen
  simp only [Go.bind_eq_ok, core_exp_eq_ok]
  constructor
  · rintro ⟨o, h1, o', h2, h3⟩
    obtain ⟨x, y, rfl, rfl, hv, hm⟩ := (mul_opt_eq_ok hn).1 h3
    exact ⟨hv, x, y, ((exp_eq_some hn).1 h1).2, ((exp_eq_some hn).1 h2).2, hm⟩
  · rintro ⟨hv, x, y, hx, hy, hm⟩
    have ex := Int.mod_modEq x n
    have ey := Int.mod_modEq y n
    refine ⟨_, (exp_eq_some hn).2 ⟨⟨Int.emod_nonneg _ hn.ne', Int.emod_lt_of_pos _ hn⟩,
      (isPow_congr ex).2 hx⟩, _, (exp_eq_some hn).2 ⟨⟨Int.emod_nonneg _ hn.ne',
      Int.emod_lt_of_pos _ hn⟩, (isPow_congr ey).2 hy⟩, (mul_some_eq_ok hn).2 ⟨hv, ?_⟩⟩
    exact hm.trans (ex.symm.mul ey.symm)

theorem pedersen_opt_eq_ok {g h n v : ℤ} {a b : Option ℤ} (hn : 0 < n) :
    pedersen (some g) (some h) a b (some n) = .ok v ↔ ∃ a' b', a = some a' ∧ b = some b' ∧
      (0 ≤ v ∧ v < n) ∧ ∃ x y, IsPow n g a' x ∧ IsPow n h b' y ∧ v ≡ x * y [ZMOD n] := by
  constructor
  · intro hh
    match a, b, hh with
    | some a, some b, hh => exact ⟨a, b, rfl, rfl, (pedersen_eq_ok hn).1 hh⟩
  · rintro ⟨a, b, rfl, rfl, hh⟩; exact (pedersen_eq_ok hn).2 hh

theorem inc_eq_ok {a b N v : ℤ} (hN : 0 < N) :
    inc (some a) (some b) (some N) = .ok v ↔
      (0 ≤ v ∧ v < N * N) ∧ ∃ x, IsPow (N * N) (N + 1) a x ∧
        v ≡ x * b ^ N.toNat [ZMOD N * N] := by
  unfold inc
  simp only [Core.mul, Go.ok_bind]
  rw [pedersen_eq_ok (by positivity)]
  refine and_congr_right fun _ => ?_
  simp only [isPow_nonneg hN.le (g := b)]
  constructor
  · rintro ⟨x, y, h1, h2, h3⟩; exact ⟨x, h1, h3.trans (h2.mul_left _)⟩
  · rintro ⟨x, h1, h2⟩; exact ⟨x, _, h1, Int.ModEq.refl _, h2⟩

theorem inc_opt_eq_ok {N v : ℤ} {a b : Option ℤ} (hN : 0 < N) :
    inc a b (some N) = .ok v ↔ ∃ a' b', a = some a' ∧ b = some b' ∧
      (0 ≤ v ∧ v < N * N) ∧ ∃ x, IsPow (N * N) (N + 1) a' x ∧
        v ≡ x * b' ^ N.toNat [ZMOD N * N] := by
  constructor
  · intro hh
    match a, b, hh with
    | some a, some b, hh => exact ⟨a, b, rfl, rfl, (inc_eq_ok hN).1 hh⟩
  · rintro ⟨a, b, rfl, rfl, hh⟩; exact (inc_eq_ok hN).2 hh

@[simp] theorem schnorr_eq (x y z : ℤ) :
    schnorr (some x) (some y) (some z) = .ok (x * y + z) := rfl

/-- `w ≡ a · (z⁻¹)^e` iff `w · z^e ≡ a`. -/
theorem div_pow_iff {n z i a w : ℤ} (k : ℕ) (hi : z * i ≡ 1 [ZMOD n]) :
    w ≡ a * i ^ k [ZMOD n] ↔ w * z ^ k ≡ a [ZMOD n] := by
  have hk : z ^ k * i ^ k ≡ 1 [ZMOD n] := by
    rw [← mul_pow]; simpa using hi.pow k
  constructor
  · intro h
    refine (h.mul_right _).trans ?_
    have := hk.mul_left a
    rw [mul_one] at this
    refine Int.ModEq.trans ?_ this
    rw [mul_assoc, mul_comm (i ^ k)]
  · intro h
    have h1 := (h.mul_right (i ^ k)).symm
    refine Int.ModEq.trans ?_ h1.symm
    have := hk.mul_left w
    rw [mul_one, ← mul_assoc] at this
    exact this.symm

/-! ## The Fiat-Shamir challenge -/

/-- Specification of the challenge: the hash chain over the listed values as a big-endian
integer. -/
def fsHash (kdf : List UInt8 → List UInt8) (values : List ℤ) : ℕ :=
  beNat (Core.chain kdf Core.f0 Core.okm0 (values.map intBytes))

theorem mapM_id_map_some {α : Type} (l : List α) : (l.map some).mapM id = some l := by
  induction l with
  | nil => rfl
  | cons a l ih => simp [ih]

theorem challenge_some (kdf : List UInt8 → List UInt8) (vs : List ℤ) :
    challenge kdf (vs.map some) = .ok (fsHash kdf vs : ℤ) := by
  unfold challenge Core.fiatShamir
  rw [mapM_id_map_some]
  rfl

theorem challenge_nonneg {kdf : List UInt8 → List UInt8} {vs : List (Option ℤ)} {e : ℤ}
    (h : challenge kdf vs = .ok e) : 0 ≤ e := by
  unfold challenge at h
  obtain ⟨b, _, h⟩ := Go.bind_eq_ok.1 h
  rw [← Except.ok.inj h]
  positivity

/-! ## Arithmetic modulo `N²` -/

/-- Congruent bases modulo `N` have the same `N`-th power modulo `N²`. -/
theorem pow_N_congr {N a b : ℤ} (hN : 0 < N) (h : a ≡ b [ZMOD N]) :
    a ^ N.toNat ≡ b ^ N.toNat [ZMOD N * N] := by
  lift N to ℕ using hN.le
  simp only [Int.toNat_natCast]
  obtain ⟨k, hk⟩ := Int.modEq_iff_dvd.1 h
  have e : b = a + N * k := by linarith
  rw [e, Int.modEq_iff_dvd]
  have key : ((N : ℤ) * N) ∣ (a + N * k) ^ N - a ^ N := by
    have h1 : ∀ j : ℕ, ((N : ℤ) * N) ∣ (a + N * k) ^ j - a ^ j - j * (N * k) * a ^ (j - 1) := by
      intro j
      induction j with
      | zero => simp
      | succ j ih =>
        obtain ⟨d, hd⟩ := ih
        rcases j with _ | j
        · simp
        · refine ⟨d * (a + N * k) + (j + 1) * k * k * a ^ j, ?_⟩
          simp only [Nat.add_sub_cancel] at hd ⊢
          have hd' : (a + N * k) ^ (j + 1) = a ^ (j + 1) + (j + 1) * (N * k) * a ^ j + N * N * d := by
            push_cast at hd; linarith
          rw [pow_succ (a + N * k), hd']
          push_cast
          ring
    obtain ⟨d, hd⟩ := h1 N
    exact ⟨d + k * a ^ (N - 1), by linarith⟩
  exact key

theorem coprime_np1 (N : ℤ) : IsCoprime (N + 1) (N * N) := by
  refine IsCoprime.mul_right ?_ ?_ <;> exact ⟨1, -1, by ring⟩

theorem coprime_sq {c N : ℤ} : IsCoprime c (N * N) ↔ IsCoprime c N :=
  ⟨fun h => IsCoprime.of_mul_right_left h, fun h => h.mul_right h⟩

end Verif.Gg20
