import Mathlib.Data.Nat.Prime.Basic
import Mathlib.FieldTheory.Finite.Basic
import Mathlib.Tactic.NormNum

/-!
# Primality certificates

Pocklington's criterion, with modular powers evaluated by the kernel. Used to discharge the
hypothesis that the moduli written in the repository are prime.
-/

namespace Verif.Pock

/-- apply `f` to the evaluated number -/
def force {α : Type} (x : ℕ) (f : ℕ → α) : α :=
  match x with
  | 0 => f 0
  | n + 1 => f (n + 1)

theorem force_eq {α : Type} (x : ℕ) (f : ℕ → α) : force x f = f x := by cases x <;> rfl

/-- `acc * a ^ e % m` by square and multiply; `fuel` bounds the number of bits of `e` -/
def powMod (m : ℕ) : (fuel a e acc : ℕ) → ℕ
  | 0, _, _, acc => acc
  | fuel + 1, a, e, acc =>
    force (if e % 2 = 1 then acc * a % m else acc) fun acc =>
      force (a * a % m) fun a => force (e / 2) fun e => powMod m fuel a e acc

theorem powMod_eq (m fuel : ℕ) : ∀ a e acc, e < 2 ^ fuel →
    (powMod m fuel a e acc : ZMod m) = acc * a ^ e := by
  induction fuel with
  | zero =>
    intro a e acc he
    have : e = 0 := by simpa using he
    subst this
    simp [powMod]
  | succ fuel ih =>
    intro a e acc he
    rw [powMod, force_eq, force_eq, force_eq, ih _ _ _ (by rw [pow_succ] at he; omega)]
    have h1 : ((a * a % m : ℕ) : ZMod m) = a * a := by rw [ZMod.natCast_mod]; simp
    rw [h1]
    rcases Nat.mod_two_eq_zero_or_one e with h | h
    · rw [if_neg (by omega)]
      conv_rhs => rw [← Nat.div_add_mod e 2, h, add_zero, pow_mul, pow_two]
    · rw [if_pos h, ZMod.natCast_mod]
      conv_rhs => rw [← Nat.div_add_mod e 2, h, pow_succ, pow_mul, pow_two]
      push_cast
      ring

/-- one entry `(q, e, a)` of a certificate for `n`: `q^e ∣ n - 1`, `a^(n-1) = 1` and
`gcd (a^((n-1)/q) - 1) n = 1` -/
def checkEntry (n fuel : ℕ) (c : ℕ × ℕ × ℕ) : Bool :=
  (n - 1) % c.1 ^ c.2.1 == 0 && 0 < c.2.1 && powMod n fuel c.2.2 (n - 1) 1 == 1 &&
    Nat.gcd (powMod n fuel c.2.2 ((n - 1) / c.1) 1 + (n - 1)) n == 1

/-- the checks of a certificate, apart from the primality of the `q`s -/
def check (n fuel : ℕ) (cs : List (ℕ × ℕ × ℕ)) : Bool :=
  1 < n && n < 2 ^ fuel && cs.all (checkEntry n fuel) &&
    n < (cs.foldr (fun c f => Nat.lcm (c.1 ^ c.2.1) f) 1) ^ 2

theorem pow_dvd_of {q e d m : ℕ} (hq : q.Prime) (hd : d ∣ m) (hn : ¬ d ∣ m / q) (he : q ^ e ∣ m)
    (h0 : 0 < e) : q ^ e ∣ d := by
  obtain ⟨k, rfl⟩ := hd
  have hk : ¬ q ∣ k := by
    rintro ⟨l, rfl⟩
    apply hn
    rw [show d * (q * l) = q * (d * l) by ring, Nat.mul_div_cancel_left _ hq.pos]
    exact dvd_mul_right d l
  exact ((Nat.coprime_pow_left_iff h0 _ _).2
    ((Nat.Prime.coprime_iff_not_dvd hq).2 hk)).dvd_of_dvd_mul_right he

theorem entry_dvd {n fuel : ℕ} {c : ℕ × ℕ × ℕ} (h1 : 1 < n) (hf : n < 2 ^ fuel)
    (hc : checkEntry n fuel c = true) (hq : c.1.Prime) {r : ℕ} (hr : r.Prime) (hrn : r ∣ n) :
    c.1 ^ c.2.1 ∣ r - 1 := by
  have : Fact r.Prime := ⟨hr⟩
  simp only [checkEntry, Bool.and_eq_true, beq_iff_eq, decide_eq_true_eq] at hc
  obtain ⟨⟨⟨hdiv, h0⟩, hone⟩, hgcd⟩ := hc
  obtain ⟨q, e, a⟩ := c
  simp only at *
  have hcast : ∀ x : ℕ, x < 2 ^ fuel → ((powMod n fuel a x 1 : ℕ) : ZMod r) = (a : ZMod r) ^ x := by
    intro x hx
    have := powMod_eq n fuel a x 1 hx
    have h2 : ((powMod n fuel a x 1 : ℕ) : ZMod n) = ((1 * a ^ x : ℕ) : ZMod n) := by
      push_cast; exact_mod_cast this
    rw [ZMod.natCast_eq_natCast_iff] at h2
    have h3 := (ZMod.natCast_eq_natCast_iff _ _ _).2 (h2.of_dvd hrn)
    rw [h3]; push_cast; ring
  have e1 : (a : ZMod r) ^ (n - 1) = 1 := by
    rw [← hcast _ (by omega), hone]; simp
  have e2 : (a : ZMod r) ^ ((n - 1) / q) ≠ 1 := by
    intro h
    have hle : (n - 1) / q < 2 ^ fuel := lt_of_le_of_lt (Nat.div_le_self _ _) (by omega)
    rw [← hcast _ hle] at h
    have hn : ((n - 1 : ℕ) : ZMod r) = -1 := by
      rw [Nat.cast_sub h1.le, (ZMod.natCast_eq_zero_iff n r).2 hrn]; simp
    have : ((powMod n fuel a ((n - 1) / q) 1 + (n - 1) : ℕ) : ZMod r) = 0 := by
      rw [Nat.cast_add, h, hn]; ring
    have hd := (ZMod.natCast_eq_zero_iff _ _).1 this
    have := Nat.dvd_gcd hd hrn
    rw [hgcd] at this
    exact hr.one_lt.ne' (Nat.dvd_one.1 this)
  have ha0 : (a : ZMod r) ≠ 0 := by
    intro h
    rw [h, zero_pow (by omega)] at e1
    exact zero_ne_one e1
  have hor := orderOf_dvd_of_pow_eq_one e1
  have hor' : ¬ orderOf (a : ZMod r) ∣ (n - 1) / q := fun h => e2 (orderOf_dvd_iff_pow_eq_one.1 h)
  have hlt : orderOf (a : ZMod r) ∣ r - 1 :=
    orderOf_dvd_of_pow_eq_one (ZMod.pow_card_sub_one_eq_one ha0)
  exact (pow_dvd_of hq hor hor' (Nat.dvd_of_mod_eq_zero hdiv) h0).trans hlt

/-- **Pocklington**: a checked certificate with prime `q`s proves `n` prime. -/
theorem prime_of_check (n fuel : ℕ) (cs : List (ℕ × ℕ × ℕ)) (h : check n fuel cs = true)
    (hq : ∀ c ∈ cs, c.1.Prime) : n.Prime := by
  simp only [check, Bool.and_eq_true, decide_eq_true_eq, List.all_eq_true] at h
  obtain ⟨⟨⟨h1, hf⟩, hall⟩, hbig⟩ := h
  by_contra hnp
  have hr := Nat.minFac_prime (n := n) (by omega)
  have hsq := Nat.minFac_sq_le_self (by omega : 0 < n) hnp
  have hdvd : ∀ l : List (ℕ × ℕ × ℕ), (∀ c ∈ l, c ∈ cs) →
      l.foldr (fun c f => Nat.lcm (c.1 ^ c.2.1) f) 1 ∣ n.minFac - 1 := by
    intro l hl
    induction l with
    | nil => simp
    | cons c l ih =>
      rw [List.foldr_cons]
      exact Nat.lcm_dvd
        (entry_dvd h1 hf (hall c (hl c List.mem_cons_self)) (hq c (hl c List.mem_cons_self)) hr
          (Nat.minFac_dvd n))
        (ih fun c hc => hl c (List.mem_cons_of_mem _ hc))
  have hle := Nat.le_of_dvd (by have := hr.two_le; omega) (hdvd cs fun _ h => h)
  have : (cs.foldr (fun c f => Nat.lcm (c.1 ^ c.2.1) f) 1) ^ 2 ≤ n.minFac ^ 2 :=
    Nat.pow_le_pow_left (by omega) 2
  omega

end Verif.Pock
