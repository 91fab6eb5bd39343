import Verif.Paillier.GenModel
import Verif.Paillier.Props
import Mathlib.Data.Nat.Size
import Mathlib.Tactic.NormNum.Prime

/-!
# C210: safe primes and pairs of safe primes
-/

namespace Verif.Paillier

/-- what `rand.Prime(bits)` promises: a prime of exactly this length with its two highest bits set -/
def PrimeDraw (bits p : ℕ) : Prop := p.Prime ∧ 3 * 2 ^ (bits - 2) ≤ p ∧ p < 2 ^ bits

theorem go_ok {probably : ℕ → Bool} {p : ℕ} : ∀ {draws : List (Go ℕ)}, generateSafePrime.go probably draws = some (.ok p) →
    ∃ p', Except.ok p' ∈ draws ∧ p = 2 * p' + 1 ∧ probably p = true
  | [], h => nomatch h
  | .error _ :: _, h => by
    rw [generateSafePrime.go] at h
    exact nomatch (Option.some.inj h)
  | .ok a :: rest, h => by
    rw [generateSafePrime.go] at h
    split at h
    · rename_i hp
      have := Except.ok.inj (Option.some.inj h)
      exact ⟨a, by simp, this.symm, this ▸ hp⟩
    · obtain ⟨p', h1, h2⟩ := go_ok h
      exact ⟨p', by simp [h1], h2⟩

/-- C210: if the random primes are as promised and the primality test is right, a returned number is a safe prime of exactly `bits` bits, in the
upper half of them; sizes below three are refused.  Every draw whose double plus one is composite is skipped. -/
theorem C210_safePrime (probably : ℕ → Bool) (hp : ∀ n, probably n = true ↔ n.Prime) (bits : ℕ) (draws : List (Go ℕ))
    (hd : ∀ p, Except.ok p ∈ draws → PrimeDraw (bits - 1) p) :
    (∀ p, generateSafePrime probably bits draws = some (.ok p) →
      3 ≤ bits ∧ p.Prime ∧ ((p - 1) / 2).Prime ∧ 3 * 2 ^ (bits - 2) < p ∧ p < 2 ^ bits) ∧
    (bits < 3 → generateSafePrime probably bits draws = some Go.err) ∧
    (∀ (l : List ℕ) (p : ℕ) rest, 3 ≤ bits → (∀ x ∈ l, ¬ (2 * x + 1).Prime) → (2 * p + 1).Prime →
      generateSafePrime probably bits (l.map .ok ++ .ok p :: rest) = some (.ok (2 * p + 1))) := by
  refine ⟨fun p h => ?_, fun h => if_pos h, fun l p rest hb hl hpp => ?_⟩
  · unfold generateSafePrime at h
    split at h
    · exact nomatch (Option.some.inj h)
    · rename_i hb
      obtain ⟨p', h1, rfl, h3⟩ := go_ok h
      obtain ⟨h4, h5, h6⟩ := hd p' h1
      have e : (2 * p' + 1 - 1) / 2 = p' := by omega
      refine ⟨by omega, (hp _).1 h3, by rw [e]; exact h4, ?_, ?_⟩
      · have : 2 ^ (bits - 2) = 2 * 2 ^ (bits - 1 - 2) ∨ bits = 3 := by
          by_cases h3 : bits = 3
          · exact Or.inr h3
          · left
            rw [← pow_succ']
            congr 1; omega
        rcases this with h | rfl
        · omega
        · have : p' ≥ 3 := by simpa using h5
          norm_num; omega
      · have : 2 ^ bits = 2 * 2 ^ (bits - 1) := by rw [← pow_succ']; congr 1; omega
        omega
  · unfold generateSafePrime
    rw [if_neg (by omega)]
    induction l with
    | nil =>
      rw [List.map_nil, List.nil_append, generateSafePrime.go, if_pos ((hp _).2 hpp)]
    | cons a l ih =>
      rw [List.map_cons, List.cons_append, generateSafePrime.go, if_neg]
      · exact ih fun x hx => hl x (by simp [hx])
      · rw [hp]; exact hl a (by simp)

/-- C210: so the product of two safe primes has exactly twice as many bits, and passes the length check of GG20 (dkg_round2.go:79-87) -/
theorem C210_modulus (bits p q : ℕ) (hb : 3 ≤ bits) (hp : 3 * 2 ^ (bits - 2) < p ∧ p < 2 ^ bits) (hq : 3 * 2 ^ (bits - 2) < q ∧ q < 2 ^ bits) :
    (p * q).size = 2 * bits := by
  obtain ⟨k, rfl⟩ : ∃ k, bits = k + 2 := ⟨bits - 2, by omega⟩
  rw [Nat.add_sub_cancel] at hp hq
  have h1 : (p * q).size ≤ 2 * (k + 2) := Nat.size_le.2 (by
    rw [two_mul, pow_add]
    exact Nat.mul_lt_mul'' hp.2 hq.2)
  have h2 : 2 * k + 3 < (p * q).size := Nat.lt_size.2 (by
    have := Nat.mul_lt_mul'' hp.1 hq.1
    have e : 2 ^ (2 * k + 3) = 8 * (2 ^ k * 2 ^ k) := by rw [pow_add, two_mul, pow_add]; norm_num; ring
    have e2 : 3 * 2 ^ k * (3 * 2 ^ k) = 9 * (2 ^ k * 2 ^ k) := by ring
    omega)
  omega

/-- C210: the loop that is to draw two different primes compares pointers: when the generator allocates, it ends in its first turn with whatever
was drawn, equal or not -/
theorem C210_fresh (a b : Ptr) (h : a.addr ≠ b.addr) (swap : Bool) (rest : List Turn) :
    pairLoop (⟨.ok a, .ok b, swap⟩ :: rest) = some (.ok (if swap then (b, a) else (a, b))) ∧
    keyGeneratorLoop (⟨.ok a, .ok b, swap⟩ :: rest) =
      some (if swap then keyGenerator (.ok b.val) (.ok a.val) else keyGenerator (.ok a.val) (.ok b.val)) := by
  have hl : pairLoop (⟨.ok a, .ok b, swap⟩ :: rest) = some (.ok (if swap then (b, a) else (a, b))) := by
    cases swap
    · exact if_neg h
    · exact if_neg h.symm
  refine ⟨hl, ?_⟩
  unfold keyGeneratorLoop
  rw [hl]
  cases swap <;> rfl

/-- C210: an error of either goroutine is returned -/
theorem C210_error (t : Turn) (rest : List Turn) (h : (∃ e, t.r1 = .error e) ∨ ∃ e, t.r2 = .error e) :
    pairLoop (t :: rest) = some Go.err := by
  obtain ⟨r1, r2, s⟩ := t
  rcases h with ⟨e, h⟩ | ⟨e, h⟩
  · dsimp only at h; subst h; rfl
  · dsimp only at h; subst h; cases r1 <;> rfl

/-- C210: given primes.  With different pointers the loop ends as soon as the two goroutines did not read the shared index at the same time, and
then with the two primes in some order, whatever happened before.  With the same pointer twice it never ends. -/
theorem C210_withPrimes (p q : Ptr) (sched : List (Bool × Bool)) :
    (p.addr ≠ q.addr → ∀ idx < 2, ∀ r, pairLoop (withPrimesTurns p q idx sched) = some r → r = .ok (p, q) ∨ r = .ok (q, p)) ∧
    (p.addr ≠ q.addr → ∀ idx < 2, (∃ s ∈ sched, s.1 = true) → pairLoop (withPrimesTurns p q idx sched) ≠ none) ∧
    ∀ idx < 2, pairLoop (withPrimesTurns p p idx sched) = none := by
  refine ⟨fun hne => ?_, fun hne => ?_, ?_⟩
  · induction sched with
    | nil => intro idx _ r h; exact nomatch h
    | cons s rest ih =>
      obtain ⟨atomic, swap⟩ := s
      intro idx hi r h
      have h01 : idx = 0 ∨ idx = 1 := by omega
      cases atomic
      · rcases h01 with rfl | rfl
        · exact ih 1 (by norm_num) r (by cases swap <;> simpa [withPrimesTurns, withPrimesTurn, pairLoop] using h)
        · exact ih 0 (by norm_num) r (by cases swap <;> simpa [withPrimesTurns, withPrimesTurn, pairLoop] using h)
      · rcases h01 with rfl | rfl <;> cases swap <;>
          simp [withPrimesTurns, withPrimesTurn, pairLoop, hne, hne.symm] at h <;> simp [← h]
  · induction sched with
    | nil => rintro idx _ ⟨s, hs, -⟩; exact absurd hs (by simp)
    | cons s rest ih =>
      obtain ⟨atomic, swap⟩ := s
      intro idx hi hs
      have h01 : idx = 0 ∨ idx = 1 := by omega
      cases atomic
      · have hs' : ∃ s ∈ rest, s.1 = true := by simpa using hs
        rcases h01 with rfl | rfl <;> cases swap <;>
          simpa [withPrimesTurns, withPrimesTurn, pairLoop] using ih _ (by norm_num) hs'
      · rcases h01 with rfl | rfl <;> cases swap <;>
          simp [withPrimesTurns, withPrimesTurn, pairLoop, hne, hne.symm]
  · induction sched with
    | nil => intro _ _; rfl
    | cons s rest ih =>
      obtain ⟨atomic, swap⟩ := s
      intro idx hi
      have h01 : idx = 0 ∨ idx = 1 := by omega
      cases atomic <;> rcases h01 with rfl | rfl <;> cases swap <;>
        simpa [withPrimesTurns, withPrimesTurn, pairLoop] using ih _ (by norm_num)

/-- 31 is skipped, 29 gives 59 -/
example : ∃ p, generateSafePrime (fun n => decide n.Prime) 6 [.ok 31, .ok 29] = some (.ok p) ∧ p = 59 :=
  ⟨59, (C210_safePrime _ (fun n => decide_eq_true_iff) 6 [.ok 31, .ok 29] (fun p hp => by
    simp only [List.mem_cons, Except.ok.injEq, List.not_mem_nil, or_false] at hp
    rcases hp with rfl | rfl <;> exact ⟨by norm_num, by norm_num, by norm_num⟩)).2.2 [31] 29 [] (by norm_num) (by
      intro x hx; rw [List.mem_singleton.1 hx]; norm_num) (by norm_num), rfl⟩

/-- two pointers to the same prime give a key -/
example : ∃ sk, keyGeneratorLoop [⟨.ok ⟨1, 5⟩, .ok ⟨2, 5⟩, false⟩] = some (.ok sk) := by
  obtain ⟨sk, h, -⟩ := C16_equal_primes_accepted
  exact ⟨sk, by rw [(C210_fresh ⟨1, 5⟩ ⟨2, 5⟩ (by decide) false []).2]; exact congrArg some h⟩

end Verif.Paillier
