import Verif.Gg20.SignModel
import Verif.Gg20.MtaProps
import Verif.Verenc.CamShoupLemmas
import Mathlib.Algebra.BigOperators.Group.Finset.Basic
import Mathlib.Algebra.BigOperators.Ring.Finset

/-! # Lemmas for the GG20 signing rounds -/

set_option linter.unusedSectionVars false
set_option exponentiation.threshold 600

namespace Verif.Gg20

variable {q : ℕ} {G : Type} [AddCommGroup G] [Module (ZMod q) G]

theorem lookup_map_self {V : Type} (g : ℕ → V) (l : List ℕ) {j : ℕ} (hj : j ∈ l) :
    (l.map fun x => (x, g x)).lookup j = some (g j) := by
  induction l with
  | nil => simp at hj
  | cons a l ih =>
    rw [List.map_cons, List.lookup_cons]
    by_cases h : j = a
    · subst h; simp
    · have : (j == a) = false := by simpa using h
      rw [this]
      exact ih ((List.mem_cons.1 hj).resolve_left h)

/-- The two sums of off-diagonal shares. -/
theorem offdiag {K : Type} [CommRing K] (S : Finset ℕ) (k g : ℕ → K) (A B : ℕ → ℕ → K)
    (h : ∀ i ∈ S, ∀ j ∈ S, i ≠ j → A i j + B j i = k i * g j) :
    ∑ i ∈ S, (k i * g i + ∑ j ∈ S.erase i, (A i j + B i j)) = (∑ i ∈ S, k i) * ∑ i ∈ S, g i := by
  have hswap : ∑ i ∈ S, ∑ j ∈ S.erase i, B i j = ∑ i ∈ S, ∑ j ∈ S.erase i, B j i := by
    refine Finset.sum_comm' ?_
    intro x y
    simp only [Finset.mem_erase]
    tauto
  simp only [Finset.sum_add_distrib]
  rw [hswap, ← Finset.sum_add_distrib (s := S) (f := fun i => ∑ j ∈ S.erase i, A i j),
    ← Finset.sum_add_distrib, Finset.sum_mul]
  refine Finset.sum_congr rfl fun i hi => ?_
  rw [← Finset.sum_add_distrib, Finset.mul_sum, ← Finset.add_sum_erase S _ hi]
  congr 1
  refine Finset.sum_congr rfl fun j hj => ?_
  exact h i hi j (Finset.mem_of_mem_erase hj) (Finset.ne_of_mem_erase hj).symm

theorem sum_order {K : Type} [AddCommMonoid K] {S : Finset ℕ} {i : ℕ} {l : List ℕ} (hn : l.Nodup)
    (hl : ∀ j, j ∈ l ↔ j ∈ S ∧ j ≠ i) (f : ℕ → K) : (l.map f).sum = ∑ j ∈ S.erase i, f j := by
  rw [← List.sum_toFinset f hn]
  refine Finset.sum_congr ?_ fun _ _ => rfl
  ext j
  simp [hl, and_comm]

theorem core_add_q (hq : 0 < q) (a b : ℤ) :
    Core.add (some a) (some b) (some (q : ℤ)) = .ok ((a + b) % q) := by
  simp [Core.add, Big.mod, hq.ne']

theorem core_mul_q (hq : 0 < q) (a b : ℤ) :
    Core.mul (some a) (some b) (some (q : ℤ)) = .ok ((a * b) % q) := by
  simp [Core.mul, Big.mod, hq.ne']

theorem emod_range (hq : 0 < q) (a : ℤ) : 0 ≤ a % q ∧ a % q < q :=
  ⟨Int.emod_nonneg _ (by exact_mod_cast hq.ne'), Int.emod_lt_of_pos _ (by exact_mod_cast hq)⟩

/-- The accumulation loops of rounds 4 and of the output. -/
theorem fold_add (hq : 0 < q) (f : ℕ → ℤ) (l : List ℕ) (a : ℤ) (ha : 0 ≤ a ∧ a < q) :
    ∃ x : ℤ, (l.map fun j => (j, some (some (f j)))).foldlM (fun acc jd => do
        let m ← deref jd.2
        Core.add (some acc) m (some (q : ℤ))) a = (.ok x : Go ℤ) ∧
      (0 ≤ x ∧ x < q) ∧ (x : ZMod q) = a + (l.map fun j => (f j : ZMod q)).sum := by
  induction l generalizing a with
  | nil => exact ⟨a, rfl, ha, by simp⟩
  | cons j l ih =>
    obtain ⟨x, h1, h2, h3⟩ := ih ((a + f j) % q) (emod_range hq _)
    refine ⟨x, ?_, h2, ?_⟩
    · rw [List.map_cons, List.foldlM_cons]
      simp only [deref, Go.ok_bind]
      rw [core_add_q hq, Go.ok_bind]
      exact h1
    · rw [h3, ZMod.intCast_mod, List.map_cons, List.sum_cons]
      push_cast
      ring

theorem filter_inbox {V : Type} (l : List ℕ) (i : ℕ) (f : ℕ → V) (h : ∀ j ∈ l, j ≠ i) :
    ((l.map fun j => (j, f j)).filter fun jd => jd.1 ≠ i) = l.map fun j => (j, f j) := by
  rw [List.filter_eq_self]
  intro a ha
  obtain ⟨j, hj, rfl⟩ := List.mem_map.1 ha
  simpa using h j hj

theorem inbox_keys {V : Type} (l : List ℕ) (f : ℕ → V) : (l.map fun j => (j, f j)).map (·.1) = l := by
  induction l with
  | nil => rfl
  | cons a l ih => simp only [List.map_cons, ih]

theorem verifyStateMap_ok {s : Signer G} {round : ℕ} {keys : List ℕ} :
    verifyStateMap s round (some keys) = .ok () ↔ s.round = round ∧
      ∀ j, j ≠ s.id → (j ∈ keys ↔ j ∈ s.cosigners) := by
  unfold verifyStateMap
  rw [Go.guard_bind_eq_ok]
  simp only [Go.bind_eq_ok]
  constructor
  · rintro ⟨h1, _, h2, h3⟩
    have h2 := Go.forM_eq_ok.1 h2
    have h3 := Go.forM_eq_ok.1 h3
    simp only [Go.guard_eq_ok] at h2 h3
    refine ⟨h1, fun j hj => ⟨fun h => ?_, fun h => ?_⟩⟩
    · have := h2 j h; tauto
    · have := h3 j h; tauto
  · rintro ⟨h1, h2⟩
    refine ⟨h1, (), Go.forM_eq_ok.2 ?_, Go.forM_eq_ok.2 ?_⟩
    · intro j hj
      rw [Go.guard_eq_ok]
      rintro ⟨hne, hn⟩
      exact hn ((h2 j hne).1 hj)
    · intro j hj
      rw [Go.guard_eq_ok]
      rintro ⟨hne, hn⟩
      exact hn ((h2 j hne).2 hj)

end Verif.Gg20
