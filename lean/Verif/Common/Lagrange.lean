import Mathlib.LinearAlgebra.Lagrange
import Mathlib.Algebra.Module.BigOperators
import Mathlib.Data.List.GetD

/-!
# Lagrange interpolation at zero

Helper facts, shared by every protocol of the library which reconstructs
"in the exponent".  `lag0 s v i = ∏_{j ∈ s, j ≠ i} v j / (v j - v i)` is the
coefficient computed by all the loops of the Go code.
-/

namespace Verif

open Polynomial Finset

variable {F : Type} [Field F] {ι : Type} [DecidableEq ι]

/-- The Lagrange coefficient at zero of node `i` among the nodes `s`. -/
def lag0 (s : Finset ι) (v : ι → F) (i : ι) : F :=
  ∏ j ∈ s.erase i, v j / (v j - v i)

/-- Evaluation of a coefficient list (constant term first). -/
def evalL {M : Type} [AddCommGroup M] [Module F M] (cs : List M) (x : F) : M :=
  cs.foldr (fun c acc => c + x • acc) 0

theorem lag0_eq_basis (s : Finset ι) (v : ι → F) (i : ι) :
    lag0 s v i = (Lagrange.basis s v i).eval 0 := by
  unfold lag0 Lagrange.basis
  rw [Polynomial.eval_prod]
  refine Finset.prod_congr rfl fun j _ => ?_
  simp only [Lagrange.basisDivisor, eval_mul, eval_C, eval_sub, eval_X, zero_sub]
  rw [div_eq_inv_mul, ← neg_sub (v i) (v j), inv_neg]
  ring

theorem sum_lag0_eval (s : Finset ι) (v : ι → F) (hv : Set.InjOn v s) (p : F[X])
    (hp : p.degree < s.card) : ∑ i ∈ s, lag0 s v i * p.eval (v i) = p.eval 0 := by
  have h := Lagrange.eq_interpolate (s := s) (v := v) hv hp
  conv_rhs => rw [h]
  rw [Lagrange.interpolate_apply, Polynomial.eval_finsetSum]
  refine Finset.sum_congr rfl fun i _ => ?_
  rw [eval_mul, eval_C, lag0_eq_basis, mul_comm]

/-- power sums: `∑ λ_i v_i^k = 0^k` for `k` below the number of nodes. -/
theorem sum_lag0_pow (s : Finset ι) (v : ι → F) (hv : Set.InjOn v s) (k : ℕ)
    (hk : k < s.card) : ∑ i ∈ s, lag0 s v i * v i ^ k = (0 : F) ^ k := by
  have h := sum_lag0_eval s v hv ((X : F[X]) ^ k) (by
    refine lt_of_le_of_lt (degree_X_pow_le k) ?_
    exact_mod_cast hk)
  simpa using h

variable {M : Type} [AddCommGroup M] [Module F M]

theorem evalL_nil (x : F) : evalL ([] : List M) x = 0 := rfl

theorem evalL_cons (c : M) (cs : List M) (x : F) : evalL (c :: cs) x = c + x • evalL cs x := rfl

theorem evalL_zero (cs : List M) : evalL cs (0 : F) = cs.headD 0 := by
  cases cs <;> simp [evalL]

theorem evalL_eq_sum (cs : List M) (x : F) :
    evalL cs x = ∑ k ∈ range cs.length, x ^ k • cs.getD k 0 := by
  induction cs with
  | nil => simp [evalL]
  | cons c cs ih =>
    rw [evalL_cons, ih, List.length_cons, Finset.sum_range_succ', add_comm, Finset.smul_sum]
    congr 1
    · refine Finset.sum_congr rfl fun k _ => ?_
      simp [pow_succ', mul_smul]
    · simp

/-- Reconstruction in a module: the central fact behind threshold schemes. -/
theorem sum_lag0_evalL (s : Finset ι) (v : ι → F) (hv : Set.InjOn v s) (cs : List M)
    (hc : cs.length ≤ s.card) : ∑ i ∈ s, lag0 s v i • evalL cs (v i) = cs.headD 0 := by
  have : ∀ i ∈ s, lag0 s v i • evalL cs (v i) =
      ∑ k ∈ range cs.length, (lag0 s v i * v i ^ k) • cs.getD k 0 := by
    intro i _
    rw [evalL_eq_sum, Finset.smul_sum]
    simp [mul_smul]
  rw [Finset.sum_congr rfl this, Finset.sum_comm]
  simp_rw [← Finset.sum_smul]
  rw [← evalL_zero (F := F), evalL_eq_sum]
  refine Finset.sum_congr rfl fun k hk => ?_
  rw [sum_lag0_pow s v hv k (lt_of_lt_of_le (Finset.mem_range.1 hk) hc)]

theorem evalL_map_smul (cs : List F) (g : M) (x : F) :
    evalL (cs.map (· • g)) x = (evalL cs x) • g := by
  induction cs with
  | nil => simp [evalL]
  | cons c cs ih => simp [evalL_cons, ih, add_smul, mul_smul]

theorem evalL_zipWith_add (as bs : List M) (h : as.length = bs.length) (x : F) :
    evalL (List.zipWith (· + ·) as bs) x = evalL as x + evalL bs x := by
  induction as generalizing bs with
  | nil => cases bs <;> simp_all [evalL]
  | cons a as ih =>
    cases bs with
    | nil => simp at h
    | cons b bs =>
      simp only [List.zipWith_cons_cons, evalL_cons]
      rw [ih bs (by simpa using h), smul_add]
      abel

/-- The polynomial with a given coefficient list. -/
noncomputable def polyOf (cs : List F) : F[X] := ∑ k ∈ range cs.length, C (cs.getD k 0) * X ^ k

theorem polyOf_eval (cs : List F) (x : F) : (polyOf cs).eval x = evalL cs x := by
  rw [evalL_eq_sum, polyOf, eval_finsetSum]
  refine Finset.sum_congr rfl fun k _ => ?_
  rw [eval_mul, eval_C, eval_pow, eval_X, smul_eq_mul, mul_comm]

theorem polyOf_coeff (cs : List F) (k : ℕ) : (polyOf cs).coeff k = cs.getD k 0 := by
  rw [polyOf, finsetSum_coeff]
  simp only [coeff_C_mul, coeff_X_pow]
  by_cases h : k < cs.length
  · rw [Finset.sum_eq_single k]
    · simp
    · intro b _ hb; simp [hb.symm]
    · intro h'; simp at h'; omega
  · rw [Finset.sum_eq_zero]
    · rw [List.getD_eq_default]; omega
    · intro b hb
      have : k ≠ b := by simp at hb; omega
      simp [this]

theorem polyOf_degree_lt (cs : List F) : (polyOf cs).degree < cs.length := by
  rw [degree_lt_iff_coeff_zero]
  intro m hm
  rw [polyOf_coeff, List.getD_eq_default]; omega

/-- Two coefficient lists of equal length agreeing on enough points are equal. -/
theorem evalL_inj (as bs : List F) (hl : as.length = bs.length) (s : Finset F)
    (hs : as.length ≤ s.card) (h : ∀ x ∈ s, evalL as x = evalL bs x) : as = bs := by
  have hp : polyOf as = polyOf bs := by
    apply Polynomial.eq_of_degrees_lt_of_eval_finset_eq s
    · exact lt_of_lt_of_le (polyOf_degree_lt as) (by exact_mod_cast hs)
    · exact lt_of_lt_of_le (polyOf_degree_lt bs) (by rw [← hl]; exact_mod_cast hs)
    · intro x hx; rw [polyOf_eval, polyOf_eval, h x hx]
  apply List.ext_getElem hl
  intro i h1 h2
  have := congrArg (fun p => p.coeff i) hp
  simp only [polyOf_coeff] at this
  rwa [List.getD_eq_getElem _ _ h1, List.getD_eq_getElem _ _ h2] at this

/-- Every polynomial of degree `< n` is the polynomial of a coefficient list of length `n`. -/
theorem exists_list_of_degree_lt (p : F[X]) (n : ℕ) (hp : p.degree < n) :
    ∃ cs : List F, cs.length = n ∧ polyOf cs = p := by
  refine ⟨(List.range n).map p.coeff, by simp, ?_⟩
  ext k
  rw [polyOf_coeff]
  by_cases h : k < n
  · rw [List.getD_eq_getElem _ _ (by simpa using h)]; simp
  · rw [List.getD_eq_default _ _ (by simpa using h)]
    rw [degree_lt_iff_coeff_zero] at hp
    exact (hp k (by omega)).symm

end Verif
