import Verif.Bulletproof.Lemmas
import Verif.Common.Toy

/-!
# C59: inner-product proofs
-/

set_option linter.unusedSectionVars false

namespace Verif.Bulletproof

section
variable {F : Type} [Field F] [DecidableEq F]
variable {G : Type} [AddCommGroup G] [Module F G] [DecidableEq G]

/-- the challenges of a proof with points `ls`, `rs`: each is drawn after both points of its round, and all
earlier ones, have been absorbed -/
def ippChals (env : Env F G) : Transcript → List G → List G → List F
  | t, l :: ls, r :: rs =>
    let t' := t ++ [("addRecursiveL", some (env.encU l)), ("addRecursiveR", some (env.encU r)), ("getx", none)]
    env.chal t' :: ippChals env t' ls rs
  | _, _, _ => []

/-- the commitment an inner-product proof speaks about -/
def ippCommit (g h : List G) (a b : List F) (u : G) : G := msm a g + msm b h + dot a b • u

/-- the verification equation of the paper -/
def IppAccepts (g h : List G) (P u : G) (π : IPP F G) (xs : List F) : Prop :=
  π.a • msm (sVec xs) g + π.b • msm ((sVec xs).map (·⁻¹)) h + (π.a * π.b) • u = P + foldLR xs π.capLs π.capRs

instance (g h : List G) (P u : G) (π : IPP F G) (xs : List F) : Decidable (IppAccepts g h P u π xs) := by
  unfold IppAccepts
  infer_instance

theorem getxs_chals (env : Env F G) : ∀ (ls rs : List G) (t : Transcript), ls.length ≤ rs.length →
    ∃ t', getxs env t ls rs = .ok (ippChals env t ls rs, t')
  | [], _, t, _ => ⟨t, by simp [getxs, ippChals]⟩
  | l :: ls, [], t, h => by simp at h
  | l :: ls, r :: rs, t, h => by
    obtain ⟨t', ht⟩ := getxs_chals env ls rs
      (t ++ [("addRecursiveL", some (env.encU l)), ("addRecursiveR", some (env.encU r)), ("getx", none)])
      (by simpa using h)
    refine ⟨t', ?_⟩
    simp only [getxs, ippChals]
    have e : (calcxIPP env l r t).2 = t ++
        [("addRecursiveL", some (env.encU l)), ("addRecursiveR", some (env.encU r)), ("getx", none)] := by
      simp [calcxIPP, extract, append]
    rw [e, ht, Go.ok_bind, ← e]
    rfl

theorem ippChals_length (env : Env F G) : ∀ (ls rs : List G) (t : Transcript), ls.length ≤ rs.length →
    (ippChals env t ls rs).length = ls.length
  | [], _, t, _ => by simp [ippChals]
  | l :: ls, [], t, h => by simp at h
  | l :: ls, r :: rs, t, h => by simp [ippChals, ippChals_length env ls rs _ (by simpa using h)]

theorem getxs_eq_chals {env : Env F G} {ls rs : List G} {t t' : Transcript} {xs : List F}
    (h : getxs env t ls rs = .ok (xs, t')) (hl : ls.length ≤ rs.length) : xs = ippChals env t ls rs := by
  obtain ⟨t'', e⟩ := getxs_chals env ls rs t hl
  rw [e] at h
  exact (Prod.mk.inj (Except.ok.inj h)).1.symm

theorem getsNew_zero {xs : List F} {n : ℕ} (h : ¬ ∀ x ∈ xs, x ≠ 0) : getsNew xs n = Go.err := by
  have hp : ∀ (ys : List F) (acc : F), ys.foldl (fun acc xj => acc * xj) acc = acc * ys.prod := by
    intro ys
    induction ys with
    | nil => simp
    | cons y ys ih => intro acc; simp [ih, mul_assoc]
  have : xs.prod = 0 := by
    push Not at h
    obtain ⟨x, hx, rfl⟩ := h
    exact List.prod_eq_zero hx
  simp [getsNew, hp, this, invert]

/-- **C59** (verification equation): on every proof, also one not made by the prover, the verifier answers
with an error if the numbers of `L` and `R` differ, if the proof is for more generators than there are, or if a
challenge is zero; otherwise it decides exactly the equation of the paper. -/
theorem C59_verify (env : Env F G) (gens : Gens G) (hg : gens.gs.length = gens.hs.length) (P u : G)
    (π : IPP F G) (t : Transcript) :
    ippVerify env gens P u π t =
      (if π.capLs.length = π.capRs.length ∧ 2 ^ π.capLs.length ≤ gens.gs.length ∧
          ∀ x ∈ ippChals env t π.capLs π.capRs, x ≠ 0 then
        .ok (decide (IppAccepts (gens.gs.take (2 ^ π.capLs.length)) (gens.hs.take (2 ^ π.capLs.length)) P u π
          (ippChals env t π.capLs π.capRs)))
      else Go.err) := by
  simp only [ippVerify]
  by_cases h1 : π.capLs.length = π.capRs.length
  swap
  · rw [Go.guard_false h1, if_neg (by tauto)]
    rfl
  rw [Go.guard_true h1, Go.ok_bind, Go.guard_true hg, Go.ok_bind]
  by_cases h2 : 2 ^ π.capLs.length ≤ gens.gs.length
  swap
  · rw [Go.guard_false (by simpa using h2), if_neg (by tauto)]
    rfl
  rw [Go.guard_true (by simpa using h2), Go.ok_bind]
  obtain ⟨t', ht⟩ := getxs_chals env π.capLs π.capRs t h1.le
  have hl := ippChals_length env π.capLs π.capRs t h1.le
  rw [ht, Go.ok_bind]
  by_cases h3 : ∀ x ∈ ippChals env t π.capLs π.capRs, x ≠ 0
  swap
  · rw [getsNew_zero h3, if_neg (by tauto)]
    rfl
  rw [if_pos ⟨h1, h2, h3⟩]
  simp only
  have hs := sVec_length (ippChals env t π.capLs π.capRs)
  rw [hl] at hs
  have e := getsNew_eq h3
  rw [hl] at e
  rw [e, Go.ok_bind, getLHS_eq (by rw [hs, List.length_take]; omega) (by rw [hs, List.length_take]; omega)
    (sVec_ne_zero h3), Go.ok_bind, getRHS_eq _ _ _ _ hl.symm (h1.symm.trans hl.symm) h3, Go.ok_bind]
  congr 1

/-- **C59** (completeness): whatever the generators, vectors, blinding point and challenge function, a proof that
the prover returns is accepted for the commitment to its vectors. -/
theorem C59_complete (env : Env F G) (gens : Gens G) (a b : List F) (u : G) (t t' : Transcript) (π : IPP F G)
    (h : ippProve env gens a b u t = .ok (π, t')) :
    ippVerify env gens (ippCommit (gens.gs.take a.length) (gens.hs.take b.length) a b u) u π t = .ok true := by
  simp only [ippProve, Go.guard_bind_eq_ok] at h
  obtain ⟨-, hg, h⟩ := h
  obtain ⟨c, hc, h⟩ := Go.bind_eq_ok.1 h
  rw [Go.guard_bind_eq_ok] at h
  obtain ⟨hlen, h⟩ := h
  obtain ⟨hab, -, -⟩ := innerProduct_ok.1 hc
  obtain ⟨xs, ls, rs, e1, e2, e3, e4, e5, e6, -, -, e9, e10, e11⟩ := proveRecursive_spec _ _ _ _ _ h
  simp only [List.nil_append] at e1 e2 e5 e6 e10 e11
  rw [← e1, ← e2] at e10 e11
  rw [← e1] at e3
  rw [← e2] at e4
  have hx := getxs_eq_chals e10 (by omega)
  rw [hx] at e9 e11
  rw [C59_verify env gens hg, if_pos ⟨by omega, by rw [e3, ← e5]; omega, e9⟩]
  congr 1
  rw [decide_eq_true_iff, IppAccepts, ippCommit, e3, ← e5]
  rw [← hab] at e11
  rw [← hab]
  exact e11

/-- the commitment that the package's own test helper computes is the one meant here -/
theorem C59_getP (gens : Gens G) (a b : List F) (u P : G) (h : getP gens a b u = .ok P) :
    P = ippCommit (gens.gs.take a.length) (gens.hs.take b.length) a b u := by
  simp only [getP, Go.guard_bind_eq_ok] at h
  obtain ⟨-, -, h⟩ := h
  obtain ⟨c, hc, h⟩ := Go.bind_eq_ok.1 h
  obtain ⟨-, -, rfl⟩ := innerProduct_ok.1 hc
  split at h
  · simp at h
  · obtain ⟨ga, h1, h⟩ := Go.bind_eq_ok.1 h
    obtain ⟨hb, h2, h⟩ := Go.bind_eq_ok.1 h
    obtain ⟨-, rfl⟩ := sumOfProducts_ok.1 h1
    obtain ⟨-, rfl⟩ := sumOfProducts_ok.1 h2
    exact (Except.ok.inj h).symm

theorem splitVector_pow {α : Type} {l : List α} {k : ℕ} (h : l.length = 2 ^ (k + 1)) :
    ∃ lo hi, splitVector l = .ok (lo, hi) ∧ lo.length = 2 ^ k ∧ hi.length = 2 ^ k := by
  have hk : 0 < 2 ^ k := Nat.two_pow_pos k
  rw [pow_succ] at h
  refine ⟨l.take (2 ^ k), l.drop (2 ^ k), splitVector_ok.2 ⟨(List.take_append_drop _ _).symm, ?_, ?_⟩, ?_, ?_⟩
  · rw [List.length_take, List.length_drop]; omega
  · intro h0
    have h1 := congrArg List.length h0
    rw [List.length_take, List.length_nil] at h1
    omega
  · rw [List.length_take]; omega
  · rw [List.length_drop]; omega

theorem ne_nil_of_pow {α : Type} {l : List α} {k : ℕ} (h : l.length = 2 ^ k) : l ≠ [] := by
  rintro rfl
  exact absurd h.symm (Nat.two_pow_pos k).ne'

/-- with non-zero challenges the recursion goes through for every power of two -/
theorem proveRecursive_ok (env : Env F G) (hc : ∀ t, env.chal t ≠ 0) (k : ℕ) : ∀ (fuel : ℕ) (p : Rec F G),
    k < fuel → p.a.length = 2 ^ k → p.b.length = 2 ^ k → p.g.length = 2 ^ k → p.h.length = 2 ^ k →
    ∃ π t', proveRecursive env fuel p = .ok (π, t') := by
  induction k with
  | zero =>
    intro fuel p hf ha hb hg hh
    obtain ⟨fuel, rfl⟩ := Nat.exists_eq_succ_of_ne_zero (by omega : fuel ≠ 0)
    obtain ⟨pa, pb, pL, pR, pg, ph, pu, pt⟩ := p
    obtain ⟨a, rfl⟩ := List.length_eq_one_iff.1 ha
    obtain ⟨b, rfl⟩ := List.length_eq_one_iff.1 hb
    refine ⟨⟨a, b, pL, pR⟩, pt, ?_⟩
    simp only [proveRecursive]
    rw [Go.guard_true (by simp), Go.ok_bind, Go.guard_true (by simp_all), Go.ok_bind,
      Go.guard_true (by simp_all), Go.ok_bind]
  | succ k ih =>
    intro fuel p hf ha hb hg hh
    obtain ⟨fuel, rfl⟩ := Nat.exists_eq_succ_of_ne_zero (by omega : fuel ≠ 0)
    obtain ⟨pa, pb, pL, pR, pg, ph, pu, pt⟩ := p
    simp only at ha hb hg hh
    obtain ⟨aLo, aHi, sa, la, la'⟩ := splitVector_pow ha
    obtain ⟨bLo, bHi, sb, lb, lb'⟩ := splitVector_pow hb
    obtain ⟨gLo, gHi, sg, lg, lg'⟩ := splitVector_pow hg
    obtain ⟨hLo, hHi, sh, lh, lh'⟩ := splitVector_pow hh
    have hx : ∀ l r t, (calcxIPP env l r t).1 ≠ 0 := fun l r t => hc _
    have hstep : ∃ p', proveStep env ⟨pa, pb, pL, pR, pg, ph, pu, pt⟩ = .ok p' ∧ p'.a.length = 2 ^ k ∧
        p'.b.length = 2 ^ k ∧ p'.g.length = 2 ^ k ∧ p'.h.length = 2 ^ k := by
      simp only [proveStep, sa, sb, sg, sh, Go.ok_bind]
      rw [innerProduct_eq (by omega) (ne_nil_of_pow la), Go.ok_bind,
        innerProduct_eq (by omega) (ne_nil_of_pow la'), Go.ok_bind,
        sumOfProducts_eq (by omega), Go.ok_bind, sumOfProducts_eq (by omega), Go.ok_bind,
        sumOfProducts_eq (by omega), Go.ok_bind, sumOfProducts_eq (by omega), Go.ok_bind,
        invert_ok (hx _ _ _), Go.ok_bind, addPoints_ok.2 ⟨by simp [smulVec]; omega, rfl⟩, Go.ok_bind,
        addPoints_ok.2 ⟨by simp [smulVec]; omega, rfl⟩, Go.ok_bind,
        addVec_ok.2 ⟨by simp [mulVec]; omega, rfl⟩, Go.ok_bind,
        addVec_ok.2 ⟨by simp [mulVec]; omega, rfl⟩, Go.ok_bind]
      refine ⟨_, rfl, ?_, ?_, ?_, ?_⟩
      all_goals simp [mulVec, smulVec, la, la', lb, lb', lg, lg', lh, lh']
    obtain ⟨p', hp', h1, h2, h3, h4⟩ := hstep
    obtain ⟨π, t', h5⟩ := ih fuel p' (by omega) h1 h2 h3 h4
    refine ⟨π, t', ?_⟩
    simp only [proveRecursive]
    rw [Go.guard_true (by omega), Go.ok_bind, Go.guard_true (by omega), Go.ok_bind,
      Go.guard_true (by omega), Go.ok_bind]
    split
    · next h6 => simp [pow_succ] at ha; have := Nat.two_pow_pos k; omega
    · rw [hp', Go.ok_bind, h5]

theorem isPowerOfTwo_iff {i : ℕ} (h : i ≠ 0) : isPowerOfTwo i = true ↔ ∃ k, i = 2 ^ k := by
  unfold isPowerOfTwo
  rw [beq_iff_eq]
  constructor
  · intro h0
    refine ⟨i.log2, ?_⟩
    have h1 := Nat.log2_self_le h
    have h2 := Nat.lt_log2_self (n := i)
    by_contra hne
    have bit : ∀ x, 2 ^ i.log2 ≤ x → x < 2 ^ (i.log2 + 1) → x.testBit i.log2 = true := by
      intro x hx1 hx2
      rw [Nat.testBit_eq_decide_div_mod_eq]
      have : x / 2 ^ i.log2 = 1 := by
        rw [Nat.div_eq_iff (Nat.two_pow_pos _)]
        rw [pow_succ] at hx2
        omega
      simp [this]
    have b1 := bit i h1 h2
    have b2 := bit (i - 1) (by omega) (by omega)
    have b3 := Nat.testBit_and i (i - 1) i.log2
    rw [h0, b1, b2] at b3
    simp at b3
  · rintro ⟨k, rfl⟩
    rw [Nat.and_two_pow_sub_one_eq_mod, Nat.mod_self]

/-- **C59** (who gets a proof): with non-zero challenges the prover succeeds exactly on equally long vectors
whose length is a power of two not exceeding the number of generators, and answers every other input with an
error. -/
theorem C59_prove (env : Env F G) (hc : ∀ t, env.chal t ≠ 0) (gens : Gens G)
    (hg : gens.gs.length = gens.hs.length) (a b : List F) (u : G) (t : Transcript) :
    ((∃ k, a.length = 2 ^ k ∧ b.length = 2 ^ k ∧ 2 ^ k ≤ gens.gs.length) →
      ∃ π t', ippProve env gens a b u t = .ok (π, t')) ∧
    (¬ (∃ k, a.length = 2 ^ k ∧ b.length = 2 ^ k ∧ 2 ^ k ≤ gens.gs.length) →
      ippProve env gens a b u t = Go.err) := by
  constructor
  · rintro ⟨k, ha, hb, hk⟩
    have h0 : a ≠ [] := ne_nil_of_pow ha
    simp only [ippProve]
    rw [Go.guard_true ((isPowerOfTwo_iff (by rw [ha]; exact (Nat.two_pow_pos k).ne')).2 ⟨k, ha⟩), Go.ok_bind,
      Go.guard_true hg, Go.ok_bind, innerProduct_eq (by omega) h0, Go.ok_bind, Go.guard_true (by omega), Go.ok_bind]
    exact proveRecursive_ok env hc k _ _ (by have := k.lt_two_pow_self; omega) ha hb
      (by simp only [List.length_take]; omega) (by simp only [List.length_take]; omega)
  · intro h
    simp only [ippProve]
    by_cases h1 : isPowerOfTwo a.length = true
    swap
    · rw [Go.guard_false h1]; rfl
    rw [Go.guard_true h1, Go.ok_bind, Go.guard_true hg, Go.ok_bind]
    unfold innerProduct
    by_cases h2 : a.length = b.length
    swap
    · rw [Go.guard_false h2]; rfl
    rw [Go.guard_true h2, Go.ok_bind]
    by_cases h3 : a.length < 1
    · rw [Go.guard_false (by simpa using h3)]; rfl
    rw [Go.guard_true h3, Go.ok_bind, Go.ok_bind]
    by_cases h4 : a.length > gens.gs.length
    · rw [Go.guard_false (by simpa using h4)]; rfl
    · obtain ⟨k, hk⟩ := (isPowerOfTwo_iff (by omega)).1 h1
      exact absurd ⟨k, hk, by omega, by omega⟩ h

/-- the test for powers of two also passes zero; the length check of the inner product catches that -/
theorem C59_isPowerOfTwo_zero : isPowerOfTwo 0 = true ∧
    ∀ (env : Env F G) (gens : Gens G) (_ : gens.gs.length = gens.hs.length) (b : List F) (u : G) (t : Transcript),
      ippProve env gens [] b u t = Go.err := by
  refine ⟨by decide, ?_⟩
  intro env gens hg b u t
  simp only [ippProve]
  rw [Go.guard_true (by rw [List.length_nil]; decide), Go.ok_bind, Go.guard_true hg, Go.ok_bind]
  unfold innerProduct
  by_cases h : ([] : List F).length = b.length
  · rw [Go.guard_true h]; rfl
  · rw [Go.guard_false h]; rfl

end
end Verif.Bulletproof
