import Verif.Sharing.Lemmas
import Verif.Common.Toy

/-!
# C90: which schemes can be built and which secrets can be dealt
-/

set_option linter.unusedSectionVars false

namespace Verif.Sharing

variable {F : Type} [Field F] [DecidableEq F]
variable {G : Type} [AddCommGroup G] [Module F G] [DecidableEq G]

/-- The parameters the constructors are meant to accept. -/
def GoodParams (t n : UInt32) : Prop := 2 ≤ t.toNat ∧ t.toNat ≤ n.toNat ∧ n.toNat ≤ 255

theorem goodParams_iff {t n : UInt32} : GoodParams t n ↔ t ≤ n ∧ 2 ≤ t ∧ n ≤ 255 := by
  unfold GoodParams
  rw [UInt32.le_iff_toNat_le, UInt32.le_iff_toNat_le, UInt32.le_iff_toNat_le]
  have e2 : (2 : UInt32).toNat = 2 := rfl
  have e255 : (255 : UInt32).toNat = 255 := rfl
  rw [e2, e255]; tauto

/-- `NewShamir`/`NewFeldman` succeed exactly for `2 ≤ t ≤ n ≤ 255` and a non-nil curve, and report
an error otherwise (never panic). -/
theorem C90_newShamir_decision (t n : UInt32) (b : Bool) :
    (GoodParams t n ∧ b = true → newShamir t n b = .ok ⟨t, n⟩) ∧
    (¬ (GoodParams t n ∧ b = true) → newShamir t n b = Go.err) := by
  rw [goodParams_iff]
  constructor
  · rintro ⟨⟨h1, h2, h3⟩, h4⟩
    exact newShamir_eq_ok.2 ⟨h1, h2, h3, h4, rfl⟩
  · intro h
    have hne : ∀ s, newShamir t n b ≠ .ok s := fun s hs => by
      obtain ⟨h1, h2, h3, h4, _⟩ := newShamir_eq_ok.1 hs
      exact h ⟨⟨h1, h2, h3⟩, h4⟩
    have hcr : newShamir t n b ≠ Go.crash := by
      unfold newShamir Go.guard
      by_cases a1 : ¬ n < t <;> by_cases a2 : ¬ t < 2 <;> by_cases a3 : ¬ n > 255 <;>
        by_cases a4 : b = true <;>
        simp only [a1, a2, a3, a4, if_true, if_false, not_false_eq_true, Go.ok_bind,
          Go.error_bind] <;> simp
    rcases hh : newShamir t n b with e | s
    · cases e
      · rfl
      · exact absurd hh hcr
    · exact absurd hh (hne s)

/-- `NewPedersen` succeeds exactly for the same parameters and a generator other than the identity;
with good parameters and a nil generator it panics. -/
theorem C90_newPedersen_decision (t n : UInt32) :
    (∀ h : G, GoodParams t n ∧ h ≠ 0 → newPedersen t n (some h) = .ok (⟨t, n⟩, h)) ∧
    (∀ h : G, ¬ (GoodParams t n ∧ h ≠ 0) → newPedersen t n (some h) = Go.err) ∧
    (GoodParams t n → newPedersen t n (none : Option G) = Go.crash) := by
  have hg : ∀ o : Option G, (GoodParams t n → newPedersen t n o =
      match o with
      | none => Go.crash
      | some h => (do Go.guard (h ≠ 0); .ok (⟨t, n⟩, h))) ∧
      (¬ GoodParams t n → newPedersen t n o = Go.err) := by
    intro o
    rw [goodParams_iff]
    constructor
    · rintro ⟨h1, h2, h3⟩
      unfold newPedersen
      rw [Go.guard_true (by rwa [UInt32.not_lt]), Go.guard_true (by rwa [UInt32.not_lt]),
        Go.guard_true (by rw [gt_iff_lt, UInt32.not_lt]; exact h3)]
      rfl
    · intro h
      unfold newPedersen
      by_cases h1 : t ≤ n
      · rw [Go.guard_true (by rwa [UInt32.not_lt])]
        by_cases h2 : 2 ≤ t
        · rw [Go.guard_true (by rwa [UInt32.not_lt]),
            Go.guard_false (by rw [not_not, gt_iff_lt, ← UInt32.not_le]; tauto)]
          rfl
        · rw [Go.guard_false (by rwa [not_not, ← UInt32.not_le])]
          rfl
      · rw [Go.guard_false (by rwa [not_not, ← UInt32.not_le])]
        rfl
  refine ⟨fun h hh => ?_, fun h hh => ?_, fun hp => ?_⟩
  · rw [(hg _).1 hh.1]
    simp only [Go.guard_true hh.2, Go.ok_bind]
  · by_cases hp : GoodParams t n
    · rw [(hg _).1 hp]
      have : ¬ h ≠ 0 := fun h0 => hh ⟨hp, h0⟩
      simp only [Go.guard_false this, Go.error_bind]
    · exact (hg _).2 hp
  · rw [(hg _).1 hp]

/-- What a dealt list of shares looks like: `n` shares with identifiers `1, .., n` in this order,
each value the encoding of the dealing polynomial at the identifier, where the polynomial has `t`
coefficients and the secret as constant term. -/
def DealtBy (cd : ScalarCodec F) (t n : UInt32) (secret : F) (shares : List Share) : Prop :=
  shares.length = n.toNat ∧
  ∃ a : ℕ → F, a 0 = secret ∧ ∀ i (h : i < shares.length), (shares[i]).id.toNat = i + 1 ∧
    (shares[i]).value = cd.enc (∑ j ∈ Finset.range t.toNat, a j * ((i + 1 : ℕ) : F) ^ j)

theorem getPoly_ok (cd : ScalarCodec F) (t n : UInt32) (ht : t.toNat ≠ 0) (secret : F)
    (rnd : ℕ → F) : getPolyAndShares cd ⟨t, n⟩ secret rnd =
      .ok (mkShares cd n (secret :: (List.range (t.toNat - 1)).map rnd),
        secret :: (List.range (t.toNat - 1)).map rnd) :=
  getPolyAndShares_eq_ok.2 ⟨ht, rfl, rfl⟩

theorem mkShares_dealtBy (cd : ScalarCodec F) (t n : UInt32) (ht : t.toNat ≠ 0) (secret : F)
    (rnd : ℕ → F) :
    DealtBy cd t n secret (mkShares cd n (secret :: (List.range (t.toNat - 1)).map rnd)) := by
  have hlt := n.toNat_lt
  refine ⟨by simp [mkShares], fun j => if j = 0 then secret else rnd (j - 1), by simp, ?_⟩
  intro i h
  have hi : i < n.toNat := by simpa [mkShares] using h
  have e : (UInt32.ofNat (i + 1)).toNat = i + 1 := by
    rw [UInt32.toNat_ofNat']; exact Nat.mod_eq_of_lt (by omega)
  simp only [mkShares, List.getElem_map, List.getElem_range]
  refine ⟨e, congrArg cd.enc ?_⟩
  rw [polyEval_eq, evalL_eq_sum]
  have hl : (secret :: (List.range (t.toNat - 1)).map rnd).length = t.toNat := by
    simp; omega
  rw [hl]
  refine Finset.sum_congr rfl fun j hj => ?_
  rw [Finset.mem_range] at hj
  cases j with
  | zero => simp
  | succ j =>
    have : j < t.toNat - 1 := by omega
    simp [this, mul_comm]

/-- `Split` of an accepted scheme errors exactly for the zero secret and otherwise deals `n` shares
of a polynomial with `t` coefficients. -/
theorem C90_split_decision (cd : ScalarCodec F) {t n : UInt32} {s : Shamir}
    (hs : newShamir t n true = .ok s) (secret : F) (rnd : ℕ → F) :
    (secret = 0 → split cd s secret rnd = Go.err) ∧
    (secret ≠ 0 → ∃ shares, split cd s secret rnd = .ok shares ∧ DealtBy cd t n secret shares) := by
  obtain ⟨_, h2, _, _, rfl⟩ := newShamir_eq_ok.1 hs
  have ht : t.toNat ≠ 0 := by
    rw [UInt32.le_iff_toNat_le] at h2
    have e2 : (2 : UInt32).toNat = 2 := rfl
    omega
  constructor
  · intro h
    unfold split
    rw [Go.guard_false (by simpa using h)]; rfl
  · intro h
    exact ⟨_, split_eq_ok.2 ⟨h, ht, rfl⟩, mkShares_dealtBy cd t n ht secret rnd⟩

/-- The same for `Feldman.Split`, which also returns `t` commitments. -/
theorem C90_feldmanSplit_decision (cd : ScalarCodec F) (g : G) {t n : UInt32} {s : Shamir}
    (hs : newShamir t n true = .ok s) (secret : F) (rnd : ℕ → F) :
    (secret = 0 → feldmanSplit cd g s secret rnd = Go.err) ∧
    (secret ≠ 0 → ∃ cs shares, feldmanSplit cd g s secret rnd = .ok (cs, shares) ∧
      DealtBy cd t n secret shares ∧ cs.length = t.toNat ∧ cs.head? = some (secret • g)) := by
  obtain ⟨_, h2, _, _, rfl⟩ := newShamir_eq_ok.1 hs
  have ht : t.toNat ≠ 0 := by
    rw [UInt32.le_iff_toNat_le] at h2
    have e2 : (2 : UInt32).toNat = 2 := rfl
    omega
  constructor
  · intro h
    unfold feldmanSplit
    rw [Go.guard_false (by simpa using h)]; rfl
  · intro h
    refine ⟨(secret :: (List.range (t.toNat - 1)).map rnd).map (· • g), _, ?_,
      mkShares_dealtBy cd t n ht secret rnd, by simp; omega, by simp⟩
    · unfold feldmanSplit
      rw [Go.guard_true h]
      simp only [Go.ok_bind]
      rw [getPoly_ok cd t n ht]
      rfl

/-- `Pedersen.Split` accepts every secret, including zero, and deals secret and blinding with `t`
commitments each. -/
theorem C90_pedersenSplit_total (cd : ScalarCodec F) (g h : G) {t n : UInt32} {s : Shamir × G}
    (hs : newPedersen t n (some h) = .ok s) (secret : F) (rnd : ℕ → F) :
    ∃ r, pedersenSplit cd g h s.1 secret rnd = .ok r ∧ r.blinding = rnd 0 ∧
      DealtBy cd t n secret r.secretShares ∧ DealtBy cd t n (rnd 0) r.blindingShares ∧
      r.pedersen.length = t.toNat ∧ r.pedersen.head? = some (secret • g + rnd 0 • h) := by
  have hp : GoodParams t n ∧ h ≠ 0 := by
    by_contra hc
    rw [(C90_newPedersen_decision t n).2.1 h hc] at hs
    simp at hs
  have hs' := hs
  rw [(C90_newPedersen_decision t n).1 h hp] at hs'
  obtain rfl := Except.ok.inj hs'
  have ht : t.toNat ≠ 0 := by have := hp.1.1; omega
  refine ⟨⟨rnd 0, _, _,
    (secret :: (List.range (t.toNat - 1)).map (fun i => rnd (i + 1))).map (· • g),
    List.zipWith (fun a c => a + c • h)
      ((secret :: (List.range (t.toNat - 1)).map (fun i => rnd (i + 1))).map (· • g))
      (rnd 0 :: (List.range (t.toNat - 1)).map (fun i => rnd (i + t.toNat)))⟩, ?_, rfl,
    mkShares_dealtBy cd t n ht secret (fun i => rnd (i + 1)),
    mkShares_dealtBy cd t n ht (rnd 0) (fun i => rnd (i + t.toNat)), ?_, ?_⟩
  · unfold pedersenSplit
    rw [getPoly_ok cd t n ht]
    simp only [Go.ok_bind]
    rw [getPoly_ok cd t n ht]
    rfl
  · simp; omega
  · simp

example : GoodParams 2 3 ∧ ¬ GoodParams 1 3 ∧ ¬ GoodParams 2 256 ∧ ¬ GoodParams 4 3 := by
  unfold GoodParams; decide

example : newPedersen 2 3 (some (5 : Toy.K)) = .ok (⟨2, 3⟩, 5) := rfl

example : ∃ shares, split Toy.codec ⟨2, 3⟩ (5 : Toy.K) (fun _ => 11) = .ok shares ∧
    DealtBy Toy.codec 2 3 (5 : Toy.K) shares :=
  (C90_split_decision Toy.codec (t := 2) (n := 3) rfl (5 : Toy.K) (fun _ => 11)).2 (by decide)

end Verif.Sharing
