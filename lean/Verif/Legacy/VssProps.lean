import Verif.Legacy.VssModel
import Verif.Legacy.CurveProps
import Verif.Sharing.V1Props

/-!
# C191: the older Feldman and Pedersen sharing on the points of the code

On a curve that computes in a group the functions on `EcPoint` are those of `Verif.V1` on the group, so that what is proved there (C87)
holds of the code with its integers and byte strings.
-/

namespace Verif.Legacy
open Verif.V1 Verif.Native

section
variable {q : ℕ} [hq : Fact q.Prime] {c : ECurve} {A : Type} [AddCommGroup A] [Module (ZMod q) A] (M : Computes c A)

theorem val_smul (s : ZMod q) (P : A) : ((s.val : ℕ) : ℤ) • P = s • P := by
  have : NeZero q := ⟨hq.out.ne_zero⟩
  rw [natCast_zsmul, smul_eq_val_nsmul]

theorem ecRhs_eq (x : ZMod q) : ∀ (Ps : List A) (i : ZMod q) (R : A), ecRhs x (Ps.map M.pt) i (M.pt R) =
    .ok (M.pt (Ps.foldl (fun (st : ZMod q × A) c => (st.1 * x, st.2 + (st.1 * x) • c)) (i, R)).2)
  | [], i, R => rfl
  | P :: Ps, i, R => by
    rw [List.map_cons, ecRhs]
    rw [(C189_mul M P _).1, val_smul]
    show (do let rhs ← EcPoint.add (some (M.pt R)) (some (M.pt ((i * x) • P))); ecRhs x (Ps.map M.pt) (i * x) rhs) = _
    rw [(C189_add M R _).1]
    exact ecRhs_eq x Ps (i * x) _

/-- C191: `Feldman.Verify` on `EcPoint`s of the group is the one over the group -/
theorem C191_feldman_verify [DecidableEq A] (s : Shamir) (share : Option (Share q)) (Ps : List A) :
    ecFeldmanVerify c s share (Ps.map M.pt) = feldmanVerify M.g s share Ps := by
  unfold ecFeldmanVerify feldmanVerify
  rw [List.length_map]
  congr 1
  funext _
  cases share with
  | none => rfl
  | some sh =>
    show (if q ≤ sh.id.toNat then _ else _) = (if q ≤ sh.id.toNat then _ else _)
    split
    · rfl
    · cases Ps with
      | nil => rfl
      | cons P0 Ps =>
        show (do let rhs ← ecRhs _ (Ps.map M.pt) 1 (M.pt P0); let lhs ← newScalarBaseMult (some c) _; Except.ok (lhs.equals (some rhs))) = _
        rw [ecRhs_eq, (C189_mul M M.g _).2.1, val_smul]
        show Except.ok ((M.pt _).equals (some (M.pt _))) = Except.ok _
        congr 1
        rw [Bool.eq_iff_iff, (C189_equals M _ _).1, decide_eq_true_iff]
        rfl

omit hq [Module (ZMod q) A] in
theorem mapM_pt (f : ZMod q → A) (l : List (ZMod q)) (F : ZMod q → Go EcPoint) (h : ∀ a, F a = .ok (M.pt (f a))) :
    l.mapM F = .ok ((l.map f).map M.pt) := by
  induction l with
  | nil => rfl
  | cons a l ih => rw [List.mapM_cons, h, ih]; rfl

/-- C191: `Feldman.Split` publishes the commitments of the one over the group, and the same shares -/
theorem C191_feldman_split (s : Shamir) (secret : List UInt8) (rnd : ℕ → ZMod q) :
    ecFeldmanSplit c s secret rnd = (do let r ← feldmanSplit M.g s secret rnd; Except.ok (r.1.map M.pt, r.2)) := by
  rw [ecFeldmanSplit, feldmanSplit]
  cases getSharesAndPolynomial s secret rnd with
  | error e => rfl
  | ok r =>
    rw [Go.ok_bind, mapM_pt M (fun a => a • M.g) _ _ fun a => by rw [(C189_mul M M.g _).2.1, val_smul]]
    rfl

/-- C191: `Pedersen.Verify` on `EcPoint`s of the group is the one over the group, for a second generator of the group -/
theorem C191_pedersen_verify [DecidableEq A] (H : A) (s : Shamir) (share blinding : Option (Share q)) (Ps : List A) :
    ecPedersenVerify (M.pt H) s share blinding (Ps.map M.pt) = pedersenVerify M.g H s share blinding Ps := by
  unfold ecPedersenVerify pedersenVerify
  rw [List.length_map]
  congr 1
  funext _
  cases share with
  | none => rfl
  | some sh =>
    show (if q ≤ sh.id.toNat then _ else _) = (if q ≤ sh.id.toNat then _ else _)
    split
    · rfl
    · cases Ps with
      | nil => rfl
      | cons P0 Ps =>
        simp only [List.map_cons]
        rw [ecRhs_eq, Go.ok_bind, show (M.pt H).curve = c from rfl, (C189_mul M M.g _).2.1, val_smul, Go.ok_bind]
        cases blinding with
        | none => rfl
        | some b =>
          simp only []
          rw [(C189_mul M H _).1, val_smul, Go.ok_bind, (C189_add M _ _).1, Go.ok_bind]
          congr 1
          rw [Bool.eq_iff_iff, (C189_equals M _ _).1, decide_eq_true_iff]
          rfl

theorem ecCommit_eq (H : A) (a b : ZMod q) : ecCommit (M.pt H) a b = .ok (M.pt (a • M.g + b • H), M.pt (a • M.g)) := by
  rw [ecCommit, show (M.pt H).curve = c from rfl, (C189_mul M M.g _).2.1, val_smul, Go.ok_bind, (C189_mul M H _).1, val_smul, Go.ok_bind,
    (C189_add M _ _).1]
  rfl

theorem commits_eq (H : A) (l : List (ZMod q × ZMod q)) : (l.mapM fun ab => ecCommit (M.pt H) ab.1 ab.2) =
    .ok (l.map fun ab => (M.pt (ab.1 • M.g + ab.2 • H), M.pt (ab.1 • M.g))) := by
  induction l with
  | nil => rfl
  | cons a l ih => rw [List.mapM_cons, ecCommit_eq, ih]; rfl

/-- C191: `Pedersen.Split` publishes the commitments of the one over the group -/
theorem C191_pedersen_split (H : A) (s : Shamir) (secret : List UInt8) (blinding : ZMod q) (rnd rndB : ℕ → ZMod q) :
    ecPedersenSplit (M.pt H) s secret blinding rnd rndB = (do
      let r ← pedersenSplit M.g H s secret blinding rnd rndB
      Except.ok (r.1, r.2.1, r.2.2.1, r.2.2.2.1.map M.pt, r.2.2.2.2.map M.pt)) := by
  rw [ecPedersenSplit, pedersenSplit]
  cases h1 : getSharesAndPolynomial s secret rnd with
  | error e => rfl
  | ok r =>
    rw [Go.ok_bind, Go.ok_bind]
    cases h2 : getSharesAndPolynomial s (natBytes blinding.val) rndB with
    | error e => rfl
    | ok b =>
      have hl : r.2.length = b.2.length := by
        obtain ⟨_, _, _, p1, _⟩ := getSharesAndPolynomial_eq_ok.1 h1
        obtain ⟨_, _, _, p2, _⟩ := getSharesAndPolynomial_eq_ok.1 h2
        rw [p1, p2]
        simp
      rw [Go.ok_bind, Go.ok_bind, commits_eq, Go.ok_bind]
      have key : ∀ (l m : List (ZMod q)), l.length = m.length →
          ((l.zip m).map fun ab => M.pt (ab.1 • M.g + ab.2 • H)) = (List.zipWith (fun a d => a + d • H) (l.map (· • M.g)) m).map M.pt ∧
          ((l.zip m).map fun ab => M.pt (ab.1 • M.g)) = (l.map (· • M.g)).map M.pt := by
        intro l
        induction l with
        | nil => intro m _; exact ⟨rfl, rfl⟩
        | cons a l ih =>
          intro m hm
          cases m with
          | nil => cases hm
          | cons d m =>
            obtain ⟨i1, i2⟩ := ih m (Nat.succ.inj hm)
            exact ⟨congrArg (_ :: ·) i1, congrArg (_ :: ·) i2⟩
      obtain ⟨k1, k2⟩ := key r.2 b.2 hl
      show Except.ok _ = Except.ok _
      simp only [List.map_map, Function.comp_def] at k1 k2 ⊢
      rw [k1, k2]

/-- C191: `NewPedersen` accepts every element of the group but the neutral one, and refuses nil; it does not refuse the base point or a
multiple of it the caller knows -/
theorem C191_newPedersen (L : Lawful c A) (t n : UInt32) (P : A) :
    (¬ n < t → ¬ t < 2 → P ≠ 0 → newPedersen t n (some (L.pt P)) = .ok (⟨t, n⟩, L.pt P)) ∧
    newPedersen t n (some (L.pt 0)) = Go.err ∧ newPedersen t n none = Go.err := by
  refine ⟨fun h1 h2 h0 => ?_, ?_, ?_⟩
  · have hid : ¬ (L.pt P).isIdentity = true := fun h => h0 ((C189_isIdentity L P).1.1 h)
    have hv := L.valid P
    rw [newPedersen, Go.guard_true h1, Go.ok_bind, Go.guard_true h2, Go.ok_bind, Go.guard_true hid, Go.ok_bind]
    rw [EcPoint.isValid, Go.bind_eq_ok] at hv
    obtain ⟨o, ho, hv⟩ := hv
    rw [show (L.pt P).isOnCurve = .ok o from ho, Go.ok_bind]
    cases o with
    | true => rfl
    | false => exact absurd (Except.ok.inj hv) hid
  · have hid : (L.pt 0).isIdentity = true := (C189_isIdentity L 0).1.2 rfl
    rw [newPedersen]
    by_cases h1 : ¬ n < t
    · by_cases h2 : ¬ t < 2
      · rw [Go.guard_true h1, Go.ok_bind, Go.guard_true h2, Go.ok_bind]
        rw [Go.guard_false (not_not.2 hid)]; rfl
      · rw [Go.guard_true h1, Go.guard_false h2]; rfl
    · rw [Go.guard_false h1]; rfl
  · rw [newPedersen]
    by_cases h1 : ¬ n < t
    · by_cases h2 : ¬ t < 2
      · rw [Go.guard_true h1, Go.guard_true h2]; rfl
      · rw [Go.guard_true h1, Go.guard_false h2]; rfl
    · rw [Go.guard_false h1]; rfl

end

/-- C191: so on secp256k1, with the integers and byte strings of the code: dealt shares verify, and with the commitments of the dealer a
share of any identifier verifies exactly when its value is the polynomial of the dealer there -/
theorem C191_k256 (refs : List ℕ) (s : Shamir) (secret : List UInt8) (rnd : ℕ → ZMod Primes.k256q) (vs : List EcPoint)
    (shares : List (Share Primes.k256q)) (h : ecFeldmanSplit (k256Curve refs) s secret rnd = .ok (vs, shares)) (sh : Share Primes.k256q) :
    (sh ∈ shares → ecFeldmanVerify (k256Curve refs) s (some sh) vs = .ok true) ∧
    ecFeldmanVerify (k256Curve refs) s (some sh) vs =
      .ok (decide (sh.value = dealt s.threshold.toNat secret rnd (sh.id.toNat : ZMod Primes.k256q))) := by
  classical
  have := Primes.fact_k256q
  have L := k256Lawful refs
  rw [C191_feldman_split L.toComputes, Go.bind_eq_ok] at h
  obtain ⟨r, hr, e⟩ := h
  obtain ⟨rfl, rfl⟩ := Prod.mk.inj (Except.ok.inj e)
  rw [C191_feldman_verify]
  refine ⟨C87_feldman_complete _ s secret rnd r.1 r.2 hr sh, C87_feldman_verify_iff _ (fun c hc => ?_) s secret rnd r.1 r.2 hr sh ?_⟩
  · refine (smul_eq_zero.1 hc).resolve_right fun h0 => ?_
    have hb := L.base
    rw [h0, L.zero] at hb
    have : (0 : ℤ) = (K256.generator.x.val : ℤ) := congrArg Prod.fst hb
    revert this
    decide +kernel
  · exact lt_trans sh.id.toNat_lt (by decide +kernel)

/-- `Split` succeeds: the hypothesis is met -/
example (refs : List ℕ) : ∃ r, ecFeldmanSplit (k256Curve refs) ⟨2, 3⟩ [7] (fun _ => (5 : ZMod Primes.k256q)) = .ok r ∧
    r.2 = [⟨1, 12⟩, ⟨2, 17⟩, ⟨3, 22⟩] := by
  have h : @getSharesAndPolynomial Primes.k256q Primes.fact_k256q ⟨2, 3⟩ [7] (fun _ => (5 : ZMod Primes.k256q)) =
      .ok ([⟨1, 12⟩, ⟨2, 17⟩, ⟨3, 22⟩], [7, 5]) := by decide +kernel
  have := Primes.fact_k256q
  have L := k256Lawful refs
  rw [C191_feldman_split L.toComputes, feldmanSplit, h]
  exact ⟨_, rfl, rfl⟩

end Verif.Legacy
