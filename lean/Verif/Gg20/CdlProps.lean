import Verif.Gg20.ProofProps
import Verif.Verenc.CamShoupLemmas
import Mathlib.Data.List.OfFn

/-!
# Properties of the composite discrete logarithm proof (C47)
-/

set_option linter.unusedSectionVars false

namespace Verif.Gg20

variable {q : ℕ} {G : Type*} [AddCommGroup G] [Module (ZMod q) G]

theorem mapM_id_eq_some {α : Type} {l : List (Option α)} {vs : List α} :
    l.mapM id = some vs ↔ l = vs.map some := by
  constructor
  · intro h
    induction l generalizing vs with
    | nil =>
      obtain rfl : [] = vs := by simpa using h
      rfl
    | cons a l ih =>
      match a, h with
      | some a, h =>
        rw [List.mapM_cons] at h
        simp only [id, Option.bind_eq_bind, Option.bind_some] at h
        obtain ⟨vs', h1, h2⟩ := Option.bind_eq_some_iff.1 h
        rw [ih h1]
        obtain rfl := Option.some.inj h2
        rfl
  · rintro rfl; exact mapM_id_map_some vs

theorem challenge_eq_ok {kdf : List UInt8 → List UInt8} {l : List (Option ℤ)} {e : ℤ} :
    challenge kdf l = .ok e ↔ ∃ vs : List ℤ, l = vs.map some ∧ e = fsHash kdf vs := by
  constructor
  · intro h
    unfold challenge Core.fiatShamir at h
    cases hm : l.mapM id with
    | none => rw [hm] at h; exact absurd h (by simp [Go.err, Go.error_bind])
    | some vs =>
      rw [hm] at h
      exact ⟨vs, mapM_id_eq_some.1 hm, (Except.ok.inj h).symm⟩
  · rintro ⟨vs, rfl, rfl⟩; exact challenge_some kdf vs

/-- The hash input of a CDL proof as a list of integers (specification). -/
def cdlVals (E : Curve q G) (N h1 h2 : ℤ) (u : Fin ell → ℤ) : List ℤ :=
  [(E.xy E.gen).1, (E.xy E.gen).2, q, N, h1, h2] ++ List.ofFn u

/-- What `CdlProof.Verify` decides: the first 128 entries of `u` and `s` are present and satisfy
`h1^s_i ≡ u_i·h2^e_i` for the first 128 bits of the hash; surplus entries are ignored. -/
def AcceptCdl (E : Curve q G) (N h1 h2 : ℤ) (u s : Fin ell → ℤ) : Prop :=
  1024 ≤ N.natAbs.size ∧ ∀ i : Fin ell, ∃ l, IsPow N h1 (s i) l ∧
    l ≡ (if (fsHash E.kdf (cdlVals E N h1 h2 u)).testBit i then u i * h2 else u i) [ZMOD N]

theorem bit_nat (e i : ℕ) : bit (e : ℤ) i = if e.testBit i then 1 else 0 := by
  simp [bit]

theorem cdlStep_eq_ok {N h1 h2 : ℤ} (hN : 0 < N) (e : ℕ) (us ss : List (Option ℤ)) (i : ℕ) :
    cdlStep N h1 h2 e us ss i = .ok () ↔ ∃ u s, us[i]? = some (some u) ∧ ss[i]? = some (some s) ∧
      ∃ l, IsPow N h1 s l ∧ l ≡ (if e.testBit i then u * h2 else u) [ZMOD N] := by
  have hb : ∀ b : Bool, ∃ y, Big.exp h2 (if b then 1 else 0) N = some y ∧
      y ≡ (if b then h2 else 1) [ZMOD N] := by
    intro b
    cases b
    · refine ⟨1 % N, (exp_eq_some hN).2 ⟨⟨Int.emod_nonneg _ hN.ne', Int.emod_lt_of_pos _ hN⟩, ?_⟩,
        Int.mod_modEq _ _⟩
      rw [isPow_nonneg (by simp)]
      simpa using Int.mod_modEq 1 N
    · refine ⟨h2 % N, (exp_eq_some hN).2 ⟨⟨Int.emod_nonneg _ hN.ne', Int.emod_lt_of_pos _ hN⟩, ?_⟩,
        Int.mod_modEq _ _⟩
      rw [isPow_nonneg (by simp)]
      simpa using Int.mod_modEq h2 N
  unfold cdlStep
  rw [bit_nat]
  obtain ⟨y, hy, hym⟩ := hb (e.testBit i)
  rw [hy]
  cases hs : ss[i]? with
  | none => simp [Go.crash]
  | some s =>
    cases s with
    | none => simp [Go.crash]
    | some s =>
      cases hu : us[i]? with
      | none => simp [Go.crash]
      | some u =>
        cases u with
        | none => simp [Go.crash]
        | some u =>
          simp only [Option.some.injEq, ← exists_and_left, Big.mod,
            if_neg hN.ne', Go.ok_bind]
          have hm : u * y % N ≡ (if e.testBit i then u * h2 else u) [ZMOD N] := by
            refine (Int.mod_modEq _ _).trans ?_
            cases hbit : e.testBit i
            · rw [hbit] at hym; simpa using hym.mul_left u
            · rw [hbit] at hym; simpa using hym.mul_left u
          cases hl : Big.exp h1 s N with
          | none =>
            simp only [Go.crash, reduceCtorEq, false_iff]
            rintro ⟨u', s', l, hu', hs', hl', _⟩
            subst hu' hs'
            have := (exp_eq_some hN).2 ⟨⟨Int.emod_nonneg l hN.ne', Int.emod_lt_of_pos l hN⟩,
              (isPow_congr (Int.mod_modEq l N)).2 hl'⟩
            rw [hl] at this
            exact absurd this (by simp)
          | some l =>
            obtain ⟨hl0, hlp⟩ := (exp_eq_some hN).1 hl
            simp only [Go.guard_eq_ok]
            constructor
            · rintro rfl
              exact ⟨u, s, _, rfl, rfl, hlp, hm⟩
            · rintro ⟨u', s', l', hu', hs', hl', hlm⟩
              subst hu' hs'
              have e1 : Big.exp h1 s N = some (l' % N) :=
                (exp_eq_some hN).2 ⟨⟨Int.emod_nonneg l' hN.ne', Int.emod_lt_of_pos l' hN⟩,
                (isPow_congr (Int.mod_modEq l' N)).2 hl'⟩
              obtain rfl := Option.some.inj (hl.symm.trans e1)
              have := hlm.trans hm.symm
              unfold Int.ModEq at this
              rw [Int.emod_emod_of_dvd _ dvd_rfl] at this
              exact this

/-- The entries of a list read as a function, when they are all present. -/
def Entries (l : List (Option ℤ)) (f : Fin ell → ℤ) : Prop :=
  ∀ i : Fin ell, l[(i : ℕ)]? = some (some (f i))

theorem entries_take {l : List (Option ℤ)} {f : Fin ell → ℤ} :
    Entries l f ↔ l.take ell ++ List.replicate (ell - l.length) none = (List.ofFn f).map some := by
  constructor
  · intro h
    have hlen : ell ≤ l.length := by
      by_contra hl
      have := h ⟨l.length, by omega⟩
      rw [List.getElem?_eq_none (by simp)] at this
      exact absurd this (by simp)
    rw [Nat.sub_eq_zero_of_le hlen, List.replicate_zero, List.append_nil]
    apply List.ext_getElem?
    intro i
    by_cases hi : i < ell
    · rw [List.getElem?_take_of_lt hi, h ⟨i, hi⟩]
      simp [hi]
    · rw [List.getElem?_eq_none (by simp; omega), List.getElem?_eq_none (by simp; omega)]
  · intro h i
    have hi := congrArg (fun l => l[(i : ℕ)]?) h
    simp only [List.getElem?_map, List.getElem?_ofFn, i.isLt, dif_pos, Option.map_some] at hi
    by_cases hl : (i : ℕ) < l.length
    · rw [List.getElem?_append_left (by simp; omega), List.getElem?_take_of_lt i.isLt] at hi
      exact hi
    · rw [List.getElem?_append_right (by simp; omega), List.getElem?_replicate] at hi
      split at hi <;> simp at hi

theorem cdlInput_eq (E : Curve q G) (N h1 h2 : ℤ) (u : List (Option ℤ)) (vs : List ℤ) :
    cdlInput E N h1 h2 u = vs.map some ↔ ∃ f, Entries u f ∧ vs = cdlVals E N h1 h2 f := by
  constructor
  · intro h
    unfold cdlInput at h
    have hlen : vs.length = 6 + ell := by
      have := congrArg List.length h
      simp only [List.length_append, List.length_cons, List.length_nil, List.length_take,
        List.length_replicate, List.length_map] at this
      omega
    match vs, hlen, h with
    | a :: b :: c :: d :: e :: f :: tl, hlen, h =>
      simp only [List.cons_append, List.nil_append, List.map_cons, List.cons.injEq,
        Option.some.injEq] at h
      obtain ⟨rfl, rfl, rfl, rfl, rfl, rfl, h⟩ := h
      have htl : tl.length = ell := by simp only [List.length_cons] at hlen; omega
      refine ⟨fun i => tl[(i : ℕ)]'(by rw [htl]; exact i.isLt), ?_, ?_⟩
      · rw [entries_take, h]
        congr 1
        apply List.ext_getElem
        · simp [htl]
        · intro i h1 h2
          simp
      · unfold cdlVals
        simp only [List.cons_append, List.nil_append, List.cons.injEq, true_and]
        apply List.ext_getElem
        · simp [htl]
        · intro i h1 h2
          simp
  · rintro ⟨f, hf, rfl⟩
    unfold cdlInput cdlVals
    rw [entries_take.1 hf]
    simp

/-- Exact decision of the CDL verifier for arbitrary lists (short, long, with nil entries). -/
theorem C47_verify_iff (E : Curve q G) (N : ℤ) (hN : 0 < N) (h1 h2 : ℤ) (pi : CdlProof) :
    cdlVerify E N h1 h2 pi = .ok () ↔
      ∃ u s, Entries pi.u u ∧ Entries pi.s s ∧ AcceptCdl E N h1 h2 u s := by
  unfold cdlVerify AcceptCdl
  simp only [Go.bind_eq_ok, Go.guard_eq_ok, challenge_eq_ok, cdlInput_eq, Go.forM_eq_ok,
    List.mem_range, not_lt]
  constructor
  · rintro ⟨_, hsz, e, ⟨vs, ⟨u, hu, rfl⟩, rfl⟩, hall⟩
    have hall' := fun i : Fin ell => (cdlStep_eq_ok hN _ _ _ _).1 (hall i i.isLt)
    choose u' s' hu' hs' hl using hall'
    have huu : u' = u := by
      funext i
      have := (hu' i).symm.trans (hu i)
      simpa using this
    subst huu
    exact ⟨u', s', hu, hs', hsz, hl⟩
  · rintro ⟨u, s, hu, hs, hsz, hall⟩
    refine ⟨(), hsz, _, ⟨_, ⟨u, hu, rfl⟩, rfl⟩, fun i hi => ?_⟩
    exact (cdlStep_eq_ok hN _ _ _ _).2 ⟨u ⟨i, hi⟩, s ⟨i, hi⟩, hu ⟨i, hi⟩, hs ⟨i, hi⟩, hall ⟨i, hi⟩⟩

/-- Completeness: if `h1` has order dividing `p'q'` modulo `N` and `h2 ≡ h1^x`, the honest proof,
with any 128 values drawn, verifies (for moduli of at least 1024 bits). -/
theorem C47_complete (E : Curve q G) (N p' q' h1 h2 x : ℤ) (hN : 0 < N)
    (hsz : 1024 ≤ N.natAbs.size) (hpq : 0 < p' * q') (hord : h1 ^ (p' * q').toNat ≡ 1 [ZMOD N])
    (hx : IsPow N h1 x h2) (alpha : Fin ell → ℤ) :
    ∃ pi, cdlProve E p' q' h1 h2 x N alpha = .ok pi ∧ cdlVerify E N h1 h2 pi = .ok () := by
  have hcop : IsCoprime h1 N := by
    refine coprime_of_inv (i := h1 ^ ((p' * q').toNat - 1)) ?_
    rw [← pow_succ', Nat.sub_add_cancel (by omega)]
    exact hord
  choose u hu0 hu using fun i => exists_isPow (k := alpha i) hN hcop
  set e := fsHash E.kdf (cdlVals E N h1 h2 u) with he
  set s : Fin ell → ℤ := fun i => (alpha i + bit (e : ℤ) i * x) % (p' * q') with hs
  have hmap1 : (List.finRange ell).mapM
      (fun i => Core.exp (some h1) (some (alpha i)) (some N)) =
      (.ok ((List.finRange ell).map fun i => some (u i)) : Go _) :=
    CamShoup.mapM_ok _ _ _ fun i _ => core_exp_eq_ok.2 ((exp_eq_some hN).2 ⟨hu0 i, hu i⟩)
  have hmap2 : (List.finRange ell).mapM
      (fun i => Big.mod (alpha i + bit (e : ℤ) i * x) (p' * q')) =
      (.ok ((List.finRange ell).map s) : Go _) :=
    CamShoup.mapM_ok _ _ _ fun i _ => by unfold Big.mod; rw [if_neg hpq.ne']
  have hent : ∀ f : Fin ell → ℤ, Entries ((List.finRange ell).map fun i => some (f i)) f := by
    intro f i
    rw [List.getElem?_map, List.getElem?_eq_getElem (by simp)]
    simp
  have hch : challenge E.kdf (cdlInput E N h1 h2 ((List.finRange ell).map fun i => some (u i))) =
      .ok (e : ℤ) :=
    challenge_eq_ok.2 ⟨_, (cdlInput_eq E N h1 h2 _ _).2 ⟨u, hent u, rfl⟩, rfl⟩
  refine ⟨⟨(List.finRange ell).map fun i => some (u i), ((List.finRange ell).map s).map some⟩,
    ?_, ?_⟩
  · unfold cdlProve
    rw [hmap1]
    simp only [Go.ok_bind]
    rw [hch]
    simp only [Go.ok_bind]
    rw [hmap2]
    rfl
  · rw [C47_verify_iff E N hN]
    refine ⟨u, s, hent u, ?_, hsz, fun i => ?_⟩
    · rw [List.map_map]; exact hent s
    · obtain ⟨l, _, hl⟩ := exists_isPow (k := s i) hN hcop
      refine ⟨l, hl, ?_⟩
      rw [← he]
      clear hmap1 hmap2 hch
      have hui := hu i
      lift N to ℕ using hN.le
      obtain ⟨v, hv⟩ := coprime_iff_unit.1 hcop
      rw [isPow_unit hv] at hl hui hx
      have hvo : v ^ (p' * q') = 1 := by
        obtain ⟨k, hk⟩ : ∃ k : ℕ, p' * q' = k := ⟨(p' * q').toNat, by omega⟩
        rw [hk] at hord ⊢
        rw [← ZMod.intCast_eq_intCast_iff] at hord
        push_cast at hord
        rw [hv] at hord
        ext
        push_cast
        simpa using hord
      have hred : ∀ a : ℤ, v ^ (a % (p' * q')) = v ^ a := by
        intro a
        conv_rhs => rw [← Int.emod_add_mul_ediv a (p' * q')]
        rw [zpow_add, zpow_mul, hvo, one_zpow, mul_one]
      rw [← ZMod.intCast_eq_intCast_iff, hl, hs]
      simp only
      rw [hred, bit_nat]
      split
      · push_cast
        rw [hui, hx, one_mul, zpow_add]
        push_cast
        rfl
      · rw [zero_mul, add_zero, hui]

/-- Special soundness: two accepted proofs with the same commitments whose challenges (for two
runs of the hash) differ in a bit exhibit the discrete logarithm of `h2` to the base `h1`. -/
theorem C47_sound (E E' : Curve q G) (N : ℤ) (hN : 0 < N) (h1 h2 : ℤ) (h1c : IsCoprime h1 N)
    (u s s' : Fin ell → ℤ) (i : Fin ell)
    (hA : AcceptCdl E N h1 h2 u s) (hB : AcceptCdl E' N h1 h2 u s')
    (hb : (fsHash E.kdf (cdlVals E N h1 h2 u)).testBit i = true)
    (hb' : (fsHash E'.kdf (cdlVals E' N h1 h2 u)).testBit i = false) :
    IsPow N h1 (s i - s' i) h2 := by
  obtain ⟨l, hl, hlm⟩ := hA.2 i
  obtain ⟨l', hl', hlm'⟩ := hB.2 i
  rw [hb, if_pos rfl] at hlm
  rw [hb', if_neg (by simp)] at hlm'
  lift N to ℕ using hN.le
  obtain ⟨v, hv⟩ := coprime_iff_unit.1 h1c
  rw [isPow_unit hv] at hl hl' ⊢
  rw [← ZMod.intCast_eq_intCast_iff] at hlm hlm'
  push_cast at hlm
  rw [← hlm', hl, hl'] at hlm
  have : ((v ^ (s' i))⁻¹ : (ZMod N)ˣ) * ((v ^ s i : (ZMod N)ˣ) : ZMod N) =
      ((v ^ (s' i))⁻¹ : (ZMod N)ˣ) * (((v ^ s' i : (ZMod N)ˣ) : ZMod N) * h2) := by rw [hlm]
  rw [← mul_assoc, Units.inv_mul, one_mul] at this
  rw [← this, zpow_sub, mul_comm]
  push_cast
  rfl

/-- Malformed proofs crash the verifier: with a well-formed hash input but a response list that is
too short (or has a nil first entry), `Verify` panics. -/
theorem C47_short_crash (E : Curve q G) (N h1 h2 : ℤ) (hsz : 1024 ≤ N.natAbs.size)
    (us ss : List (Option ℤ)) (u : Fin ell → ℤ) (hu : Entries us u)
    (hs : ss[0]? = none ∨ ss[0]? = some none) :
    cdlVerify E N h1 h2 ⟨us, ss⟩ = Go.crash := by
  unfold cdlVerify
  rw [Go.guard_true (by omega), Go.ok_bind]
  rw [challenge_eq_ok.2 ⟨_, (cdlInput_eq E N h1 h2 _ _).2 ⟨u, hu, rfl⟩, rfl⟩, Go.ok_bind]
  have hr : List.range ell = 0 :: (List.range 127).map Nat.succ := by
    rw [show ell = 127 + 1 from rfl, List.range_succ_eq_map]
  rw [hr]
  show (cdlStep N h1 h2 _ us ss 0 >>= fun _ => _) = _
  have : cdlStep N h1 h2 (fsHash E.kdf (cdlVals E N h1 h2 u) : ℤ) us ss 0 = Go.crash := by
    unfold cdlStep
    rcases hs with h | h <;> rw [h]
  rw [this]
  rfl

/-- Degenerate parameters pass: `h1 = h2 = 0` with all `u_i = 0`, `s_i = 1` is accepted for every
modulus of at least 1024 bits and every hash. -/
theorem C47_degenerate (E : Curve q G) (N : ℤ) (hN : 0 < N) (hsz : 1024 ≤ N.natAbs.size) :
    cdlVerify E N 0 0 ⟨List.replicate 128 (some 0), List.replicate 128 (some 1)⟩ = .ok () := by
  rw [C47_verify_iff E N hN]
  have hent : ∀ a : ℤ, Entries (List.replicate 128 (some a)) fun _ => a := by
    intro a i
    rw [List.getElem?_replicate, if_pos (show (i : ℕ) < 128 from i.isLt)]
  refine ⟨fun _ => 0, fun _ => 1, hent 0, hent 1, hsz, fun i => ⟨0, ?_, ?_⟩⟩
  · rw [isPow_nonneg (by norm_num)]; simp
  · simp

/-! ## Concrete instances -/

/-- `h1 = 2` has order 1024 modulo `2^1024 - 1`; `h2 = 2^3`. -/
example (alpha : Fin ell → ℤ) :
    ∃ pi, cdlProve toyE 32 32 2 8 3 (2 ^ 1024 - 1) alpha = .ok pi ∧
      cdlVerify toyE (2 ^ 1024 - 1) 2 8 pi = .ok () := by
  refine C47_complete toyE (2 ^ 1024 - 1) 32 32 2 8 3 (by decide +kernel) (by decide +kernel)
    (by norm_num) ?_ ?_ alpha
  · unfold Int.ModEq; decide +kernel
  · exact (isPow_nonneg (by norm_num)).2 (by unfold Int.ModEq; decide +kernel)

example : cdlVerify toyE (2 ^ 1024 - 1) 0 0
    ⟨List.replicate 128 (some 0), List.replicate 128 (some 1)⟩ = .ok () :=
  C47_degenerate toyE _ (by decide +kernel) (by decide +kernel)

example : cdlVerify toyE (2 ^ 1024 - 1) 2 8 ⟨List.replicate 128 (some 5), []⟩ = Go.crash :=
  C47_short_crash toyE _ 2 8 (by decide +kernel) _ _ (fun _ => 5)
    (fun i => by rw [List.getElem?_replicate, if_pos (show (i : ℕ) < 128 from i.isLt)]) (Or.inl rfl)

end Verif.Gg20
