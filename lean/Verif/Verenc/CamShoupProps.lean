import Verif.Verenc.CamShoupLemmas

/-!
# Properties of the Camenisch-Shoup encryption (C84, C85, C86, C107, C108, C109)
-/

set_option linter.unusedSectionVars false

namespace Verif.CamShoup

variable {n : ℕ} {γ : (ZMod (n * n))ˣ} {G : Group}

/-! ## Groups -/

/-- `NewPaillierGroupWithPrimes` gives a usable group for every odd product `p*q > 1` and every random
value prime to it; the generator is the `2n²`-th power. -/
theorem C84_group (p q : ℕ) (gTick : ℤ) (h1 : 1 < p * q) (hodd : p * q % 2 = 1)
    (τ : (ZMod (p * q * (p * q)))ˣ) (hg : (gTick : ZMod (p * q * (p * q))) = τ) :
    ∃ G, newGroupWithPrimes p q gTick = .ok G ∧ Valid G (p * q) (τ ^ (2 * (p * q * (p * q)))) ∧
      G.nd4 = ((p * q / 2 : ℕ) : ℤ) := by
  have hpos : 0 < p * q * (p * q) := Nat.mul_pos (by omega) (by omega)
  have hz : NeZero (p * q * (p * q)) := ⟨hpos.ne'⟩
  obtain ⟨r, hr, h0, hlt, hc⟩ := Big.exp_cast (y := ((p * q * (p * q) : ℕ) : ℤ) * 2) hpos hg
  have hcast : (p : ℤ) * q = ((p * q : ℕ) : ℤ) := by push_cast; ring
  have hcast2 : ((p * q : ℕ) : ℤ) * ((p * q : ℕ) : ℤ) = ((p * q * (p * q) : ℕ) : ℤ) := by push_cast; ring
  have hgcd : Int.gcd 2 ((p * q : ℕ) : ℤ) = 1 := by
    have : Nat.gcd 2 (p * q) = 1 := by
      rw [Nat.gcd_rec, hodd]; rfl
    exact_mod_cast this
  obtain ⟨i, hi⟩ := Option.isSome_iff_exists.1 (Big.modInverse_isSome.2 hgcd)
  have hmk : ∃ G, mkGroup ((p * q : ℕ) : ℤ) r = .ok G ∧ G.g = r := by
    unfold mkGroup
    rw [hi]
    exact ⟨_, rfl, rfl⟩
  obtain ⟨G, hG, hGg⟩ := hmk
  have hV : Valid G (p * q) (τ ^ (2 * (p * q * (p * q)))) := by
    refine ⟨h1, hodd, by rw [hGg, hG], ?_⟩
    rw [hGg, hc]
    congr 1
    rw [← zpow_natCast]
    congr 1
    push_cast
    ring
  refine ⟨G, ?_, hV, hV.fields.2.2.2.2.1⟩
  unfold newGroupWithPrimes
  simp only [hcast, hcast2, hr, Go.ok_bind, hG]

/-- Making or decoding a group panics exactly when the modulus is even (zero included). -/
theorem C108_even_modulus (m g : ℤ) (tv : Bytes × Bytes) :
    (mkGroup m g = .error .panic ↔ m % 2 = 0) ∧
    (Group.unmarshal tv = .error .panic ↔ beNat tv.1 % 2 = 0) := by
  have key : ∀ m g : ℤ, mkGroup m g = .error .panic ↔ m % 2 = 0 := by
    intro m g
    have hg : Int.gcd 2 m = Nat.gcd 2 m.natAbs := rfl
    have h2 : Nat.gcd 2 m.natAbs = 1 ↔ m.natAbs % 2 = 1 := by
      rw [Nat.gcd_rec]
      rcases Nat.mod_two_eq_zero_or_one m.natAbs with h | h <;> rw [h] <;> simp
    unfold mkGroup
    cases hm : Big.modInverse 2 m with
    | none =>
      have := Big.modInverse_eq_none.1 hm
      rw [hg, Ne, h2] at this
      exact ⟨fun _ => by omega, fun _ => rfl⟩
    | some i =>
      have := Big.modInverse_isSome.1 (by rw [hm]; rfl)
      rw [hg, h2] at this
      constructor
      · intro h; cases h
      · intro h; omega
  refine ⟨key m g, ?_⟩
  unfold Group.unmarshal
  rw [key]
  omega

/-! ## Encryption and decryption -/

theorem groupHash_ok (hash : List Bytes → ℕ) (u : ℤ) (e : List ℤ) (d : Bytes) (he : e ≠ []) :
    groupHash hash u e (some d) = .ok (hash (intBytes u :: e.map intBytes ++ [d]) : ℤ) := by
  unfold groupHash
  rw [Go.guard_true he]
  rfl

/-- the components that carry the messages -/
def compE (ys : List (ZMod (n * n))ˣ) (ms : List ℤ) (r : ℤ) : List (ZMod (n * n))ˣ :=
  List.zipWith (fun y m => y ^ r * eta n ^ m) ys ms

theorem compE_length (ys : List (ZMod (n * n))ˣ) (ms : List ℤ) (r : ℤ) (h : ms.length ≤ ys.length) :
    (compE ys ms r).length = ms.length := by
  simp [compE, h]

theorem computeV_cv (h : Valid G n γ) (ys : List ℤ) (y2 y3 : (ZMod (n * n))ˣ) (r hs : ℤ) :
    computeV ⟨ys, cv y2, cv y3, G⟩ r hs false = .ok (cv ((y2 * y3 ^ hs) ^ r)) ∧
    computeV ⟨ys, cv y2, cv y3, G⟩ r hs true = G.abs (cv ((y2 * y3 ^ hs) ^ r)) := by
  constructor <;> simp only [computeV, exp_cv h, mul_cv h, Go.ok_bind] <;> rfl

theorem encryptWithR_cv (hash : List Bytes → ℕ) (h : Valid G n γ) (ys : List (ZMod (n * n))ˣ)
    (y2 y3 : (ZMod (n * n))ˣ) (d : Bytes) (ms : List ℤ) (r : ℤ) (hl : ms.length ≤ ys.length)
    (hne : ms ≠ []) :
    ∃ w hs, hs = (hash (intBytes (cv (γ ^ r)) :: ((compE ys ms r).map cv).map intBytes ++ [d]) : ℤ) ∧
      (w = (y2 * y3 ^ hs) ^ r ∨ w = -(y2 * y3 ^ hs) ^ r) ∧ G.abs (cv w) = .ok (cv w) ∧
      encryptWithR hash ⟨ys.map cv, cv y2, cv y3, G⟩ (some d) ms r =
        .ok ⟨cv (γ ^ r), cv w, (compE ys ms r).map cv⟩ := by
  have hne' : (compE ys ms r).map cv ≠ [] := by
    intro he
    have := congrArg List.length he
    rw [List.length_map, compE_length _ _ _ hl] at this
    exact hne (List.length_eq_zero_iff.1 this)
  obtain ⟨w, hw, ha, ha'⟩ := abs_cv h ((y2 * y3 ^ ((hash (intBytes (cv (γ ^ r)) ::
    ((compE ys ms r).map cv).map intBytes ++ [d]) : ℕ) : ℤ)) ^ r)
  refine ⟨w, _, rfl, hw, ha', ?_⟩
  unfold encryptWithR computeU
  simp only [gexp_cv h, Go.ok_bind]
  rw [computeE_cv h r ys ms hl, Go.ok_bind]
  rw [show List.zipWith (fun y m => y ^ r * eta n ^ m) ys ms = compE ys ms r from rfl]
  rw [groupHash_ok _ _ _ _ hne', Go.ok_bind, (computeV_cv h _ _ _ _ _).2, ha]
  rfl

theorem decryptLoop_cv (h : Valid G n γ) (r : ℤ) : ∀ (xs ms : List ℤ), ms.length ≤ xs.length →
    decryptLoop G (cv (γ ^ r)) xs ((compE (xs.map fun x => γ ^ x) ms r).map cv) =
      .ok (ms.map (· % (n : ℤ)))
  | xs, [], _ => by cases xs <;> simp [compE, decryptLoop]
  | [], _ :: _, hl => by simp at hl
  | x :: xs, m :: ms, hl => by
    have hp : (0 : ℤ) < ((n * n : ℕ) : ℤ) := by exact_mod_cast h.pos
    have hn1 : (1 : ℤ) < n := by exact_mod_cast h.one_lt
    have hz : NeZero (n * n) := ⟨h.pos.ne'⟩
    obtain ⟨fn, -, fn2, -, -, t, ft⟩ := h.fields
    have ih := decryptLoop_cv h r xs ms (by simpa using hl)
    simp only [compE, List.map_cons, List.zipWith_cons_cons] at ih ⊢
    simp only [decryptLoop, exp_cv h, inv_cv h, mul_cv h, Go.ok_bind]
    have hq : ((γ ^ x) ^ r * eta n ^ m * ((γ ^ r) ^ x)⁻¹) ^ G.twoInvTwo = eta n ^ m := by
      rw [← zpow_mul, ← zpow_mul, mul_comm x r, mul_comm (γ ^ (r * x)), mul_assoc, mul_inv_cancel,
        mul_one, ← zpow_mul, ft]
      exact eta_zpow_eq ⟨m * t, by ring⟩
    rw [hq]
    unfold Big.mod
    rw [fn, if_neg (by omega), Go.ok_bind, fn2, if_neg hp.ne', Go.ok_bind,
      Int.emod_eq_of_lt (cv_nonneg _) (cv_lt _), ih]
    have hc := cv_eta h m
    rw [hc, Go.guard_true (by rw [Int.add_mul_emod_self_right]; exact Int.emod_eq_of_lt (by norm_num) hn1)]
    simp only [Go.ok_bind]
    congr 2
    rw [add_sub_cancel_left, Int.mul_ediv_cancel _ (by omega)]

theorem decrypt_cv (hash : List Bytes → ℕ) (h : Valid G n γ) (dk : DecKey) (hg : dk.group = G) (d : Bytes)
    (μ w : (ZMod (n * n))ˣ) (es : List (ZMod (n * n))ˣ) (hl : es.length ≤ dk.x1.length) (hne : es ≠ [])
    (habs : G.abs (cv w) = .ok (cv w)) :
    decrypt hash dk (some d) (some ⟨cv μ, cv w, es.map cv⟩) =
      if μ ^ (((hash (intBytes (cv μ) :: (es.map cv).map intBytes ++ [d]) : ℤ) * dk.x3 + dk.x2) * 2) =
        w ^ (2 : ℤ) then decryptLoop G (cv μ) dk.x1 (es.map cv) else .error .error := by
  have hz : NeZero (n * n) := ⟨h.pos.ne'⟩
  unfold decrypt
  simp only [Go.ofOption, Go.ok_bind]
  rw [Go.guard_true (by simpa using hl), Go.ok_bind,
    Go.guard_true (by simp [cv_ne_zero h]), Go.ok_bind,
    Go.guard_true (by
      intro e he
      obtain ⟨w', -, rfl⟩ := List.mem_map.1 he
      exact cv_ne_zero h w'), Go.ok_bind, hg, habs, Go.ok_bind, Go.guard_true rfl, Go.ok_bind,
    groupHash_ok _ _ _ _ (by simpa using hne), Go.ok_bind, exp_cv h, Go.ok_bind, exp_cv h, Go.ok_bind]
  split
  · rename_i he
    rw [Go.guard_true (by rw [he]), Go.ok_bind]
  · rename_i he
    rw [Go.guard_false (fun hc => he (cv_inj hc))]
    rfl

/-- Decryption inverts encryption for every decryption key, label and randomness: each message comes back
modulo `n`, so messages in `[0, n)` come back unchanged, `n` itself (which is accepted) comes back as
zero and a negative one as `n` plus it. -/
theorem C84_roundtrip (hash : List Bytes → ℕ) (h : Valid G n γ) (dk : DecKey) (hg : dk.group = G) (d : Bytes)
    (ms : List ℤ) (r : ℤ) (hl : ms.length ≤ dk.x1.length) (hne : ms ≠ []) (hm : ∀ m ∈ ms, m ≤ n) :
    ∃ ek ct, dk.encKey = .ok ek ∧ encrypt hash ek (some d) (ms.map some) r = .ok ct ∧
      decrypt hash dk (some d) (some ct) = .ok (ms.map (· % (n : ℤ))) ∧
      ((∀ m ∈ ms, 0 ≤ m ∧ m < n) → decrypt hash dk (some d) (some ct) = .ok ms) := by
  obtain ⟨w, hs, hhs, hw, ha, hct⟩ := encryptWithR_cv hash h (dk.x1.map fun x => γ ^ x) (γ ^ dk.x2)
    (γ ^ dk.x3) d ms r (by simpa using hl) hne
  have hmod : (∀ m ∈ ms, 0 ≤ m ∧ m < (n : ℤ)) → ms.map (· % (n : ℤ)) = ms := by
    intro hh
    conv_rhs => rw [← List.map_id ms]
    apply List.map_congr_left
    intro m hm
    exact Int.emod_eq_of_lt (hh m hm).1 (hh m hm).2
  have hdec : decrypt hash dk (some d) (some ⟨cv (γ ^ r), cv w,
      (compE (dk.x1.map fun x => γ ^ x) ms r).map cv⟩) = .ok (ms.map (· % (n : ℤ))) := by
    rw [decrypt_cv hash h dk hg d (γ ^ r) w _ (by rw [compE_length _ _ _ (by simpa using hl)]; exact hl)
      (by
        intro he
        have := congrArg List.length he
        rw [compE_length _ _ _ (by simpa using hl)] at this
        exact hne (List.length_eq_zero_iff.1 this)) ha, if_pos]
    · exact decryptLoop_cv h r dk.x1 ms hl
    · rw [← hhs]
      have hw2 : w ^ (2 : ℤ) = ((γ ^ dk.x2 * (γ ^ dk.x3) ^ hs) ^ r) ^ (2 : ℤ) := by
        rcases hw with rfl | rfl
        · rfl
        · rw [zpow_two, zpow_two, neg_mul_neg]
      rw [hw2]
      simp only [← zpow_mul, ← zpow_add]
      congr 1
      ring
  refine ⟨_, _, encKey_cv h dk hg, ?_, hdec, fun hh => by rw [hdec, hmod hh]⟩
  unfold encrypt
  rw [Go.guard_true (by simpa using hl), Go.ok_bind]
  rw [mapM_ok _ (fun m => m.getD 0) (ms.map some) (by
    intro o ho
    obtain ⟨m, hm', rfl⟩ := List.mem_map.1 ho
    simp only [Go.ofOption, Go.ok_bind, Option.getD_some]
    rw [Go.guard_true (by rw [h.fields.1]; exact not_lt.2 (hm m hm'))]
    rfl), Go.ok_bind]
  rw [show (ms.map some).map (fun m : Option ℤ => m.getD 0) = ms by
    rw [List.map_map]; exact List.map_id ms]
  exact hct

/-- `Encrypt` refuses too many messages, nil messages, messages greater than `n`, an empty list and a nil
label. -/
theorem C84_encrypt_refuses (hash : List Bytes → ℕ) (ek : EncKey) (domain : Option Bytes)
    (ms : List (Option ℤ)) (r : ℤ) (ct : CipherText) (h : encrypt hash ek domain ms r = .ok ct) :
    ms ≠ [] ∧ ms.length ≤ ek.y1.length ∧ domain ≠ none ∧ ∀ o ∈ ms, ∃ m, o = some m ∧ m ≤ ek.group.n := by
  unfold encrypt at h
  obtain ⟨hl, h⟩ := Go.guard_bind_eq_ok.1 h
  obtain ⟨ms', hms, h⟩ := Go.bind_eq_ok.1 h
  have hf := Go.mapM_eq_ok.1 hms
  unfold encryptWithR at h
  obtain ⟨u, -, h⟩ := Go.bind_eq_ok.1 h
  obtain ⟨e, he, h⟩ := Go.bind_eq_ok.1 h
  obtain ⟨hs, hhs, h⟩ := Go.bind_eq_ok.1 h
  unfold groupHash at hhs
  obtain ⟨hne, hhs⟩ := Go.guard_bind_eq_ok.1 hhs
  obtain ⟨d, hd, -⟩ := Go.bind_eq_ok.1 hhs
  refine ⟨?_, by omega, by rw [Go.ofOption_eq_ok.1 hd]; simp, ?_⟩
  · rintro rfl
    cases hf
    cases hy : ek.y1 <;> rw [hy] at he <;> cases he <;> exact hne rfl
  · intro o ho
    have : ∀ (l : List (Option ℤ)) (l' : List ℤ), List.Forall₂ (fun (a : Option ℤ) b => (do
        let m ← Go.ofOption a
        Go.guard (¬ (m > ek.group.n))
        .ok m : Go ℤ) = .ok b) l l' → ∀ o ∈ l, ∃ m, o = some m ∧ m ≤ ek.group.n := by
      intro l l' hl
      induction hl with
      | nil => simp
      | cons hab _ ih =>
        intro o ho
        rcases List.mem_cons.1 ho with rfl | ho
        · obtain ⟨m, hm, hab⟩ := Go.bind_eq_ok.1 hab
          obtain ⟨hle, -⟩ := Go.guard_bind_eq_ok.1 hab
          exact ⟨m, Go.ofOption_eq_ok.1 hm, not_lt.1 hle⟩
        · exact ih o ho
    exact this _ _ hf o ho

/-- A ciphertext made for one label decrypts under another one exactly when the two hashes act alike:
`g^(2·r·x3·(hs' - hs)) = 1`; otherwise it is refused. -/
theorem C84_label (hash : List Bytes → ℕ) (h : Valid G n γ) (dk : DecKey) (hg : dk.group = G) (d d' : Bytes)
    (ms : List ℤ) (r : ℤ) (hl : ms.length ≤ dk.x1.length) (hne : ms ≠ []) (ek : EncKey) (ct : CipherText)
    (hek : dk.encKey = .ok ek) (hct : encryptWithR hash ek (some d) ms r = .ok ct) :
    decrypt hash dk (some d') (some ct) =
      if γ ^ (2 * r * dk.x3 * ((hash (intBytes ct.u :: ct.e.map intBytes ++ [d']) : ℤ) -
        hash (intBytes ct.u :: ct.e.map intBytes ++ [d]))) = 1 then .ok (ms.map (· % (n : ℤ)))
      else .error .error := by
  rw [encKey_cv h dk hg] at hek
  cases hek
  obtain ⟨w, hs, hhs, hw, ha, hct'⟩ := encryptWithR_cv hash h (dk.x1.map fun x => γ ^ x) (γ ^ dk.x2)
    (γ ^ dk.x3) d ms r (by simpa using hl) hne
  rw [hct'] at hct
  cases hct
  rw [decrypt_cv hash h dk hg d' (γ ^ r) w _ (by rw [compE_length _ _ _ (by simpa using hl)]; exact hl)
      (by
        intro he
        have := congrArg List.length he
        rw [compE_length _ _ _ (by simpa using hl)] at this
        exact hne (List.length_eq_zero_iff.1 this)) ha, decryptLoop_cv h r dk.x1 ms hl]
  have hw2 : w ^ (2 : ℤ) = γ ^ ((hs * dk.x3 + dk.x2) * r * 2) := by
    have : w ^ (2 : ℤ) = ((γ ^ dk.x2 * (γ ^ dk.x3) ^ hs) ^ r) ^ (2 : ℤ) := by
      rcases hw with rfl | rfl
      · rfl
      · rw [zpow_two, zpow_two, neg_mul_neg]
    rw [this]
    simp only [← zpow_mul, ← zpow_add]
    congr 1
    ring
  simp only [← hhs]
  rw [hw2]
  generalize ((hash _ : ℕ) : ℤ) = hs'
  have : ((γ ^ r) ^ ((hs' * dk.x3 + dk.x2) * 2) = γ ^ ((hs * dk.x3 + dk.x2) * r * 2)) ↔
      γ ^ (2 * r * dk.x3 * (hs' - hs)) = 1 := by
    rw [← zpow_mul, ← div_eq_one, div_eq_mul_inv, ← zpow_sub]
    have : r * ((hs' * dk.x3 + dk.x2) * 2) - (hs * dk.x3 + dk.x2) * r * 2 =
        2 * r * dk.x3 * (hs' - hs) := by ring
    rw [this]
  exact if_congr this rfl rfl

theorem decryptLoop_sound (h : Valid G n γ) (u : ℤ) (μ : (ZMod (n * n))ˣ) (hu : (u : ZMod (n * n)) = μ)
    (hx : 0 ≤ G.twoInvTwo) (xs es ms : List ℤ) (hd : decryptLoop G u xs es = .ok ms) :
    List.Forall₂ (fun xe m => 0 ≤ m ∧ m < (n : ℤ) ∧
      ((xe.2 : ZMod (n * n)) * ((μ ^ (-xe.1) : (ZMod (n * n))ˣ) : ZMod (n * n))) ^ G.twoInvTwo.toNat =
        1 + m * n) (xs.zip es) ms := by
  have hz : NeZero (n * n) := ⟨h.pos.ne'⟩
  have hp : (0 : ℤ) < ((n * n : ℕ) : ℤ) := by exact_mod_cast h.pos
  have hn1 : (1 : ℤ) < n := by exact_mod_cast h.one_lt
  obtain ⟨fn, -, fn2, -, -, -⟩ := h.fields
  induction xs generalizing es ms with
  | nil =>
    cases es with
    | nil => cases hd; exact .nil
    | cons e es => cases hd
  | cons x xs ih =>
    cases es with
    | nil => cases hd; exact .nil
    | cons e es =>
      simp only [decryptLoop] at hd
      rw [exp_of_cast h hu] at hd
      simp only [Go.ok_bind, inv_cv h] at hd
      obtain ⟨q, hq, hd⟩ := Go.bind_eq_ok.1 hd
      obtain ⟨mh, hmh, hd⟩ := Go.bind_eq_ok.1 hd
      obtain ⟨t, ht, hd⟩ := Go.bind_eq_ok.1 hd
      obtain ⟨ht1, hd⟩ := Go.guard_bind_eq_ok.1 hd
      obtain ⟨m, hm, hd⟩ := Go.bind_eq_ok.1 hd
      obtain ⟨ms', hms, hd⟩ := Go.bind_eq_ok.1 hd
      cases hd
      refine .cons ?_ (ih _ _ hms)
      unfold Group.mul Big.mod at hq
      rw [fn2, if_neg hp.ne'] at hq
      cases hq
      obtain ⟨r, hr, h0, h1, hc⟩ := Big.exp_nonneg (x := (e * cv (μ ^ x)⁻¹) % ((n * n : ℕ) : ℤ))
        (y := G.twoInvTwo) h.pos hx
      unfold Group.exp at hmh
      rw [fn2, hr] at hmh
      cases hmh
      unfold Big.mod at ht hm
      rw [fn, if_neg (by omega)] at ht
      rw [fn2, if_neg hp.ne', Int.emod_eq_of_lt h0 h1] at hm
      cases ht
      cases hm
      rw [fn]
      have hdiv := Int.emod_add_mul_ediv mh n
      rw [ht1] at hdiv
      have hquot : (mh - 1) / n = mh / n := by
        rw [← hdiv, add_sub_cancel_left, Int.mul_ediv_cancel_left _ (by omega), hdiv]
      rw [hquot]
      refine ⟨Int.ediv_nonneg h0 (by omega), ?_, ?_⟩
      · rw [Int.ediv_lt_iff_lt_mul (by omega)]
        push_cast at h1
        exact h1
      · rw [ZMod.intCast_mod] at hc
        push_cast at hc
        rw [cv_cast] at hc
        rw [zpow_neg, ← hc]
        conv_lhs => rw [← hdiv]
        push_cast
        ring

/-- What an accepted ciphertext satisfies, whoever made it (for an invertible `u`): `v` is the canonical square
root, and every message lies in `[0, n)` with `(e/u^x)^(2t) = 1 + m·n`. -/
theorem C84_decrypt_sound (hash : List Bytes → ℕ) (h : Valid G n γ) (dk : DecKey) (hg : dk.group = G)
    (d : Bytes) (ct : CipherText) (μ : (ZMod (n * n))ˣ) (hu : (ct.u : ZMod (n * n)) = μ) (ms : List ℤ)
    (hx : 0 ≤ G.twoInvTwo) (hd : decrypt hash dk (some d) (some ct) = .ok ms) :
    (ct.v : ZMod (n * n)) ^ 2 = ((μ ^ (((hash (intBytes ct.u :: ct.e.map intBytes ++ [d]) : ℤ) * dk.x3 +
      dk.x2) * 2) : (ZMod (n * n))ˣ) : ZMod (n * n)) ∧
    ct.e.length ≤ dk.x1.length ∧
    List.Forall₂ (fun xe m => 0 ≤ m ∧ m < (n : ℤ) ∧
      ((xe.2 : ZMod (n * n)) * ((μ ^ (-xe.1) : (ZMod (n * n))ˣ) : ZMod (n * n))) ^ G.twoInvTwo.toNat =
        1 + m * n) (dk.x1.zip ct.e) ms := by
  have hz : NeZero (n * n) := ⟨h.pos.ne'⟩
  have hp : (0 : ℤ) < ((n * n : ℕ) : ℤ) := by exact_mod_cast h.pos
  have hn1 : (1 : ℤ) < n := by exact_mod_cast h.one_lt
  obtain ⟨fn, -, fn2, -, -, -⟩ := h.fields
  unfold decrypt at hd
  simp only [Go.ofOption, Go.ok_bind] at hd
  obtain ⟨hl, hd⟩ := Go.guard_bind_eq_ok.1 hd
  obtain ⟨-, hd⟩ := Go.guard_bind_eq_ok.1 hd
  obtain ⟨-, hd⟩ := Go.guard_bind_eq_ok.1 hd
  obtain ⟨a, -, hd⟩ := Go.bind_eq_ok.1 hd
  obtain ⟨-, hd⟩ := Go.guard_bind_eq_ok.1 hd
  obtain ⟨hs, hhs, hd⟩ := Go.bind_eq_ok.1 hd
  obtain ⟨us, hus, hd⟩ := Go.bind_eq_ok.1 hd
  obtain ⟨vs, hvs, hd⟩ := Go.bind_eq_ok.1 hd
  obtain ⟨huv, hfin⟩ := Go.guard_bind_eq_ok.1 hd
  have hne : ct.e ≠ [] := by
    unfold groupHash at hhs
    exact (Go.guard_bind_eq_ok.1 hhs).1
  rw [groupHash_ok _ _ _ _ hne] at hhs
  cases hhs
  rw [hg] at hus hvs hfin
  rw [exp_of_cast h hu] at hus
  refine ⟨?_, by omega, ?_⟩
  · obtain ⟨r, hr, h0, h1, hc⟩ := Big.exp_nonneg (x := ct.v) (y := 2) h.pos (by norm_num)
    unfold Group.exp at hvs
    rw [fn2, hr] at hvs
    cases hvs
    cases hus
    rw [← huv, cv_cast] at hc
    rw [hc]
    rfl
  · exact decryptLoop_sound h ct.u μ hu hx dk.x1 ct.e ms hfin

/-! ## Proofs of encryption -/

/-- The steps of `EncryptAndProveBlindings` for a ciphertext with further components `extra` that no message
stands behind.  With `extra = []` this is the honest prover. -/
def proveFor (hash : List Bytes → ℕ) (ek : EncKey) (d : Bytes) (bms : List (ℤ × ℤ)) (extra : List ℤ)
    (r rB : ℤ) : Go (CipherText × Proof) := do
  let u ← computeU ek.group r
  let e0 ← computeE ek.group ek.y1 (bms.map Prod.snd) r
  let e := e0 ++ extra
  let hs ← groupHash hash u e (some d)
  let v ← computeV ek r hs true
  let ct : CipherText := ⟨u, v, e⟩
  let t ← ciphertextTestValues ek rB hs (bms.map Prod.fst)
  let c ← fiatShamir hash ek (some d) ct t
  let rHat ← schnorr ek.group rB c r
  let mHat ← schnorrs ek.group c bms
  .ok (ct, ⟨c, rHat, mHat⟩)

theorem schnorr_ok (h : Valid G n γ) (b c m : ℤ) :
    schnorr G b c m = .ok (b - c * m % ((n * n : ℕ) : ℤ)) := by
  have hp : (0 : ℤ) < ((n * n : ℕ) : ℤ) := by exact_mod_cast h.pos
  unfold schnorr Group.mul Big.mod
  rw [h.fields.2.2.1, if_neg hp.ne']
  rfl

theorem schnorrs_ok (h : Valid G n γ) (c : ℤ) (bms : List (ℤ × ℤ)) :
    schnorrs G c bms = .ok (bms.map fun bm => bm.1 - c * bm.2 % ((n * n : ℕ) : ℤ)) :=
  mapM_ok _ _ _ fun _ _ => schnorr_ok h _ _ _

theorem rebuild_list (c r rB rH : ℤ) (hr : r * (c * 2) + rH * 2 = rB * 2) :
    ∀ (ys : List (ZMod (n * n))ˣ) (bms : List (ℤ × ℤ)),
    List.zipWith (fun (ye : (ZMod (n * n))ˣ × (ZMod (n * n))ˣ) m =>
        ye.2 ^ (c * 2) * ye.1 ^ (rH * 2) * eta n ^ (m * 2)) (ys.zip (compE ys (bms.map Prod.snd) r))
        (bms.map fun bm => bm.1 - c * bm.2 % ((n * n : ℕ) : ℤ)) =
      compE ys ((bms.map Prod.fst).map (· * 2)) (rB * 2)
  | [], _ => by simp [compE]
  | _ :: _, [] => by simp [compE]
  | y :: ys, bm :: bms => by
    have ih := rebuild_list c r rB rH hr ys bms
    simp only [compE, List.map_cons, List.zipWith_cons_cons, List.zip_cons_cons] at ih ⊢
    rw [ih]
    congr 1
    rw [mul_zpow, ← zpow_mul, ← zpow_mul]
    have e1 : y ^ (rB * 2) = y ^ (r * (c * 2)) * y ^ (rH * 2) := by rw [← zpow_add, hr]
    have e2 : eta n ^ (bm.1 * 2) =
        eta n ^ (bm.2 * (c * 2)) * eta n ^ ((bm.1 - c * bm.2 % ((n * n : ℕ) : ℤ)) * 2) := by
      rw [← zpow_add]
      apply eta_zpow_eq
      refine ⟨-(n * (c * bm.2 / ((n * n : ℕ) : ℤ)) * 2), ?_⟩
      have := Int.emod_add_mul_ediv (c * bm.2) ((n * n : ℕ) : ℤ)
      have h2 : (((n * n : ℕ) : ℤ)) = n * n := by push_cast; ring
      generalize c * bm.2 / ((n * n : ℕ) : ℤ) = qq at *
      generalize c * bm.2 % ((n * n : ℕ) : ℤ) = rr at *
      rw [h2] at this
      linear_combination (2 : ℤ) * this
    rw [e1, e2]
    simp only [mul_assoc, mul_left_comm, mul_comm]

/-- The prover's output is accepted, whatever the additional components are, provided that the
product of challenge and randomness is not truncated modulo `n²`. -/
theorem proveFor_verifies (hash : List Bytes → ℕ) (h : Valid G n γ) (ys : List (ZMod (n * n))ˣ)
    (y2 y3 : (ZMod (n * n))ˣ) (d : Bytes) (bms : List (ℤ × ℤ)) (extra : List ℤ) (r rB : ℤ)
    (hl : bms.length ≤ ys.length) (hne : bms ≠ [] ∨ extra ≠ []) (hr : 0 ≤ r)
    (hc : ∀ l, (hash l : ℤ) * r < n * n) :
    ∃ ct pf w, proveFor hash ⟨ys.map cv, cv y2, cv y3, G⟩ d bms extra r rB = .ok (ct, pf) ∧
      verifyProof hash ⟨ys.map cv, cv y2, cv y3, G⟩ (some d) (some ct) (some pf) = .ok () ∧
      ct = ⟨cv (γ ^ r), w, (compE ys (bms.map Prod.snd) r).map cv ++ extra⟩ ∧ pf.m.length = bms.length := by
  have hz : NeZero (n * n) := ⟨h.pos.ne'⟩
  have hp : (0 : ℤ) < ((n * n : ℕ) : ℤ) := by exact_mod_cast h.pos
  have hlen : (compE ys (bms.map Prod.snd) r).length = bms.length := by
    rw [compE_length _ _ _ (by simpa using hl)]; simp
  have hne' : (compE ys (bms.map Prod.snd) r).map cv ++ extra ≠ [] := by
    intro he
    obtain ⟨h1, h2⟩ := List.append_eq_nil_iff.1 he
    rcases hne with hne | hne
    · have := congrArg List.length h1
      rw [List.length_map, hlen] at this
      exact hne (List.length_eq_zero_iff.1 this)
    · exact hne h2
  -- the prover
  generalize hhs : ((hash (intBytes (cv (γ ^ r)) ::
    ((compE ys (bms.map Prod.snd) r).map cv ++ extra).map intBytes ++ [d]) : ℕ) : ℤ) = hs
  obtain ⟨w, hw, ha, -⟩ := abs_cv h ((y2 * y3 ^ hs) ^ r)
  have hgh : groupHash hash (cv (γ ^ r)) ((compE ys (bms.map Prod.snd) r).map cv ++ extra) (some d) =
      .ok hs := by rw [groupHash_ok _ _ _ _ hne', hhs]
  have hE : computeE G (ys.map cv) (bms.map Prod.snd) r =
      .ok ((compE ys (bms.map Prod.snd) r).map cv) := computeE_cv h r ys _ (by simpa using hl)
  have hT : ciphertextTestValues ⟨ys.map cv, cv y2, cv y3, G⟩ rB hs (bms.map Prod.fst) =
      .ok ⟨cv (γ ^ (rB * 2)), cv ((y2 * y3 ^ hs) ^ (rB * 2)),
        (compE ys ((bms.map Prod.fst).map (· * 2)) (rB * 2)).map cv⟩ := by
    unfold ciphertextTestValues computeU
    simp only [gexp_cv h, Go.ok_bind]
    rw [computeE_cv h (rB * 2) ys _ (by simpa using hl), Go.ok_bind, (computeV_cv h _ _ _ _ _).1]
    rfl
  have hFS : ∀ t, ∃ c : ℕ, (∃ l, c = hash l) ∧ fiatShamir hash ⟨ys.map cv, cv y2, cv y3, G⟩ (some d)
      ⟨cv (γ ^ r), cv w, (compE ys (bms.map Prod.snd) r).map cv ++ extra⟩ t = .ok (c : ℤ) := by
    intro t
    exact ⟨_, ⟨_, rfl⟩, rfl⟩
  obtain ⟨c, ⟨l, hcl⟩, hfs⟩ := hFS ⟨cv (γ ^ (rB * 2)), cv ((y2 * y3 ^ hs) ^ (rB * 2)),
        (compE ys ((bms.map Prod.fst).map (· * 2)) (rB * 2)).map cv⟩
  have hcr : (c : ℤ) * r % ((n * n : ℕ) : ℤ) = c * r := by
    apply Int.emod_eq_of_lt (by positivity)
    have := hc l
    rw [← hcl] at this
    push_cast
    exact this
  refine ⟨_, ⟨c, rB - c * r, bms.map fun bm => bm.1 - c * bm.2 % ((n * n : ℕ) : ℤ)⟩, cv w, ?_, ?_, rfl, ?_⟩
  · unfold proveFor computeU
    simp only [gexp_cv h, Go.ok_bind]
    rw [hE, Go.ok_bind, hgh, Go.ok_bind, (computeV_cv h _ _ _ _ _).2, ha, Go.ok_bind, hT, Go.ok_bind,
      hfs, Go.ok_bind, schnorr_ok h, Go.ok_bind, schnorrs_ok h, Go.ok_bind, hcr]
  · unfold verifyProof
    simp only [Go.ofOption, Go.ok_bind]
    rw [Go.guard_true (by simpa using hl), Go.ok_bind]
    simp only [exp_cv h, gexp_cv h, mul_cv h, Go.ok_bind]
    rw [rebuildE_cv h _ _ ys (compE ys (bms.map Prod.snd) r) _ extra (by simpa using hl)
      (by rw [hlen]; simp), Go.ok_bind, hgh, Go.ok_bind]
    rw [rebuild_list c r rB (rB - c * r) (by ring)]
    have eu : (γ ^ r) ^ ((c : ℤ) * 2) * γ ^ ((rB - c * r) * 2) = γ ^ (rB * 2) := by
      rw [← zpow_mul, ← zpow_add]; congr 1; ring
    have ev : w ^ ((c : ℤ) * 2) * (y2 * y3 ^ hs) ^ ((rB - c * r) * 2) = (y2 * y3 ^ hs) ^ (rB * 2) := by
      have hw2 : w ^ ((c : ℤ) * 2) = ((y2 * y3 ^ hs) ^ r) ^ ((c : ℤ) * 2) := by
        rw [mul_comm (c : ℤ) 2, zpow_mul, zpow_mul]
        congr 1
        rcases hw with rfl | rfl
        · rfl
        · rw [zpow_two, zpow_two, neg_mul_neg]
      rw [hw2, ← zpow_mul, ← zpow_add]; congr 1; ring
    rw [eu, ev, hfs, Go.ok_bind]
    exact Go.guard_true rfl
  · simp

theorem checkArgs_ok (bms : List (ℤ × ℤ)) (hb : ∀ bm ∈ bms, bm.1 ≠ 0) :
    ((bms.map fun bm => some bm.1).zip (bms.map fun bm => some bm.2)).mapM checkArg = .ok bms := by
  induction bms with
  | nil => rfl
  | cons a l ih =>
    simp only [List.map_cons, List.zip_cons_cons, List.mapM_cons]
    rw [ih (fun bm hbm => hb bm (by simp [hbm]))]
    simp only [checkArg, Go.ofOption, Go.ok_bind]
    rw [Go.guard_true (hb a (by simp))]
    rfl

theorem encryptAndProve_eq (hash : List Bytes → ℕ) (ek : EncKey) (d : Bytes) (bms : List (ℤ × ℤ)) (r rB : ℤ)
    (hl : bms.length ≤ ek.y1.length) (hb : ∀ bm ∈ bms, bm.1 ≠ 0) :
    encryptAndProve hash ek (some d) (bms.map fun bm => some bm.2) (bms.map fun bm => some bm.1) r rB =
      proveFor hash ek d bms [] r rB := by
  unfold encryptAndProve proveFor encryptWithR
  rw [Go.guard_true (by simp), Go.ok_bind, Go.guard_true (by simpa using hl), Go.ok_bind,
    checkArgs_ok bms hb, Go.ok_bind]
  cases hu : computeU ek.group r with
  | error e => rfl
  | ok u =>
    simp only [Go.ok_bind]
    cases he : computeE ek.group ek.y1 (bms.map Prod.snd) r with
    | error e => rfl
    | ok e =>
      simp only [Go.ok_bind, List.append_nil]
      cases hh : groupHash hash u e (some d) with
      | error e => rfl
      | ok hs =>
        simp only [Go.ok_bind]
        cases hv : computeV ek r hs true with
        | error e => rfl
        | ok v =>
          simp only [Go.ok_bind, hh]

/-- Honest proofs are accepted: for every key with invertible components, every list of messages (of any
size), non-zero blindings and randomness as `RandForEncrypt` returns it, when the challenge is smaller
than twice the modulus. -/
theorem C86_complete (hash : List Bytes → ℕ) (h : Valid G n γ) (ys : List (ZMod (n * n))ˣ)
    (y2 y3 : (ZMod (n * n))ˣ) (d : Bytes) (bms : List (ℤ × ℤ)) (r rB : ℤ) (hl : bms.length ≤ ys.length)
    (hne : bms ≠ []) (hb : ∀ bm ∈ bms, bm.1 ≠ 0) (hr : 0 ≤ r) (hr' : r < G.nd4)
    (hc : ∀ l, hash l < 2 * n) :
    ∃ ct pf, encryptAndProve hash ⟨ys.map cv, cv y2, cv y3, G⟩ (some d) (bms.map fun bm => some bm.2)
        (bms.map fun bm => some bm.1) r rB = .ok (ct, pf) ∧
      verifyProof hash ⟨ys.map cv, cv y2, cv y3, G⟩ (some d) (some ct) (some pf) = .ok () ∧
      encryptWithR hash ⟨ys.map cv, cv y2, cv y3, G⟩ (some d) (bms.map Prod.snd) r = .ok ct := by
  rw [h.fields.2.2.2.2.1] at hr'
  obtain ⟨ct, pf, w, h1, h2, -⟩ := proveFor_verifies hash h ys y2 y3 d bms [] r rB hl (.inl hne) hr (by
    intro l
    have h1 : (hash l : ℤ) < 2 * n := by exact_mod_cast hc l
    have h2 : 2 * r ≤ n := by omega
    have h3 : (0 : ℤ) ≤ hash l := by positivity
    have hn : (1 : ℤ) < n := by exact_mod_cast h.one_lt
    nlinarith)
  refine ⟨ct, pf, ?_, h2, ?_⟩
  · rw [encryptAndProve_eq _ _ _ _ _ _ (by simpa using hl) hb, h1]
  · rw [← encryptAndProve_eq _ _ _ _ _ _ (by simpa using hl) hb] at h1
    unfold encryptAndProve at h1
    obtain ⟨-, h1⟩ := Go.guard_bind_eq_ok.1 h1
    obtain ⟨-, h1⟩ := Go.guard_bind_eq_ok.1 h1
    rw [checkArgs_ok bms hb, Go.ok_bind] at h1
    obtain ⟨ct', hct, h1⟩ := Go.bind_eq_ok.1 h1
    obtain ⟨_, -, h1⟩ := Go.bind_eq_ok.1 h1
    obtain ⟨_, -, h1⟩ := Go.bind_eq_ok.1 h1
    obtain ⟨_, -, h1⟩ := Go.bind_eq_ok.1 h1
    obtain ⟨_, -, h1⟩ := Go.bind_eq_ok.1 h1
    obtain ⟨_, -, h1⟩ := Go.bind_eq_ok.1 h1
    cases h1
    exact hct

/-- The proof does not bind the number of components: for any messages (even none) the prover can append
arbitrary components that are nowhere proved, and the result is accepted.  With a zero among
them the holder of the decryption key gets nothing. -/
theorem C107_uncovered (hash : List Bytes → ℕ) (h : Valid G n γ) (dk : DecKey) (hg : dk.group = G) (d : Bytes)
    (bms : List (ℤ × ℤ)) (extra : List ℤ) (r rB : ℤ) (hl : bms.length ≤ dk.x1.length) (hx : extra ≠ [])
    (hr : 0 ≤ r) (hr' : r < G.nd4) (hc : ∀ l, hash l < 2 * n) :
    ∃ ek ct pf, dk.encKey = .ok ek ∧
      verifyProof hash ek (some d) (some ct) (some pf) = .ok () ∧
      ct.e.length = bms.length + extra.length ∧ extra <:+ ct.e ∧ pf.m.length = bms.length ∧
      (0 ∈ extra → decrypt hash dk (some d) (some ct) = .error .error) := by
  rw [h.fields.2.2.2.2.1] at hr'
  obtain ⟨ct, pf, w, h1, h2, h3, h4⟩ := proveFor_verifies hash h (dk.x1.map fun x => γ ^ x) (γ ^ dk.x2)
    (γ ^ dk.x3) d bms extra r rB (by simpa using hl) (.inr hx) hr (by
    intro l
    have h1 : (hash l : ℤ) < 2 * n := by exact_mod_cast hc l
    have h2 : 2 * r ≤ n := by omega
    have h3 : (0 : ℤ) ≤ hash l := by positivity
    have hn : (1 : ℤ) < n := by exact_mod_cast h.one_lt
    nlinarith)
  refine ⟨_, ct, pf, encKey_cv h dk hg, h2, ?_, ?_, h4, ?_⟩
  · rw [h3]
    simp only [List.length_append, List.length_map]
    rw [compE_length _ _ _ (by simpa using hl)]
    simp
  · rw [h3]; exact List.suffix_append _ _
  · intro h0
    have h0' : (0 : ℤ) ∈ ct.e := by
      rw [h3]; exact List.mem_append_right _ h0
    unfold decrypt
    simp only [Go.ofOption, Go.ok_bind]
    unfold Go.guard
    split
    · simp only [Go.ok_bind]
      split
      · simp only [Go.ok_bind]
        rw [if_neg (fun hh => hh 0 h0' rfl)]
        rfl
      · rfl
    · rfl

/-! ## Malformed inputs -/

/-- A ciphertext with `u = v = n` makes decryption panic for every key, label and components. -/
theorem C108_decrypt_panics (hash : List Bytes → ℕ) (h : Valid G n γ) (dk : DecKey) (hg : dk.group = G)
    (d : Bytes) (e : List ℤ) (hne : e ≠ []) (he : ∀ x ∈ e, x ≠ 0) (hl : e.length ≤ dk.x1.length)
    (hx1 : ∀ x ∈ dk.x1, 0 < x) (hx2 : 0 < dk.x2) (hx3 : 0 ≤ dk.x3) :
    decrypt hash dk (some d) (some ⟨n, n, e⟩) = .error .panic := by
  have hn1 : (1 : ℤ) < n := by exact_mod_cast h.one_lt
  have hp : (0 : ℤ) < ((n * n : ℕ) : ℤ) := by exact_mod_cast h.pos
  have hodd := h.odd
  have h3 : 3 ≤ n := by have := h.one_lt; omega
  obtain ⟨fn, -, fn2, fd, -, -⟩ := h.fields
  have hpow : ∀ k : ℕ, 2 ≤ k → (n : ℤ) ^ k % ((n * n : ℕ) : ℤ) = 0 := by
    intro k hk
    apply Int.emod_eq_zero_of_dvd
    rw [show ((n * n : ℕ) : ℤ) = (n : ℤ) ^ 2 by push_cast; ring]
    exact pow_dvd_pow _ hk
  have hexp : ∀ k : ℤ, 2 ≤ k → G.exp n k = .ok 0 := by
    intro k hk
    unfold Group.exp Big.exp
    rw [fn2, if_neg hp.ne', if_pos (by omega), hpow _ (by omega)]
  unfold decrypt
  simp only [Go.ofOption, Go.ok_bind]
  rw [Go.guard_true (by simpa using hl), Go.ok_bind, Go.guard_true (by omega), Go.ok_bind,
    Go.guard_true he, Go.ok_bind, hg]
  have habs : G.abs n = .ok (n : ℤ) := by
    unfold Group.abs Big.mod
    have hlt : (n : ℤ) < ((n * n : ℕ) : ℤ) := by push_cast; nlinarith
    rw [fn2, if_neg hp.ne', Int.emod_eq_of_lt (by omega) hlt, Go.ok_bind, fd, if_neg]
    have : n ≤ n * n / 2 := by
      rw [Nat.le_div_iff_mul_le (by norm_num)]; nlinarith
    push_cast
    omega
  rw [habs, Go.ok_bind, Go.guard_true rfl, Go.ok_bind, groupHash_ok _ _ _ _ hne, Go.ok_bind,
    hexp _ (by
      have : (0 : ℤ) ≤ (hash (intBytes (n : ℤ) :: e.map intBytes ++ [d]) : ℤ) * dk.x3 := by positivity
      omega), Go.ok_bind, hexp 2 (by norm_num), Go.ok_bind, Go.guard_true rfl, Go.ok_bind]
  cases hxs : dk.x1 with
  | nil =>
    rw [hxs] at hl
    exact absurd (List.length_eq_zero_iff.1 (Nat.le_zero.1 hl)) hne
  | cons x xs =>
    cases e with
    | nil => exact absurd rfl hne
    | cons e es =>
      have hx : 0 < x := hx1 x (by rw [hxs]; simp)
      simp only [decryptLoop]
      have h1 : G.exp n x = .ok ((n : ℤ) ^ x.toNat % ((n * n : ℕ) : ℤ)) := by
        unfold Group.exp Big.exp
        rw [fn2, if_neg hp.ne', if_pos (by omega)]
      rw [h1, Go.ok_bind]
      have h2 : G.inv ((n : ℤ) ^ x.toNat % ((n * n : ℕ) : ℤ)) = .error .panic := by
        unfold Group.inv
        rw [fn2]
        have : Big.modInverse ((n : ℤ) ^ x.toNat % ((n * n : ℕ) : ℤ)) ((n * n : ℕ) : ℤ) = none := by
          rw [Big.modInverse_eq_none]
          intro hgcd
          have d2 : (n : ℤ) ∣ ((n * n : ℕ) : ℤ) := by push_cast; exact Dvd.intro _ rfl
          have d1 : (n : ℤ) ∣ (n : ℤ) ^ x.toNat % ((n * n : ℕ) : ℤ) := by
            rw [Int.dvd_iff_emod_eq_zero, Int.emod_emod_of_dvd _ d2]
            exact Int.emod_eq_zero_of_dvd (dvd_pow_self _ (by omega))
          have := Int.dvd_coe_gcd d1 d2
          rw [hgcd] at this
          have := Int.le_of_dvd (by norm_num) this
          push_cast at this
          omega
        rw [this]
      rw [h2]
      rfl

theorem exp_panic (G : Group) (a y : ℤ) : (∃ r, G.exp a y = .ok r) ∨ G.exp a y = .error .panic := by
  unfold Group.exp
  cases Big.exp a y G.n2
  · exact .inr rfl
  · exact .inl ⟨_, rfl⟩

theorem mul_panic (G : Group) (a y : ℤ) : (∃ r, G.mul a y = .ok r) ∨ G.mul a y = .error .panic := by
  unfold Group.mul Big.mod
  split
  · exact .inr rfl
  · exact .inl ⟨_, rfl⟩

/-- A proof with more responses than the ciphertext has components makes verification panic. -/
theorem C108_verify_panics (hash : List Bytes → ℕ) (ek : EncKey) (nonce : Option Bytes) (ct : CipherText)
    (pf : Proof) (h1 : ct.e.length < pf.m.length) (h2 : pf.m.length ≤ ek.y1.length) :
    verifyProof hash ek nonce (some ct) (some pf) = .error .panic := by
  have key : ∀ (c2 r2 : ℤ) (ms ys es : List ℤ), es.length < ms.length → ms.length ≤ ys.length →
      rebuildE ek.group c2 r2 ys es ms = .error .panic := by
    intro c2 r2 ms
    induction ms with
    | nil => intro ys es h; simp at h
    | cons m ms ih =>
      intro ys es h h'
      cases ys with
      | nil => simp at h'
      | cons y ys =>
        cases es with
        | nil => rfl
        | cons e es =>
          simp only [rebuildE]
          rw [ih ys es (by simpa using h) (by simpa using h')]
          rcases exp_panic ek.group e c2 with ⟨a, ha⟩ | ha <;> rw [ha]
          · rcases exp_panic ek.group y r2 with ⟨b, hb⟩ | hb <;> rw [hb]
            · rcases exp_panic ek.group ek.group.h (m * 2) with ⟨c, hc⟩ | hc <;>
                simp only [Group.hexp, hc, Go.ok_bind]
              · rcases mul_panic ek.group a b with ⟨p, hp⟩ | hp <;> simp only [hp, Go.ok_bind]
                · rcases mul_panic ek.group p c with ⟨q, hq⟩ | hq <;> simp only [hq, Go.ok_bind] <;> rfl
                · rfl
              · rfl
            · rfl
          · rfl
  unfold verifyProof
  simp only [Go.ofOption, Go.ok_bind]
  rw [Go.guard_true (by omega), Go.ok_bind]
  rcases exp_panic ek.group ct.u (pf.challenge * 2) with ⟨a, ha⟩ | ha <;> rw [ha]
  · rcases exp_panic ek.group ek.group.g (pf.r * 2) with ⟨b, hb⟩ | hb <;>
      simp only [Group.gexp, hb, Go.ok_bind]
    · rcases mul_panic ek.group a b with ⟨p, hp⟩ | hp <;> simp only [hp, Go.ok_bind]
      · rw [key _ _ _ _ _ h1 h2]; rfl
      · rfl
    · rfl
  · rfl

/-! ## Responses -/

/-- Responses are not masked: the blindings are smaller than `n/2` but the masked product is
`challenge · message`.  Two messages that can lead to the same response for the same challenge differ
by less than `n/2` divided by the challenge, so the response gives away the leading bits of a large message. -/
theorem C109_response_leaks (h : Valid G n γ) (b b' c m m' s : ℤ) (hb : 0 ≤ b) (hb' : b < G.nd4)
    (hbb : 0 ≤ b') (hbb' : b' < G.nd4) (hm : 0 ≤ c * m) (hm1 : c * m < n * n) (hm' : 0 ≤ c * m')
    (hm1' : c * m' < n * n) (h1 : schnorr G b c m = .ok s) (h2 : schnorr G b' c m' = .ok s) :
    |c * (m - m')| < G.nd4 ∧ -s ≤ c * m ∧ c * m < -s + G.nd4 := by
  rw [schnorr_ok h, Int.emod_eq_of_lt hm (by push_cast; exact hm1)] at h1
  rw [schnorr_ok h, Int.emod_eq_of_lt hm' (by push_cast; exact hm1')] at h2
  have h1 := Except.ok.inj h1
  have h2 := Except.ok.inj h2
  rw [abs_lt, mul_sub]
  refine ⟨⟨by linarith, by linarith⟩, by linarith, by linarith⟩

/-! ## Serialization -/

theorem beNat_intBytes (z : ℤ) : ((beNat (intBytes z) : ℕ) : ℤ) = |z| := by
  rw [intBytes, beNat_natBytes]; exact Int.natCast_natAbs z

theorem map_beNat_intBytes (l : List ℤ) : (l.map intBytes).map (fun b => (beNat b : ℤ)) = l.map (|·|) := by
  rw [List.map_map]
  apply List.map_congr_left
  intro z _
  exact beNat_intBytes z

theorem map_abs_eq (l : List ℤ) : l.map (|·|) = l ↔ ∀ z ∈ l, 0 ≤ z := by
  induction l with
  | nil => simp
  | cons a l ih => simp [ih]

/-- A serialized proof comes back with the absolute values of its entries; it is unchanged exactly when none
is negative. -/
theorem C85_roundtrip (p : Proof) :
    Proof.unmarshal p.marshal = ⟨|p.challenge|, |p.r|, p.m.map (|·|)⟩ ∧
    (Proof.unmarshal p.marshal = p ↔ 0 ≤ p.challenge ∧ 0 ≤ p.r ∧ ∀ m ∈ p.m, 0 ≤ m) := by
  have h : Proof.unmarshal p.marshal = ⟨|p.challenge|, |p.r|, p.m.map (|·|)⟩ := by
    simp only [Proof.unmarshal, Proof.marshal, beNat_intBytes, map_beNat_intBytes]
  refine ⟨h, ?_⟩
  rw [h]
  obtain ⟨c, r, m⟩ := p
  simp only [Proof.mk.injEq, abs_eq_self, map_abs_eq]

/-- An honest response is negative, and so damaged by serialization, exactly when the blinding is smaller than the product of
challenge and secret. -/
theorem C85_negative (h : Valid G n γ) (b c m s : ℤ) (hm : 0 ≤ c * m) (hm1 : c * m < n * n)
    (h1 : schnorr G b c m = .ok s) : s < 0 ↔ b < c * m := by
  rw [schnorr_ok h, Int.emod_eq_of_lt hm (by push_cast; exact hm1)] at h1
  have h1 := Except.ok.inj h1
  rw [← h1]
  omega

/-- Ciphertexts and keys with non-negative entries survive serialization. -/
theorem C85_others (h : Valid G n γ) (hg0 : 0 ≤ G.g) (ct : CipherText) (ek : EncKey) (dk : DecKey)
    (hc : 0 ≤ ct.u ∧ 0 ≤ ct.v ∧ ∀ e ∈ ct.e, 0 ≤ e)
    (he : ek.group = G ∧ 0 ≤ ek.y2 ∧ 0 ≤ ek.y3 ∧ ∀ y ∈ ek.y1, 0 ≤ y)
    (hd : dk.group = G ∧ 0 ≤ dk.x2 ∧ 0 ≤ dk.x3 ∧ ∀ x ∈ dk.x1, 0 ≤ x) :
    CipherText.unmarshal ct.marshal = ct ∧ EncKey.unmarshal ek.marshal = .ok ek ∧
    DecKey.unmarshal dk.marshal = .ok dk := by
  have hG : Group.unmarshal G.marshal = .ok G := by
    unfold Group.unmarshal Group.marshal
    rw [beNat_intBytes, beNat_intBytes, abs_of_nonneg hg0, h.fields.1, abs_of_nonneg (by positivity)]
    exact h.made
  obtain ⟨u, v, e⟩ := ct
  obtain ⟨y1, y2, y3, Gk⟩ := ek
  obtain ⟨x1, x2, x3, Gd⟩ := dk
  obtain ⟨rfl, he⟩ := he
  obtain ⟨hd0, hd⟩ := hd
  simp only at hd0
  subst hd0
  simp only at hc he hd
  refine ⟨?_, ?_, ?_⟩
  · simp only [CipherText.unmarshal, CipherText.marshal, beNat_intBytes, map_beNat_intBytes,
      abs_of_nonneg hc.1, abs_of_nonneg hc.2.1, (map_abs_eq e).2 hc.2.2]
  · simp only [EncKey.unmarshal, EncKey.marshal, hG, Go.ok_bind, beNat_intBytes, map_beNat_intBytes,
      abs_of_nonneg he.1, abs_of_nonneg he.2.1, (map_abs_eq y1).2 he.2.2]
  · simp only [DecKey.unmarshal, DecKey.marshal, hG, Go.ok_bind, beNat_intBytes, map_beNat_intBytes,
      abs_of_nonneg hd.1, abs_of_nonneg hd.2.1, (map_abs_eq x1).2 hd.2.2]

/-! ## Examples -/

/-- a toy group: `n = 15`, `g = 4 = 2²` -/
def toyGroup : Group := ⟨4, 16, 15, 7, 112, 56, 225, 16⟩

def toyGamma : (ZMod (15 * 15))ˣ := ⟨4, 169, by decide +kernel, by decide +kernel⟩

theorem toyValid : Valid toyGroup 15 toyGamma where
  one_lt := by norm_num
  odd := rfl
  made := by decide +kernel
  g := by decide +kernel

/-- a toy hash smaller than `2n` -/
def toyHash (l : List Bytes) : ℕ := (l.map fun b => b.length + beNat b).sum % 29

def toyDec : DecKey := ⟨[3, 5], 7, 11, toyGroup⟩

/-- two messages, one of them the accepted boundary `n`, decrypt to themselves modulo `n` -/
example : (do
    let ek ← toyDec.encKey
    let ct ← encrypt toyHash ek (some [1]) [some 4, some 15] 5
    decrypt toyHash toyDec (some [1]) (some ct) : Go (List ℤ)) = .ok [4, 0] := by decide +kernel

/-- `2n` is refused -/
example : (do
    let ek ← toyDec.encKey
    encrypt toyHash ek (some [1]) [some 30] 5 : Go CipherText) = .error .error := by decide +kernel

/-- a proof with a negative response, accepted at once but refused after the round trip -/
example : (do
    let ek ← toyDec.encKey
    let p ← encryptAndProve toyHash ek (some [1]) [some 4, some 9] [some 2, some 3] 5 6
    verifyProof toyHash ek (some [1]) (some p.1) (some p.2)
    Go.guard (p.2.r < 0)
    .ok (verifyProof toyHash ek (some [1]) (some p.1) (some (Proof.unmarshal p.2.marshal))) :
      Go (Go Unit)) = .ok (.error .error) := by decide +kernel

/-- an accepted proof for no message at all, about a ciphertext with one undecryptable component -/
example : (do
    let ek ← toyDec.encKey
    let p ← proveFor toyHash ek [1] [] [0] 5 6
    verifyProof toyHash ek (some [1]) (some p.1) (some p.2)
    .ok (decrypt toyHash toyDec (some [1]) (some p.1)) :
      Go (Go (List ℤ))) = .ok (.error .error) := by decide +kernel

/-- panics -/
example : decrypt toyHash toyDec (some [1]) (some ⟨15, 15, [1]⟩) = .error .panic ∧
    mkGroup 14 3 = .error .panic := by decide +kernel

/-- the premises of `C86_complete` -/
example : (∀ l, toyHash l < 2 * 15) ∧ (5 : ℤ) < toyGroup.nd4 :=
  ⟨fun l => by have := Nat.mod_lt ((l.map fun b => b.length + beNat b).sum) (show 0 < 29 by norm_num)
               unfold toyHash; omega, by decide⟩

/-- `C109` with two messages and the same response -/
example : schnorr toyGroup 6 2 4 = .ok (-2) ∧ schnorr toyGroup 4 2 3 = .ok (-2) ∧
    |(2 : ℤ) * (4 - 3)| < toyGroup.nd4 := by decide +kernel

/-! ## Key generation and the binding of the challenge -/

/-- `NewKeys` refuses zero messages; otherwise it returns a decryption key with the drawn exponents
together with the encryption key that `EncryptionKey` computes from it. -/
theorem C84_newKeys (x1 : List ℤ) (x2 x3 : ℤ) (G : Group) (ek : EncKey) (dk : DecKey) :
    newKeys x1 x2 x3 G = .ok (ek, dk) ↔ x1 ≠ [] ∧ dk = ⟨x1, x2, x3, G⟩ ∧ dk.encKey = .ok ek := by
  unfold newKeys
  rw [Go.guard_bind_eq_ok]
  have h0 : ¬ x1.length < 1 ↔ x1 ≠ [] := by cases x1 <;> simp
  rw [h0]
  refine and_congr_right fun _ => ?_
  constructor
  · intro h
    obtain ⟨y1, h1, h⟩ := Go.bind_eq_ok.1 h
    obtain ⟨y2, h2, h⟩ := Go.bind_eq_ok.1 h
    obtain ⟨y3, h3, h⟩ := Go.bind_eq_ok.1 h
    cases h
    refine ⟨rfl, ?_⟩
    simp only [DecKey.encKey, h1, h2, h3, Go.ok_bind]
  · rintro ⟨rfl, h⟩
    unfold DecKey.encKey at h
    obtain ⟨y2, h2, h⟩ := Go.bind_eq_ok.1 h
    obtain ⟨y3, h3, h⟩ := Go.bind_eq_ok.1 h
    obtain ⟨y1, h1, h⟩ := Go.bind_eq_ok.1 h
    cases h
    simp only at h1 h2 h3
    simp only [h1, h2, h3, Go.ok_bind]

example : newKeys [3, 5] 7 11 toyGroup = (do let ek ← toyDec.encKey; .ok (ek, toyDec)) ∧
    (newKeys [3, 5] 7 11 toyGroup).isOk ∧ newKeys [] 7 11 toyGroup = .error .error := by
  decide +kernel

theorem intBytes_inj {x y : ℤ} (hx : 0 ≤ x) (hy : 0 ≤ y) (h : intBytes x = intBytes y) : x = y := by
  have := congrArg (fun b => ((beNat b : ℕ) : ℤ)) h
  simpa only [beNat_intBytes, abs_of_nonneg hx, abs_of_nonneg hy] using this

theorem map_intBytes_inj {l m : List ℤ} (hl : ∀ x ∈ l, 0 ≤ x) (hm : ∀ x ∈ m, 0 ≤ x)
    (h : l.map intBytes = m.map intBytes) : l = m := by
  have := congrArg (List.map fun b => ((beNat b : ℕ) : ℤ)) h
  rw [map_beNat_intBytes, map_beNat_intBytes] at this
  have e : ∀ l : List ℤ, (∀ x ∈ l, 0 ≤ x) → l.map (|·|) = l := by
    intro l hl
    exact (map_abs_eq l).2 hl
  rwa [e l hl, e m hm] at this

/-- all entries of a ciphertext are non-negative -/
def CipherText.Nonneg (c : CipherText) : Prop := 0 ≤ c.u ∧ 0 ≤ c.v ∧ ∀ x ∈ c.e, 0 ≤ x

/-- all entries of a key that enter the challenge are non-negative -/
def EncKey.Nonneg (k : EncKey) : Prop :=
  0 ≤ k.group.n ∧ 0 ≤ k.group.g ∧ 0 ≤ k.y2 ∧ 0 ≤ k.y3 ∧ ∀ x ∈ k.y1, 0 ≤ x

/-- what enters the challenge, in this order -/
def fsInput (ek : EncKey) (d : Bytes) (ct t : CipherText) : List Bytes :=
  ([ek.group.n, ek.group.g, ek.y2, ek.y3] ++ ek.y1 ++ [ct.u] ++ ct.e ++ [ct.v, t.u] ++ t.e ++ [t.v]).map intBytes ++ [d]

/-- The challenge binds the key, the label, the ciphertext and the commitments: for keys and ciphertexts
of given sizes two equal challenges come from the same values, unless the two inputs are a collision of the hash. -/
theorem C86_binding (hash : List Bytes → ℕ) {ek ek' : EncKey}
    {d d' : Option Bytes} {ct ct' t t' : CipherText} {c : ℤ}
    (hk : ek.Nonneg) (hk' : ek'.Nonneg) (hct : ct.Nonneg) (hct' : ct'.Nonneg) (ht : t.Nonneg)
    (ht' : t'.Nonneg) (ly : ek.y1.length = ek'.y1.length) (le : ct.e.length = ct'.e.length)
    (lt : t.e.length = t'.e.length) (h : fiatShamir hash ek d ct t = .ok c)
    (h' : fiatShamir hash ek' d' ct' t' = .ok c) :
    (ek.group.n = ek'.group.n ∧ ek.group.g = ek'.group.g ∧ ek.y1 = ek'.y1 ∧ ek.y2 = ek'.y2 ∧
      ek.y3 = ek'.y3 ∧ d = d' ∧ ct = ct' ∧ t = t') ∨
    ∃ b b', d = some b ∧ d' = some b' ∧ fsInput ek b ct t ≠ fsInput ek' b' ct' t' ∧
      hash (fsInput ek b ct t) = hash (fsInput ek' b' ct' t') := by
  unfold fiatShamir at h h'
  obtain ⟨x, hx, h⟩ := Go.bind_eq_ok.1 h
  obtain ⟨x', hx', h'⟩ := Go.bind_eq_ok.1 h'
  have hd := Go.ofOption_eq_ok.1 hx
  have hd' := Go.ofOption_eq_ok.1 hx'
  have e := Int.ofNat.inj (Except.ok.inj (h.trans h'.symm))
  have hf : ∀ (ek : EncKey) (b : Bytes) (ct t : CipherText), fsInput ek b ct t =
      [intBytes ek.group.n, intBytes ek.group.g, intBytes ek.y2, intBytes ek.y3] ++
        ek.y1.map intBytes ++ [intBytes ct.u] ++ ct.e.map intBytes ++ [intBytes ct.v] ++
        [intBytes t.u] ++ t.e.map intBytes ++ [intBytes t.v] ++ [b] := by
    intro ek b ct t
    simp [fsInput]
  rw [← hf, ← hf] at e
  by_cases heq : fsInput ek x ct t = fsInput ek' x' ct' t'
  swap
  · exact .inr ⟨x, x', hd, hd', heq, e⟩
  left
  replace e := heq
  rw [hf, hf] at e
  simp only [List.append_assoc, List.cons_append, List.nil_append, List.cons.injEq] at e
  obtain ⟨e1, e2, e3, e4, e⟩ := e
  obtain ⟨e5, e⟩ := List.append_inj e (by simpa using ly)
  rw [List.cons.injEq] at e
  obtain ⟨e6, e⟩ := e
  obtain ⟨e7, e⟩ := List.append_inj e (by simpa using le)
  rw [List.cons.injEq, List.cons.injEq] at e
  obtain ⟨e8, e9, e⟩ := e
  obtain ⟨e10, e⟩ := List.append_inj e (by simpa using lt)
  simp only [List.cons.injEq, and_true] at e
  obtain ⟨e11, e12⟩ := e
  refine ⟨intBytes_inj hk.1 hk'.1 e1, intBytes_inj hk.2.1 hk'.2.1 e2,
    map_intBytes_inj hk.2.2.2.2 hk'.2.2.2.2 e5, intBytes_inj hk.2.2.1 hk'.2.2.1 e3,
    intBytes_inj hk.2.2.2.1 hk'.2.2.2.1 e4, by rw [hd, hd', e12], ?_, ?_⟩
  · obtain ⟨u, v, l⟩ := ct
    obtain ⟨u', v', l'⟩ := ct'
    simp only [CipherText.mk.injEq]
    exact ⟨intBytes_inj hct.1 hct'.1 e6, intBytes_inj hct.2.1 hct'.2.1 e8,
      map_intBytes_inj hct.2.2 hct'.2.2 e7⟩
  · obtain ⟨u, v, l⟩ := t
    obtain ⟨u', v', l'⟩ := t'
    simp only [CipherText.mk.injEq]
    exact ⟨intBytes_inj ht.1 ht'.1 e9, intBytes_inj ht.2.1 ht'.2.1 e11,
      map_intBytes_inj ht.2.2 ht'.2.2 e10⟩

example (hash : List Bytes → ℕ) :
    ∃ c, fiatShamir hash ⟨[4], 5, 6, toyGroup⟩ (some [1]) ⟨7, 8, [9]⟩ ⟨10, 11, [12]⟩ = .ok c := ⟨_, rfl⟩

end Verif.CamShoup
