import Verif.Sharing.V1Lemmas
import Mathlib.Tactic.NormNum.Prime

/-!
# Properties of `pkg/sharing/v1` (C09, C10, C87)
-/

set_option linter.unusedSectionVars false

namespace Verif.V1

open Finset

variable {q : ℕ} [Fact q.Prime]
variable {G : Type} [AddCommGroup G] [Module (ZMod q) G] [DecidableEq G]

/-! ## C09 -/

/-- Exact behaviour of `Combine` on non-nil shares: it looks at the first `t` shares only,
succeeds iff their identifiers are in `1..n` and pairwise distinct, and otherwise errors. -/
theorem C09_combine_decision (s : Shamir) (ht : 0 < s.threshold.toNat) (hq : s.limit.toNat < q)
    (l : List (Share q)) :
    let used := l.take s.threshold.toNat
    let fine := s.threshold.toNat ≤ l.length ∧
      (∀ sh ∈ used, 1 ≤ sh.id.toNat ∧ sh.id.toNat ≤ s.limit.toNat) ∧ (used.map Share.id).Nodup
    ((∃ r, combine s (l.map some) = .ok r) ↔ fine) ∧
      (¬ fine → combine s (l.map some) = Go.err) := by
  intro used fine
  unfold combine
  by_cases hlen : l.length < s.threshold.toNat
  · rw [Go.guard_false (by simpa using hlen)]
    have hnf : ¬ fine := fun h => absurd h.1 (by omega)
    simp [hnf]
  · rw [Go.guard_true (by simpa using hlen)]
    simp only [Go.ok_bind]
    rw [← List.map_take]
    have hul : used.length = s.threshold.toNat := by
      simp only [used, List.length_take]; omega
    rcases collect_some s.limit hq used with ⟨g1, g2⟩ | ⟨g1, g2⟩
    · rw [show (l.take s.threshold.toNat) = used from rfl, g2]
      simp only [Go.ok_bind]
      by_cases hn : (used.map Share.id).Nodup
      · rw [interpolate_nodup _ _ (by simpa using hul) ht (by
          rw [List.map_map]; exact (ids_cast_nodup s.limit hq used g1).2 hn)]
        have hf : fine := ⟨by omega, g1, hn⟩
        simp [hf]
      · rw [interpolate_dup _ _ (by simpa using hul) (by
          rw [List.map_map]; exact fun h => hn ((ids_cast_nodup s.limit hq used g1).1 h))]
        have hnf : ¬ fine := fun h => hn h.2.2
        simp [hnf]
    · rw [show (l.take s.threshold.toNat) = used from rfl, g2]
      have hnf : ¬ fine := fun h => g1 h.2.1
      simp [hnf]

/-- Round trip: if the first `t` shares of the list are dealt shares with distinct identifiers then
`Combine` returns the secret without its leading zero bytes; zero-valued shares are fine. -/
theorem C09_split_combine (s : Shamir) (secret : List UInt8) (rnd : ℕ → ZMod q)
    (shares : List (Share q)) (hsp : split s secret rnd = .ok shares)
    (l : List (Share q)) (hlen : s.threshold.toNat ≤ l.length)
    (hmem : ∀ sh ∈ l.take s.threshold.toNat, sh ∈ shares)
    (hnd : ((l.take s.threshold.toNat).map Share.id).Nodup) :
    combine s (l.map some) = .ok (secret.dropWhile (· = 0)) := by
  unfold split at hsp
  rw [Go.bind_eq_ok] at hsp
  obtain ⟨r, hr, he⟩ := hsp
  obtain rfl := Except.ok.inj he
  obtain ⟨_, hlt, ht0, hp, hmk⟩ := getSharesAndPolynomial_eq_ok.1 hr
  have hq : s.limit.toNat < q := by
    unfold mkShares at hmk
    split at hmk
    · exact absurd hmk (by simp)
    · omega
  have hm := fun sh h => (mem_mkShares hmk sh).1 (hmem sh h)
  set used := l.take s.threshold.toNat with hused
  have hul : used.length = s.threshold.toNat := by simp only [used, List.length_take]; omega
  have hgood : GoodIds s.limit used := fun sh h => ⟨(hm sh h).1, (hm sh h).2.1⟩
  have hcast := (ids_cast_nodup s.limit hq used hgood).2 hnd
  unfold combine
  rw [Go.guard_true (by simpa using hlen)]
  simp only [Go.ok_bind]
  rw [← List.map_take, ← hused]
  rcases collect_some s.limit hq used with ⟨_, g2⟩ | ⟨g1, _⟩
  · rw [g2]
    simp only [Go.ok_bind]
    rw [interpolate_nodup _ _ (by simpa using hul) (by omega) (by rw [List.map_map]; exact hcast)]
    have e : (used.map fun sh => ((sh.id.toNat : ZMod q), sh.value)) =
        (used.map fun sh => ((sh.id.toNat : ℕ) : ZMod q)).map fun x => (x, evalL r.2 x) := by
      rw [List.map_map]
      refine List.map_congr_left fun sh hsh => ?_
      simp only [Function.comp]
      rw [(hm sh hsh).2.2]
    have hint := Sharing.interpolate_evalL _ hcast r.2 (by
      rw [hp]; simp; omega)
    rw [← e, Sharing.interpolate_eq _ (by rw [List.map_map]; exact hcast)] at hint
    rw [hint]
    simp only [Go.ok_bind, hp, List.headD_cons]
    rw [ZMod.val_natCast, Nat.mod_eq_of_lt hlt, natBytes_beNat]
  · exact absurd hgood g1

/-- Shares after the first `t`, even nil pointers or contradictory ones, never matter. -/
theorem C09_extra_shares_ignored (s : Shamir) (l extra extra' : List (Option (Share q)))
    (h : l.length = s.threshold.toNat) : combine s (l ++ extra) = combine s (l ++ extra') := by
  unfold combine
  rw [Go.guard_true (by simp; omega), Go.guard_true (by simp; omega)]
  simp only [Go.ok_bind]
  rw [← h, List.take_left, List.take_left]

instance : Fact (Nat.Prime 257) := ⟨by norm_num⟩

set_option maxRecDepth 4000 in
/-- Leading zero bytes of the secret are not restored: `[0, 5]` comes back as `[5]`. -/
theorem C09_leading_zeros_lost : ∃ shares : List (Share 257),
    split ⟨2, 3⟩ [0, 5] (fun _ => (7 : ZMod 257)) = .ok shares ∧
    combine ⟨2, 3⟩ (shares.map some) = .ok [5] := by
  refine ⟨_, rfl, ?_⟩
  exact C09_split_combine (q := 257) ⟨2, 3⟩ [0, 5] (fun _ => 7) _ rfl _ (by decide) (by decide)
    (by decide)

/-- `NewShamir` compares before truncating to 32 bits: a limit of `2^32 + 1` with threshold 2 is
accepted and produces a scheme with a single share, below its threshold. -/
theorem C09_limit_truncation :
    newShamir 2 (2 ^ 32 + 1) = .ok ⟨2, 1⟩ := by decide +kernel

/-- `C09_split_combine` applies to schemes that `NewShamir` returns. -/
theorem newShamir_ok {t n : ℤ} (h1 : t ≤ n) (h2 : 2 ≤ t) (h3 : n < 2 ^ 32) :
    ∃ s, newShamir t n = .ok s ∧ (s.threshold.toNat : ℤ) = t ∧ (s.limit.toNat : ℤ) = n := by
  unfold newShamir
  rw [Go.guard_true (by omega), Go.guard_true (by omega)]
  refine ⟨_, rfl, ?_, ?_⟩ <;>
    simp only [UInt32.ofInt, UInt32.toNat_ofNat', Int.reducePow] at * <;> omega

example : ∃ shares : List (Share 257),
    split ⟨2, 3⟩ [5] (fun _ => (7 : ZMod 257)) = .ok shares ∧
    (2 : UInt32).toNat ≤ shares.reverse.length ∧
    (∀ sh ∈ shares.reverse.take 2, sh ∈ shares) ∧ ((shares.reverse.take 2).map Share.id).Nodup :=
  ⟨_, rfl, by decide, by decide, by decide⟩

/-! ## C10: addition of shares -/

/-- `Add` of shares with different identifiers panics. -/
theorem C10_add_mismatch_panics (a b : Share q) (h : a.id ≠ b.id) : a.add b = Go.crash := by
  simp [Share.add, h]

theorem split_eq_ok {s : Shamir} {secret : List UInt8} {rnd : ℕ → ZMod q}
    {shares : List (Share q)} :
    split s secret rnd = .ok shares ↔ secret ≠ [] ∧ beNat secret < q ∧ s.threshold.toNat ≠ 0 ∧
      mkShares s.limit (((beNat secret : ℕ) : ZMod q) ::
        (List.range (s.threshold.toNat - 1)).map rnd) = .ok shares := by
  unfold split
  rw [Go.bind_eq_ok]
  constructor
  · rintro ⟨r, hr, he⟩
    obtain ⟨a, b, c, d, e⟩ := getSharesAndPolynomial_eq_ok.1 hr
    rw [d, Except.ok.inj he] at e
    exact ⟨a, b, c, e⟩
  · rintro ⟨a, b, c, e⟩
    exact ⟨(shares, _), getSharesAndPolynomial_eq_ok.2 ⟨a, b, c, rfl, e⟩, rfl⟩

/-- Let two secrets be shared.  Any `t` sums (by `Add`) of corresponding shares, with distinct
identifiers, combine to the sum of the two secrets modulo the field order. -/
theorem C10_add_homomorphic (s : Shamir) (sec1 sec2 : List UInt8) (rnd1 rnd2 : ℕ → ZMod q)
    (sh1 sh2 : List (Share q)) (h1 : split s sec1 rnd1 = .ok sh1) (h2 : split s sec2 rnd2 = .ok sh2)
    (l : List (Share q)) (hlen : s.threshold.toNat ≤ l.length)
    (hl : ∀ sh ∈ l, ∃ a ∈ sh1, ∃ b ∈ sh2, a.add b = .ok sh)
    (hnd : (l.map Share.id).Nodup) :
    combine s (l.map some) = .ok (natBytes ((beNat sec1 + beNat sec2) % q)) := by
  obtain ⟨_, hlt1, ht0, hmk1⟩ := split_eq_ok.1 h1
  obtain ⟨_, hlt2, _, hmk2⟩ := split_eq_ok.1 h2
  -- a secret equal to the sum, shared with the sum of the randomness
  set m := (beNat sec1 + beNat sec2) % q with hm
  have hqpos : 0 < q := (Fact.out : q.Prime).pos
  have hmq : m < q := Nat.mod_lt _ hqpos
  have hlim : s.limit.toNat < q := by
    unfold mkShares at hmk1
    split at hmk1
    · exact absurd hmk1 (by simp)
    · omega
  obtain ⟨sh3, hmk3⟩ : ∃ sh3, mkShares s.limit (((m : ℕ) : ZMod q) ::
      (List.range (s.threshold.toNat - 1)).map (fun i => rnd1 i + rnd2 i)) = .ok sh3 := by
    unfold mkShares; rw [if_neg (by omega)]; exact ⟨_, rfl⟩
  have hb : beNat (0 :: natBytes m) = m := by
    have : beNat (0 :: natBytes m) = beNat (natBytes m) := by simp [beNat]
    rw [this, beNat_natBytes]
  have hsp3 : split s (0 :: natBytes m) (fun i => rnd1 i + rnd2 i) = .ok sh3 :=
    split_eq_ok.2 ⟨by simp, by rw [hb]; exact hmq, ht0, by rw [hb]; exact hmk3⟩
  have hzip : (((m : ℕ) : ZMod q) :: (List.range (s.threshold.toNat - 1)).map
      (fun i => rnd1 i + rnd2 i)) = List.zipWith (· + ·)
      (((beNat sec1 : ℕ) : ZMod q) :: (List.range (s.threshold.toNat - 1)).map rnd1)
      (((beNat sec2 : ℕ) : ZMod q) :: (List.range (s.threshold.toNat - 1)).map rnd2) := by
    rw [List.zipWith_cons_cons, List.zipWith_map, List.zipWith_self]
    congr 1
    rw [hm, ZMod.natCast_mod, Nat.cast_add]
  have := C09_split_combine s (0 :: natBytes m) _ sh3 hsp3 l hlen (by
    intro sh hsh
    obtain ⟨a, ha, b, hb', hab⟩ := hl sh (List.mem_of_mem_take hsh)
    obtain ⟨a1, a2, a3⟩ := (mem_mkShares hmk1 a).1 ha
    obtain ⟨b1, b2, b3⟩ := (mem_mkShares hmk2 b).1 hb'
    unfold Share.add at hab
    split at hab
    · exact absurd hab (by simp)
    · rename_i hid
      rw [ne_eq, not_not] at hid
      obtain rfl := Except.ok.inj hab
      rw [mem_mkShares hmk3, hzip, evalL_zipWith_add _ _ (by simp)]
      refine ⟨a1, a2, ?_⟩
      simp only
      rw [a3, b3, hid]) (hnd.sublist ((List.take_sublist _ _).map _))
  rw [this]
  congr 1
  have h3 := natBytes_beNat (0 :: natBytes m)
  rw [hb] at h3
  exact h3.symm

example : ∃ sh1 sh2 : List (Share 257), split ⟨2, 2⟩ [5] (fun _ => (7 : ZMod 257)) = .ok sh1 ∧
    split ⟨2, 2⟩ [9] (fun _ => (1 : ZMod 257)) = .ok sh2 ∧
    ∃ l : List (Share 257), 2 ≤ l.length ∧
      (∀ sh ∈ l, ∃ a ∈ sh1, ∃ b ∈ sh2, a.add b = .ok sh) ∧ (l.map Share.id).Nodup := by
  refine ⟨_, _, rfl, rfl, [⟨1, 22⟩, ⟨2, 30⟩], by decide, ?_, by decide⟩
  intro sh hsh
  simp only [List.mem_cons, List.not_mem_nil, or_false] at hsh
  rcases hsh with rfl | rfl
  · exact ⟨⟨1, 12⟩, by decide, ⟨1, 10⟩, by decide, rfl⟩
  · exact ⟨⟨2, 19⟩, by decide, ⟨2, 11⟩, by decide, rfl⟩

/-! ## C87: v1 verifiable sharing -/

theorem commitEval_eq (c0 : G) (cs : List G) (x : ZMod q) :
    commitEval c0 cs x = evalL (c0 :: cs) x := Sharing.commitEval_eq c0 cs x

/-- The dealer's polynomial (specification). -/
def dealt (t : ℕ) (secret : List UInt8) (rnd : ℕ → ZMod q) (x : ZMod q) : ZMod q :=
  (beNat secret : ZMod q) + ∑ k ∈ range (t - 1), rnd k * x ^ (k + 1)

theorem evalL_dealt (t : ℕ) (secret : List UInt8) (rnd : ℕ → ZMod q) (x : ZMod q) :
    evalL (((beNat secret : ℕ) : ZMod q) :: (List.range (t - 1)).map rnd) x =
      dealt t secret rnd x := by
  rw [evalL_cons, dealt, evalL_eq_sum, Finset.smul_sum]
  simp only [List.length_map, List.length_range, smul_eq_mul]
  congr 1
  refine Finset.sum_congr rfl fun k hk => ?_
  rw [mem_range] at hk
  rw [List.getD_eq_getElem _ _ (by simpa using hk)]
  simp [pow_succ]; ring

/-- v1 Feldman: with the dealer's verifiers, a share whose identifier is below the field order is
accepted iff its value is the dealer's polynomial at the identifier; never an error. -/
theorem C87_feldman_verify_iff (g : G) (hg : ∀ r : ZMod q, r • g = 0 → r = 0)
    (s : Shamir) (secret : List UInt8) (rnd : ℕ → ZMod q) (verifiers : List G)
    (shares : List (Share q)) (hsp : feldmanSplit g s secret rnd = .ok (verifiers, shares))
    (sh : Share q) (hid : sh.id.toNat < q) :
    feldmanVerify g s (some sh) verifiers =
      .ok (decide (sh.value = dealt s.threshold.toNat secret rnd (sh.id.toNat : ZMod q))) := by
  unfold feldmanSplit at hsp
  rw [Go.bind_eq_ok] at hsp
  obtain ⟨r, hr, he⟩ := hsp
  obtain ⟨rfl, rfl⟩ := Prod.mk.inj (Except.ok.inj he)
  obtain ⟨_, _, ht0, hp, _⟩ := getSharesAndPolynomial_eq_ok.1 hr
  unfold feldmanVerify
  rw [Go.guard_true (by rw [hp]; simp; omega)]
  have hev := evalL_map_smul r.2 g (sh.id.toNat : ZMod q)
  rw [hp] at hev ⊢
  simp only [List.map_cons] at hev ⊢
  simp only [Go.ok_bind, if_neg (not_le.2 hid), commitEval_eq]
  rw [hev, evalL_dealt]
  congr 2
  refine propext ⟨fun h => ?_, fun h => by rw [h]⟩
  exact sub_eq_zero.1 (hg _ (by rw [sub_smul, h, sub_self]))

/-- Completeness for dealt shares, zero values included (unlike the newer package, C06). -/
theorem C87_feldman_complete (g : G) (s : Shamir) (secret : List UInt8) (rnd : ℕ → ZMod q)
    (verifiers : List G) (shares : List (Share q))
    (hsp : feldmanSplit g s secret rnd = .ok (verifiers, shares)) (sh : Share q)
    (hsh : sh ∈ shares) : feldmanVerify g s (some sh) verifiers = .ok true := by
  unfold feldmanSplit at hsp
  rw [Go.bind_eq_ok] at hsp
  obtain ⟨r, hr, he⟩ := hsp
  obtain ⟨rfl, rfl⟩ := Prod.mk.inj (Except.ok.inj he)
  obtain ⟨_, _, ht0, hp, hmk⟩ := getSharesAndPolynomial_eq_ok.1 hr
  have hq : s.limit.toNat < q := by
    unfold mkShares at hmk
    split at hmk
    · exact absurd hmk (by simp)
    · omega
  obtain ⟨_, a2, a3⟩ := (mem_mkShares hmk sh).1 hsh
  unfold feldmanVerify
  rw [Go.guard_true (by rw [hp]; simp; omega)]
  have hev := evalL_map_smul r.2 g (sh.id.toNat : ZMod q)
  rw [hp] at hev a3 ⊢
  simp only [List.map_cons] at hev ⊢
  simp only [Go.ok_bind, if_neg (show ¬ q ≤ sh.id.toNat by omega), commitEval_eq]
  rw [hev, a3]
  simp

/-- Identifier 0 is not rejected by the v1 verifier: the "share" `(0, secret)` verifies. -/
theorem C87_feldman_id_zero_accepted (g : G) (s : Shamir) (secret : List UInt8)
    (rnd : ℕ → ZMod q) (verifiers : List G) (shares : List (Share q))
    (hsp : feldmanSplit g s secret rnd = .ok (verifiers, shares)) :
    feldmanVerify g s (some ⟨0, (beNat secret : ZMod q)⟩) verifiers = .ok true := by
  unfold feldmanSplit at hsp
  rw [Go.bind_eq_ok] at hsp
  obtain ⟨r, hr, he⟩ := hsp
  obtain ⟨rfl, rfl⟩ := Prod.mk.inj (Except.ok.inj he)
  obtain ⟨_, _, ht0, hp, _⟩ := getSharesAndPolynomial_eq_ok.1 hr
  unfold feldmanVerify
  have hqpos : 0 < q := (Fact.out : q.Prime).pos
  have hq0 : ¬ q ≤ (0 : UInt32).toNat := by simpa using hqpos.ne'
  rw [Go.guard_true (by rw [hp]; simp; omega)]
  have hev := evalL_map_smul r.2 g (((0 : UInt32).toNat : ℕ) : ZMod q)
  rw [hp] at hev ⊢
  simp only [List.map_cons] at hev ⊢
  simp only [Go.ok_bind, if_neg hq0, commitEval_eq]
  rw [hev, UInt32.toNat_zero, Nat.cast_zero, evalL_zero]
  simp

/-- v1 Pedersen: every dealt pair with equal identifiers verifies; a zero blinding is refused. -/
theorem C87_pedersen_complete (g h : G) (s : Shamir) (secret : List UInt8) (blinding : ZMod q)
    (rnd rndB : ℕ → ZMod q) (bsh shs : List (Share q)) (bv v : List G) (b' : ZMod q)
    (hsp : pedersenSplit g h s secret blinding rnd rndB = .ok (b', bsh, shs, bv, v))
    (sh b : Share q) (h1 : sh ∈ shs) (h2 : b ∈ bsh) (hid : sh.id = b.id) :
    blinding ≠ 0 ∧ pedersenVerify g h s (some sh) (some b) bv = .ok true := by
  unfold pedersenSplit at hsp
  rw [Go.bind_eq_ok] at hsp
  obtain ⟨r, hr, he⟩ := hsp
  rw [Go.bind_eq_ok] at he
  obtain ⟨rb, hrb, he⟩ := he
  simp only [Except.ok.injEq, Prod.mk.injEq] at he
  obtain ⟨rfl, rfl, rfl, rfl, rfl⟩ := he
  obtain ⟨_, _, ht0, hp, hmk⟩ := getSharesAndPolynomial_eq_ok.1 hr
  obtain ⟨hne, _, _, hpb, hmkb⟩ := getSharesAndPolynomial_eq_ok.1 hrb
  refine ⟨?_, ?_⟩
  · rintro rfl; simp [natBytes] at hne
  have hq : s.limit.toNat < q := by
    unfold mkShares at hmk
    split at hmk
    · exact absurd hmk (by simp)
    · omega
  obtain ⟨_, a2, a3⟩ := (mem_mkShares hmk sh).1 h1
  obtain ⟨_, _, b3⟩ := (mem_mkShares hmkb b).1 h2
  have hlen : r.2.length = rb.2.length := by rw [hp, hpb]; simp
  have key : evalL (List.zipWith (fun a c => a + c • h) (r.2.map (· • g)) rb.2)
      (sh.id.toNat : ZMod q) = sh.value • g + b.value • h := by
    have : List.zipWith (fun a c => a + c • h) (r.2.map (· • g)) rb.2 =
        List.zipWith (· + ·) (r.2.map (· • g)) (rb.2.map (· • h)) := by
      rw [List.zipWith_map_right]
    rw [this, evalL_zipWith_add _ _ (by simpa using hlen), evalL_map_smul, evalL_map_smul, a3, b3,
      hid]
  unfold pedersenVerify
  rw [Go.guard_true (by rw [hp, hpb]; simp; omega)]
  rw [hp, hpb] at key ⊢
  simp only [List.map_cons, List.zipWith_cons_cons] at key ⊢
  simp only [Go.ok_bind, if_neg (show ¬ q ≤ sh.id.toNat by omega), commitEval_eq]
  rw [key]
  simp

example : ∃ r, feldmanSplit (1 : ZMod 257) ⟨2, 3⟩ [5] (fun _ => (7 : ZMod 257)) = .ok r ∧
    r.2 ≠ [] := ⟨_, rfl, by decide⟩

example : ∃ r, pedersenSplit (1 : ZMod 257) 3 ⟨2, 3⟩ [5] (4 : ZMod 257)
    (fun _ => 7) (fun _ => 2) = .ok r ∧ ∃ sh ∈ r.2.2.1, ∃ b ∈ r.2.1, sh.id = b.id := by
  refine ⟨_, rfl, ?_⟩
  decide

end Verif.V1
