import Verif.Dkg.BlindModel
import Verif.Dkg.GennaroProps

/-!
# C230: the blinding generator of two-party key generation
-/

set_option linter.unusedSectionVars false

namespace Verif.Gennaro

open V1
open Verif.Frost (mapGet)

variable {q : ℕ} [Fact q.Prime]
variable {G : Type} [AddCommGroup G] [Module (ZMod q) G] [DecidableEq G]

/-- C230: a participant is made exactly if the identifiers are 1 and 2 and a generator is given or drawn; a generator that is given is
kept, one that is drawn is the multiple of the base point with a factor that this participant has seen, the identity if the factor
is zero -/
theorem C230_new (g : G) (id c : UInt32) (blind : Option G) (rand : Option (ZMod q)) (st : State q G) (h : G) :
    newWithBlind g id c blind rand = .ok (st, h) ↔
      ((id = 1 ∧ c = 2) ∨ (id = 2 ∧ c = 1)) ∧ st = { round := 1, id := id, others := [c], scheme := ⟨2, 2⟩ } ∧
      (blind = some h ∨ blind = none ∧ ∃ r, rand = some r ∧ h = r • g) := by
  have hids : (∀ i ∈ List.range ([c].length + 1), UInt32.ofNat (i + 1) ∈ [c] ++ [id]) ↔
      ((id = 1 ∧ c = 2) ∨ (id = 2 ∧ c = 1)) := by
    have e1 : UInt32.ofNat (0 + 1) = 1 := rfl
    have e2 : UInt32.ofNat (1 + 1) = 2 := rfl
    constructor
    · intro hh
      have h1 := hh 0 (by simp)
      have h2 := hh 1 (by simp)
      rw [e1] at h1
      rw [e2] at h2
      simp only [List.cons_append, List.nil_append, List.mem_cons, List.not_mem_nil, or_false] at h1 h2
      rcases h1 with rfl | rfl <;> rcases h2 with h2 | h2
      · exact absurd h2 (by decide)
      · exact Or.inr ⟨h2.symm, rfl⟩
      · exact Or.inl ⟨rfl, h2.symm⟩
      · exact absurd h2 (by decide)
    · rintro (⟨rfl, rfl⟩ | ⟨rfl, rfl⟩) <;> decide
  have hnew : new2p (q := q) (G := G) id c = .ok st ↔ ((id = 1 ∧ c = 2) ∨ (id = 2 ∧ c = 1)) ∧
      st = { round := 1, id := id, others := [c], scheme := ⟨2, 2⟩ } := by
    unfold new2p
    rw [newParticipant_eq_ok, hids]
    constructor
    · rintro ⟨-, a, -, -, b⟩; exact ⟨a, b⟩
    · rintro ⟨a, b⟩; exact ⟨by simp, a, by simp, by decide, b⟩
  unfold newWithBlind
  rw [Go.bind_eq_ok]
  constructor
  · rintro ⟨h', hb, hs⟩
    obtain ⟨st', h1, h2⟩ := Go.bind_eq_ok.1 hs
    cases h2
    refine ⟨(hnew.1 h1).1, (hnew.1 h1).2, ?_⟩
    cases blind with
    | some b => cases hb; exact Or.inl rfl
    | none =>
      obtain ⟨r, hr, e⟩ := Go.bind_eq_ok.1 hb
      cases e
      exact Or.inr ⟨rfl, r, Go.ofOption_eq_ok.1 hr, rfl⟩
  · rintro ⟨a, b, hb⟩
    refine ⟨h, ?_, by rw [hnew.2 ⟨a, b⟩]; rfl⟩
    rcases hb with rfl | ⟨rfl, r, rfl, rfl⟩ <;> rfl

theorem zipWith_shift (g : G) (r : ZMod q) (hr : r ≠ 0) : ∀ (f f' b b' : List (ZMod q)), f.length = f'.length → b.length = b'.length →
    f.length = b.length → (∀ k < f.length, b'.getD k 0 = b.getD k 0 + (f.getD k 0 - f'.getD k 0) / r) →
    List.zipWith (fun a c => a + c • (r • g)) (f.map (· • g)) b = List.zipWith (fun a c => a + c • (r • g)) (f'.map (· • g)) b'
  | [], [], _, _, _, _, _, _ => rfl
  | x :: f, x' :: f', y :: b, y' :: b', h1, h2, h3, h4 => by
    simp only [List.map_cons, List.zipWith_cons_cons]
    have e := h4 0 (by simp)
    simp only [List.getD_cons_zero] at e
    rw [zipWith_shift g r hr f f' b b' (by simpa using h1) (by simpa using h2) (by simpa using h3)
      fun k hk => by simpa using h4 (k + 1) (by simpa using hk)]
    congr 1
    rw [smul_smul, smul_smul, ← add_smul, ← add_smul, e]
    congr 1
    field_simp
    ring

/-- C230: the participant that drew the generator is not bound by what it broadcasts in the first round: for every other secret
and polynomial it knows blinding values with the same broadcast -/
theorem C230_not_binding (g : G) (r : ZMod q) (hr : r ≠ 0) (c : UInt32) (st st1 st2 : State q G) (s s' b : ZMod q)
    (rnd rnd' rb : ℕ → ZMod q) (m m' : Msg1 q G)
    (h1 : round1_2p g (r • g) c st none s b rnd rb = (st1, .ok m))
    (h2 : round1_2p g (r • g) c st none s' (b + (s - s') / r) rnd' (fun k => rb k + (rnd k - rnd' k) / r) = (st2, .ok m')) :
    m.verifiers = m'.verifiers := by
  obtain ⟨p, h1, -⟩ := round1_2p_eq_ok h1
  obtain ⟨p', h2, -⟩ := round1_2p_eq_ok h2
  obtain ⟨-, x, bsh, shs, v, hx, hsp, -, -⟩ := round1_eq_ok h1
  obtain ⟨-, x', bsh', shs', v', hx', hsp', -, -⟩ := round1_eq_ok h2
  have e : x = natBytes s.val := by cases hx; rfl
  have e' : x' = natBytes s'.val := by cases hx'; rfl
  obtain ⟨-, -, -, -, -, -, -, hv, hbv, -⟩ := pedersenSplit_eq_ok hsp
  obtain ⟨-, -, -, -, -, -, -, hv', hbv', -⟩ := pedersenSplit_eq_ok hsp'
  rw [hbv, hbv', hv, hv', e, e', beNat_natBytes, beNat_natBytes, ZMod.natCast_zmod_val, ZMod.natCast_zmod_val]
  refine zipWith_shift g r hr _ _ _ _ (by simp [coeffs]) (by simp [coeffs]) (by simp [coeffs]) fun k hk => ?_
  cases k with
  | zero => rfl
  | succ k =>
    simp only [coeffs, List.length_cons, List.length_map, List.length_range, Nat.add_lt_add_iff_right] at hk
    simp [coeffs, List.getD_eq_getElem?_getD, List.getElem?_range hk]

/-- C230: if the two participants have different generators, as when both leave the choice to `NewParticipant`, then a party accepts the
honest message of the other in the second round exactly if the two generators agree on the blinding share; so with generators drawn as
multiples of the base point only if the share is zero or the factors are equal -/
theorem C230_two_blinds (g h1 h2 : G) (id c : UInt32) (a1 a2 a1' a2' : State q G) (sec1 sec2 : Option (List UInt8))
    (s1 s2 b1 b2 : ZMod q) (rnd1 rnd2 rb1 rb2 : ℕ → ZMod q) (m1 m2 : Msg1 q G) (bl1 bl2 : Option G) (r1 r2 : Option (ZMod q))
    (hn1 : newWithBlind g id c bl1 r1 = .ok (a1, h1)) (hn2 : newWithBlind g c id bl2 r2 = .ok (a2, h2))
    (hr1 : round1_2p g h1 c a1 sec1 s1 b1 rnd1 rb1 = (a1', .ok m1))
    (hr2 : round1_2p g h2 id a2 sec2 s2 b2 rnd2 rb2 = (a2', .ok m2)) :
    (∃ st v, round2_2p g h2 id a2' m1 = (st, .ok v)) ↔
      (b1 + (c.toNat : ZMod q) * rb1 0) • h1 = (b1 + (c.toNat : ZMod q) * rb1 0) • h2 := by
  obtain ⟨hid, rfl, -⟩ := (C230_new g id c bl1 r1 a1 h1).1 hn1
  obtain ⟨-, rfl, -⟩ := (C230_new g c id bl2 r2 a2 h2).1 hn2
  obtain ⟨p1, hr1, hp1⟩ := round1_2p_eq_ok hr1
  obtain ⟨p2, hr2, -⟩ := round1_2p_eq_ok hr2
  obtain ⟨-, x1, bsh1, shs1, v1, -, hsp1, hpk1, -⟩ := round1_eq_ok hr1
  obtain ⟨-, x2, bsh2, shs2, v2, -, hsp2, -, rfl⟩ := round1_eq_ok hr2
  have hc : c ≠ 0 ∧ c ≤ 2 ∧ id ≠ c := by
    rcases hid with ⟨rfl, rfl⟩ | ⟨rfl, rfl⟩ <;> decide
  have own := mkShares_getElem (pedersenSplit_eq_ok hsp2).2.2.2.2.2.1 hc.1 hc.2.1
  have g1 := mkShares_getElem (pedersenSplit_eq_ok hsp1).2.2.2.2.2.1 hc.1 hc.2.1
  have g2 := mkShares_getElem (pedersenSplit_eq_ok hsp1).2.2.2.2.2.2.1 hc.1 hc.2.1
  have hF : List.Forall₂ (fun id e => ∃ pk : Packet q, (∃ x r, shs1[(id - 1).toNat]? = some x ∧
      bsh1[(id - 1).toNat]? = some r ∧ pk = ⟨some x, some r⟩) ∧ e = (id, some pk)) [c] p1 :=
    hpk1.imp fun id e ⟨x, r, h1, h2, h3⟩ => ⟨_, ⟨x, r, h1, h2, rfl⟩, h3⟩
  obtain ⟨pk, h3, x, r, h4, h5, rfl⟩ := forall₂_lookup hF (List.mem_singleton.2 rfl)
  rw [hp1] at h3
  simp only [Option.some.injEq, Packet.mk.injEq] at h3
  have hver := (C87_pedersen_complete g h1 _ _ _ _ _ _ _ _ _ _ hsp1 x r (List.mem_of_getElem? h4) (List.mem_of_getElem? h5)
    (by rw [g1] at h4; rw [g2] at h5; cases h4; cases h5; rfl)).2
  rw [g1] at h4
  rw [g2] at h5
  obtain rfl := Option.some.inj h4
  obtain rfl := Option.some.inj h5
  have hy : evalL (coeffs 2 b1 rb1) (c.toNat : ZMod q) = b1 + (c.toNat : ZMod q) * rb1 0 := by
    have e : coeffs 2 b1 rb1 = [b1, rb1 0] := rfl
    rw [e]
    simp [evalL]
  have key : pedersenVerify g h2 ⟨2, 2⟩ m1.secretShare m1.blindingShare m1.verifiers = .ok true ↔
      (b1 + (c.toNat : ZMod q) * rb1 0) • h1 = (b1 + (c.toNat : ZMod q) * rb1 0) • h2 := by
    rw [h3.1, h3.2]
    unfold pedersenVerify at hver ⊢
    rw [Go.guard_bind_eq_ok] at hver ⊢
    obtain ⟨hl, hver⟩ := hver
    dsimp only at hver ⊢
    by_cases hq : q ≤ c.toNat
    · rw [if_pos hq] at hver; cases hver
    rw [if_neg hq] at hver ⊢
    cases hm : m1.verifiers with
    | nil => rw [hm] at hver; cases hver
    | cons c0 cs =>
      rw [hm] at hver hl
      simp only [Except.ok.injEq, decide_eq_true_eq] at hver ⊢
      rw [← hver, hy, add_right_inj]
      exact ⟨fun h => h.2.symm, fun h => ⟨hl, h.symm⟩⟩
  rw [← key]
  unfold round2_2p
  constructor
  · rintro ⟨st, v, h⟩
    obtain ⟨-, bc, pp, d, o, hbc, hpp, -, -, -, -, -, hs, -⟩ := round2_eq_ok.1 h
    cases hbc
    cases hpp
    obtain ⟨-, pk, e, hv, -⟩ := hs _ (List.mem_singleton.2 rfl) hc.2.2
    simp [mapGet] at e
    cases e
    exact hv
  · intro hv
    refine ⟨_, _, round2_eq_ok.2 ⟨rfl, _, _, _, _, rfl, rfl, by simp, by simp, rfl, own, rfl, ?_, rfl⟩⟩
    intro e he _
    rw [List.mem_singleton.1 he]
    exact ⟨List.mem_singleton.2 rfl, ⟨m1.secretShare, m1.blindingShare⟩, by simp [mapGet], hv, by rw [h3.1]; simp⟩

/-- two participants that both leave the choice to `NewParticipant`: the rounds succeed up to the second, in which the message is refused -/
example : ∃ (a1 a2 a1' a2' : State 257 (ZMod 257)) (m1 m2 : Msg1 257 (ZMod 257)),
    newWithBlind (1 : ZMod 257) 1 2 none (some 3) = .ok (a1, 3) ∧ newWithBlind (1 : ZMod 257) 2 1 none (some 5) = .ok (a2, 5) ∧
    round1_2p (1 : ZMod 257) 3 2 a1 none 5 6 (fun _ => 7) (fun _ => 8) = (a1', .ok m1) ∧
    round1_2p (1 : ZMod 257) 5 1 a2 (some [9]) 0 2 (fun _ => 3) (fun _ => 4) = (a2', .ok m2) ∧
    (round2_2p (1 : ZMod 257) 5 1 a2' m1).2 = Go.err :=
  ⟨_, _, _, _, _, _, rfl, rfl, rfl, rfl, by decide +kernel⟩

/-- one broadcast for the secrets 5 and 11, made with a generator whose factor is known; the shares differ -/
example :
    let a : State 257 (ZMod 257) := { round := 1, id := 1, others := [2], scheme := ⟨2, 2⟩ }
    let m := (round1_2p (1 : ZMod 257) ((3 : ZMod 257) • 1) 2 a none 5 6 (fun _ => 7) (fun _ => 8)).2.toOption
    let m' := (round1_2p (1 : ZMod 257) ((3 : ZMod 257) • 1) 2 a none 11 (6 + (5 - 11) / 3) (fun _ => 1) (fun _ => 8 + (7 - 1) / 3)).2.toOption
    m ≠ none ∧ m' ≠ none ∧ m.map Msg1.verifiers = m'.map Msg1.verifiers ∧ m.map Msg1.secretShare ≠ m'.map Msg1.secretShare := by
  decide +kernel

end Verif.Gennaro
