import Verif.Gg20.DkgSignExamples

/-! # What rounds 2 and 4 of the GG20 key generation check (C131) -/

set_option linter.unusedSectionVars false
set_option exponentiation.threshold 2000

namespace Verif.Gg20

variable {q : ℕ} {G : Type} [AddCommGroup G] [Module (ZMod q) G] {E : DkgEnv q G}

/-- **C131.**  A successful round 2 has checked, for the message of every other sender, the size of
its Paillier modulus and both proofs about its parameters, and sends to every other sender the share
of its own polynomial for that sender. -/
theorem C131_round2_sound {s s' : Dkg q G} {params : List (UInt32 × Option DkgBcast)}
    {wit : Core.Witness} {out : List (UInt32 × V1.Share q)}
    (h : dkgRound2 E s params = .ok (s', wit, out)) :
    s.round = 2 ∧ s'.round = 3 ∧ wit = s.D ∧
    List.Forall₂ (fun p o => ∃ b sh, p.2 = some b ∧
      (b.pk.N.natAbs.size = E.keyBits ∨ b.pk.N.natAbs.size = E.keyBits - 1) ∧
      cdlVerify E.toCurve b.params.N b.params.H1 b.params.H2 b.proof1 = .ok () ∧
      cdlVerify E.toCurve b.params.N b.params.H2 b.params.H1 b.proof2 = .ok () ∧
      s.X[(p.1 - 1).toNat]? = some sh ∧ o = (p.1, sh))
      (params.filter fun p => p.1 ≠ s.id) out := by
  unfold dkgRound2 at h
  rw [Go.guard_bind_eq_ok] at h
  obtain ⟨hr, h⟩ := h
  dsimp only at h
  rw [Go.guard_bind_eq_ok] at h
  obtain ⟨_, h⟩ := h
  rw [Go.bind_eq_ok] at h
  obtain ⟨os, hos, h⟩ := h
  obtain ⟨e1, h'⟩ := Prod.mk.inj (Except.ok.inj h)
  obtain ⟨e2, e3⟩ := Prod.mk.inj h'
  clear h h'
  subst e1 e2 e3
  refine ⟨hr, rfl, rfl, ?_⟩
  have hF := Go.mapM_eq_ok.1 hos
  clear hos
  generalize (params.filter fun p => p.1 ≠ s.id) = l at hF ⊢
  induction hF with
  | nil => exact .nil
  | @cons p o _ _ h1 _ ih =>
    refine .cons ?_ ih
    unfold dkgStep2 at h1
    simp only [Go.bind_eq_ok, Go.guard_eq_ok] at h1
    obtain ⟨b, hb, _, hN, _, h2, _, h3, sh, hsh, h1⟩ := h1
    rw [← Except.ok.inj h1]
    exact ⟨b, sh, deref_eq_ok.1 hb, by clear h1; tauto, h2, h3, deref_eq_ok.1 hsh, rfl⟩

/-- **C131.**  The number of messages is compared with `limit - 1`, but not the identifiers: if the
first message has an identifier outside `1 … limit` and is otherwise valid, round 2 panics. -/
theorem C131_round2_bad_id_panics {s : Dkg q G} (hr : s.round = 2) {id : UInt32} {b : DkgBcast}
    {rest : List (UInt32 × Option DkgBcast)} (hid : id ≠ s.id)
    (hcnt : UInt32.ofNat (((id, some b) :: rest).filter fun p => p.2.isSome && p.1 ≠ s.id).length =
      s.limit - 1)
    (hX : s.X.length = s.limit.toNat) (hout : id.toNat = 0 ∨ s.limit.toNat < id.toNat)
    (hlim : s.limit.toNat < 2 ^ 32 - 1)
    (hN : b.pk.N.natAbs.size = E.keyBits ∨ b.pk.N.natAbs.size = E.keyBits - 1)
    (h1 : cdlVerify E.toCurve b.params.N b.params.H1 b.params.H2 b.proof1 = .ok ())
    (h2 : cdlVerify E.toCurve b.params.N b.params.H2 b.params.H1 b.proof2 = .ok ()) :
    dkgRound2 E s ((id, some b) :: rest) = Go.crash := by
  have hnone : s.X[(id - 1).toNat]? = none := by
    rw [List.getElem?_eq_none_iff, hX, UInt32.toNat_sub]
    have : (1 : UInt32).toNat = 1 := rfl
    rw [this]
    have := id.toNat_lt
    rcases hout with h | h
    · rw [h]
      show _ ≤ 4294967295
      omega
    · omega
  have hstep : dkgStep2 E s id (some b) = Go.crash := by
    unfold dkgStep2
    simp only [deref, Go.ok_bind]
    rw [Go.guard_true (by tauto), Go.ok_bind, h1, Go.ok_bind, h2, Go.ok_bind, hnone]
    rfl
  unfold dkgRound2
  rw [Go.guard_true hr, Go.ok_bind]
  dsimp only
  rw [Go.guard_true hcnt, Go.ok_bind, List.filter_cons_of_pos (by simpa using hid),
    List.mapM_cons, hstep]
  rfl

/-- **C131.**  Round 3 without a single decommitment or without a single share is refused, in any round, and leaves the state as
it was. -/
theorem C131_round3_nothing [Fact q.Prime] [DecidableEq G] (s : Dkg q G) (fuel : ℕ)
    (d : List (UInt32 × Option Core.Witness)) (x : List (UInt32 × Option (V1.Share q))) :
    dkgRound3 E s fuel [] x = (s, Go.err) ∧ dkgRound3 E s fuel d [] = (s, Go.err) :=
  ⟨if_pos (.inl rfl), if_pos (.inr rfl)⟩

/-- **C131.**  Round 4 succeeds exactly if it is called in its round with a proof for every other
participant of round 2, and every proof given — also those under identifiers without a participant
— is one of a known participant and verifies for the public key and the identifier under which it
came; the result is then what round 3 has stored. -/
theorem C131_round4_iff {s : Dkg q G} {fuel : ℕ} {proofs : List (UInt32 × List (Option ℤ))}
    {res : DkgResult G} :
    dkgRound4 E s fuel proofs = .ok res ↔
      proofs ≠ [] ∧ s.round = 4 ∧
      (∀ o ∈ s.others, o.1 ≠ s.id → ∃ p, proofs.lookup o.1 = some p) ∧
      (∀ p ∈ proofs, p.1 ≠ s.id → ∃ o, s.others.lookup p.1 = some o ∧
        Paillier.psfVerify E.kdf ⟨(E.xy E.gen).1, (E.xy E.gen).2, q, p.1, (E.xy s.y).1,
          (E.xy s.y).2⟩ o.pk p.2 fuel = some (.ok ())) ∧
      res = ⟨s.publicShares, s.y, s.xi, s.sk, s.others.map fun o => (o.1, o.2.pk, o.2.params)⟩ := by
  have hstep : ∀ p : UInt32 × List (Option ℤ), dkgStep4 E s fuel p.1 p.2 = .ok () ↔
      ∃ o, s.others.lookup p.1 = some o ∧
        Paillier.psfVerify E.kdf ⟨(E.xy E.gen).1, (E.xy E.gen).2, q, p.1, (E.xy s.y).1,
          (E.xy s.y).2⟩ o.pk p.2 fuel = some (.ok ()) := by
    intro p
    unfold dkgStep4
    simp only [Go.bind_eq_ok]
    refine exists_congr fun o => ?_
    rw [deref_eq_ok]
    refine and_congr_right fun _ => ?_
    cases Paillier.psfVerify E.kdf ⟨(E.xy E.gen).1, (E.xy E.gen).2, q, p.1, (E.xy s.y).1,
      (E.xy s.y).2⟩ o.pk p.2 fuel <;> simp [Go.err]
  unfold dkgRound4
  rw [Go.guard_bind_eq_ok, Go.guard_bind_eq_ok]
  simp only [Go.bind_eq_ok, Go.forM_eq_ok, Go.guard_eq_ok, List.mem_filter, decide_eq_true_eq,
    hstep, Option.isSome_iff_exists]
  constructor
  · rintro ⟨a, b, _, c, _, d, e⟩
    exact ⟨a, b, fun o ho hne => c o ⟨ho, hne⟩, fun p hp hne => d p ⟨hp, hne⟩, (Except.ok.inj e).symm⟩
  · rintro ⟨a, b, c, d, e⟩
    exact ⟨a, b, (), fun o ho => c o ho.1 ho.2, (), fun p hp => d p hp.1 hp.2, by rw [e]⟩

/-- **C131.**  A proof under the identifier of nobody makes round 4 panic, if it is reached. -/
theorem C131_round4_unknown_panics {s : Dkg q G} {fuel : ℕ} (hr : s.round = 4) {id : UInt32}
    {p : List (Option ℤ)} {rest : List (UInt32 × List (Option ℤ))} (hid : id ≠ s.id)
    (hun : s.others.lookup id = none)
    (hall : ∀ o ∈ s.others, o.1 ≠ s.id → ∃ p', ((id, p) :: rest).lookup o.1 = some p') :
    dkgRound4 E s fuel ((id, p) :: rest) = Go.crash := by
  unfold dkgRound4
  rw [Go.guard_true (by simp), Go.ok_bind, Go.guard_true hr, Go.ok_bind]
  rw [Go.forM_eq_ok (u := ()).2 (by
    intro o ho
    obtain ⟨h1, h2⟩ := List.mem_filter.1 ho
    exact Go.guard_true (Option.isSome_iff_exists.2 (hall o h1 (by simpa using h2))))]
  rw [Go.ok_bind, List.filter_cons_of_pos (by simpa using hid), List.forM_eq_forM, List.forM_cons]
  unfold dkgStep4
  rw [hun]
  rfl

/-! ## The toy key generation -/

/-- Both rounds in the honest toy run. -/
example : ∃ (s1 s2 s3 : Dkg 257 (ZMod 257)) (b : List (UInt32 × Option DkgBcast)) (D : Core.Witness)
    (sh : List (UInt32 × V1.Share 257)) (proofs : List (UInt32 × List (Option ℤ)))
    (res : DkgResult (ZMod 257)), dkgRound2 toyDkgEnv s1 b = .ok (s2, D, sh) ∧
      b.map (·.1) = [3, 1, 2] ∧ s1.round = 2 ∧ s2.round = 3 ∧
      dkgRound4 toyDkgEnv s3 14 proofs = .ok res ∧ proofs.map (·.1) = [3, 1, 2] ∧ s3.round = 4 := by
  have hv : ∀ i ∈ parts 3, Visits (parts 3) i [3, 1, 2] := fun i _ =>
    toyDkg_visits _ (by decide) mem_321
  obtain ⟨s1, b, s2, D, sh, s3, proof, res, h1, h2, h3, h4, _⟩ := C49_honest_run toyDkg_setup
    (fun _ => [3, 1, 2]) (fun _ => [3, 1, 2]) (fun _ => [3, 1, 2]) (fun _ => [3, 1, 2]) hv hv hv hv
  have m1 : (1 : UInt32) ∈ parts 3 := mem_parts3.2 (.inl rfl)
  obtain ⟨hr2, hr3, _, _⟩ := C131_round2_sound (h2 1 m1)
  obtain ⟨_, hr4, _⟩ := C131_round4_iff.1 (h4 1 m1)
  exact ⟨_, _, _, _, _, _, _, _, h2 1 m1, rfl, hr2, hr3, h4 1 m1, rfl, hr4⟩

/-- A valid message under the identifier 4 in a key generation for three. -/
example : ∃ (s : Dkg 257 (ZMod 257)) (b : DkgBcast), s.limit = 3 ∧
    dkgRound2 toyDkgEnv s [(4, some b), (2, some b)] = Go.crash := by
  have m1 : (1 : UInt32) ∈ parts 3 := mem_parts3.2 (.inl rfl)
  obtain ⟨sk, p1, p2, hsk, -, hv1, hv2⟩ := dkgRound1_ok (E := toyDkgEnv) (s := toyFresh 1) (t := 2)
    (n := 3) (rnd := toyDkgRnd 1) rfl (by decide) (by decide) (by decide) (toyDkg_good m1)
  refine ⟨dkgAfter1 toyDkgEnv (toyFresh 1) 2 3 (toyDkgRnd 1) sk,
    ⟨[], sk.pk, dkgParams (toyDkgRnd 1), p1, p2⟩, rfl, ?_⟩
  refine C131_round2_bad_id_panics rfl (id := 4) (by show (4 : UInt32) ≠ 1; decide)
    (by
      rw [show (dkgAfter1 toyDkgEnv (toyFresh 1) 2 3 (toyDkgRnd 1) sk).id = 1 from rfl,
        show (dkgAfter1 toyDkgEnv (toyFresh 1) 2 3 (toyDkgRnd 1) sk).limit = 3 from rfl]
      simp only [List.filter_cons, List.filter_nil, Option.isSome_some]
      rw [if_pos (by simp), if_pos (by simp), List.length_cons, List.length_singleton]
      rfl)
    rfl (.inr (by show (3 : UInt32).toNat < (4 : UInt32).toNat; decide))
    (by show (3 : UInt32).toNat < _; decide) ?_ hv1 hv2
  have hpk := Paillier.pk_honest (toyDkg_good m1).primes hsk
  have : sk.pk.N.natAbs = (toyDkgRnd 1).p * (toyDkgRnd 1).q := by
    rw [hpk, Int.natAbs_mul, Int.natAbs_natCast, Int.natAbs_natCast]
  show sk.pk.N.natAbs.size = _ ∨ sk.pk.N.natAbs.size = _
  rw [this]
  exact (toyDkg_good m1).keySize

/-- A proof under the identifier 7. -/
example (sk : Paillier.SecretKey) :
    dkgRound4 toyDkgEnv { toyAt3 sk with round := 4 } 14 [(7, []), (2, []), (3, [])] = Go.crash := by
  refine C131_round4_unknown_panics rfl (by show (7 : UInt32) ≠ 1; decide) rfl ?_
  intro o ho _
  have : o.1 = 3 ∨ o.1 = 2 := by
    rcases List.mem_cons.1 ho with rfl | ho
    · exact .inl rfl
    rcases List.mem_cons.1 ho with rfl | ho
    · exact .inr rfl
    · cases ho
  rcases this with h | h <;> rw [h] <;> exact ⟨_, rfl⟩

example (sk : Paillier.SecretKey) : dkgRound3 toyDkgEnv (toyAt3 sk) 14 [] [(2, some ⟨1, 5⟩)] = (toyAt3 sk, Go.err) :=
  (C131_round3_nothing _ _ [] _).1

end Verif.Gg20
