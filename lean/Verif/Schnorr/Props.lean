import Verif.Schnorr.Model
import Verif.Common.Toy
import Mathlib.Tactic.Module
import Mathlib.Tactic.Ring
import Mathlib.Tactic.FieldSimp

/-!
# Properties of the Schnorr proofs (C19 - C21)
-/

set_option linter.unusedSectionVars false

namespace Verif.Schnorr

variable {F : Type} [Field F] [DecidableEq F]
variable {G : Type} [AddCommGroup G] [Module F G] [DecidableEq G]

/-! ## Specification -/

/-- The proof `(C, S)` for `statement` opens to the commitment point `R`:
`S·base = R + C·statement`. -/
def OpensTo (base : G) (pf : Proof F G) (R : G) : Prop := pf.S • base = R + pf.C • pf.statement

/-- What the verifier is meant to check: the challenge is the hash of session, base, statement and
the commitment point the proof opens to. -/
def Valid (H : List UInt8 → List UInt8) (penc : G → List UInt8) (cd : ScalarCodec F) (base : G)
    (sid : List UInt8) (pf : Proof F G) : Prop :=
  ∃ R, OpensTo base pf R ∧
    cd.enc pf.C = H (sid ++ penc base ++ penc pf.statement ++ penc R)

/-- Two named inputs collide. -/
def Collide (H : List UInt8 → List UInt8) (a b : List UInt8) : Prop := a ≠ b ∧ H a = H b

/-- Point encodings are injective and have a fixed length. -/
structure GoodPoints (penc : G → List UInt8) (L : ℕ) : Prop where
  inj : Function.Injective penc
  len : ∀ P, (penc P).length = L

theorem opensTo_iff {base : G} {pf : Proof F G} {R : G} :
    OpensTo base pf R ↔ R = pf.S • base + (-pf.C) • pf.statement := by
  unfold OpensTo
  constructor
  · intro h; rw [h]; module
  · intro h; rw [h]; module

/-! ## C20 -/

/-- Acceptance is exactly `Valid`; anything else is an error. -/
theorem C20_verify_iff (H : List UInt8 → List UInt8) (penc : G → List UInt8) (cd : ScalarCodec F)
    (g : G) (pf : Proof F G) (base : Option G) (sid : List UInt8) :
    (verify H penc cd g (some pf) base sid = .ok () ↔ Valid H penc cd (base.getD g) sid pf) ∧
    (¬ Valid H penc cd (base.getD g) sid pf → verify H penc cd g (some pf) base sid = Go.err) := by
  have key : Valid H penc cd (base.getD g) sid pf ↔ cd.enc pf.C =
      H (transcript penc sid (base.getD g) pf.statement
        (pf.S • base.getD g + (-pf.C) • pf.statement)) := by
    unfold Valid transcript
    simp only [opensTo_iff]
    constructor
    · rintro ⟨R, rfl, h⟩; exact h
    · intro h; exact ⟨_, rfl, h⟩
  rw [key]
  constructor
  · simp only [verify, Go.guard_eq_ok]
  · intro h
    simp only [verify, Go.guard_false h]

/-! ## C19 -/

/-- Honest proofs verify, for every witness, nonce, base point (nil = generator), session. -/
theorem C19_complete (H : List UInt8 → List UInt8) (penc : G → List UInt8) (cd : ScalarCodec F)
    (g : G) (base : Option G) (sid : List UInt8) (x k : F) (pf : Proof F G)
    (h : (newProver g base sid).prove H penc cd x k = .ok pf) :
    verify H penc cd g (some pf) base sid = .ok () ∧ pf.statement = x • base.getD g := by
  unfold Prover.prove newProver at h
  rw [Go.bind_eq_ok] at h
  obtain ⟨c, hc, h⟩ := h
  rw [Go.ofOption_eq_ok] at hc
  obtain rfl := Except.ok.inj h
  refine ⟨?_, rfl⟩
  rw [(C20_verify_iff ..).1]
  refine ⟨k • base.getD g, ?_, cd.enc_dec _ _ hc⟩
  unfold OpensTo
  simp only
  module

/-- `Prove` fails (with an error) exactly when the digest is not a canonical scalar encoding. -/
theorem C19_prove_decision (H : List UInt8 → List UInt8) (penc : G → List UInt8)
    (cd : ScalarCodec F) (g : G) (base : Option G) (sid : List UInt8) (x k : F) :
    let digest := H (sid ++ penc (base.getD g) ++ penc (x • base.getD g) ++ penc (k • base.getD g))
    ((∃ pf, (newProver g base sid).prove H penc cd x k = .ok pf) ↔ ∃ c, cd.enc c = digest) ∧
    ((¬ ∃ c, cd.enc c = digest) → (newProver g base sid).prove H penc cd x k = Go.err) := by
  intro digest
  have hd : (newProver g base sid).prove H penc cd x k =
      (do let c ← Go.ofOption (cd.dec digest)
          .ok ⟨c, c * x + k, x • base.getD g⟩) := rfl
  rw [hd]
  constructor
  · constructor
    · rintro ⟨pf, h⟩
      rw [Go.bind_eq_ok] at h
      obtain ⟨c, hc, _⟩ := h
      exact ⟨c, cd.enc_dec _ _ (Go.ofOption_eq_ok.1 hc)⟩
    · rintro ⟨c, hc⟩
      rw [← hc, cd.dec_enc]
      exact ⟨_, rfl⟩
  · intro h
    cases hh : cd.dec digest with
    | none => rfl
    | some c => exact absurd ⟨c, cd.enc_dec _ _ hh⟩ h

/-! ## C20, continued -/

/-- Special soundness with an explicit extractor, in forking form: two proofs accepted with respect
to two hash functions, whose verifications ask the same query `q` but get different answers, give
the discrete logarithm of the statement. -/
theorem C20_special_soundness (H H' : List UInt8 → List UInt8) (penc : G → List UInt8) {L : ℕ}
    (hp : GoodPoints penc L) (cd : ScalarCodec F) (g : G) (base base' : Option G)
    (sid sid' : List UInt8) (p p' : Proof F G) (R R' : G) (q : List UInt8)
    (hv : verify H penc cd g (some p) base sid = .ok ())
    (hv' : verify H' penc cd g (some p') base' sid' = .ok ())
    (hR : OpensTo (base.getD g) p R) (hR' : OpensTo (base'.getD g) p' R')
    (hq : sid ++ penc (base.getD g) ++ penc p.statement ++ penc R = q)
    (hq' : sid' ++ penc (base'.getD g) ++ penc p'.statement ++ penc R' = q)
    (hne : H q ≠ H' q) :
    p.statement = ((p.S - p'.S) / (p.C - p'.C)) • base.getD g := by
  obtain ⟨Q, hQ, h1⟩ := (C20_verify_iff ..).1.1 hv
  obtain ⟨Q', hQ', h1'⟩ := (C20_verify_iff ..).1.1 hv'
  obtain rfl : Q = R := by rw [opensTo_iff] at hQ hR; rw [hQ, hR]
  obtain rfl : Q' = R' := by rw [opensTo_iff] at hQ' hR'; rw [hQ', hR']
  have hC : p.C ≠ p'.C := by
    intro h
    rw [hq] at h1
    rw [hq', ← h] at h1'
    exact hne (h1.symm.trans h1')
  obtain ⟨e1, e2⟩ := List.append_inj' (hq.trans hq'.symm) (by rw [hp.len, hp.len])
  obtain ⟨e1, e3⟩ := List.append_inj' e1 (by rw [hp.len, hp.len])
  obtain ⟨_, e4⟩ := List.append_inj' e1 (by rw [hp.len, hp.len])
  have hst := hp.inj e3
  have hb := hp.inj e4
  have hRR := hp.inj e2
  unfold OpensTo at hR hR'
  rw [← hst, ← hb, ← hRR] at hR'
  have h0 : p.C - p'.C ≠ 0 := sub_ne_zero.2 hC
  have e : (p.S - p'.S) • base.getD g = (p.C - p'.C) • p.statement := by
    rw [sub_smul, hR, hR', sub_smul, add_sub_add_left_eq_sub]
  rw [div_eq_inv_mul, mul_smul, e, ← mul_smul, inv_mul_cancel₀ h0, one_smul]

/-- Transcript binding: two accepting proofs with the same challenge have the same session, base
point, statement and commitment point - or the two transcripts are a hash collision. -/
theorem C20_transcript_binding (H : List UInt8 → List UInt8) (penc : G → List UInt8) {L : ℕ}
    (hp : GoodPoints penc L) (cd : ScalarCodec F) (g : G) (base base' : Option G)
    (sid sid' : List UInt8) (p p' : Proof F G) (R R' : G)
    (hv : verify H penc cd g (some p) base sid = .ok ())
    (hv' : verify H penc cd g (some p') base' sid' = .ok ())
    (hR : OpensTo (base.getD g) p R) (hR' : OpensTo (base'.getD g) p' R') (hC : p.C = p'.C) :
    (sid = sid' ∧ base.getD g = base'.getD g ∧ p.statement = p'.statement ∧ R = R') ∨
    Collide H (sid ++ penc (base.getD g) ++ penc p.statement ++ penc R)
      (sid' ++ penc (base'.getD g) ++ penc p'.statement ++ penc R') := by
  obtain ⟨Q, hQ, h1⟩ := (C20_verify_iff ..).1.1 hv
  obtain ⟨Q', hQ', h1'⟩ := (C20_verify_iff ..).1.1 hv'
  obtain rfl : Q = R := by rw [opensTo_iff] at hQ hR; rw [hQ, hR]
  obtain rfl : Q' = R' := by rw [opensTo_iff] at hQ' hR'; rw [hQ', hR']
  by_cases he : sid ++ penc (base.getD g) ++ penc p.statement ++ penc Q =
      sid' ++ penc (base'.getD g) ++ penc p'.statement ++ penc Q'
  · left
    obtain ⟨e1, e2⟩ := List.append_inj' he (by rw [hp.len, hp.len])
    obtain ⟨e1, e3⟩ := List.append_inj' e1 (by rw [hp.len, hp.len])
    obtain ⟨e1, e4⟩ := List.append_inj' e1 (by rw [hp.len, hp.len])
    exact ⟨e1, hp.inj e4, hp.inj e3, hp.inj e2⟩
  · right
    exact ⟨he, by rw [← h1, ← h1', hC]⟩

/-- Zero knowledge against an honest challenge: when the hash answers `c`, every response `s` is
produced by exactly one nonce, whatever the witness; so `(c, s)` is independent of the witness, and a
simulator gets the same proof by picking `s` and computing the commitment point from it. -/
theorem C20_simulation (penc : G → List UInt8) (cd : ScalarCodec F) (p : Prover G) (x c s : F) :
    ∃! k : F, p.prove (fun _ => cd.enc c) penc cd x k = .ok ⟨c, s, x • p.basePoint⟩ := by
  have h : ∀ k, p.prove (fun _ => cd.enc c) penc cd x k = .ok ⟨c, c * x + k, x • p.basePoint⟩ := by
    intro k
    simp only [Prover.prove, cd.dec_enc, Go.ofOption, Go.ok_bind]
  refine ⟨s - c * x, ?_, fun k hk => ?_⟩
  · simp only [h]; congr 2; ring
  · simp only [h] at hk
    have := congrArg Proof.S (Except.ok.inj hk)
    simp only at this
    rw [← this]; ring

/-! ## C21 -/

/-- Exact acceptance of a committed proof. -/
theorem C21_decommit_iff (H : List UInt8 → List UInt8) (penc : G → List UInt8) (cd : ScalarCodec F)
    (g : G) (pf : Proof F G) (com : List UInt8) (base : Option G) (sid : List UInt8) :
    (decommitVerify H penc cd g (some pf) com base sid = .ok () ↔
      com = H (cd.enc pf.C ++ cd.enc pf.S) ∧ Valid H penc cd (base.getD g) sid pf) ∧
    (decommitVerify H penc cd g (some pf) com base sid ≠ Go.crash) := by
  unfold decommitVerify commitment
  constructor
  · simp only
    rw [Go.guard_bind_eq_ok, (C20_verify_iff ..).1, eq_comm]
  · by_cases h : H (cd.enc pf.C ++ cd.enc pf.S) = com
    · simp only [Go.guard_true h, Go.ok_bind, verify]
      unfold Go.guard; split <;> simp
    · simp only [Go.guard_false h, Go.error_bind]
      simp

/-- Honest committed proofs open. -/
theorem C21_complete (H : List UInt8 → List UInt8) (penc : G → List UInt8) (cd : ScalarCodec F)
    (g : G) (base : Option G) (sid : List UInt8) (x k : F) (pf : Proof F G) (com : List UInt8)
    (h : (newProver g base sid).proveCommit H penc cd x k = .ok (pf, com)) :
    decommitVerify H penc cd g (some pf) com base sid = .ok () := by
  unfold Prover.proveCommit at h
  rw [Go.bind_eq_ok] at h
  obtain ⟨p', hp, h⟩ := h
  obtain ⟨rfl, rfl⟩ := Prod.mk.inj (Except.ok.inj h)
  rw [(C21_decommit_iff ..).1]
  exact ⟨rfl, (C20_verify_iff ..).1.1 (C19_complete H penc cd g base sid x k p' hp).1⟩

/-- Binding: although the commitment hashes only `(C, S)`, two accepted openings of one commitment
in the same context are the same proof *including the statement*, or one of two named pairs of hash
inputs collides. -/
theorem C21_binding (H : List UInt8 → List UInt8) (penc : G → List UInt8) {L : ℕ}
    (hp : GoodPoints penc L) (cd : ScalarCodec F) {n : ℕ} (hn : ∀ x, (cd.enc x).length = n) (g : G)
    (base base' : Option G) (sid sid' : List UInt8) (p p' : Proof F G) (com : List UInt8)
    (hv : decommitVerify H penc cd g (some p) com base sid = .ok ())
    (hv' : decommitVerify H penc cd g (some p') com base' sid' = .ok ()) :
    (p = p' ∧ sid = sid' ∧ base.getD g = base'.getD g) ∨
    Collide H (cd.enc p.C ++ cd.enc p.S) (cd.enc p'.C ++ cd.enc p'.S) ∨
    (∃ R R', OpensTo (base.getD g) p R ∧ OpensTo (base'.getD g) p' R' ∧
      Collide H (sid ++ penc (base.getD g) ++ penc p.statement ++ penc R)
        (sid' ++ penc (base'.getD g) ++ penc p'.statement ++ penc R')) := by
  obtain ⟨hc, R, hR, h1⟩ := (C21_decommit_iff ..).1.1 hv
  obtain ⟨hc', R', hR', h1'⟩ := (C21_decommit_iff ..).1.1 hv'
  by_cases he : cd.enc p.C ++ cd.enc p.S = cd.enc p'.C ++ cd.enc p'.S
  · obtain ⟨e1, e2⟩ := List.append_inj he (by rw [hn, hn])
    have inj : Function.Injective cd.enc := fun a b h => by
      have := congrArg cd.dec h
      rw [cd.dec_enc, cd.dec_enc] at this
      exact Option.some.inj this
    have hC := inj e1
    have hS := inj e2
    rcases C20_transcript_binding H penc hp cd g base base' sid sid' p p' R R'
      ((C20_verify_iff ..).1.2 ⟨R, hR, h1⟩) ((C20_verify_iff ..).1.2 ⟨R', hR', h1'⟩) hR hR' hC with
      ⟨a, b, c, d⟩ | hcol
    · left
      refine ⟨?_, a, b⟩
      cases p; cases p'
      simp_all
    · exact Or.inr (Or.inr ⟨R, R', hR, hR', hcol⟩)
  · exact Or.inr (Or.inl ⟨he, by rw [← hc, ← hc']⟩)

/-- The commitment value itself does not depend on the statement, base point or session. -/
theorem C21_commitment_ignores_statement (H : List UInt8 → List UInt8) (cd : ScalarCodec F)
    (c s : F) (P Q : G) : commitment H cd ⟨c, s, P⟩ = commitment H cd ⟨c, s, Q⟩ := rfl

/-- A nil proof pointer panics in both verifiers. -/
theorem C21_nil_panics (H : List UInt8 → List UInt8) (penc : G → List UInt8) (cd : ScalarCodec F)
    (g : G) (com : List UInt8) (base : Option G) (sid : List UInt8) :
    verify H penc cd g none base sid = Go.crash ∧
    decommitVerify H penc cd g none com base sid = Go.crash := ⟨rfl, rfl⟩

/-! ## The hypotheses can be met -/

/-- toy hash: a fixed valid two-byte scalar -/
def toyH : List UInt8 → List UInt8 := fun m => [0, m.foldl (· + ·) 0]

theorem toy_goodPoints : GoodPoints Toy.codec.enc 2 := by
  refine ⟨fun a b h => ?_, fun P => rfl⟩
  have := congrArg Toy.codec.dec h
  rw [Toy.codec.dec_enc, Toy.codec.dec_enc] at this
  exact Option.some.inj this

example : ∃ pf com, (newProver (3 : Toy.K) none [7]).proveCommit toyH Toy.codec.enc Toy.codec 5 9 =
    .ok (pf, com) ∧ pf.C ≠ 0 ∧
    decommitVerify toyH Toy.codec.enc Toy.codec (3 : Toy.K) (some pf) com none [7] = .ok () := by
  have h : (newProver (3 : Toy.K) none [7]).proveCommit toyH Toy.codec.enc Toy.codec 5 9 =
      .ok (⟨52, 12, 15⟩, [0, 64]) := by decide +kernel
  exact ⟨_, _, h, by decide, C21_complete _ _ _ _ _ _ _ _ _ _ h⟩

/-- two different accepting challenges for one query, under two hash functions -/
example : ∃ p p' : Proof Toy.K Toy.K, p.statement = p'.statement ∧ p.C ≠ p'.C ∧
    OpensTo (3 : Toy.K) p 27 ∧ OpensTo (3 : Toy.K) p' 27 ∧
    verify toyH Toy.codec.enc Toy.codec (3 : Toy.K) (some p) none [7] = .ok () ∧
    verify (fun _ => [0, 77]) Toy.codec.enc Toy.codec (3 : Toy.K) (some p') none [7] = .ok () := by
  refine ⟨⟨52, 52 * 5 + 9, 15⟩, ⟨77, 77 * 5 + 9, 15⟩, ?_⟩
  unfold OpensTo
  decide +kernel

end Verif.Schnorr
