import Verif.Dkls.SignProps

/-!
# C120: Bob's last signing round after a failure

`Round4Final` writes the message to `bob.hash` and advances the transcripts before it verifies the signature
(sign.go:273-290, 316).  The stepper of the protocol layer (C41) runs a failed step again, on that state.
-/

set_option linter.unusedSectionVars false

namespace Verif.Dkls

open Verif.Ot

variable {F G : Type} [Field F] [DecidableEq F] [AddCommGroup G] [Module F G] [DecidableEq G]

/-- the transcript of a multiplication receiver after `Round3Multiply` (multiply.go:230-248) -/
def MulReceiver.after (env : MEnv F) (r : MulReceiver F) (m : MulRound2 F) : MulReceiver F :=
  { r with
    transcript := ((appendTau env.cd r.transcript m.tau).extract "draw challenge chi 0").extract
      "draw challenge chi 1" }

/-- the state of Bob after a run of `Round4Final` which got to the verification (sign.go:272-358): both
multiplications and the transcript have advanced, and the message was written to the hash object -/
def Bob2.after (env : SEnv F G) (b : Bob2 F G) (message : List UInt8) (m : SignRound3 F G) : Bob2 F G :=
  { b with
    mul0 := b.mul0.after env.toMEnv m.mul0
    mul1 := b.mul1.after env.toMEnv m.mul1
    bob := { b.bob with
      transcript := b.bob.transcript.extract "schnorr proof for R"
      written := b.bob.written ++ message } }

/-- the computation of the last round with another value of `EtaSig`: the sum before the normalisation moves with
it -/
theorem compute_shift (env : SEnv F G) (b : Bob2 F G) (message : List UInt8) (m : SignRound3 F G) (sig : Sig)
    (h : b.compute env message m = .ok sig) :
    ∃ (s : F) (v : ℕ), (sig.S, sig.V) = normalize env.cd s v ∧ ∀ eta : F,
      b.compute env message { m with EtaSig := eta } =
        .ok ⟨sig.R, (normalize env.cd (s + (eta - m.EtaSig)) v).1, (normalize env.cd (s + (eta - m.EtaSig)) v).2⟩ := by
  unfold Bob2.compute at h
  obtain ⟨share0, h0, h⟩ := Go.bind_eq_ok.1 h
  obtain ⟨share1, h1, h⟩ := Go.bind_eq_ok.1 h
  obtain ⟨hr, h2, h⟩ := Go.bind_eq_ok.1 h
  obtain ⟨u, h3, h⟩ := Go.bind_eq_ok.1 h
  obtain ⟨rX, h4, h⟩ := Go.bind_eq_ok.1 h
  obtain ⟨hg1, h5, h⟩ := Go.bind_eq_ok.1 h
  obtain ⟨kBInv, h6, h⟩ := Go.bind_eq_ok.1 h
  obtain ⟨d, h7, h⟩ := Go.bind_eq_ok.1 h
  obtain ⟨hg2, h8, h⟩ := Go.bind_eq_ok.1 h
  have h := Except.ok.inj h
  subst h
  refine ⟨_, _, rfl, fun eta => ?_⟩
  unfold Bob2.compute
  simp only [h0, Go.ok_bind, h1, h2, h3, h4, h5, h6, h7, h8]
  have e : ∀ a : F, a + (m.EtaSig - hg2) + (eta - m.EtaSig) = a + (eta - hg2) := fun a => by ring
  rw [e]

/-- **C120, what the repeated round verifies.** If Bob's last round fails at the verification and is run again with
another message from Alice, it succeeds iff the signature computed then is valid for the digest of
`message ++ message` (after what was written before): a signature on the message Bob was asked to sign is not what
it looks for. -/
theorem C120_retry (env : SEnv F G) (b : Bob2 F G) (message : List UInt8) (m m' : SignRound3 F G) (sig : Sig) :
    (b.after env message m).round4 env message m' = .ok sig ↔
      (b.after env message m).compute env message m' = .ok sig
        ∧ EcdsaValid F env.q env.gen b.bob.publicKey env.xcoord
          (beNat (env.hash (b.bob.written ++ message ++ message))) sig.R sig.S :=
  C37_round4_iff env (b.after env message m) message m' sig

/-- **C120, Alice chooses the result.** In the repeated round every valid signature `(r, s)` on
`message ++ message` with the nonce point of the round and with bit 255 of `s` clear is accepted for some value of
`EtaSig`, which is the last thing Alice computes: Bob ends with a signature on a message he was not asked to
sign. -/
theorem C120_steer (env : SEnv F G) (hc : OrderCodec env.cd env.q) (b : Bob2 F G) (message : List UInt8)
    (m m' : SignRound3 F G) (sig : Sig) (s : ℕ)
    (h : (b.after env message m).compute env message m' = .ok sig)
    (hv : EcdsaValid F env.q env.gen b.bob.publicKey env.xcoord
      (beNat (env.hash (b.bob.written ++ message ++ message))) sig.R s)
    (hlow : s.testBit 255 = false) :
    ∃ eta v, (b.after env message m).round4 env message { m' with EtaSig := eta } = .ok ⟨sig.R, s, v⟩ := by
  obtain ⟨s0, v, -, hs⟩ := compute_shift env _ message m' sig h
  have hval : sval env.cd ((s : ℕ) : F) = s := by
    have hq : s < env.q := hv.2.2.2.1
    exact sval_unique hc s hq _ rfl
  have hn : normalize env.cd (s0 + ((m'.EtaSig + ((s : ℕ) : F) - s0) - m'.EtaSig)) v = (s, v) := by
    have : s0 + ((m'.EtaSig + ((s : ℕ) : F) - s0) - m'.EtaSig) = ((s : ℕ) : F) := by ring
    rw [this]
    unfold normalize
    rw [hval, hlow]
    rfl
  refine ⟨m'.EtaSig + ((s : ℕ) : F) - s0, v, ?_⟩
  have h2 := hs (m'.EtaSig + ((s : ℕ) : F) - s0)
  rw [hn] at h2
  rw [C120_retry]
  exact ⟨h2, hv⟩

/-! ## An instance -/

theorem drawChi_const (env : MEnv F) (hext : ∀ t t', env.ext t = env.ext t') (t t' : Merlin) :
    (drawChi env t).map Prod.fst = (drawChi env t').map Prod.fst := by
  unfold drawChi
  simp only
  rw [hext (t.extract _) (t'.extract _), hext ((t.extract _).extract _) ((t'.extract _).extract _)]
  cases env.cd.dec (env.ext (t'.extract "draw challenge chi 0")).toList with
  | none => rfl
  | some c0 =>
    simp only [Go.ofOption, Go.ok_bind]
    cases env.cd.dec (env.ext ((t'.extract "draw challenge chi 0").extract "draw challenge chi 1")).toList <;> rfl

theorem mulRound3_const (env : MEnv F) (hext : ∀ t t', env.ext t = env.ext t') (r r' : MulReceiver F)
    (m : MulRound2 F) (h : r' = { r with transcript := r'.transcript }) : mulRound3 env r' m = mulRound3 env r m := by
  rw [h]
  unfold mulRound3
  simp only
  cases kosRound3 env.toKEnv r.kos m.tau with
  | error e => rw [Go.error_bind, Go.error_bind]
  | ok share =>
    rw [Go.ok_bind, Go.ok_bind]
    have := drawChi_const env hext (appendTau env.cd r'.transcript m.tau) (appendTau env.cd r.transcript m.tau)
    revert this
    rcases drawChi env (appendTau env.cd r'.transcript m.tau) with e | x <;>
      rcases drawChi env (appendTau env.cd r.transcript m.tau) with e' | x' <;> intro this
    · obtain rfl : e = e' := Except.error.inj this
      rw [Go.error_bind]
    · cases this
    · cases this
    · have : x.1 = x'.1 := Except.ok.inj this
      rw [Go.ok_bind, Go.ok_bind, this]

/-- where the challenges do not depend on the transcript, only the bytes written to the hash object matter -/
theorem compute_const (env : SEnv F G) (hext : ∀ t t', env.ext t = env.ext t') (b : Bob2 F G)
    (message : List UInt8) (m m' : SignRound3 F G) (w : List UInt8) :
    (({ b with bob := { b.bob with written := w } } : Bob2 F G).after env message m).compute env message m' =
      ({ b with bob := { b.bob with written := w ++ message } } : Bob2 F G).compute env message m' := by
  unfold Bob2.compute Bob2.after
  simp only
  rw [mulRound3_const env.toMEnv hext b.mul0 (b.mul0.after env.toMEnv m.mul0) m'.mul0 rfl,
    mulRound3_const env.toMEnv hext b.mul1 (b.mul1.after env.toMEnv m.mul1) m'.mul1 rfl,
    hext ((b.bob.transcript.extract "schnorr proof for R").extract "schnorr proof for R")
      (b.bob.transcript.extract "schnorr proof for R")]

/-- an environment with a constant challenge -/
def SEnv.const (env : SEnv F G) : SEnv F G := { env with ext := fun _ => env.ext [] }

theorem Total.const {env : SEnv F G} (h : Total env) : Total env.const where
  sha := h.sha
  hash := h.hash
  ext _ := h.ext []
  slots := h.slots
  new := h.new

theorem OrderCodec.const {env : SEnv F G} (h : OrderCodec env.cd env.q) : OrderCodec env.const.cd env.const.q := h

theorem AffineOk.const {env : SEnv F G} (h : AffineOk env) : AffineOk env.const :=
  { gen := h.gen, len := h.len, x := h.x, parity := h.parity, xneg := h.xneg }

theorem AliceNonceOk.const {env : SEnv F G} {rnd : AliceRnd F} {kB : F} (h : AliceNonceOk env rnd kB) :
    AliceNonceOk env.const rnd kB := h

/-- With a constant challenge an honest Alice who was asked for a signature on `message ++ message` completes the
repeated round of a Bob who was asked for a signature on `message`. -/
theorem retry_instance (env : SEnv F G) (hc : OrderCodec env.cd env.q) (ha : AffineOk env) (ht : Total env)
    (keys : List (Digest × Digest)) (seed : SeedReceiver) (nabla : Digest) (hseed : SeedOk keys seed nabla)
    (skA skB : F) (pre message : List UInt8) (aliceSeed bobSeed : Digest) (kB : F) (hkB : kB ≠ 0) (rndB : MulRnd)
    (rnd : AliceRnd F) (hn : AliceNonceOk env rnd kB) (hsk : skA * skB ≠ 0)
    (hx : ∀ P : G, P ≠ 0 → env.xcoord P ≠ 0)
    (hh : env.cd.dec (env.hash (pre ++ message ++ message)) = some 0) (m : SignRound3 F G) :
    ∃ (b : Bob2 F G) (m' : SignRound3 F G) (sig : Sig),
      (b.after env.const message m).compute env.const message m' = .ok sig
        ∧ EcdsaValid F env.const.q env.const.gen b.bob.publicKey env.const.xcoord
          (beNat (env.const.hash (b.bob.written ++ message ++ message))) sig.R sig.S := by
  obtain ⟨m2, b, hB, hA⟩ := C37_rounds_succeed env.const hc ha.const ht.const keys seed nabla hseed skA skB
    (pre ++ message) message aliceSeed bobSeed kB hkB rndB
  obtain ⟨m3, hA⟩ := hA rnd hn.const
  have hb : b = { b with bob := { b.bob with
      publicKey := (skA * skB) • env.const.gen
      written := pre ++ message } } := by
    unfold Bob.round2 newBob at hB
    obtain ⟨⟨g0, t0⟩, hn0, hB⟩ := Go.bind_eq_ok.1 hB
    obtain ⟨⟨g1, t1⟩, hn1, hB⟩ := Go.bind_eq_ok.1 hB
    obtain ⟨kBInv, hkB, hB⟩ := Go.bind_eq_ok.1 hB
    obtain ⟨⟨ko0, mr0⟩, hm0, hB⟩ := Go.bind_eq_ok.1 hB
    obtain ⟨⟨ko1, mr1⟩, hm1, hB⟩ := Go.bind_eq_ok.1 hB
    obtain ⟨rfl, rfl⟩ := Prod.mk.inj (Except.ok.inj hB)
    rfl
  obtain ⟨kA, r, h, hkA, -, hr, hh', hrx, sig, hcomp, -, -, -, hval⟩ := C37_honest env.const hc ha.const keys seed
    nabla hseed skA skB (pre ++ message) message aliceSeed bobSeed kB rndB rnd m2 b m3 hB hA
  have hg : (kA * kB) • env.gen ≠ 0 := fun h => by
    rcases smul_eq_zero.1 h with h | h
    · exact mul_ne_zero hkA hkB h
    · exact ha.gen h
  have hr0 : r ≠ 0 := fun h0 => by
    rw [(sval_zero_iff (OrderCodec.const hc) r).2 h0] at hrx
    exact hx _ hg hrx.symm
  obtain rfl : 0 = h := Option.some.inj (hh.symm.trans hh')
  obtain ⟨-, hv, -⟩ := hval hr0 (by
    rw [zero_add]
    exact div_ne_zero (mul_ne_zero hr0 hsk) (mul_ne_zero hkA hkB))
  refine ⟨{ b with bob := { b.bob with publicKey := (skA * skB) • env.const.gen, written := pre } }, m3, sig, ?_, hv⟩
  have := compute_const env.const (fun _ _ => rfl) { b with bob := { b.bob with
    publicKey := (skA * skB) • env.const.gen } } message m m3 pre
  refine Eq.trans this ?_
  rw [hb] at hcomp
  exact hcomp

theorem toy_hash0 : toySEnv.cd.dec (toySEnv.hash ([253] ++ [0] ++ [0])) = some 0 := by
  decide +kernel

theorem toy_xcoord : ∀ P : Toy.K, P ≠ 0 → toySEnv.xcoord P ≠ 0 := by
  decide +kernel

/-- the hypotheses of `C120_steer` -/
example (aliceSeed bobSeed : Digest) (rndB : MulRnd) (m : SignRound3 Toy.K Toy.K) :
    ∃ (b : Bob2 Toy.K Toy.K) (m' : SignRound3 Toy.K Toy.K) (sig : Sig),
      (b.after toySEnv.const [0] m).compute toySEnv.const [0] m' = .ok sig
        ∧ EcdsaValid Toy.K toySEnv.const.q toySEnv.const.gen b.bob.publicKey toySEnv.const.xcoord
          (beNat (toySEnv.const.hash (b.bob.written ++ [0] ++ [0]))) sig.R sig.S := by
  obtain ⟨keys, seed, hseed⟩ : ∃ keys seed, SeedOk keys seed toyNabla := ⟨_, _, toySeed 256 (Nat.le_refl 256)⟩
  have h3 : (3 : Toy.K) ≠ 0 := by decide
  have h42 : (6 : Toy.K) * 7 ≠ 0 := by decide
  exact retry_instance toySEnv toyOrder toyAffine toyTotal keys seed _ hseed 6 7 [253] [0] aliceSeed bobSeed 3 h3 rndB
    _ toy_R h42 toy_xcoord toy_hash0 m

end Verif.Dkls
