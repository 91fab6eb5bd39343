import Verif.Ed25519.HashProps
import Verif.Nem.Props
import Verif.Ted.TedProps

/-!
# Signatures on edwards25519

* C183 the models of threshold Ed25519 and of NEM signatures, whose group is a parameter, on the concrete curve
* C184 `ted25519.Verify` and public keys outside the prime-order subgroup
-/

set_option exponentiation.threshold 1000
set_option linter.unusedDecidableInType false

namespace Verif.Ed25519

open Primes Verif.Curves.Ed

instance : DecidableEq EdPt := fun P Q => decidable_of_iff (P.x = Q.x ∧ P.y = Q.y)
  ⟨fun h => Pt.ext h.1 h.2, fun h => h ▸ ⟨rfl, rfl⟩⟩

/-! ## NEM -/

/-- the curve as an environment of the NEM model -/
def edEnv (keccak : List UInt8 → List UInt8) : Nem.Env EdPt :=
  ⟨base, ptToCompressed, fun b => (ptFromCompressed b).toOption, keccak⟩

theorem ptToCompressed_injective : Function.Injective ptToCompressed := fun _ _ h => C180_compressed_injective h

/-- C183: the curve meets everything the theorems on NEM signatures ask of it. -/
theorem C183_nem_lawful (keccak : List UInt8 → List UInt8) (hk : ∀ b, (keccak b).length = 64) :
    Nem.Lawful edl (edEnv keccak) where
  penc_length P := (C180_compressed_roundtrip P).1
  pdec_penc P := by
    simp only [edEnv, (C180_compressed_roundtrip P).2.1]
    rfl
  keccak_length := hk
  order := C179_base_order
  small := by decide +kernel

/-- C183: so every NEM signature with a key from a seed is accepted, on the curve. -/
theorem C183_nem_sign_verifies (keccak : List UInt8 → List UInt8) (hk : ∀ b, (keccak b).length = 64)
    (seed msg priv sig : List UInt8) (h1 : Nem.newKeyFromSeed (edEnv keccak) edl seed = .ok priv)
    (h2 : Nem.sign (edEnv keccak) edl priv msg = .ok sig) :
    Nem.verify (edEnv keccak) edl (priv.drop 32) msg sig = .ok true :=
  Nem.C81_sign_verifies (C183_nem_lawful keccak hk) seed msg priv sig h1 h2

/-! ## Ed25519 of the repository -/

/-- `Verify` (`pkg/ted25519/ted25519/ed25519.go:233-288`) on the curve; `SetBytesWide` and `SetBytesCanonical` are
`SetUniformBytes` and `SetCanonicalBytes` of the library (`ed25519_curve.go:266-288`) -/
def edVerify (sha512 : List UInt8 → List UInt8) (pub msg sig : List UInt8) : Go Bool := do
  Go.guard (pub.length = 32)
  Go.guard (¬ (sig.length ≠ 64 ∨ sig.getD 63 0 &&& 224 ≠ 0))
  let A ← ptFromCompressed pub
  let negA := ptNeg A
  let h ← libSetUniform (sha512 (sig.take 32 ++ pub ++ msg))
  let s ← libSetCanonical (sig.drop 32)
  match ptVarTimeDouble (some h) (some negA) (some s) with
  | some R => .ok (decide (sig.take 32 = ptToCompressed R))
  | none => Go.crash

theorem decode_ofOption (b : List UInt8) : ptFromCompressed b = Go.ofOption (ptFromCompressed b).toOption := by
  rcases h : ptFromCompressed b with e | P
  · cases e
    · rfl
    · exact absurd h (C180_fromCompressed_total b)
  · rfl

/-- the verifier is that of NEM but for the hash function -/
theorem edVerify_eq (sha512 : List UInt8 → List UInt8) (pub msg sig : List UInt8) :
    edVerify sha512 pub msg sig = Nem.verify (edEnv sha512) edl pub msg sig := by
  unfold edVerify Nem.verify
  rw [decode_ofOption pub]
  rfl

/-- the scalar the digest is reduced to -/
def chal (sha512 : List UInt8 → List UInt8) (pub msg sig : List UInt8) : ℕ :=
  leNat (sha512 (sig.take 32 ++ pub ++ msg)) % edl

/-- C184: exactly which signatures are accepted: the response is a number below the order, the commitment is the canonical
encoding of a point `R`, and `s·B = R + h·A` holds on the whole curve, without clearing the cofactor. -/
theorem C184_verify_iff (sha512 : List UInt8 → List UInt8) (hs : ∀ b, (sha512 b).length = 64) (pub msg sig : List UInt8) :
    edVerify sha512 pub msg sig = .ok true ↔ sig.length = 64 ∧ leNat (sig.drop 32) < edl ∧
      ∃ A R : EdPt, ptFromCompressed pub = .ok A ∧ sig.take 32 = ptToCompressed R ∧
        leNat (sig.drop 32) • base = R + chal sha512 pub msg sig • A := by
  rw [edVerify_eq, Nem.C81_verify_iff (C183_nem_lawful sha512 hs)]
  have hdec : ∀ A : EdPt, (edEnv sha512).pdec pub = some A ↔ ptFromCompressed pub = .ok A := fun A => by
    show (ptFromCompressed pub).toOption = some A ↔ _
    rcases ptFromCompressed pub with e | P
    · exact ⟨fun h => (by cases h), fun h => (by cases h)⟩
    · exact ⟨fun h => congrArg _ (Option.some.inj h), fun h => congrArg _ (Except.ok.inj h)⟩
  constructor
  · rintro ⟨-, h1, -, h2, A, hA, h3⟩
    refine ⟨h1, h2, A, _, (hdec A).1 hA, h3, ?_⟩
    exact (sub_add_cancel _ _).symm
  · rintro ⟨h1, h2, A, R, hA, hR, h3⟩
    refine ⟨((C180_fromCompressed _ _).1 hA).1, h1, ?_, h2, A, (hdec A).2 hA, ?_⟩
    · have hl : (sig.drop 32).length = 32 := by rw [List.length_drop, h1]
      have hb := leBytes_leNat (sig.drop 32)
      rw [hl] at hb
      have hg : sig.getD 63 0 = (leBytes 32 (leNat (sig.drop 32))).getD 31 0 := by
        rw [hb, List.getD_eq_getElem?_getD, List.getD_eq_getElem?_getD, List.getElem?_drop]
      rw [hg]
      exact top_bits (lt_trans h2 (by decide +kernel))
    · refine hR.trans (congrArg ptToCompressed ?_)
      show R = leNat (sig.drop 32) • base - chal sha512 pub msg sig • A
      rw [h3, add_sub_cancel_right]
where
  top_bits {n : ℕ} (hn : n < 2 ^ 253) : (leBytes 32 n).getD 31 0 &&& 224 = 0 := by
    have hgen : ∀ (k n i : ℕ), i < k → ((leBytes k n).getD i 0).toNat = n / 256 ^ i % 256 := by
      intro k
      induction k with
      | zero => intro n i hi; omega
      | succ k ih =>
        intro n i hi
        cases i with
        | zero => simp [leBytes]
        | succ i => rw [leBytes, List.getD_cons_succ, ih _ _ (by omega), pow_succ', Nat.div_div_eq_div_mul]
    have h2 := hgen 32 n 31 (by norm_num)
    have h3 : n / 256 ^ 31 < 32 := by
      rw [Nat.div_lt_iff_lt_mul (by positivity)]
      calc n < 2 ^ 253 := hn
        _ = 32 * 256 ^ 31 := by norm_num
    generalize (leBytes 32 n).getD 31 0 = b at h2
    have h4 : b.toNat < 32 := by rw [h2]; omega
    have hall : ∀ n < 32, UInt8.ofNat n &&& 224 = 0 := by decide
    have := hall b.toNat h4
    rwa [UInt8.ofNat_toNat] at this

/-- C184: for one key, message and commitment at most one response is accepted. -/
theorem C184_unique (sha512 : List UInt8 → List UInt8) (hs : ∀ b, (sha512 b).length = 64) (pub msg R s s' : List UInt8)
    (hR : R.length = 32) (h : edVerify sha512 pub msg (R ++ s) = .ok true)
    (h' : edVerify sha512 pub msg (R ++ s') = .ok true) : s = s' := by
  rw [edVerify_eq] at h h'
  exact Nem.C140_unique (C183_nem_lawful sha512 hs) ptToCompressed_injective pub msg R s s' hR h h'

/-- C184: a key `a·B + T`, say with `T` of small order, accepts what the holder of `a` signs exactly when the challenge, as a number
below the order, kills `T`. -/
theorem C184_torsion_key (sha512 : List UInt8 → List UInt8) (hs : ∀ b, (sha512 b).length = 64) (pub msg sig : List UInt8)
    (a r : ℕ) (T : EdPt) (hA : ptFromCompressed pub = .ok (a • base + T)) (hl : sig.length = 64)
    (hR : sig.take 32 = ptToCompressed (r • base))
    (hsig : leNat (sig.drop 32) = (r + chal sha512 pub msg sig * a) % edl) :
    edVerify sha512 pub msg sig = .ok true ↔ chal sha512 pub msg sig • T = 0 := by
  rw [C184_verify_iff sha512 hs]
  have e : leNat (sig.drop 32) • base = r • base + chal sha512 pub msg sig • (a • base) := by
    have hb : ∀ n : ℕ, (n % edl) • base = n • base := fun n => by
      conv_rhs => rw [← Nat.div_add_mod n edl, add_nsmul, mul_nsmul, l_base, nsmul_zero, zero_add]
    rw [hsig, hb, add_nsmul, mul_comm, mul_nsmul]
  constructor
  · rintro ⟨-, -, A, R, hA', hR', h⟩
    obtain rfl : a • base + T = A := Except.ok.inj (hA.symm.trans hA')
    obtain rfl : r • base = R := ptToCompressed_injective (hR.symm.trans hR')
    rw [e, nsmul_add] at h
    have := add_left_cancel h
    exact (left_eq_add.1 this)
  · intro h
    refine ⟨hl, by rw [hsig]; exact Nat.mod_lt _ (by decide +kernel), _, _, hA, hR, ?_⟩
    rw [e, nsmul_add, h, add_zero]

/-- C184: in particular with the point of order two added to a key, an honest signature is accepted exactly when the challenge
is even. -/
theorem C184_two_torsion (sha512 : List UInt8 → List UInt8) (hs : ∀ b, (sha512 b).length = 64) (pub msg sig : List UInt8)
    (a r : ℕ) (hA : ptFromCompressed pub = .ok (a • base + twoTors)) (hl : sig.length = 64)
    (hR : sig.take 32 = ptToCompressed (r • base))
    (hsig : leNat (sig.drop 32) = (r + chal sha512 pub msg sig * a) % edl) :
    edVerify sha512 pub msg sig = .ok true ↔ chal sha512 pub msg sig % 2 = 0 := by
  have h2 : 2 • twoTors = 0 := by rw [← four_tors, ← mul_nsmul']; exact eight_tors
  rw [C184_torsion_key sha512 hs pub msg sig a r twoTors hA hl hR hsig,
    ← addOrderOf_dvd_iff_nsmul_eq_zero, addOrderOf_eq_prime h2 twoTors_ne, Nat.dvd_iff_mod_eq_zero]

/-- C184: a key that decodes to the identity accepts a signature of every message, made without a secret. -/
theorem C184_identity_key (sha512 : List UInt8 → List UInt8) (hs : ∀ b, (sha512 b).length = 64) (pub msg : List UInt8)
    (hA : ptFromCompressed pub = .ok 0) (s : Fl) :
    edVerify sha512 pub msg (ptToCompressed (s.val • base) ++ leBytes 32 s.val) = .ok true := by
  rw [edVerify_eq]
  refine Nem.C140_identity_key (C183_nem_lawful sha512 hs) pub msg ((C180_fromCompressed _ _).1 hA).1 ?_ s
  show (ptFromCompressed pub).toOption = some 0
  rw [hA]; rfl

/-! ## Threshold signatures -/

/-- the base point in the subgroup -/
def baseS : primeSub := ⟨base, base_mem⟩
/-- encoding of a point of the subgroup -/
def pencS (P : primeSub) : List UInt8 := ptToCompressed P
/-- decoding, on the subgroup -/
noncomputable def pdecS (b : List UInt8) : Option primeSub := by
  classical
  exact match ptFromCompressed b with
    | .ok P => if h : P ∈ primeSub then some ⟨P, h⟩ else none
    | .error _ => none
/-- reduction of 64 bytes -/
def wideS (b : List UInt8) : Fl := (leNat b : ℕ)

theorem pdecS_eq {b : List UInt8} {P : primeSub} : pdecS b = some P ↔ ptFromCompressed b = .ok (P : EdPt) := by
  unfold pdecS
  rcases ptFromCompressed b with e | Q
  · exact ⟨fun h => (by cases h), fun h => (by cases h)⟩
  · simp only []
    split_ifs with h
    · constructor
      · intro e; rw [← Option.some.inj e]
      · intro e; exact congrArg some (Subtype.ext (Except.ok.inj e))
    · refine ⟨fun h => (by cases h), fun e => ?_⟩
      exact absurd ((Except.ok.inj e) ▸ P.2) h

theorem pencS_ok : (∀ P, (pencS P).length = 32) ∧ ∀ P, pdecS (pencS P) = some P :=
  ⟨fun P => (C180_compressed_roundtrip (P : EdPt)).1, fun P => pdecS_eq.2 (C180_compressed_roundtrip (P : EdPt)).2.1⟩

/-- C183: the base point is not annihilated by a non-zero scalar. -/
theorem C183_annihilator (r : Fl) (h : r • baseS = 0) : r = 0 := by
  have h1 : r.val • base = 0 := by
    rw [show base = (baseS : EdPt) from rfl, smul_coe, h]; rfl
  have h2 := addOrderOf_dvd_of_nsmul_eq_zero h1
  rw [C179_base_order] at h2
  have h3 := Nat.eq_zero_of_dvd_of_lt h2 (ZMod.val_lt r)
  exact (ZMod.val_eq_zero r).1 h3

/-- C183: what the verifier of the threshold model accepts, with keys in the subgroup, the verifier on the curve accepts. -/
theorem C183_verify_of_model (sha512 : List UInt8 → List UInt8) (hs : ∀ b, (sha512 b).length = 64) (pub msg sig : List UInt8)
    (h : Ted.verify (q := edl) baseS pencS pdecS sha512 wideS pub msg sig = .ok true) :
    edVerify sha512 pub msg sig = .ok true := by
  obtain ⟨-, h2, -, h4, A, hA, h5⟩ := (Ted.C95_verify_decision _ _ _ _ _ _ _ _).1 h
  rw [C184_verify_iff sha512 hs]
  refine ⟨h2, h4, A, _, pdecS_eq.1 hA, h5, ?_⟩
  have hb : ∀ n : ℕ, ((((n : ℕ) : Fl) • baseS : primeSub) : EdPt) = n • base := fun n => by
    rw [← smul_coe]; exact val_mod_nsmul base_mem n
  have hc : chal sha512 pub msg sig • (A : EdPt) = ((wideS (sha512 (sig.take 32 ++ pub ++ msg)) • A : primeSub) : EdPt) := by
    rw [← smul_coe, wideS, ZMod.val_natCast]; rfl
  rw [hc, AddSubgroup.coe_sub, hb, sub_add_cancel]

/-- C183: with a key in the subgroup the two verifiers agree. -/
theorem C183_verify_iff_model (sha512 : List UInt8 → List UInt8) (hs : ∀ b, (sha512 b).length = 64)
    (pub msg sig : List UInt8) (A : primeSub) (hA : ptFromCompressed pub = .ok (A : EdPt)) :
    edVerify sha512 pub msg sig = .ok true ↔
      Ted.verify (q := edl) baseS pencS pdecS sha512 wideS pub msg sig = .ok true := by
  refine ⟨fun h => ?_, C183_verify_of_model sha512 hs pub msg sig⟩
  have hN := h
  rw [edVerify_eq, Nem.C81_verify_iff (C183_nem_lawful sha512 hs)] at hN
  obtain ⟨g1, g2, g3, g4, -⟩ := hN
  obtain ⟨-, -, A', R, hA', hR, h3⟩ := (C184_verify_iff sha512 hs pub msg sig).1 h
  obtain rfl : (A : EdPt) = A' := Except.ok.inj (hA.symm.trans hA')
  refine (Ted.C95_verify_decision _ _ _ _ _ _ _ _).2 ⟨g1, g2, g3, g4, A, pdecS_eq.2 hA, ?_⟩
  refine hR.trans (congrArg ptToCompressed ?_)
  have hb : ∀ n : ℕ, ((((n : ℕ) : Fl) • baseS : primeSub) : EdPt) = n • base := fun n => by
    rw [← smul_coe]; exact val_mod_nsmul base_mem n
  have hc : chal sha512 pub msg sig • (A : EdPt) = ((wideS (sha512 (sig.take 32 ++ pub ++ msg)) • A : primeSub) : EdPt) := by
    rw [← smul_coe, wideS, ZMod.val_natCast]; rfl
  rw [AddSubgroup.coe_sub, hb, ← hc, h3, add_sub_cancel_right]

/-- C183: every signature made by `Sign` with a key from `NewKeyFromSeed` is accepted on the curve. -/
theorem C183_sign_verify (sha512 : List UInt8 → List UInt8) (hs : ∀ b, (sha512 b).length = 64) (seed priv msg : List UInt8)
    (hk : Ted.newKeyFromSeed (q := edl) baseS pencS sha512 seed = .ok priv) :
    ∃ sig, Ted.sign (q := edl) baseS pencS sha512 wideS priv msg = .ok sig ∧
      edVerify sha512 (priv.drop 32) msg sig = .ok true := by
  obtain ⟨sig, h1, h2⟩ := Ted.C95_sign_verify (q := edl) (by decide +kernel) baseS pencS pdecS pencS_ok.1 pencS_ok.2 sha512 hs
    wideS seed priv msg hk
  exact ⟨sig, h1, C183_verify_of_model sha512 hs _ _ _ h2⟩

/-- C183: and so is the aggregate of the partial signatures of any `T` signers of the threshold protocol. -/
theorem C183_threshold (sha512 : List UInt8 → List UInt8) (hs : ∀ b, (sha512 b).length = 64) (T N : ℤ) (seed : List UInt8)
    (rndK : ℕ → Fl) (pub : List UInt8) (ks : List (V1.Share edl)) (cs : List primeSub)
    (hkey : Ted.generateSharedKey baseS pencS sha512 T N seed rndK = .ok (pub, ks, cs))
    (n0 : List UInt8 × List (V1.Share edl) × List primeSub)
    (ns : List (List UInt8 × List (V1.Share edl) × List primeSub))
    (hns : ∀ n ∈ n0 :: ns, ∃ r rnd, Ted.generateSharedNonce baseS pencS T N r rnd = .ok n)
    (R : List UInt8) (hR : (ns.map Prod.fst).foldlM (Ted.geAdd pencS pdecS) n0.1 = .ok R)
    (msg : List UInt8) (signers : List (V1.Share edl × V1.Share edl × Ted.PartialSig))
    (hlen : T ≤ signers.length) (hnd : (signers.map fun e => e.1.id).Nodup)
    (hok : ∀ e ∈ signers, e.1 ∈ ks ∧ e.1.id.toNat ≤ 255 ∧
      (∃ p0 ps, p0 ∈ n0.2.1 ∧ p0.id = e.1.id ∧
        List.Forall₂ (fun n p => p ∈ n.2.1 ∧ p.id = e.1.id) ns ps ∧
        ps.foldlM V1.Share.add p0 = .ok e.2.1) ∧
      Ted.tSign sha512 wideS msg e.1 pub e.2.1 R = .ok e.2.2) :
    ∃ sig, Ted.aggregate edl (signers.map fun e => e.2.2) T N = .ok sig ∧ sig.take 32 = R ∧
      edVerify sha512 pub msg sig = .ok true := by
  obtain ⟨sig, h1, h2, h3⟩ := Ted.C30_end_to_end (q := edl) (by decide +kernel) baseS pencS pdecS pencS_ok.1 pencS_ok.2 sha512
    hs wideS T N seed rndK pub ks cs hkey n0 ns hns R hR msg signers hlen hnd hok
  exact ⟨sig, h1, h2, C183_verify_of_model sha512 hs _ _ _ h3⟩

/-! ## Concrete instances -/

/-- a key with a component of order two: with the digest zero the honest signature is accepted, with the digest one it is not -/
example : ∃ pub, ptFromCompressed pub = .ok (1 • base + twoTors) ∧
    (∃ sig, edVerify (fun _ => List.replicate 64 0) pub [] sig = .ok true) ∧
    edVerify (fun _ => 1 :: List.replicate 63 0) pub [] (ptToCompressed (0 • base) ++ leBytes 32 1) ≠ .ok true := by
  have hl := (C180_compressed_roundtrip (0 • base)).1
  refine ⟨ptToCompressed (1 • base + twoTors), (C180_compressed_roundtrip _).2.1,
    ⟨ptToCompressed (0 • base) ++ leBytes 32 0, ?_⟩, ?_⟩
  · have hd : leNat (leBytes 32 0) = 0 := by decide +kernel
    have hc : ∀ sig, chal (fun _ => List.replicate 64 0) (ptToCompressed (1 • base + twoTors)) [] sig = 0 := fun sig => by
      unfold chal
      rw [show leNat (List.replicate 64 0) = 0 by decide +kernel, Nat.zero_mod]
    refine (C184_two_torsion _ (fun _ => by simp) _ _ _ 1 0 (C180_compressed_roundtrip _).2.1 ?_ ?_ ?_).2 (by rw [hc])
    · rw [List.length_append, hl, leBytes_length]
    · exact List.take_left' hl
    · rw [List.drop_left' hl, hd, hc, Nat.zero_mul, Nat.add_zero, Nat.zero_mod]
  · have hd : leNat (leBytes 32 1) = 1 := by decide +kernel
    have hc : ∀ sig, chal (fun _ => 1 :: List.replicate 63 0) (ptToCompressed (1 • base + twoTors)) [] sig = 1 := fun sig => by
      unfold chal
      rw [show leNat (1 :: List.replicate 63 0) = 1 by decide +kernel]
      decide +kernel
    rw [Ne, C184_two_torsion _ (fun _ => by simp) _ _ _ 1 0 (C180_compressed_roundtrip _).2.1 ?_ ?_ ?_, hc]
    · decide
    · rw [List.length_append, hl, leBytes_length]
    · exact List.take_left' hl
    · rw [List.drop_left' hl, hd, hc]
      decide +kernel

/-- keys from seeds exist -/
example : ∃ priv, Ted.newKeyFromSeed (q := edl) baseS pencS (fun _ => List.replicate 64 7) (List.replicate 32 1) = .ok priv := by
  have hp := Ted.prune_clamp (q := edl) (List.replicate 64 7) (by simp)
  unfold Ted.newKeyFromSeed
  rw [Go.guard_true (by simp), Go.ok_bind, hp, Go.ok_bind]
  exact ⟨_, rfl⟩

end Verif.Ed25519
