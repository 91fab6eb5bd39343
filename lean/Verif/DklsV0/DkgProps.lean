import Verif.DklsV0.DkgModel
import Verif.Legacy.CurveProps
import Verif.Legacy.ScalarProps
import Verif.Ot.KosProps

/-!
# C199: the Schnorr proofs and the key generation of the older DKLs

The curve does what a curve should (`Lawful`, which holds of `Koblitz256`) and its order is that of the scalars.  The specification of a
byte string of a point is `enc`.
-/

namespace Verif.DklsV0
open Verif.Legacy Verif.Ot

/-- the curve computes in the group `A` and the scalars are those of the curve -/
structure Sound (env : Env) (A : Type) [AddCommGroup A] extends Lawful env.curve A where
  scalar : env.curve.params.N = env.q

section
variable {env : Env} {A : Type} [AddCommGroup A] (L : Sound env A)

/-- the two coordinates, big-endian, with the length of the field -/
def enc (P : A) : List UInt8 :=
  beBytes (fieldSize env.curve) (L.xy P).1.natAbs ++ beBytes (fieldSize env.curve) (L.xy P).2.natAbs

theorem pt_bytes (P : A) : (L.pt P).bytes = .ok (enc L P) := by
  obtain ⟨h1, h2, h3, h4⟩ := L.range P
  have hs : (env.curve.params.P : ℤ) ≤ 256 ^ fieldSize env.curve := L.size
  obtain ⟨e1, -⟩ := fillBytes_ok h1 (lt_of_lt_of_le h2 hs)
  obtain ⟨e2, -⟩ := fillBytes_ok h3 (lt_of_lt_of_le h4 hs)
  show (do let x ← fillBytes (fieldSize env.curve) (some (L.xy P).1); let y ← fillBytes (fieldSize env.curve) (some (L.xy P).2); Except.ok (x ++ y)) = _
  rw [e1, e2]; rfl

theorem enc_length (P : A) : (enc L P).length = fieldSize env.curve * 2 := by
  rw [enc, List.length_append, beBytes_length, beBytes_length]; ring

theorem fromBytes_enc (P : A) : pointFromBytes env.curve (enc L P) = .ok (L.pt P) := by
  obtain ⟨b, h1, -, h3⟩ := C189_bytes L.toLawful P
  rw [pt_bytes] at h1
  rw [Except.ok.inj h1]; exact h3

theorem pt_inj {P Q : A} (h : L.pt P = L.pt Q) : P = Q := by
  have h1 := congrArg EcPoint.X h
  have h2 := congrArg EcPoint.Y h
  exact (xy_eq L.toComputes P Q).1 ⟨h1, h2⟩

theorem enc_inj {P Q : A} (h : enc L P = enc L Q) : P = Q := by
  have h1 := fromBytes_enc L P
  rw [h, fromBytes_enc] at h1
  exact (pt_inj L (Except.ok.inj h1)).symm

include L in
theorem q_pos : 0 < env.q := by
  have := L.pos
  rw [L.scalar] at this
  exact_mod_cast this

theorem mod_q (h : 0 < env.q) (x : ℤ) : Big.mod x env.q = .ok (x % env.q) := by
  rw [Big.mod, if_neg (by omega)]

theorem sc_add (h : 0 < env.q) (x y : ℤ) : env.sc.add x y = .ok ((x + y) % env.q) := mod_q h _
theorem sc_sub (h : 0 < env.q) (x y : ℤ) : env.sc.sub x y = .ok ((x - y) % env.q) := mod_q h _
theorem sc_mul (h : 0 < env.q) (x y : ℤ) : env.sc.mul x y = .ok ((x * y) % env.q) := mod_q h _
theorem sc_neg (h : 0 < env.q) (x : ℤ) : env.sc.neg x = .ok (-x % env.q) := by
  show Big.mod (env.q - x) env.q = _
  rw [mod_q h, sub_eq_add_neg, Int.add_emod_left]

include L in
theorem q_smul (P : A) : (env.q : ℤ) • P = 0 := by rw [← L.scalar]; exact L.order P

include L in
theorem mod_smul (k : ℤ) (P : A) : (k % (env.q : ℤ)) • P = k • P := by
  rw [← L.scalar]; exact emod_smul L.toComputes k P

theorem base (k : ℤ) : newScalarBaseMult (some env.curve) (some k) = .ok (L.pt (k • L.g)) := (C189_mul L.toComputes 0 k).2.1
theorem mult (P : A) (k : ℤ) : EcPoint.scalarMult (some (L.pt P)) (some k) = .ok (L.pt (k • P)) := (C189_mul L.toComputes P k).1
theorem padd (P Q : A) : EcPoint.add (some (L.pt P)) (some (L.pt Q)) = .ok (L.pt (P + Q)) := (C189_add L.toComputes P Q).1

theorem challenge_pt (P R : A) : challenge env (L.pt P) (L.pt R) = .ok (env.sha (enc L P ++ enc L R)) := by
  rw [challenge, pt_bytes, pt_bytes]; rfl

theorem intOf_nonneg (h : Digest) : 0 ≤ intOf h := Int.natCast_nonneg _

theorem intOf_lt (h : Digest) : (intOf h).natAbs < 256 ^ 32 := by
  rw [intOf, Int.natAbs_natCast]
  have := beNat_lt h.toList
  rwa [Vector.length_toList] at this

theorem bytes_intOf (h : Digest) : beBytes 32 (intOf h).natAbs = h.toList := by
  rw [intOf, Int.natAbs_natCast]
  have := beBytes_beNat h.toList
  rwa [Vector.length_toList] at this

theorem sc_bytes (x : ℤ) : env.sc.bytes x = if x.natAbs < 256 ^ 32 then .ok (beBytes 32 x.natAbs) else Go.crash := rfl

/-! ## Schnorr proofs -/

/-- C199: what `Verify` does with a proof on a point of the group, for all integers: it compares the absolute value of the challenge with
the hash of the statement and `S·G − C·P`, and panics when that value has more than 32 bytes -/
theorem C199_verify (P : A) (C S : ℤ) : verify env ⟨some (L.pt P), some C, some S⟩ =
    if C.natAbs < 256 ^ 32 then Go.guard (beBytes 32 C.natAbs = (env.sha (enc L P ++ enc L (S • L.g - C • P))).toList) else Go.crash := by
  unfold verify
  rw [base L, Go.ok_bind, show deref (Schnorr.C ⟨some (L.pt P), some C, some S⟩) = .ok C from rfl, Go.ok_bind, sc_neg (q_pos L), Go.ok_bind, mult L,
    Go.ok_bind, padd L, Go.ok_bind, mod_smul L, neg_smul, ← sub_eq_add_neg,
    show deref (Schnorr.pub ⟨some (L.pt P), some C, some S⟩) = .ok (L.pt P) from rfl, Go.ok_bind, challenge_pt, Go.ok_bind, sc_bytes]
  split
  · rfl
  · rfl

include L in
/-- C199: incomplete proofs: without a response or a public key `Verify` returns an error; without a challenge it panics -/
theorem C199_incomplete (pub : Option EcPoint) (C : Option ℤ) (S c : ℤ) :
    verify env ⟨pub, C, none⟩ = Go.err ∧ verify env ⟨pub, none, some S⟩ = Go.crash ∧ verify env ⟨none, some c, some S⟩ = Go.err := by
  refine ⟨?_, ?_, ?_⟩
  · unfold verify
    rw [show newScalarBaseMult (some env.curve) none = Go.err from rfl]; rfl
  · unfold verify
    rw [base L]; rfl
  · unfold verify
    rw [base L, Go.ok_bind, show deref (Schnorr.C ⟨none, some c, some S⟩) = .ok c from rfl, Go.ok_bind, sc_neg (q_pos L), Go.ok_bind]; rfl

/-- the proof of an honest prover -/
def honest (x k : ℤ) : Schnorr :=
  let c := intOf (env.sha (enc L (x • L.g) ++ enc L (k • L.g)))
  ⟨some (L.pt (x • L.g)), some c, some ((c * x % env.q + k) % env.q)⟩

theorem prove_eq (x k : ℤ) : prove env x k = .ok (honest L x k) := by
  unfold prove
  rw [base L, Go.ok_bind, base L, Go.ok_bind, challenge_pt, Go.ok_bind, sc_mul (q_pos L), Go.ok_bind, sc_add (q_pos L)]; rfl

theorem honest_commit (x k c : ℤ) : ((c * x % (env.q : ℤ) + k) % (env.q : ℤ)) • L.g - c • (x • L.g) = k • L.g := by
  rw [mod_smul L, add_smul, mod_smul L, mul_smul]; abel

theorem verify_honest (x k : ℤ) : verify env (honest L x k) = .ok () := by
  rw [honest, C199_verify, if_pos (intOf_lt _), honest_commit, bytes_intOf]
  exact Go.guard_true rfl

/-- C199: completeness: for all secrets and nonces `Prove` succeeds for the statement `x·G` and `Verify` accepts -/
theorem C199_complete (x k : ℤ) : ∃ p, prove env x k = .ok p ∧ p.pub = some (L.pt (x • L.g)) ∧ verify env p = .ok () :=
  ⟨_, prove_eq L x k, rfl, verify_honest L x k⟩

/-- C199: special soundness: two accepted proofs of one statement with one commitment and different challenges (of two hash functions) give
the secret, which is the quotient of the differences -/
theorem C199_extract [hq : Fact env.q.Prime] (sha' : List UInt8 → Digest) (L' : Sound { env with sha := sha' } A) (hL : L'.toLawful = L.toLawful)
    (P : A) (C S C' S' : ℤ) (h : verify env ⟨some (L.pt P), some C, some S⟩ = .ok ())
    (h' : verify { env with sha := sha' } ⟨some (L.pt P), some C', some S'⟩ = .ok ()) (hR : S • L.g - C • P = S' • L.g - C' • P)
    (hC : (C : ZMod env.q) ≠ C') :
    P = (((S - S' : ZMod env.q) / (C - C')).val : ℤ) • L.g ∧
    beBytes 32 C.natAbs = (env.sha (enc L P ++ enc L (S • L.g - C • P))).toList ∧
    beBytes 32 C'.natAbs = (sha' (enc L P ++ enc L (S • L.g - C • P))).toList := by
  refine ⟨?_, ?_, ?_⟩
  · have e : (C - C') • P = (S - S') • L.g := by
      rw [sub_smul, sub_smul]
      rw [sub_eq_sub_iff_add_eq_add] at hR ⊢
      rw [add_comm, ← hR]
    set i : ZMod env.q := (C - C' : ZMod env.q)⁻¹ with hi
    have hne : (C - C' : ZMod env.q) ≠ 0 := sub_ne_zero.2 hC
    have key : ∀ (a b : ℤ) (Q : A), (a : ZMod env.q) = b → a • Q = b • Q := by
      intro a b Q hab
      rw [← mod_smul L a, ← mod_smul L b, (ZMod.intCast_eq_intCast_iff' a b env.q).1 hab]
    have h1 : ((i.val : ℤ) * (C - C')) • P = P := by
      rw [key _ 1 P ?_, one_smul]
      push_cast
      rw [ZMod.natCast_val, ZMod.cast_id', id, hi, inv_mul_cancel₀ hne]
    calc P = (i.val : ℤ) • ((C - C') • P) := by rw [← mul_smul, h1]
      _ = ((i.val : ℤ) * (S - S')) • L.g := by rw [e, ← mul_smul]
      _ = _ := by
        refine key _ _ _ ?_
        push_cast
        rw [ZMod.natCast_val, ZMod.cast_id', id, ZMod.natCast_val, ZMod.cast_id', id, hi, div_eq_mul_inv, mul_comm]
  · rw [C199_verify] at h
    split at h
    · exact Go.guard_eq_ok.1 h
    · cases h
  · have hp : (L.pt P) = (L'.pt P) := by rw [show L'.toComputes = L.toComputes from congrArg Lawful.toComputes hL]
    have hg : L'.g = L.g := congrArg (fun l => l.toComputes.g) hL
    have hx : L'.xy = L.xy := congrArg (fun l => l.toComputes.xy) hL
    have he : ∀ Q, enc L' Q = enc L Q := fun Q => by rw [enc, enc, hx]
    rw [hp, C199_verify, he, he, hg, ← hR] at h'
    split at h'
    · exact Go.guard_eq_ok.1 h'
    · cases h'

theorem commitment_eq (pub : Option EcPoint) (C S : ℤ) : commitment env ⟨pub, some C, some S⟩ =
    if C.natAbs < 256 ^ 32 ∧ S.natAbs < 256 ^ 32 then .ok (env.sha (beBytes 32 C.natAbs ++ beBytes 32 S.natAbs)) else Go.crash := by
  unfold commitment
  show (do let cb ← env.sc.bytes C; let sb ← env.sc.bytes S; Except.ok (env.sha (cb ++ sb))) = _
  rw [sc_bytes, sc_bytes]
  by_cases h1 : C.natAbs < 256 ^ 32
  · by_cases h2 : S.natAbs < 256 ^ 32
    · rw [if_pos h1, if_pos h2, if_pos ⟨h1, h2⟩]; rfl
    · rw [if_pos h1, if_neg h2, if_neg (fun h : C.natAbs < 256 ^ 32 ∧ S.natAbs < 256 ^ 32 => h2 h.2)]; rfl
  · rw [if_neg h1, if_neg (fun h : C.natAbs < 256 ^ 32 ∧ S.natAbs < 256 ^ 32 => h1 h.1)]; rfl

/-- C199: `DecommitVerify` on a point of the group: a response of more than 32 bytes panics as well -/
theorem C199_decommit (P : A) (C S : ℤ) (com : List UInt8) : decommitVerify env ⟨some (L.pt P), some C, some S⟩ com =
    if C.natAbs < 256 ^ 32 ∧ S.natAbs < 256 ^ 32 then
      Go.guard ((env.sha (beBytes 32 C.natAbs ++ beBytes 32 S.natAbs)).toList = com ∧
        beBytes 32 C.natAbs = (env.sha (enc L P ++ enc L (S • L.g - C • P))).toList)
    else Go.crash := by
  unfold decommitVerify
  rw [commitment_eq]
  split
  · rename_i h
    rw [Go.ok_bind, C199_verify, if_pos h.1]
    by_cases h1 : (env.sha (beBytes 32 C.natAbs ++ beBytes 32 S.natAbs)).toList = com
    · rw [Go.guard_true h1, Go.ok_bind]
      by_cases h2 : beBytes 32 C.natAbs = (env.sha (enc L P ++ enc L (S • L.g - C • P))).toList
      · rw [Go.guard_true h2, Go.guard_true ⟨h1, h2⟩]
      · rw [Go.guard_false h2, Go.guard_false (c := _ ∧ _) (fun h => h2 h.2)]
    · rw [Go.guard_false h1, Go.guard_false (c := _ ∧ _) (fun h => h1 h.1)]; rfl
  · rfl

/-- C199: although the commitment does not cover the public key it binds it: two proofs that open one commitment are of one public key,
with the same challenge and response up to sign, or one of the two named pairs is a collision of the hash -/
theorem C199_binding (P P' : A) (C S C' S' : ℤ) (com : List UInt8)
    (h : decommitVerify env ⟨some (L.pt P), some C, some S⟩ com = .ok ())
    (h' : decommitVerify env ⟨some (L.pt P'), some C', some S'⟩ com = .ok ()) :
    (P = P' ∧ C.natAbs = C'.natAbs ∧ S.natAbs = S'.natAbs) ∨
    (beBytes 32 C.natAbs ++ beBytes 32 S.natAbs ≠ beBytes 32 C'.natAbs ++ beBytes 32 S'.natAbs ∧
      env.sha (beBytes 32 C.natAbs ++ beBytes 32 S.natAbs) = env.sha (beBytes 32 C'.natAbs ++ beBytes 32 S'.natAbs)) ∨
    (enc L P ++ enc L (S • L.g - C • P) ≠ enc L P' ++ enc L (S' • L.g - C' • P') ∧
      env.sha (enc L P ++ enc L (S • L.g - C • P)) = env.sha (enc L P' ++ enc L (S' • L.g - C' • P'))) := by
  rw [C199_decommit] at h h'
  split at h
  · rename_i hb
    split at h'
    · rename_i hb'
      obtain ⟨h1, h2⟩ := Go.guard_eq_ok.1 h
      obtain ⟨h1', h2'⟩ := Go.guard_eq_ok.1 h'
      by_cases e : beBytes 32 C.natAbs ++ beBytes 32 S.natAbs = beBytes 32 C'.natAbs ++ beBytes 32 S'.natAbs
      · have val : ∀ {m n : ℕ}, m < 256 ^ 32 → n < 256 ^ 32 → beBytes 32 m = beBytes 32 n → m = n := fun hm hn e => by
          rw [← beNat_beBytes 32 _ hm, e, beNat_beBytes 32 _ hn]
        obtain ⟨e1, e2⟩ := List.append_inj e (by rw [beBytes_length, beBytes_length])
        by_cases e3 : enc L P ++ enc L (S • L.g - C • P) = enc L P' ++ enc L (S' • L.g - C' • P')
        · obtain ⟨e4, -⟩ := List.append_inj e3 (by rw [enc_length, enc_length])
          exact .inl ⟨enc_inj L e4, val hb.1 hb'.1 e1, val hb.2 hb'.2 e2⟩
        · refine .inr (.inr ⟨e3, ?_⟩)
          rw [e1, h2'] at h2
          exact (Vector.toList_inj.1 h2).symm
      · exact .inr (.inl ⟨e, Vector.toList_inj.1 (h1.trans h1'.symm)⟩)
    · cases h'
  · cases h

/-! ## Key generation -/

theorem commit_honest (hq : env.q ≤ 256 ^ 32) (x k : ℤ) : ∃ com, commitment env (honest L x k) = .ok com ∧
    decommitVerify env (honest L x k) com.toList = .ok () := by
  have hs : ∀ z : ℤ, (z % (env.q : ℤ)).natAbs < 256 ^ 32 := fun z => by
    have hp : (0 : ℤ) < env.q := by exact_mod_cast q_pos L
    have h0 := Int.emod_nonneg z hp.ne'
    have h1 := Int.emod_lt_of_pos z hp
    omega
  let c := intOf (env.sha (enc L (x • L.g) ++ enc L (k • L.g)))
  refine ⟨env.sha (beBytes 32 c.natAbs ++ beBytes 32 ((c * x % env.q + k) % env.q).natAbs), ?_, ?_⟩
  · rw [honest, commitment_eq, if_pos ⟨intOf_lt _, hs _⟩]
  · rw [honest, C199_decommit, if_pos ⟨intOf_lt _, hs _⟩]
    refine Go.guard_true ⟨rfl, ?_⟩
    rw [bytes_intOf, honest_commit]

/-- C199: honest parties agree on the key `skA·skB·G`, for all secrets and nonces -/
theorem C199_dkg (hq : env.q ≤ 256 ^ 32) (skA kA skB kB : ℤ) : ∃ pkA com pkB pk,
    aliceCommit env skA kA = .ok (pkA, com) ∧ bobCommit env skB kB = .ok pkB ∧ aliceVerify env skA pkB = .ok pk ∧
    bobVerify env com.toList skB pkA = .ok pk ∧ pk = L.pt ((skA * skB) • L.g) := by
  obtain ⟨com, h1, h2⟩ := commit_honest L hq skA kA
  refine ⟨honest L skA kA, com, honest L skB kB, L.pt ((skA * skB) • L.g), ?_, prove_eq L skB kB, ?_, ?_, rfl⟩
  · rw [aliceCommit, proveCommit, prove_eq L, Go.ok_bind, h1]; rfl
  · unfold aliceVerify
    rw [verify_honest]
    show EcPoint.scalarMult (some (L.pt (skB • L.g))) (some skA) = _
    rw [mult L, mul_smul]
  · unfold bobVerify
    rw [h2]
    show EcPoint.scalarMult (some (L.pt (skA • L.g))) (some skB) = _
    rw [mult L, mul_comm skA, mul_smul]

/-- C199: against any peer: the key a party computes from a proof on a point of the group is the multiple of that point, and it is computed
only when the proof verifies (for Bob, when it opens the commitment as well) -/
theorem C199_dkg_any (P : A) (C S sk : ℤ) (com : List UInt8) (pk : EcPoint) :
    (aliceVerify env sk ⟨some (L.pt P), some C, some S⟩ = .ok pk ↔
      verify env ⟨some (L.pt P), some C, some S⟩ = .ok () ∧ pk = L.pt (sk • P)) ∧
    (bobVerify env com sk ⟨some (L.pt P), some C, some S⟩ = .ok pk ↔
      decommitVerify env ⟨some (L.pt P), some C, some S⟩ com = .ok () ∧ pk = L.pt (sk • P)) := by
  constructor
  · unfold aliceVerify
    rw [Go.bind_eq_ok]
    show (∃ a, _ ∧ EcPoint.scalarMult (some (L.pt P)) (some sk) = .ok pk) ↔ _
    rw [mult L]
    exact ⟨fun ⟨_, h1, h2⟩ => ⟨h1, (Except.ok.inj h2).symm⟩, fun ⟨h1, h2⟩ => ⟨(), h1, by rw [h2]⟩⟩
  · unfold bobVerify
    rw [Go.bind_eq_ok]
    show (∃ a, _ ∧ EcPoint.scalarMult (some (L.pt P)) (some sk) = .ok pk) ↔ _
    rw [mult L]
    exact ⟨fun ⟨_, h1, h2⟩ => ⟨h1, (Except.ok.inj h2).symm⟩, fun ⟨h1, h2⟩ => ⟨(), h1, by rw [h2]⟩⟩

/-- C199: the neutral element is not refused: a peer with the secret zero is accepted, and the joint key is the neutral element -/
theorem C199_dkg_identity (hq : env.q ≤ 256 ^ 32) (k sk : ℤ) : ∃ p com, prove env 0 k = .ok p ∧ p.pub = some (L.pt 0) ∧
    commitment env p = .ok com ∧ aliceVerify env sk p = .ok (L.pt 0) ∧ bobVerify env com.toList sk p = .ok (L.pt 0) := by
  obtain ⟨com, h1, h2⟩ := commit_honest L hq 0 k
  refine ⟨honest L 0 k, com, prove_eq L 0 k, ?_, h1, ?_, ?_⟩
  · show some (L.pt ((0 : ℤ) • L.g)) = _; rw [zero_smul]
  · unfold aliceVerify
    rw [verify_honest]
    show EcPoint.scalarMult (some (L.pt ((0 : ℤ) • L.g))) (some sk) = _
    rw [mult L, zero_smul, smul_zero]
  · unfold bobVerify
    rw [h2]
    show EcPoint.scalarMult (some (L.pt ((0 : ℤ) • L.g))) (some sk) = _
    rw [mult L, zero_smul, smul_zero]

include L in
/-- C199: a public key of a curve with other parameters (gob delivers one for every known code) is refused with an error -/
theorem C199_other_curve (pub : EcPoint) (h : ∀ a : EcPoint, a.curve = env.curve → ∀ b : EcPoint, b.curve = pub.curve → sameCurve a b = false) (C S : ℤ)
    (r : Unit) : verify env ⟨some pub, some C, some S⟩ ≠ .ok r := by
  intro hv
  unfold verify at hv
  rw [base L, Go.ok_bind] at hv
  rw [show deref (Schnorr.C ⟨some pub, some C, some S⟩) = .ok C from rfl, Go.ok_bind, sc_neg (q_pos L), Go.ok_bind] at hv
  obtain ⟨xc, h1, hv⟩ := Go.bind_eq_ok.1 hv
  obtain ⟨rd, h2, -⟩ := Go.bind_eq_ok.1 hv
  have hc : xc.curve = pub.curve := by
    rw [EcPoint.scalarMult] at h1
    obtain ⟨n, -, h1⟩ := Go.bind_eq_ok.1 h1
    obtain ⟨⟨x, y⟩, -, h1⟩ := Go.bind_eq_ok.1 h1
    unfold checked at h1
    obtain ⟨b, -, h1⟩ := Go.bind_eq_ok.1 h1
    split at h1
    · rw [← Except.ok.inj h1]
    · cases h1
  rw [EcPoint.add] at h2
  have := (Go.guard_bind_eq_ok.1 h2).1
  rw [h _ rfl _ hc] at this
  cases this

end

/-! ## secp256k1 -/

/-- an environment on `Koblitz256`; any hash function -/
def k256Env (refs : List ℕ) (sha : List UInt8 → Digest) (shake : ℕ → UInt8) (ev : EcPoint → List UInt8 → ℤ → ℤ → Bool) : Env :=
  ⟨k256Curve refs, Primes.k256q, sha, shake, ev⟩

/-- secp256k1 meets what the theorems ask for -/
noncomputable def k256Sound (refs : List ℕ) (sha : List UInt8 → Digest) (shake : ℕ → UInt8) (ev : EcPoint → List UInt8 → ℤ → ℤ → Bool) :
    Sound (k256Env refs sha shake ev) Native.K256.Group where
  toLawful := k256Lawful refs
  scalar := rfl

/-- the key generation on secp256k1 with SHA-256 replaced by any function -/
example (sha : List UInt8 → Digest) : ∃ pkA com pkB pk,
    aliceCommit (k256Env [] sha (fun _ => 0) (fun _ _ _ _ => true)) 5 7 = .ok (pkA, com) ∧
    bobCommit (k256Env [] sha (fun _ => 0) (fun _ _ _ _ => true)) 11 13 = .ok pkB ∧
    aliceVerify (k256Env [] sha (fun _ => 0) (fun _ _ _ _ => true)) 5 pkB = .ok pk ∧
    bobVerify (k256Env [] sha (fun _ => 0) (fun _ _ _ _ => true)) com.toList 11 pkA = .ok pk := by
  obtain ⟨a, b, c, d, h1, h2, h3, h4, -⟩ :=
    C199_dkg (k256Sound [] sha (fun _ => 0) (fun _ _ _ _ => true)) (by show Primes.k256q ≤ _; decide +kernel) 5 7 11 13
  exact ⟨a, b, c, d, h1, h2, h3, h4⟩

/-- a challenge of 33 bytes makes the verifier panic -/
example (sha : List UInt8 → Digest) (P : Native.K256.Group) :
    verify (k256Env [] sha (fun _ => 0) (fun _ _ _ _ => true)) ⟨some ((k256Lawful []).pt P), some (256 ^ 32), some 1⟩ = Go.crash := by
  have := C199_verify (k256Sound [] sha (fun _ => 0) (fun _ _ _ _ => true)) P (256 ^ 32) 1
  rw [if_neg (by decide +kernel)] at this
  exact this

end Verif.DklsV0
