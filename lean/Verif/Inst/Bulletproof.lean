import Verif.Inst.Bls
import Verif.Bulletproof.GenProps
import Verif.Ed25519.Order
import Verif.Curves.EdScalarProps
import Verif.Curves.ScalarProps

/-!
# C223: range proofs on the curves of the library

The range prover reads the bits of a value from the bytes of the scalar as if they were in little-endian order.  Here the theorems about
range proofs are taken at the scalars and the groups of the curves: Ed25519 has little-endian scalars; secp256k1, P-256 and BLS12-381 have not.
The challenges are arbitrary non-zero functions of the transcript.
-/

namespace Verif.Inst
open Verif.Native Verif.Primes Verif.Bulletproof Verif.Bls381 Verif.Ed25519 Verif.Curves

/-- `Bytes` and `SetBytes` of scalars in little-endian order -/
def leCodec32 (q : ℕ) (hq : 0 < q) (hq' : q ≤ 256 ^ 32) : ScalarCodec (ZMod q) where
  enc x := leBytes 32 x.val
  dec b := if b.length = 32 ∧ leNat b < q then some (leNat b : ZMod q) else none
  dec_enc x := by
    have : NeZero q := ⟨hq.ne'⟩
    have hx : x.val < 256 ^ 32 := lt_of_lt_of_le (ZMod.val_lt x) hq'
    rw [if_pos ⟨leBytes_length _ _, by rw [leNat_leBytes _ _ hx]; exact ZMod.val_lt x⟩, leNat_leBytes _ _ hx, ZMod.natCast_zmod_val]
  enc_dec b x h := by
    split_ifs at h with hb
    obtain rfl := Option.some.inj h
    rw [ZMod.val_natCast, Nat.mod_eq_of_lt hb.2]
    rw [← hb.1]
    exact leBytes_leNat b

section
variable {q : ℕ} [hp : Fact q.Prime] {G : Type} [AddCommGroup G] [Module (ZMod q) G] [DecidableEq G]

/-- a curve with scalars of 32 bytes, in big-endian or in little-endian order; `BigInt` is the number below the order -/
def beEnv (hq' : q ≤ 256 ^ 32) (encU : G → Bytes) (chal : Transcript → ZMod q) : Env (ZMod q) G :=
  ⟨beCodec q hp.out.pos hq', fun x => x.val, encU, chal⟩

def leEnv (hq' : q ≤ 256 ^ 32) (encU : G → Bytes) (chal : Transcript → ZMod q) : Env (ZMod q) G :=
  ⟨leCodec32 q hp.out.pos hq', fun x => x.val, encU, chal⟩

omit [AddCommGroup G] [Module (ZMod q) G] [DecidableEq G] in
theorem beEnv_big (hq' : q ≤ 256 ^ 32) (encU : G → Bytes) (chal : Transcript → ZMod q) : BigEndian (beEnv hq' encU chal) 32 := by
  have : NeZero q := ⟨hp.out.ne_zero⟩
  intro v
  have hv : v.val < 256 ^ 32 := lt_of_lt_of_le (ZMod.val_lt v) hq'
  refine ⟨beBytes_length _ _, ?_, ?_⟩
  · show ((v.val : ℕ) : ℤ) = ((beNat (beBytes 32 v.val) : ℕ) : ℤ)
    rw [beNat_beBytes _ _ hv]
  · show ((beNat (beBytes 32 v.val) : ℕ) : ZMod q) = v
    rw [beNat_beBytes _ _ hv, ZMod.natCast_zmod_val]

omit [AddCommGroup G] [Module (ZMod q) G] [DecidableEq G] in
theorem leEnv_little (hq' : q ≤ 256 ^ 32) (encU : G → Bytes) (chal : Transcript → ZMod q) : LittleEndian (leEnv hq' encU chal) := by
  have : NeZero q := ⟨hp.out.ne_zero⟩
  refine ⟨?_, fun v => ?_⟩
  · show (leBytes 32 _).length = (leBytes 32 _).length
    rw [leBytes_length, leBytes_length]
  have hv : v.val < 256 ^ 32 := lt_of_lt_of_le (ZMod.val_lt v) hq'
  constructor
  · show ((v.val : ℕ) : ℤ) = ((leNat (leBytes 32 v.val) : ℕ) : ℤ)
    rw [leNat_leBytes _ _ hv]
  · show ((leNat (leBytes 32 v.val) : ℕ) : ZMod q) = v
    rw [leNat_leBytes _ _ hv, ZMod.natCast_zmod_val]

/-- C223: with big-endian scalars the prover returns a proof for every value of up to 128 bits that is in range, and the verifier refuses it
unless the value is zero -/
theorem range_big (hq' : q ≤ 256 ^ 32) (encU : G → Bytes) (chal : Transcript → ZMod q) (hc : ∀ t, chal t ≠ 0) (ge : GenEnv G)
    (N : ℕ) (rd idP idV : Bytes) (v gamma : ZMod q) (k : ℕ) (hk : 1 ≤ k) (hk7 : k ≤ 7) (hk2 : 2 ^ k ≤ N) (hv : v.val < 2 ^ 2 ^ k)
    (pg : PGens G) (hu : pg.u ≠ 0) (rand : Rand (ZMod q)) (t : Transcript) :
    ∃ P V π t', newRange ge N rd idP = .ok P ∧ newRange ge N rd idV = .ok V ∧
      rangeProve (beEnv hq' encU chal) P.generators v gamma (2 ^ k) pg rand t = .ok (π, t') ∧
      rangeVerify (beEnv hq' encU chal) V.generators π (gamma • pg.h + v • pg.g) pg (2 ^ k) t = .ok (decide (v = 0)) := by
  have hN : 1 ≤ N := le_trans Nat.one_le_two_pow hk2
  have hbe := beEnv_big (G := G) hq' encU chal
  have h128 : 2 ^ k ≤ 2 ^ 7 := Nat.pow_le_pow_right (by decide) hk7
  have hz : (beEnv hq' encU chal).bigInt v < 2 ^ 2 ^ k := by
    show ((v.val : ℕ) : ℤ) < 2 ^ 2 ^ k
    exact_mod_cast hv
  obtain ⟨l1, l2⟩ := genSpec_length ge rd N
  obtain ⟨π, t', h1⟩ := rangeProve_ok (beEnv hq' encU chal) hbe.sameLen hc (genSpec ge rd N) (l1.trans l2.symm) v gamma k hk
    (by rw [l1]; exact hk2) (by rw [(hbe v).1]; omega) (Int.natCast_nonneg _) hz.le pg rand t
  refine ⟨_, _, π, t', newRange_eq ge N hN rd idP, newRange_eq ge N hN rd idV, h1, ?_⟩
  exact C61_big_endian (beEnv hq' encU chal) 32 hbe hc (genSpec ge rd N) (l1.trans l2.symm) v gamma (2 ^ k)
    (by have : (2 ^ k + 7) / 8 * 8 ≤ 2 ^ k + 7 := Nat.div_mul_le_self _ _
        have : 2 ^ k ≤ 128 := h128
        omega) hz pg hu rand t t' π h1

end

theorem k256q_le : k256q ≤ 256 ^ 32 := by decide
theorem p256q_le : p256q ≤ 256 ^ 32 := by decide
theorem blsr_le : blsr ≤ 256 ^ 32 := by decide
theorem edl_le32 : edl ≤ 256 ^ 32 := by decide

open Classical in
/-- C223: on secp256k1, P-256 and the groups of BLS12-381 range proofs of up to 128 bits are produced for all values in range and refused
for all but zero -/
theorem C223_big_endian (k : ℕ) (hk : 1 ≤ k) (hk7 : k ≤ 7) (N : ℕ) (hk2 : 2 ^ k ≤ N) (rd idP idV : Bytes) (t : Transcript) :
    (∀ (encU : K256.Group → Bytes) (chal : Transcript → ZMod k256q), (∀ t, chal t ≠ 0) → ∀ (ge : GenEnv K256.Group) (v gamma : ZMod k256q),
      v.val < 2 ^ 2 ^ k → ∀ (pg : PGens K256.Group), pg.u ≠ 0 → ∀ rand, ∃ P V π t', newRange ge N rd idP = .ok P ∧
        newRange ge N rd idV = .ok V ∧ rangeProve (beEnv k256q_le encU chal) P.generators v gamma (2 ^ k) pg rand t = .ok (π, t') ∧
        rangeVerify (beEnv k256q_le encU chal) V.generators π (gamma • pg.h + v • pg.g) pg (2 ^ k) t = .ok (decide (v = 0))) ∧
    (∀ (encU : P256.Group → Bytes) (chal : Transcript → ZMod p256q), (∀ t, chal t ≠ 0) → ∀ (ge : GenEnv P256.Group) (v gamma : ZMod p256q),
      v.val < 2 ^ 2 ^ k → ∀ (pg : PGens P256.Group), pg.u ≠ 0 → ∀ rand, ∃ P V π t', newRange ge N rd idP = .ok P ∧
        newRange ge N rd idV = .ok V ∧ rangeProve (beEnv p256q_le encU chal) P.generators v gamma (2 ^ k) pg rand t = .ok (π, t') ∧
        rangeVerify (beEnv p256q_le encU chal) V.generators π (gamma • pg.h + v • pg.g) pg (2 ^ k) t = .ok (decide (v = 0))) ∧
    (∀ (encU : S1 → Bytes) (chal : Transcript → ZMod blsr), (∀ t, chal t ≠ 0) → ∀ (ge : GenEnv S1) (v gamma : ZMod blsr),
      v.val < 2 ^ 2 ^ k → ∀ (pg : PGens S1), pg.u ≠ 0 → ∀ rand, ∃ P V π t', newRange ge N rd idP = .ok P ∧
        newRange ge N rd idV = .ok V ∧ rangeProve (beEnv blsr_le encU chal) P.generators v gamma (2 ^ k) pg rand t = .ok (π, t') ∧
        rangeVerify (beEnv blsr_le encU chal) V.generators π (gamma • pg.h + v • pg.g) pg (2 ^ k) t = .ok (decide (v = 0))) ∧
    (∀ (encU : S2 → Bytes) (chal : Transcript → ZMod blsr), (∀ t, chal t ≠ 0) → ∀ (ge : GenEnv S2) (v gamma : ZMod blsr),
      v.val < 2 ^ 2 ^ k → ∀ (pg : PGens S2), pg.u ≠ 0 → ∀ rand, ∃ P V π t', newRange ge N rd idP = .ok P ∧
        newRange ge N rd idV = .ok V ∧ rangeProve (beEnv blsr_le encU chal) P.generators v gamma (2 ^ k) pg rand t = .ok (π, t') ∧
        rangeVerify (beEnv blsr_le encU chal) V.generators π (gamma • pg.h + v • pg.g) pg (2 ^ k) t = .ok (decide (v = 0))) :=
  ⟨fun encU chal hc ge v gamma hv pg hu rand => range_big k256q_le encU chal hc ge N rd idP idV v gamma k hk hk7 hk2 hv pg hu rand t,
   fun encU chal hc ge v gamma hv pg hu rand => range_big p256q_le encU chal hc ge N rd idP idV v gamma k hk hk7 hk2 hv pg hu rand t,
   fun encU chal hc ge v gamma hv pg hu rand => range_big blsr_le encU chal hc ge N rd idP idV v gamma k hk hk7 hk2 hv pg hu rand t,
   fun encU chal hc ge v gamma hv pg hu rand => range_big blsr_le encU chal hc ge N rd idP idV v gamma k hk hk7 hk2 hv pg hu rand t⟩

open Classical in
/-- C223: on Ed25519 range proofs of all values in range are produced and accepted, up to 256 bits -/
theorem C223_ed25519 (k : ℕ) (hk : 1 ≤ k) (hk8 : k ≤ 8) (N : ℕ) (hk2 : 2 ^ k ≤ N) (rd idP idV : Bytes) (t : Transcript)
    (encU : primeSub → Bytes) (chal : Transcript → ZMod edl) (hc : ∀ t, chal t ≠ 0) (ge : GenEnv primeSub) (v gamma : ZMod edl)
    (hv : v.val < 2 ^ 2 ^ k) (pg : PGens primeSub) (rand : Rand (ZMod edl)) :
    ∃ P V π t', newRange ge N rd idP = .ok P ∧ newRange ge N rd idV = .ok V ∧
      rangeProve (leEnv edl_le32 encU chal) P.generators v gamma (2 ^ k) pg rand t = .ok (π, t') ∧
      rangeVerify (leEnv edl_le32 encU chal) V.generators π (gamma • pg.h + v • pg.g) pg (2 ^ k) t = .ok true := by
  have h256 : 2 ^ k ≤ 2 ^ 8 := Nat.pow_le_pow_right (by decide) hk8
  refine C221_range ge (leEnv edl_le32 encU chal) (leEnv_little (G := primeSub) edl_le32 encU chal) hc N rd idP idV v gamma k hk hk2 ?_ ?_ pg rand t
  · show 2 ^ k ≤ 8 * (leBytes 32 _).length
    rw [leBytes_length]
    exact h256
  · show ((v.val : ℕ) : ℤ) < 2 ^ 2 ^ k
    exact_mod_cast hv

/-- C223: the scalars of the environments are those of the curve interfaces: `Bytes`, `BigInt` and `SetBytes` -/
theorem C223_scalars {G : Type} (encU : G → Bytes) (ck : Transcript → ZMod k256q) (cp : Transcript → ZMod p256q)
    (cb : Transcript → ZMod blsr) (ce : Transcript → ZMod edl) :
    (∀ x : k256Fq.Ring, (beEnv k256q_le encU ck).cd.enc (x.val : ZMod k256q) = scBytes k256Scalar (encode k256Fq x) ∧
      (beEnv k256q_le encU ck).bigInt (x.val : ZMod k256q) = scBigInt k256Scalar (encode k256Fq x)) ∧
    (∀ x : p256Fq.Ring, (beEnv p256q_le encU cp).cd.enc (x.val : ZMod p256q) = scBytes p256Scalar (encode p256Fq x) ∧
      (beEnv p256q_le encU cp).bigInt (x.val : ZMod p256q) = scBigInt p256Scalar (encode p256Fq x)) ∧
    (∀ x : blsFq.Ring, (beEnv blsr_le encU cb).cd.enc (x.val : ZMod blsr) = scBytes blsScalar (encode blsFq x) ∧
      (beEnv blsr_le encU cb).bigInt (x.val : ZMod blsr) = scBigInt blsScalar (encode blsFq x)) ∧
    (∀ x : ZMod edl, (leEnv edl_le32 encU ce).cd.enc x = Ed.scBytes x ∧ (leEnv edl_le32 encU ce).bigInt x = Ed.scBigInt x) := by
  have key : ∀ (N : NatField) (hN : N.Ok) (q : ℕ), N.P.modulus.val = q → ∀ x : N.P.Ring,
      beBytes 32 ((x.val : ℕ) : ZMod q).val = scBytes N (encode N.P x) ∧ ((((x.val : ℕ) : ZMod q).val : ℕ) : ℤ) = scBigInt N (encode N.P x) := by
    intro N hN q hq x
    have := hN.ok.neZero
    have hx : ((x.val : ℕ) : ZMod q).val = x.val := by
      rw [ZMod.val_natCast, ← hq, Nat.mod_eq_of_lt (ZMod.val_lt x)]
    rw [hx, scBytes_eq hN, (C177_bigInt hN x 0).2.2.1]
    exact ⟨rfl, rfl⟩
  exact ⟨fun x => key _ k256Scalar_ok _ (by decide +kernel) x, fun x => key _ p256Scalar_ok _ (by decide +kernel) x,
    fun x => key _ blsScalar_ok _ (by decide +kernel) x, fun x => ⟨rfl, (Ed.C178_bigInt x 0).1.symm⟩⟩

open Classical in
/-- the value 5 in 8 bits: proved on both, refused on secp256k1, accepted on Ed25519 -/
example (encK : K256.Group → Bytes) (encE : primeSub → Bytes) (gk : GenEnv K256.Group) (ge : GenEnv primeSub) (pk : PGens K256.Group)
    (hu : pk.u ≠ 0) (pe : PGens primeSub) (rk : Rand (ZMod k256q)) (re : Rand (ZMod edl)) (t : Transcript) :
    (∃ P V π t', newRange gk 8 [1] [2] = .ok P ∧ newRange gk 8 [1] [3] = .ok V ∧
      rangeProve (beEnv k256q_le encK fun _ => 1) P.generators 5 7 8 pk rk t = .ok (π, t') ∧
      rangeVerify (beEnv k256q_le encK fun _ => 1) V.generators π ((7 : ZMod k256q) • pk.h + (5 : ZMod k256q) • pk.g) pk 8 t = .ok false) ∧
    (∃ P V π t', newRange ge 8 [1] [2] = .ok P ∧ newRange ge 8 [1] [3] = .ok V ∧
      rangeProve (leEnv edl_le32 encE fun _ => 1) P.generators 5 7 8 pe re t = .ok (π, t') ∧
      rangeVerify (leEnv edl_le32 encE fun _ => 1) V.generators π ((7 : ZMod edl) • pe.h + (5 : ZMod edl) • pe.g) pe 8 t = .ok true) := by
  constructor
  · have h := (C223_big_endian 3 (by decide) (by decide) 8 (by decide) [1] [2] [3] t).1 encK (fun _ => 1) (fun _ => one_ne_zero) gk 5 7
      (by decide +kernel) pk hu rk
    have h5 : ¬ (5 : ZMod k256q) = 0 := by decide +kernel
    rw [decide_eq_false h5] at h
    exact h
  · exact C223_ed25519 3 (by decide) (by decide) 8 (by decide) [1] [2] [3] t encE (fun _ => 1) (fun _ => one_ne_zero) ge 5 7
      (by decide +kernel) pe re

end Verif.Inst
