import Verif.DklsV0.CotProps

/-!
# C202: the multiplication of the older DKLs
-/

namespace Verif.DklsV0
open Verif.Legacy Verif.Ot Finset

/-- bit `j` of a packed vector -/
def bitL (v : List UInt8) (j : ℕ) : Bool := (v.getD (j / 8) 0).toNat.testBit (j % 8)

section
variable {env : Env}

theorem cast_mod (q : ℕ) (x : ℤ) : ((x % (q : ℤ) : ℤ) : ZMod q) = x := ZMod.intCast_mod x q

theorem subIf_ok (h0 : 0 < env.q) (hq : env.q ≤ 256 ^ 32) (b : List UInt8) (hb : b.length = 32) (w : Bool) (g : ℤ) :
    ∃ b', subIf env b w.toNat g = .ok b' ∧ b'.length = 32 ∧
      ((beNat b' : ℕ) : ZMod env.q) = (beNat b : ℕ) - if w then (g : ZMod env.q) else 0 := by
  unfold subIf
  rw [sc_sub h0, Go.ok_bind, (bytes_mod h0 hq _).1, Go.ok_bind, constantTimeCopy_bool w _ _ (by rw [hb, beBytes_length])]
  refine ⟨_, rfl, ?_, ?_⟩
  · cases w
    · rw [if_neg (by simp)]; exact hb
    · rw [if_pos rfl, beBytes_length]
  · cases w
    · rw [if_neg (by simp), if_neg (by simp), sub_zero]
    · rw [if_pos rfl, if_pos rfl]
      have := congrArg (Int.cast (R := ZMod env.q)) (bytes_mod h0 hq (((beNat b : ℕ) : ℤ) - g)).2
      rw [cast_mod] at this
      push_cast at this
      exact_mod_cast this

theorem subLoop_ok (h0 : 0 < env.q) (hq : env.q ≤ 256 ^ 32) (v : List UInt8) (g : ℕ → ℤ) (b : List UInt8) (hb : b.length = 32) : ∀ n,
    ∃ b', subLoop env v g n b = .ok b' ∧ b'.length = 32 ∧
      ((beNat b' : ℕ) : ZMod env.q) = (beNat b : ℕ) - ∑ j ∈ range n, if bitL v j then (g j : ZMod env.q) else 0
  | 0 => ⟨b, rfl, hb, by simp⟩
  | n + 1 => by
    obtain ⟨b1, h1, l1, e1⟩ := subLoop_ok h0 hq v g b hb n
    obtain ⟨b2, h2, l2, e2⟩ := subIf_ok h0 hq b1 l1 (bitL v n) (g n)
    refine ⟨b2, ?_, l2, ?_⟩
    · unfold subLoop
      rw [h1, Go.ok_bind, extractBit_eq]
      exact h2
    · rw [e2, e1, sum_range_succ]; ring

theorem encodeOne_ok (h0 : 0 < env.q) (hq : env.q ≤ 256 ^ 32) (beta : ℤ) (hb : 0 ≤ beta) (hb2 : beta < 256 ^ 32) (r : Digest) (tail : List UInt8) :
    ∃ p, encodeOne env beta r tail = .ok p ∧ p.length = 32 ∧
      ∑ j ∈ range 256, (if bitL p j then (env.gadget j : ZMod env.q) else 0) +
        ∑ j ∈ range 256, (if bitL r.toList j then (env.gadget (256 + j) : ZMod env.q) else 0) +
        ∑ j ∈ range 160, (if bitL tail j then (env.gadget (512 + j) : ZMod env.q) else 0) = beta := by
  have hn : beta.natAbs < 256 ^ 32 := by omega
  obtain ⟨b1, h1, l1, e1⟩ := subLoop_ok h0 hq r.toList (fun j => env.gadget (256 + j)) (beBytes 32 beta.natAbs) (beBytes_length _ _) 256
  obtain ⟨b2, h2, l2, e2⟩ := subLoop_ok h0 hq tail (fun j => env.gadget (512 + j)) b1 l1 160
  refine ⟨b2.reverse, ?_, by rw [List.length_reverse, l2], ?_⟩
  · unfold encodeOne
    rw [sc_bytes, if_pos hn, Go.ok_bind, h1, Go.ok_bind, h2]; rfl
  · rw [e1, beNat_beBytes _ _ hn] at e2
    have hv : ∑ j ∈ range 256, (if bitL b2.reverse j then (env.gadget j : ZMod env.q) else 0) = ((beNat b2 : ℕ) : ZMod env.q) := by
      rw [beNat_eq_leNat_reverse, ← Dkls.leNat_bits, List.length_reverse, l2]
      push_cast
      refine sum_congr rfl fun j hj => ?_
      rw [Env.gadget, if_pos (mem_range.1 hj)]
      show (if bitL b2.reverse j then _ else _) = ((bitL b2.reverse j).toNat : ZMod env.q) * 2 ^ j
      cases bitL b2.reverse j <;> simp
    rw [hv, e2]
    have : ((beta.natAbs : ℕ) : ZMod env.q) = beta := by
      conv_rhs => rw [← Int.natAbs_of_nonneg hb]
      rw [Int.cast_natCast]
    rw [this]; ring

theorem flatten_getD : ∀ {m : ℕ} (f : Fin m → List UInt8) (_ : ∀ i, (f i).length = 64) (i : Fin m) (r : ℕ) (_ : r < 64) (rest : List UInt8),
    ((List.ofFn f).flatten ++ rest).getD (64 * i.val + r) 0 = (f i).getD r 0
  | 0, _, _, i, _, _, _ => i.elim0
  | m + 1, f, hf, i, r, hr, rest => by
    rw [List.ofFn_succ, List.flatten_cons, List.append_assoc]
    refine Fin.cases ?_ (fun i => ?_) i
    · rw [List.getD_append _ _ _ _ (by rw [hf]; simpa using hr)]
      simp
    · rw [List.getD_append_right _ _ _ _ (by rw [hf, Fin.val_succ]; omega), hf, Fin.val_succ,
        show 64 * (i.val + 1) + r - 64 = 64 * i.val + r by omega]
      exact flatten_getD (fun i => f i.succ) (fun i => hf i.succ) i r hr rest

theorem flatten_length : ∀ {m : ℕ} (f : Fin m → List UInt8) (_ : ∀ i, (f i).length = 64), (List.ofFn f).flatten.length = 64 * m
  | 0, _, _ => rfl
  | m + 1, f, hf => by
    rw [List.ofFn_succ, List.flatten_cons, List.length_append, hf, flatten_length (fun i => f i.succ) (fun i => hf i.succ)]; ring

/-- C202: the encoding: for inputs of at most 32 bytes it succeeds, and the inner product of the choice bits with the gadget vector is the
input, for each of the inputs; the last 80 choice bits are always zero -/
theorem C202_encode {m : ℕ} (h0 : 0 < env.q) (hq : env.q ≤ 256 ^ 32) (beta : Fin m → ℤ) (hb : ∀ i, 0 ≤ beta i ∧ beta i < 256 ^ 32) (r : Fin m → Digest)
    (rnd : Vector UInt8 10) : ∃ omega, encode env beta r rnd = .ok omega ∧ omega.length = choBytes m ∧
      (∀ i : Fin m, ∑ j ∈ range 512, (if bitL omega (512 * i + j) then (env.gadget j : ZMod env.q) else 0) +
        ∑ j ∈ range 160, (if bitL omega (512 * m + j) then (env.gadget (512 + j) : ZMod env.q) else 0) = beta i) ∧
      ∀ j, 80 ≤ j → j < 160 → bitL omega (512 * m + j) = false := by
  choose p hp hl hs using fun i => encodeOne_ok h0 hq (beta i) (hb i).1 (hb i).2 (r i) (tailBytes rnd)
  have hf : ∀ i, (p i ++ (r i).toList).length = 64 := fun i => by rw [List.length_append, hl, Vector.length_toList]
  have ht : (tailBytes rnd).length = 20 := by rw [tailBytes, List.length_append, Vector.length_toList, List.length_replicate]
  have hL := flatten_length (fun i => p i ++ (r i).toList) hf
  refine ⟨(List.ofFn fun i => p i ++ (r i).toList).flatten ++ tailBytes rnd, ?_, ?_, fun i => ?_, fun j h1 h2 => ?_⟩
  · unfold encode
    rw [Go.tabulate_ok p hp]; rfl
  · rw [List.length_append, hL, ht]
  · have hbits : ∀ j < 512, bitL ((List.ofFn fun i => p i ++ (r i).toList).flatten ++ tailBytes rnd) (512 * i + j) = bitL (p i ++ (r i).toList) j := by
      intro j hj
      rw [bitL, bitL, show (512 * i.val + j) / 8 = 64 * i.val + j / 8 by omega, show (512 * i.val + j) % 8 = j % 8 by omega]
      rw [flatten_getD _ hf i _ (by omega)]
    have htail : ∀ j, bitL ((List.ofFn fun i => p i ++ (r i).toList).flatten ++ tailBytes rnd) (512 * m + j) = bitL (tailBytes rnd) j := by
      intro j
      rw [bitL, bitL, show (512 * m + j) / 8 = 64 * m + j / 8 by omega, show (512 * m + j) % 8 = j % 8 by omega,
        List.getD_append_right _ _ _ _ (by rw [hL]; omega), hL, Nat.add_sub_cancel_left]
    rw [show (512 : ℕ) = 256 + 256 from rfl, sum_range_add]
    rw [← hs i]
    refine congrArg₂ (· + ·) (congrArg₂ (· + ·) (sum_congr rfl fun j hj => ?_) (sum_congr rfl fun j hj => ?_)) (sum_congr rfl fun j hj => ?_)
    · have hj := mem_range.1 hj
      rw [hbits j (by omega), bitL, List.getD_append _ _ _ _ (by rw [hl]; omega)]; rfl
    · have hj := mem_range.1 hj
      rw [hbits (256 + j) (by omega), bitL, List.getD_append_right _ _ _ _ (by rw [hl]; omega), hl, show (256 + j) / 8 - 32 = j / 8 by omega,
        show (256 + j) % 8 = j % 8 by omega]; rfl
    · rw [show 256 + 256 = 512 from rfl, htail j]
  · rw [bitL, show (512 * m + j) / 8 = 64 * m + j / 8 by omega,
        List.getD_append_right _ _ _ _ (by rw [hL]; omega), hL, Nat.add_sub_cancel_left, tailBytes,
        List.getD_append_right _ _ _ _ (by rw [Vector.length_toList]; omega), List.getD_replicate]
    · simp
    · rw [Vector.length_toList]; omega

/-- C202: an input of more than 32 bytes makes the receiver panic -/
theorem C202_encode_wide (beta : ℤ) (hb : 256 ^ 32 ≤ beta.natAbs) (r : Digest) (tail : List UInt8) : encodeOne env beta r tail = Go.crash := by
  unfold encodeOne
  rw [sc_bytes, if_neg (by omega)]; rfl

theorem addLoop_ok (h0 : 0 < env.q) (f : ℕ → ℤ) (acc : ℤ) : ∀ n, ∃ r, addLoop env f n acc = .ok r ∧
    (r : ZMod env.q) = acc + ∑ j ∈ range n, (f j : ZMod env.q) ∧ (0 < n → 0 ≤ r ∧ r < env.q)
  | 0 => ⟨acc, rfl, by simp, by omega⟩
  | n + 1 => by
    obtain ⟨r, h, e, -⟩ := addLoop_ok h0 f acc n
    refine ⟨(r + f n) % env.q, ?_, ?_, fun _ => ⟨Int.emod_nonneg _ (by omega), Int.emod_lt_of_pos _ (by omega)⟩⟩
    · unfold addLoop
      rw [h, Go.ok_bind, sc_add h0]
    · rw [cast_mod, Int.cast_add, e, sum_range_succ]; ring

theorem sums_ok {m : ℕ} (h0 : 0 < env.q) (t : Fin (512 * m) → ℤ) (tOT : Fin 160 → Fin m → ℤ) (i : Fin m) : ∃ r, sums env t tOT i = .ok r ∧
    0 ≤ r ∧ r < env.q ∧ (r : ZMod env.q) = ∑ j : Fin 512, (t ⟨512 * i.val + j.val, by omega⟩ : ZMod env.q) + ∑ j : Fin 160, (tOT j i : ZMod env.q) := by
  obtain ⟨a, ha, ea, -⟩ := addLoop_ok h0 (fun j => if h : 512 * i.val + j < 512 * m then t ⟨512 * i.val + j, h⟩ else 0) 0 512
  obtain ⟨b, hb, eb, rb⟩ := addLoop_ok h0 (fun j => if h : j < 160 then tOT ⟨j, h⟩ i else 0) a 160
  refine ⟨b, ?_, (rb (by omega)).1, (rb (by omega)).2, ?_⟩
  · unfold sums
    rw [ha, Go.ok_bind, hb]
  · rw [eb, ea, ← Fin.sum_univ_eq_sum_range (fun j => (((if h : 512 * i.val + j < 512 * m then t ⟨512 * i.val + j, h⟩ else 0 : ℤ)) : ZMod env.q)),
      ← Fin.sum_univ_eq_sum_range (fun j => (((if h : j < 160 then tOT ⟨j, h⟩ i else 0 : ℤ)) : ZMod env.q)), Int.cast_zero, zero_add]
    refine congrArg₂ (· + ·) (sum_congr rfl fun j _ => ?_) (sum_congr rfl fun j _ => ?_)
    · rw [dif_pos (by have := j.2; have := i.2; omega)]
    · rw [dif_pos j.2]

/-- C202: honest parties with the seeds of the seed OT, a new receiver and inputs of at most 32 bytes: both sides succeed and the outputs are
additive shares of each of the `m` products, for every randomness and session identifier -/
theorem C202_multiply {m : ℕ} (hm0 : 0 < m) (hm : m ≤ 126) (h0 : 0 < env.q) (hq : env.q ≤ 256 ^ 32) (rho : Fin 256 → Digest × Digest)
    (idExt packed : Digest) (alpha beta : Fin m → ℤ) (hb : ∀ i, 0 ≤ beta i ∧ beta i < 256 ^ 32) (r : Fin m → Digest) (rnd : Vector UInt8 10)
    (gamma : Vector UInt8 42) : ∃ msg st' msg2 ta tb,
      multiplyInit env (newCotReceiver m) rho idExt beta r rnd gamma = .ok (msg, st') ∧
      multiply env idExt packed (fun i => pick (bit packed i) (rho i)) alpha msg = .ok (msg2, ta) ∧
      multiplyTransfer env st' msg2 = .ok tb ∧
      ∀ i, (ta i + tb i) % (env.q : ℤ) = (alpha i * beta i) % env.q := by
  obtain ⟨omega, ho, hl, hs, -⟩ := C202_encode h0 hq beta hb r rnd
  let main := fun j : Fin (512 * m) => (env.gadget (j.val % 512) * alpha ⟨j.val / 512, by omega⟩) % (env.q : ℤ)
  let ot := fun (j : Fin 160) (i : Fin m) => (env.gadget (j.val + 512) * alpha i) % (env.q : ℤ)
  obtain ⟨msg, st', msg2, out, tB, tBOT, h1, h2, h3, c1, c2⟩ := C201_honest hm0 hm h0 hq rho idExt packed omega hl gamma main ot
  choose ta hta hta1 hta2 eta using fun i => sums_ok h0 out.tA out.tAOT i
  choose tb htb htb1 htb2 etb using fun i => sums_ok h0 tB tBOT i
  refine ⟨msg, st', msg2, ta, tb, ?_, ?_, ?_, fun i => ?_⟩
  · unfold multiplyInit
    rw [ho, Go.ok_bind, h1]
  · unfold multiply
    rw [Go.tabulate_ok main (fun j => sc_mul h0 _ _), Go.ok_bind, Go.tabulate_ok ot (fun j => Go.tabulate_ok _ fun i => sc_mul h0 _ _), Go.ok_bind, h2, Go.ok_bind]
    simp only
    rw [Go.tabulate_ok ta hta]; rfl
  · unfold multiplyTransfer
    rw [h3, Go.ok_bind]
    simp only
    rw [Go.tabulate_ok tb htb]
  · have z1 : ∀ j, (out.tA j : ZMod env.q) + tB j = if bitL omega j then (main j : ZMod env.q) else 0 := by
      intro j
      have := (ZMod.intCast_eq_intCast_iff' _ _ env.q).2 (c1 j)
      push_cast at this
      rw [this]; rfl
    have z2 : ∀ j i, (out.tAOT j i : ZMod env.q) + tBOT j i = if bitL omega (512 * m + j) then (ot j i : ZMod env.q) else 0 := by
      intro j i
      have := (ZMod.intCast_eq_intCast_iff' _ _ env.q).2 (c2 j i)
      push_cast at this
      rw [this, bitL, show (512 * m + j.val) / 8 = 64 * m + j.val / 8 by omega, show (512 * m + j.val) % 8 = j.val % 8 by omega]
    refine (ZMod.intCast_eq_intCast_iff' _ _ env.q).1 ?_
    push_cast
    rw [eta, etb, add_add_add_comm, ← sum_add_distrib, ← sum_add_distrib, ← hs i, mul_add, mul_sum, mul_sum,
      ← Fin.sum_univ_eq_sum_range (fun j => (alpha i : ZMod env.q) * (if bitL omega (512 * i + j) then (env.gadget j : ZMod env.q) else 0)),
      ← Fin.sum_univ_eq_sum_range (fun j => (alpha i : ZMod env.q) * (if bitL omega (512 * m + j) then (env.gadget (512 + j) : ZMod env.q) else 0))]
    refine congrArg₂ (· + ·) (sum_congr rfl fun j _ => ?_) (sum_congr rfl fun j _ => ?_)
    · rw [z1]
      show (if bitL omega (512 * i + j) then (main ⟨512 * i.val + j.val, _⟩ : ZMod env.q) else 0) = _
      have e : (main ⟨512 * i.val + j.val, by have := i.2; have := j.2; omega⟩ : ZMod env.q) = env.gadget j * alpha i := by
        show (((env.gadget ((512 * i.val + j.val) % 512) * alpha ⟨(512 * i.val + j.val) / 512, _⟩) % (env.q : ℤ) : ℤ) : ZMod env.q) = _
        rw [cast_mod, Int.cast_mul]
        have e1 : (512 * i.val + j.val) % 512 = j.val := by omega
        have e2 : (⟨(512 * i.val + j.val) / 512, by have := i.2; omega⟩ : Fin m) = i := Fin.ext (by simp only; omega)
        rw [e1, e2]
      rw [e]
      split
      · ring
      · rw [mul_zero]
    · rw [z2]
      have e : (ot j i : ZMod env.q) = env.gadget (512 + j) * alpha i := by
        show (((env.gadget (j.val + 512) * alpha i) % (env.q : ℤ) : ℤ) : ZMod env.q) = _
        rw [cast_mod, Int.cast_mul, add_comm]
      rw [e]
      split
      · ring
      · rw [mul_zero]

end

/-- two products at once modulo the order of secp256k1, for any hash and cSHAKE stream -/
example (sha : List UInt8 → Digest) (shake : ℕ → UInt8) (rho : Fin 256 → Digest × Digest) (idExt packed : Digest) (r : Fin 2 → Digest)
    (rnd : Vector UInt8 10) (gamma : Vector UInt8 42) : ∃ msg st' msg2 ta tb,
      multiplyInit (k256Env [] sha shake (fun _ _ _ _ => true)) (newCotReceiver 2) rho idExt ![5, 7] r rnd gamma = .ok (msg, st') ∧
      multiply (k256Env [] sha shake (fun _ _ _ _ => true)) idExt packed (fun i => pick (bit packed i) (rho i)) ![11, -3] msg = .ok (msg2, ta) ∧
      multiplyTransfer (k256Env [] sha shake (fun _ _ _ _ => true)) st' msg2 = .ok tb ∧
      ∀ i, (ta i + tb i) % (Primes.k256q : ℤ) = (![11, -3] i * ![5, 7] i) % Primes.k256q :=
  C202_multiply (env := k256Env [] sha shake (fun _ _ _ _ => true)) (by omega) (by omega) (by show 0 < Primes.k256q; decide +kernel)
    (by show Primes.k256q ≤ _; decide +kernel) rho idExt packed ![11, -3] ![5, 7] (by intro i; fin_cases i <;> decide) r rnd gamma

end Verif.DklsV0
