import Verif.Dkls.MulModel
import Verif.Ot.KosProps

/-!
# C36, C118: two-party multiplication
-/

set_option linter.unusedSectionVars false

open Finset

namespace Verif.Dkls

open Verif.Ot

variable {F : Type} [Field F] [DecidableEq F]

/-- `Scalar.Bytes` is the 32-byte big-endian form of a representative of the scalar, zero is all zeros
(true of secp256k1 and P-256, which are the curves of DKLs) -/
structure BeCodec (cd : ScalarCodec F) : Prop where
  len : ∀ x, (cd.enc x).length = 32
  val : ∀ x, ((beNat (cd.enc x) : ℕ) : F) = x
  zero : cd.enc 0 = List.replicate 32 0

/-! ## Encoding of the input -/

theorem byte_bits (b : UInt8) : ∑ j ∈ range 8, (b.toNat.testBit j).toNat * 2 ^ j = b.toNat := by
  have h : ∀ n < 256, ∑ j ∈ range 8, (n.testBit j).toNat * 2 ^ j = n := by decide +kernel
  exact h _ b.toNat_lt

theorem leNat_bits : ∀ l : List UInt8,
    ∑ j ∈ range (8 * l.length), ((l.getD (j / 8) 0).toNat.testBit (j % 8)).toNat * 2 ^ j = leNat l
  | [] => by simp [leNat]
  | b :: l => by
    rw [leNat_cons, List.length_cons, show 8 * (l.length + 1) = 8 + 8 * l.length by ring, sum_range_add,
      ← leNat_bits l, mul_sum]
    have h1 : ∑ j ∈ range 8, (((b :: l).getD (j / 8) 0).toNat.testBit (j % 8)).toNat * 2 ^ j = b.toNat := by
      refine Eq.trans (sum_congr rfl fun j hj => ?_) (byte_bits b)
      have hj := mem_range.1 hj
      rw [Nat.div_eq_of_lt hj, Nat.mod_eq_of_lt hj]
      rfl
    rw [h1]
    refine congrArg _ (sum_congr rfl fun j _ => ?_)
    rw [show (8 + j) / 8 = j / 8 + 1 by omega, show (8 + j) % 8 = j % 8 by omega, List.getD_cons_succ]
    ring

theorem encodeStep_eq (cd : ScalarCodec F) (hl : ∀ x, (cd.enc x).length = 32) (g x : F) (b : Bool) :
    encodeStep cd g b.toNat (cd.enc x) = .ok (cd.enc (x - if b then g else 0)) := by
  unfold encodeStep
  rw [cd.dec_enc]
  show constantTimeCopy _ _ _ = _
  rw [constantTimeCopy_bool _ _ _ (by rw [hl, hl])]
  cases b <;> simp

theorem encode_fold (cd : ScalarCodec F) (hl : ∀ x, (cd.enc x).length = 32) (g : ℕ → F) (b : ℕ → Bool) (x : F) :
    ∀ n, (List.range n).foldlM (fun bs i => encodeStep cd (g i) (b i).toNat bs) (cd.enc x) =
      .ok (cd.enc (x - ∑ i ∈ range n, if b i then g i else 0))
  | 0 => by simp
  | n + 1 => by
    rw [List.range_succ, List.foldlM_append, encode_fold cd hl g b x n, Go.ok_bind, List.foldlM_cons,
      encodeStep_eq cd hl, Go.ok_bind, List.foldlM_nil, sum_range_succ, sub_sub]
    rfl

/-- a list followed by random bytes: the bits of the two parts -/
theorem bitAt_append {n k : ℕ} (u : Vector UInt8 n) (v : Vector UInt8 k) (j : ℕ) :
    bitAt (u ++ v) j = if j < 8 * n then bitAt u j else bitAt v (j - 8 * n) := by
  unfold bitAt
  rw [Vector.toList_append]
  split
  · rename_i h
    rw [List.getD_append _ _ _ _ (by rw [Vector.length_toList]; omega)]
  · rename_i h
    rw [List.getD_append_right _ _ _ _ (by rw [Vector.length_toList]; omega), Vector.length_toList,
      show (j - 8 * n) / 8 = j / 8 - n by omega, show (j - 8 * n) % 8 = j % 8 by omega]

/-- the encoded input: its inner product with the gadget vector is the input -/
theorem encode_ok (env : MEnv F) (hc : BeCodec env.cd) (g : ℕ → F) (hg : ∀ j < 256, g j = 2 ^ j) (beta : F)
    (rnd : Vector UInt8 52) :
    ∃ omega, encode env g beta rnd = .ok omega ∧
      ∑ j ∈ range (256 + 416), (if bitAt omega j then g j else 0) = beta := by
  have hbits : ∀ i, (extractBit (List.replicate 32 0 ++ rnd.toList) (kappa + i)).toNat = (bitAt rnd i).toNat := by
    intro i
    rw [extractBit_bool]
    have : ((List.replicate 32 (0 : UInt8) ++ rnd.toList).getD ((kappa + i) / 8) 0).toNat.testBit ((kappa + i) % 8) =
        bitAt rnd i := by
      unfold bitAt
      rw [List.getD_append_right _ _ _ _ (by simp only [List.length_replicate, kappa]; omega),
        List.length_replicate, show (kappa + i) / 8 - 32 = i / 8 by simp only [kappa]; omega,
        show (kappa + i) % 8 = i % 8 by simp only [kappa]; omega]
    rw [this]
    cases bitAt rnd i <;> rfl
  unfold encode
  simp only [hbits]
  rw [encode_fold env.cd hc.len (fun i => g (kappa + i)) (fun i => bitAt rnd i), Go.ok_bind]
  refine ⟨_, rfl, ?_⟩
  generalize hx : beta - ∑ i ∈ range (cotL - kappa), (if bitAt rnd i then g (kappa + i) else 0) = x
  have hlow : ∀ j < 256, bitAt (Vector.ofFn (fun i : Fin 32 => (env.cd.enc x).reverse.getD i.val 0)) j =
      ((env.cd.enc x).reverse.getD (j / 8) 0).toNat.testBit (j % 8) := by
    intro j hj
    rw [bitAt_eq _ _ (by omega), Vector.getElem_ofFn]
  have hsum : ∑ j ∈ range 256, (if ((env.cd.enc x).reverse.getD (j / 8) 0).toNat.testBit (j % 8) then
      (2 : F) ^ j else 0) = x := by
    have h := leNat_bits (env.cd.enc x).reverse
    rw [List.length_reverse, hc.len, ← beNat_eq_leNat_reverse] at h
    have h' := congrArg (fun n : ℕ => (n : F)) h
    simp only [hc.val] at h'
    refine Eq.trans ?_ h'
    rw [Nat.cast_sum]
    refine sum_congr rfl fun j _ => ?_
    rw [Nat.cast_mul, Nat.cast_pow]
    cases ((env.cd.enc x).reverse.getD (j / 8) 0).toNat.testBit (j % 8) <;> simp
  rw [sum_range_add]
  have h1 : ∑ j ∈ range 256, (if bitAt (Vector.ofFn (fun i : Fin 32 => (env.cd.enc x).reverse.getD i.val 0) ++ rnd :
      Vector UInt8 cotBytes) j then g j else 0) = x := by
    refine Eq.trans (sum_congr rfl fun j hj => ?_) hsum
    have hj := mem_range.1 hj
    have hb : bitAt (Vector.ofFn (fun i : Fin 32 => (env.cd.enc x).reverse.getD i.val 0) ++ rnd) j =
        ((env.cd.enc x).reverse.getD (j / 8) 0).toNat.testBit (j % 8) := by
      rw [bitAt_append, if_pos (by omega), hlow j hj]
    rw [hg j hj]
    exact congrArg (fun b : Bool => if b then (2 : F) ^ j else 0) hb
  have h2 : ∑ j ∈ range 416, (if bitAt (Vector.ofFn (fun i : Fin 32 => (env.cd.enc x).reverse.getD i.val 0) ++ rnd :
      Vector UInt8 cotBytes) (256 + j) then g (256 + j) else 0) =
      ∑ i ∈ range (cotL - kappa), (if bitAt rnd i then g (kappa + i) else 0) := by
    refine sum_congr rfl fun j hj => ?_
    have hb : bitAt (Vector.ofFn (fun i : Fin 32 => (env.cd.enc x).reverse.getD i.val 0) ++ rnd) (256 + j) =
        bitAt rnd j := by
      rw [bitAt_append, if_neg (by omega), show 256 + j - 8 * 32 = j by omega]
    exact congrArg (fun b : Bool => if b then g (256 + j) else 0) hb
  rw [h1, h2, ← hx]
  ring

/-! ## The protocol -/

theorem gadgetSum_eq (g : ℕ → F) (share : Fin cotL → F × F) :
    gadgetSum g share = ∑ j, g j.val * (share j).1 := by
  unfold gadgetSum
  have key : ∀ (l : List (Fin cotL)) (acc : F), l.foldl (fun acc j => acc + g j.val * (share j).1) acc =
      acc + (l.map fun j => g j.val * (share j).1).sum := by
    intro l
    induction l with
    | nil => intro acc; simp
    | cons a l ih => intro acc; rw [List.foldl_cons, ih, List.map_cons, List.sum_cons, add_assoc]
  rw [key, zero_add, ← List.ofFn_eq_map, List.sum_ofFn]

/-- Bob's check of one slot accepts iff `R_j + χ₀ t₀ + χ₁ t₁ = ω_j·U`, and returns an error otherwise. -/
theorem mulCheck_iff (env : MEnv F) (hc : BeCodec env.cd) (b : Bool) (chi : F × F) (Rj U : F) (share : F × F) :
    (mulCheck env b.toNat chi Rj U share = .ok () ↔
      Rj + chi.1 * share.1 + chi.2 * share.2 = if b then U else 0) ∧
    (Rj + chi.1 * share.1 + chi.2 * share.2 ≠ (if b then U else 0) →
      mulCheck env b.toNat chi Rj U share = Go.err) := by
  have hinj : Function.Injective env.cd.enc := fun x y h => by
    have := congrArg env.cd.dec h
    rwa [env.cd.dec_enc, env.cd.dec_enc, Option.some.injEq] at this
  have heq : mulCheck env b.toNat chi Rj U share =
      Go.guard (env.cd.enc (if b then U else 0) = env.cd.enc (Rj + chi.1 * share.1 + chi.2 * share.2)) := by
    unfold mulCheck
    simp only
    rw [constantTimeCopy_bool _ _ _ (by rw [hc.len, List.length_replicate]), Go.ok_bind]
    cases b
    · simp [hc.zero]
    · simp
  rw [heq]
  exact ⟨Go.guard_eq_ok.trans (hinj.eq_iff.trans eq_comm), fun h => Go.guard_false fun h' => h (hinj h').symm⟩

/-- Bob's decision on an arbitrary second message: with the challenges of the transcript, he accepts iff
the OT extension succeeds and every slot satisfies its equation; his output is `Σ g_j t_j`. -/
theorem C36_round3_iff (env : MEnv F) (hc : BeCodec env.cd) (r : MulReceiver F) (m : MulRound2 F) (out : F) :
    mulRound3 env r m = .ok out ↔
      ∃ share chi t, kosRound3 env.toKEnv r.kos m.tau = .ok share ∧
        drawChi env (appendTau env.cd r.transcript m.tau) = .ok (chi, t) ∧
        (∀ j, m.R j + chi.1 * (share j).1 + chi.2 * (share j).2 = if bitAt r.omega j then m.U else 0) ∧
        out = ∑ j : Fin cotL, r.gadget j.val * (share j).1 := by
  have hb : ∀ j : ℕ, (extractBit r.omega.toList j).toNat = (bitAt r.omega j).toNat := by
    intro j
    rw [extractBit_bitAt]
    cases bitAt r.omega j <;> rfl
  unfold mulRound3
  simp only [hb]
  constructor
  · intro h
    obtain ⟨share, hs, h⟩ := Go.bind_eq_ok.1 h
    obtain ⟨⟨chi, t⟩, hchi, h⟩ := Go.bind_eq_ok.1 h
    obtain ⟨u, hu, h⟩ := Go.bind_eq_ok.1 h
    rw [Go.tabulate_eq_ok] at hu
    refine ⟨share, chi, t, hs, hchi, fun j => ((mulCheck_iff env hc _ _ _ _ _).1).1 (hu j), ?_⟩
    rw [← gadgetSum_eq]
    exact (Except.ok.inj h).symm
  · rintro ⟨share, chi, t, hs, hchi, hj, hout⟩
    rw [hs, Go.ok_bind, hchi, Go.ok_bind]
    have hu := Go.tabulate_ok (fun _ : Fin cotL => ())
      (fun j => ((mulCheck_iff env hc (bitAt r.omega j.val) chi (m.R j) m.U (share j)).1).2 (hj j))
    refine Go.bind_eq_ok.2 ⟨_, hu, ?_⟩
    rw [gadgetSum_eq, ← hout]

/-- the transcript after the first `n` rows only depends on these rows -/
theorem appendTau_congr (cd : ScalarCodec F) (t : Merlin) (tau tau' : Fin cotL → F × F)
    (h : ∀ j : Fin cotL, j.val < 256 → tau j = tau' j) : appendTau cd t tau = appendTau cd t tau' := by
  unfold appendTau
  congr 1
  funext t i
  rw [h ⟨i.val, kappa_lt i⟩ i.isLt]

/-- the sum over the slots as a sum over numbers -/
theorem sum_slots (f : ℕ → F) : ∑ j : Fin cotL, f j.val = ∑ j ∈ range (256 + 416), f j :=
  Fin.sum_univ_eq_sum_range f cotL

/-- the receiver's OT extension is run on the bits of `omega` -/
theorem mulRound1_ext (env : MEnv F) (keys : List (Digest × Digest)) (hk : 256 ≤ keys.length) (sid : Digest)
    (g : ℕ → F) (t : Merlin) (beta : F) (rnd : Vector UInt8 52) (rnd' : Vector UInt8 42) (m : KosRound1)
    (r : MulReceiver F) (h : mulRound1 env keys sid g t beta rnd rnd' = .ok (m, r)) :
    r.gadget = g ∧ ∀ j : Fin cotL, (extractBit r.kos.ext.toList j.val).toNat = (bitAt r.omega j).toNat := by
  unfold mulRound1 at h
  obtain ⟨omega, -, h⟩ := Go.bind_eq_ok.1 h
  obtain ⟨⟨m', kr⟩, h1, h⟩ := Go.bind_eq_ok.1 h
  obtain ⟨rfl, rfl⟩ := Prod.mk.inj (Except.ok.inj h)
  refine ⟨rfl, fun j => ?_⟩
  obtain ⟨m'', kr', h1', hext, -⟩ := kosRound1_eq ringMap_toField env.toKEnv keys hk sid omega rnd'
  rw [h1] at h1'
  obtain ⟨rfl, rfl⟩ := Prod.mk.inj (Except.ok.inj h1')
  show (extractBit kr.ext.toList j.val).toNat = (bitAt omega j.val).toNat
  rw [extractBit_bitAt, hext, ext_bit omega rnd' j.val j.isLt]
  cases bitAt omega j.val <;> rfl

/-- The first 256 gadgets are the powers of two. -/
theorem newMultiply_gadget (env : MEnv F) (sid : Digest) (g : ℕ → F) (t : Merlin)
    (hnew : newMultiply env sid = .ok (g, t)) : ∀ j < 256, g j = 2 ^ j := by
  unfold newMultiply gadgetVector at hnew
  obtain ⟨g', hg', hnew⟩ := Go.bind_eq_ok.1 hnew
  obtain ⟨hi, -, hg'⟩ := Go.bind_eq_ok.1 hg'
  obtain ⟨rfl, -⟩ := Prod.mk.inj (Except.ok.inj hnew)
  obtain rfl := Except.ok.inj hg'
  intro j hj
  exact if_pos hj

theorem drawChi_cases (env : MEnv F) (t : Merlin) : (∃ chi t', drawChi env t = .ok (chi, t')) ∨
    (drawChi env t = Go.err ∧ ¬ ∀ t', ∃ x, env.cd.dec (env.ext t').toList = some x) := by
  unfold drawChi
  simp only
  cases h0 : env.cd.dec (env.ext (t.extract "draw challenge chi 0")).toList with
  | none =>
    exact .inr ⟨rfl, fun h => by obtain ⟨x, hx⟩ := h (t.extract "draw challenge chi 0"); rw [h0] at hx; cases hx⟩
  | some c0 =>
    cases h1 : env.cd.dec (env.ext ((t.extract "draw challenge chi 0").extract "draw challenge chi 1")).toList with
    | none =>
      exact .inr ⟨rfl, fun h => by
        obtain ⟨x, hx⟩ := h ((t.extract "draw challenge chi 0").extract "draw challenge chi 1")
        rw [h1] at hx
        cases hx⟩
    | some c1 => exact .inl ⟨_, _, rfl⟩

/-- Honest multiplication: Alice either answers or returns an error (when a hash output is not the
encoding of a scalar).  Whenever she answers, Bob's check passes and the two outputs are additive shares
of the product of the inputs. -/
theorem C36_honest (env : MEnv F) (hc : BeCodec env.cd) (keys : List (Digest × Digest)) (seed : SeedReceiver)
    (nabla : Digest) (hseed : SeedOk keys seed nabla) (sid : Digest) (g : ℕ → F) (t : Merlin)
    (hnew : newMultiply env sid = .ok (g, t)) (alpha alphaHat beta : F)
    (rnd : Vector UInt8 52) (rnd' : Vector UInt8 42) :
    ∃ m r, mulRound1 env keys sid g t beta rnd rnd' = .ok (m, r) ∧
      ((∃ m2 shareA shareB, mulRound2 env seed sid g t alpha alphaHat m = .ok (m2, shareA) ∧
          mulRound3 env r m2 = .ok shareB ∧ shareA + shareB = alpha * beta) ∨
        (mulRound2 env seed sid g t alpha alphaHat m = Go.err ∧
          ¬ (Decodable env.toKEnv sid (fun j => r.kos.psi[j.val]'(slot_lt j)) nabla ∧
            ∀ t', ∃ x, env.cd.dec (env.ext t').toList = some x))) := by
  have hg := newMultiply_gadget env sid g t hnew
  obtain ⟨omega, ho, hsum⟩ := encode_ok env hc g hg beta rnd
  obtain ⟨m, kr, h1, hyes, hno⟩ := C35_honest env.toKEnv (fun x y => by rw [hc.len, hc.len]) keys seed nabla
    hseed sid omega rnd' (fun _ => (alpha, alphaHat))
  refine ⟨m, ⟨g, appendKos t m, omega, kr⟩, ?_, ?_⟩
  · unfold mulRound1
    rw [ho, Go.ok_bind, h1, Go.ok_bind]
  by_cases hd : Decodable env.toKEnv sid (fun j => kr.psi[j.val]'(slot_lt j)) nabla
  swap
  · right
    refine ⟨?_, fun h => hd h.1⟩
    unfold mulRound2
    rw [hno hd]
    rfl
  obtain ⟨tA, tau, tB, h2, h3, hshares⟩ := hyes hd
  rcases drawChi_cases env (appendTau env.cd (appendKos t m) tau) with ⟨chi, t', hchi⟩ | ⟨hchi, hnd⟩
  swap
  · right
    refine ⟨?_, fun h => hnd h.2⟩
    unfold mulRound2
    rw [h2, Go.ok_bind]
    show (drawChi env (appendTau env.cd (appendKos t m) tau) >>= fun _ => _) = _
    rw [hchi]
    rfl
  left
  refine ⟨⟨tau, fun j => 0 + chi.1 * (tA j).1 + chi.2 * (tA j).2, chi.1 * alpha + chi.2 * alphaHat⟩,
    gadgetSum g tA, ∑ j : Fin cotL, g j.val * (tB j).1, ?_, ?_, ?_⟩
  · unfold mulRound2
    rw [h2, Go.ok_bind]
    show (drawChi env (appendTau env.cd (appendKos t m) tau) >>= fun _ => _) = _
    rw [hchi, Go.ok_bind]
  · rw [C36_round3_iff env hc]
    refine ⟨tB, chi, t', h3, hchi, fun j => ?_, rfl⟩
    have h1 := congrArg Prod.fst (hshares j)
    have h2 := congrArg Prod.snd (hshares j)
    simp only [Prod.fst_add, Prod.snd_add] at h1 h2
    simp only
    cases hb : bitAt omega j.val
    · simp only [hb, Bool.false_eq_true, if_false, Prod.fst_zero, Prod.snd_zero] at h1 h2 ⊢
      linear_combination chi.1 * h1 + chi.2 * h2
    · simp only [hb, if_true] at h1 h2 ⊢
      linear_combination chi.1 * h1 + chi.2 * h2
  · rw [gadgetSum_eq, ← sum_add_distrib]
    have : ∀ j : Fin cotL, g j.val * (tA j).1 + g j.val * (tB j).1 =
        alpha * (if bitAt omega j then g j.val else 0) := by
      intro j
      have h1 := congrArg Prod.fst (hshares j)
      simp only [Prod.fst_add] at h1
      rw [← mul_add, h1]
      cases bitAt omega j.val
      · simp
      · simp [mul_comm]
    rw [sum_congr rfl fun j _ => this j, ← mul_sum, sum_slots (fun j => if bitAt omega j then g j else 0), hsum]

/-! ## C118: the last 416 rows of Tau are not in the transcript -/

/-- change of one row of `tau` -/
def tamper (tau : Fin cotL → F × F) (j0 : Fin cotL) (d : F × F) : Fin cotL → F × F :=
  Function.update tau j0 (tau j0 + d)

theorem kosSlotB_tamper (env : KEnv F) (hl : ∀ x y, (env.cd.enc x).length = (env.cd.enc y).length) (sid : Digest)
    (j : ℕ) (v : Digest) (b : Bool) (tau d s : F × F) (h : kosSlotB env sid j v b.toNat tau = .ok s) :
    kosSlotB env sid j v b.toNat (tau + d) = .ok (s + if b then d else 0) := by
  unfold kosSlotB at h ⊢
  obtain ⟨s0, h0, h⟩ := Go.bind_eq_ok.1 h
  rw [kosShare_eq env hl, Go.ok_bind] at h
  obtain ⟨s1, h1, h⟩ := Go.bind_eq_ok.1 h
  rw [kosShare_eq env hl, Go.ok_bind] at h
  obtain rfl := Except.ok.inj h
  rw [h0, Go.ok_bind, kosShare_eq env hl, Go.ok_bind, h1, Go.ok_bind, kosShare_eq env hl, Go.ok_bind]
  refine congrArg Except.ok ?_
  clear h h0 h1
  obtain ⟨t0, t1⟩ := tau
  obtain ⟨d0, d1⟩ := d
  cases b
  · simp
  · simp [add_assoc]

/-- Only the rows 0 to 255 of `Tau` enter the transcript from which the challenges are drawn.  Whenever Bob
accepts a message, he also accepts the message in which a row `j ≥ 256` is shifted by `(δ, −δ·χ₀/χ₁)`, with
unchanged challenges; his output changes by `ω_j g_j δ`, so the shares no longer add up to a product of the
inputs. -/
theorem C118_tau_not_bound (env : MEnv F) (hc : BeCodec env.cd) (r : MulReceiver F)
    (homega : ∀ j : Fin cotL, (extractBit r.kos.ext.toList j.val).toNat = (bitAt r.omega j).toNat)
    (m : MulRound2 F) (out : F) (hacc : mulRound3 env r m = .ok out) :
    ∃ chi t, drawChi env (appendTau env.cd r.transcript m.tau) = .ok (chi, t) ∧
      ∀ (j0 : Fin cotL), 256 ≤ j0.val → ∀ delta : F, chi.2 ≠ 0 →
        mulRound3 env r { m with tau := tamper m.tau j0 (delta, -(delta * chi.1 / chi.2)) } =
          .ok (out + if bitAt r.omega j0 then r.gadget j0 * delta else 0) := by
  rw [C36_round3_iff env hc] at hacc
  obtain ⟨share, chi, t, hs, hchi, hj, hout⟩ := hacc
  refine ⟨chi, t, hchi, fun j0 hj0 delta hne => ?_⟩
  set d : F × F := (delta, -(delta * chi.1 / chi.2)) with hd
  rw [C36_round3_iff env hc]
  refine ⟨Function.update share j0 (share j0 + if bitAt r.omega j0 then d else 0), chi, t, ?_, ?_, ?_, ?_⟩
  · unfold kosRound3 at hs ⊢
    rw [Go.tabulate_eq_ok] at hs ⊢
    intro j
    have h := hs j
    rw [homega] at h ⊢
    unfold tamper
    by_cases hjj : j = j0
    · subst hjj
      simp only [Function.update_self]
      exact kosSlotB_tamper env.toKEnv (fun x y => by rw [hc.len, hc.len]) _ _ _ _ _ _ _ h
    · simp only [Function.update_of_ne hjj]
      exact h
  · have htau : appendTau env.cd r.transcript (tamper m.tau j0 d) = appendTau env.cd r.transcript m.tau := by
      refine appendTau_congr env.cd r.transcript _ _ fun j hlt => ?_
      unfold tamper
      rw [Function.update_of_ne]
      rintro rfl
      omega
    exact (congrArg (drawChi env) htau).trans hchi
  · intro j
    have h := hj j
    by_cases hjj : j = j0
    · subst hjj
      rw [Function.update_self, ← h]
      split
      · simp only [Prod.fst_add, Prod.snd_add, hd]
        field_simp
        ring
      · simp
    · rw [Function.update_of_ne hjj]
      exact h
  · rw [hout, ← add_sum_erase univ _ (mem_univ j0), ← add_sum_erase univ (fun j : Fin cotL => r.gadget j.val *
      (Function.update share j0 (share j0 + if bitAt r.omega j0 then d else 0) j).1) (mem_univ j0)]
    have : ∑ j ∈ univ.erase j0, r.gadget j.val *
        (Function.update share j0 (share j0 + if bitAt r.omega j0 then d else 0) j).1 =
        ∑ j ∈ univ.erase j0, r.gadget j.val * (share j).1 := by
      refine sum_congr rfl fun j hj => ?_
      rw [Function.update_of_ne (ne_of_mem_erase hj)]
    rw [this, Function.update_self]
    split
    · simp only [Prod.fst_add, hd]
      ring
    · simp

/-! ## The hypotheses can be met -/

/-- toy environment -/
def toyMEnv : MEnv Toy.K where
  toKEnv := toyKEnv
  ext t := Vector.ofFn fun i => (toyKEnv.cd.enc (if t.length % 2 = 0 then 7 else 11)).getD i.val 0
  gad i := (toyKEnv.cd.enc ((i / 32 : ℕ) : Toy.K)).getD (i % 32) 0

theorem toyBe : BeCodec toyMEnv.cd where
  len := toyK_len
  zero := by
    show (Accum.padCodec 30).enc 0 = _
    decide +kernel
  val x := by
    show ((beNat ((Accum.padCodec 30).enc x) : ℕ) : Toy.K) = x
    revert x
    decide +kernel

theorem getD_ofFn (l : List UInt8) (h : l.length = 32) :
    (Vector.ofFn fun i : Fin 32 => l.getD i.val 0).toList = l := by
  refine List.ext_getElem (by simp [h]) fun i h1 h2 => ?_
  rw [Vector.getElem_toList, Vector.getElem_ofFn, List.getD_eq_getElem?_getD, List.getElem?_eq_getElem h2]
  rfl

theorem toyM_ext (t : Merlin) : ∃ x, toyMEnv.cd.dec (toyMEnv.ext t).toList = some x := by
  refine ⟨if t.length % 2 = 0 then 7 else 11, ?_⟩
  show toyKEnv.cd.dec (toyMEnv.ext t).toList = _
  unfold toyMEnv
  simp only
  rw [getD_ofFn _ (toyK_len _), toyKEnv.cd.dec_enc]

theorem toyM_new (sid : Digest) : ∃ g t, newMultiply toyMEnv sid = .ok (g, t) := by
  unfold newMultiply gadgetVector
  rw [mapM_range_ok (fun i => ((i : ℕ) : Toy.K))]
  · exact ⟨_, _, rfl⟩
  intro i hi
  rw [Go.ofOption_eq_ok]
  have hl := toyK_len ((i : ℕ) : Toy.K)
  have : gadBytes toyMEnv.gad i = toyKEnv.cd.enc ((i : ℕ) : Toy.K) := by
    unfold gadBytes
    refine List.ext_getElem (by simp [hl]) fun k h1 h2 => ?_
    have hk : k < 32 := by rw [hl] at h2; exact h2
    rw [List.getElem_map, List.getElem_range]
    unfold toyMEnv
    simp only
    rw [show (32 * i + k) / 32 = i by omega, show (32 * i + k) % 32 = k by omega, List.getD_eq_getElem?_getD,
      List.getElem?_eq_getElem h2]
    rfl
  rw [this]
  exact toyKEnv.cd.dec_enc _

/-- `C36_honest`: in the toy environment Alice answers, and the shares add up to `5·9` -/
example (sid : Digest) (rnd : Vector UInt8 52) (rnd' : Vector UInt8 42) :
    ∃ keys seed g t m r m2 shareA shareB,
      newMultiply toyMEnv sid = .ok (g, t) ∧ mulRound1 toyMEnv keys sid g t 9 rnd rnd' = .ok (m, r) ∧
      mulRound2 toyMEnv seed sid g t 5 6 m = .ok (m2, shareA) ∧ mulRound3 toyMEnv r m2 = .ok shareB ∧
      shareA + shareB = (5 : Toy.K) * 9 := by
  obtain ⟨g, t, hnew⟩ := toyM_new sid
  obtain ⟨m, r, h1, h | h⟩ := C36_honest toyMEnv toyBe _ _ _ (toySeed 256 le_rfl) sid g t hnew 5 6 9 rnd rnd'
  · obtain ⟨m2, shareA, shareB, h2, h3, h4⟩ := h
    exact ⟨_, _, g, t, m, r, m2, shareA, shareB, hnew, h1, h2, h3, h4⟩
  · exact absurd ⟨fun j k hk => ⟨toyK_slot _ _ _ _ hk, toyK_slot _ _ _ _ hk⟩, toyM_ext⟩ h.2

/-- `C118_tau_not_bound`: the hypothesis on the receiver holds for an honest one -/
example (sid : Digest) (rnd : Vector UInt8 52) (rnd' : Vector UInt8 42) :
    ∃ (r : MulReceiver Toy.K) (m : MulRound2 Toy.K) (out : Toy.K), mulRound3 toyMEnv r m = .ok out ∧
      ∀ j : Fin cotL, (extractBit r.kos.ext.toList j.val).toNat = (bitAt r.omega j).toNat := by
  obtain ⟨g, t, hnew⟩ := toyM_new sid
  obtain ⟨m, r, h1, h | h⟩ := C36_honest toyMEnv toyBe _ _ _ (toySeed 256 le_rfl) sid g t hnew 5 6 9 rnd rnd'
  · obtain ⟨m2, shareA, shareB, h2, h3, h4⟩ := h
    exact ⟨r, m2, shareB, h3, (mulRound1_ext toyMEnv _ (by simp) sid g t 9 rnd rnd' m r h1).2⟩
  · exact absurd ⟨fun j k hk => ⟨toyK_slot _ _ _ _ hk, toyK_slot _ _ _ _ hk⟩, toyM_ext⟩ h.2

end Verif.Dkls
