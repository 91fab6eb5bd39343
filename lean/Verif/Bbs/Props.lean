import Verif.Bbs.Model
import Verif.Bbs.CommonProps
import Mathlib.Data.List.Perm.Basic
import Mathlib.Algebra.BigOperators.Group.List.Lemmas

/-!
# Properties of BBS+ signatures (C67 - C70, C96 - C98)
-/

set_option linter.unusedSectionVars false

namespace Verif.Bbs

open SigCommon

variable {F : Type} [Field F] [DecidableEq F]
variable {G1 G2 GT : Type} [AddCommGroup G1] [Module F G1] [DecidableEq G1]
  [AddCommGroup G2] [Module F G2] [DecidableEq G2] [AddCommGroup GT] [Module F GT] [DecidableEq GT]

/-! ## Specification -/

/-- `g1 + s·h0 + m_1·h_1 + ... + m_n·h_n` -/
def specB (g1 h0 : G1) (hs : List G1) (s : F) (msgs : List F) : G1 :=
  g1 + s • h0 + (List.zipWith (fun h m => m • h) hs msgs).sum

/-- `hs` are the generators returned by `Get(1), ..., Get(n)` -/
def GensAre (hash : List UInt8 → G1) (gens : Gens G1) (n : ℕ) (hs : List G1) : Prop :=
  hs.length = n ∧ ∀ i : ℕ, i < n → gens.get hash ((i : ℤ) + 1) = hs[i]?

theorem gensAre_map {hash : List UInt8 → G1} {gens : Gens G1} {n : ℕ} {hs : List G1}
    (h : GensAre hash gens n hs) :
    ((List.range n).map fun i : ℕ => gens.get hash ((i : ℤ) + 1)) = hs.map some := by
  refine List.ext_getElem (by simp [h.1]) fun i h1 h2 => ?_
  have hi : i < n := by simpa using h1
  have hi' : i < hs.length := by simpa using h2
  simp only [List.getElem_map, List.getElem_range]
  rw [h.2 i hi, List.getElem?_eq_getElem hi']

theorem computeB_spec {hash : List UInt8 → G1} {gens : Gens G1} {msgs : List F} {hs : List G1}
    (hne : msgs ≠ []) (h : GensAre hash gens msgs.length hs) (g1 : G1) (s : F) :
    computeB hash g1 s msgs gens = .ok (specB g1 gens.h0 hs s msgs) := by
  unfold computeB
  cases msgs with
  | nil => exact absurd rfl hne
  | cons m ms =>
    simp only
    have h0 : gens.get hash 0 = some gens.h0 := by simp [Gens.get]
    rw [gensAre_map h, h0]
    have := sumOfProducts_some (F := F) (g1 :: gens.h0 :: hs) (1 :: s :: m :: ms) (by simp [h.1])
    rw [List.map_cons, List.map_cons] at this
    rw [this]
    simp [specB, add_assoc]

/-- the generator list of the model: `n` times the hash of the state -/
theorem gensAre_replicate (hash : List UInt8 → G1) (gens : Gens G1) (n : ℕ)
    (h : (n : ℤ) ≤ gens.length) : GensAre hash gens n (List.replicate n (hash gens.state)) := by
  refine ⟨by simp, fun i hi => ?_⟩
  unfold Gens.get
  rw [if_neg (by omega), if_neg (by omega)]
  simp [hi]

theorem zipWith_replicate_sum (H : G1) (n : ℕ) (ms : List F) (h : ms.length ≤ n) :
    (List.zipWith (fun h m => m • h) (List.replicate n H) ms).sum = ms.sum • H := by
  induction ms generalizing n with
  | nil => simp
  | cons m ms ih =>
    obtain ⟨k, rfl⟩ : ∃ k, n = k + 1 := ⟨n - 1, by simp at h; omega⟩
    rw [List.replicate_succ, List.zipWith_cons_cons, List.sum_cons, List.sum_cons,
      ih k (by simpa using h), add_smul]

theorem specB_replicate (g1 h0 H : G1) (s : F) (msgs : List F) :
    specB g1 h0 (List.replicate msgs.length H) s msgs = g1 + s • h0 + msgs.sum • H := by
  unfold specB; rw [zipWith_replicate_sum _ _ _ le_rfl]

theorem computeB_eq {hash : List UInt8 → G1} {gens : Gens G1} {msgs : List F} (hne : msgs ≠ [])
    (h : (msgs.length : ℤ) ≤ gens.length) (g1 : G1) (s : F) :
    computeB hash g1 s msgs gens = .ok (g1 + s • gens.h0 + msgs.sum • hash gens.state) := by
  rw [computeB_spec hne (gensAre_replicate hash gens _ h), specB_replicate]

/-! ## C67 -/

/-- Exact acceptance condition of `Verify` for the public key of `x`. -/
theorem C67_verify_iff (hash : List UInt8 → G1) (g1 : G1) (g2 : G2) (e : G1 →ₗ[F] G2 →ₗ[F] GT)
    (hnd : ∀ P, e P g2 = 0 → P = 0) (x : F) (sig : Signature F G1) (gens : Gens G1)
    (msgs : List F) (hs : List G1) (hgens : GensAre hash gens msgs.length hs) :
    verify hash g1 g2 e (publicKey g2 x) sig gens msgs = .ok () ↔
      msgs ≠ [] ∧ (msgs.length : ℤ) ≤ gens.length ∧ x • g2 ≠ 0 ∧ sig.a ≠ 0 ∧
      (x + sig.e) • sig.a = specB g1 gens.h0 hs sig.s msgs := by
  unfold verify publicKey
  rw [Go.guard_bind_eq_ok, Go.guard_bind_eq_ok, Go.guard_bind_eq_ok, Go.guard_bind_eq_ok, not_lt,
    Nat.lt_one_iff, List.length_eq_zero_iff]
  constructor
  · rintro ⟨h1, h2, h3, h4, h5⟩
    rw [computeB_spec h2 hgens] at h5
    simp only [Go.ok_bind, Go.guard_eq_ok] at h5
    refine ⟨h2, h1, h3, h4, ?_⟩
    rw [← sub_eq_zero]
    apply hnd
    rw [← h5]
    simp only [map_sub, map_add, map_smul, LinearMap.sub_apply, LinearMap.smul_apply, map_neg,
      LinearMap.neg_apply]
    module
  · rintro ⟨h1, h2, h3, h4, h5⟩
    refine ⟨h2, h1, h3, h4, ?_⟩
    rw [computeB_spec h1 hgens]
    simp only [Go.ok_bind, Go.guard_eq_ok]
    rw [← h5, map_neg, LinearMap.neg_apply, map_smul, LinearMap.smul_apply, map_add, map_smul,
      map_smul]
    module

/-- `Sign` succeeds exactly for a non-empty message list with enough generators, a non-zero key and
`e + x ≠ 0`. -/
theorem C67_sign_decision (hash : List UInt8 → G1) (enc1u : G1 → List UInt8) (cd : ScalarCodec F)
    (g1 : G1) (draw : List UInt8 → F × F) (x : F) (gens : Gens G1) (msgs : List F) :
    (∃ sig, sign hash enc1u cd g1 draw x gens msgs = .ok sig) ↔
      msgs ≠ [] ∧ (msgs.length : ℤ) ≤ gens.length ∧ x ≠ 0 ∧
      (draw (nonceData hash enc1u cd x gens msgs)).1 + x ≠ 0 := by
  unfold sign
  simp only [Go.guard_bind_eq_ok, not_lt, Nat.lt_one_iff, List.length_eq_zero_iff]
  constructor
  · rintro ⟨sig, h1, h2, h3, h4⟩
    rw [computeB_eq h2 h1] at h4
    simp only [Go.ok_bind, Go.guard_bind_eq_ok] at h4
    exact ⟨h2, h1, h3, h4.1⟩
  · rintro ⟨h1, h2, h3, h4⟩
    simp only [exists_and_left]
    refine ⟨h2, h1, h3, ?_⟩
    rw [computeB_eq h1 h2]
    simp only [Go.ok_bind, Go.guard_bind_eq_ok]
    exact ⟨_, h4, rfl⟩

/-- Every signature returned by `Sign` is accepted by `Verify` for the same messages, unless `A` is the
identity (which happens only when `g1 + s·h0 + Σ m_i·h_i` is). -/
theorem C67_sign_verify (hash : List UInt8 → G1) (enc1u : G1 → List UInt8) (cd : ScalarCodec F)
    (g1 : G1) (g2 : G2) (e : G1 →ₗ[F] G2 →ₗ[F] GT) (hg2 : ∀ r : F, r • g2 = 0 → r = 0)
    (draw : List UInt8 → F × F) (x : F) (gens : Gens G1) (msgs : List F) (sig : Signature F G1)
    (hs : List G1) (hgens : GensAre hash gens msgs.length hs)
    (h : sign hash enc1u cd g1 draw x gens msgs = .ok sig) :
    (verify hash g1 g2 e (publicKey g2 x) sig gens msgs = .ok () ↔
      specB g1 gens.h0 hs sig.s msgs ≠ 0) ∧
    (x + sig.e) • sig.a = specB g1 gens.h0 hs sig.s msgs := by
  unfold sign at h
  rw [Go.guard_bind_eq_ok, Go.guard_bind_eq_ok, Go.guard_bind_eq_ok] at h
  obtain ⟨h1, h2, h3, h4⟩ := h
  have hne : msgs ≠ [] := by rintro rfl; simp at h2
  simp only at h4
  rw [computeB_spec hne hgens] at h4
  simp only [Go.ok_bind, Go.guard_bind_eq_ok, Except.ok.injEq] at h4
  obtain ⟨h4, rfl⟩ := h4
  set d := draw (nonceData hash enc1u cd x gens msgs)
  set B := specB g1 gens.h0 hs d.2 msgs with hB
  have hval : (x + d.1) • (d.1 + x)⁻¹ • B = B := by
    rw [smul_smul, add_comm x, mul_inv_cancel₀ h4, one_smul]
  refine ⟨?_, hval⟩
  unfold verify publicKey
  rw [Go.guard_bind_eq_ok, Go.guard_bind_eq_ok, Go.guard_bind_eq_ok, Go.guard_bind_eq_ok,
    computeB_spec hne hgens]
  simp only [Go.ok_bind, Go.guard_eq_ok, ← hB]
  constructor
  · rintro ⟨_, _, _, h8, _⟩ h9
    exact h8 (by rw [h9, smul_zero])
  · intro h9
    refine ⟨h1, h2, fun h => h3 (hg2 x h), ?_, ?_⟩
    · intro h10
      rw [smul_eq_zero] at h10
      rcases h10 with h10 | h10
      · exact h4 (inv_eq_zero.1 h10)
      · exact h9 h10
    · have : e ((d.1 + x)⁻¹ • B) (d.1 • g2 + x • g2) = e B g2 := by
        rw [← add_smul, map_smul, map_smul, LinearMap.smul_apply, smul_smul, mul_inv_cancel₀ h4, one_smul]
      rw [this, map_neg, LinearMap.neg_apply, add_neg_cancel]

/-! ## C68 -/

/-- All generators returned by `Get` are the blinding generator `h0`. -/
theorem C68_generators_equal (hash : List UInt8 → G1) (enc2u : G2 → List UInt8) (w : G2) (n : ℤ)
    (gens : Gens G1) (h : initGens hash enc2u w n = .ok gens) (i : ℤ) :
    gens.get hash i = if i ≤ n then some gens.h0 else none := by
  unfold initGens at h
  rw [Go.guard_bind_eq_ok, Except.ok.injEq] at h
  obtain ⟨h0, rfl⟩ := h
  unfold Gens.get
  simp only
  split_ifs <;> first | rfl | omega

/-- Every signature accepted for some message vector yields, by changing `s` alone and without any
secret, a signature accepted for an arbitrary other message vector of any admissible length. -/
theorem C68_universal_forgery (hash : List UInt8 → G1) (enc2u : G2 → List UInt8) (g1 : G1) (g2 : G2)
    (e : G1 →ₗ[F] G2 →ₗ[F] GT) (pk : G2) (n : ℤ) (gens : Gens G1)
    (h : initGens hash enc2u pk n = .ok gens) (sig : Signature F G1) (msgs : List F)
    (hv : verify hash g1 g2 e pk sig gens msgs = .ok ())
    (msgs' : List F) (hne : msgs' ≠ []) (hlen : (msgs'.length : ℤ) ≤ n) :
    verify hash g1 g2 e pk ⟨sig.a, sig.e, sig.s + msgs.sum - msgs'.sum⟩ gens msgs' = .ok () := by
  unfold initGens at h
  rw [Go.guard_bind_eq_ok, Except.ok.injEq] at h
  obtain ⟨h0, rfl⟩ := h
  unfold verify at hv ⊢
  rw [Go.guard_bind_eq_ok, Go.guard_bind_eq_ok, Go.guard_bind_eq_ok, Go.guard_bind_eq_ok] at hv ⊢
  obtain ⟨h1, h2, h3, h4, h5⟩ := hv
  have hm : msgs ≠ [] := by rintro rfl; simp at h2
  rw [computeB_eq hm (not_lt.1 h1)] at h5
  rw [computeB_eq hne (by simpa using hlen)]
  refine ⟨by simpa using hlen, ?_, h3, h4, ?_⟩
  · rw [Nat.lt_one_iff, List.length_eq_zero_iff]; exact hne
  · simp only [Go.ok_bind] at h5 ⊢
    rw [← h5]
    congr 5
    module

/-- In particular a signature stays valid when the messages are permuted or replaced by others with the
same sum. -/
theorem C68_same_sum (hash : List UInt8 → G1) (enc2u : G2 → List UInt8) (g1 : G1) (g2 : G2)
    (e : G1 →ₗ[F] G2 →ₗ[F] GT) (pk : G2) (n : ℤ) (gens : Gens G1)
    (h : initGens hash enc2u pk n = .ok gens) (sig : Signature F G1) (msgs msgs' : List F)
    (hv : verify hash g1 g2 e pk sig gens msgs = .ok ()) (hne : msgs' ≠ [])
    (hlen : (msgs'.length : ℤ) ≤ n) (hsum : msgs'.sum = msgs.sum) :
    verify hash g1 g2 e pk sig gens msgs' = .ok () := by
  have := C68_universal_forgery hash enc2u g1 g2 e pk n gens h sig msgs hv msgs' hne hlen
  rwa [hsum, add_sub_cancel_right] at this

/-! ## C69 -/

theorem get_zero (hash : List UInt8 → G1) (gens : Gens G1) : gens.get hash 0 = some gens.h0 := by
  simp [Gens.get]

theorem get_pos {hash : List UInt8 → G1} {gens : Gens G1} {i : ℤ} (h0 : 0 ≤ i)
    (h : i < gens.length) : gens.get hash (i + 1) = some (hash gens.state) := by
  unfold Gens.get
  rw [if_neg (by omega), if_neg (by omega)]

/-- entry point for sums over a block of message generators followed by others -/
theorem sop_block {α : Type} (l : List α) (f : α → Option G1) (H : G1) (hf : ∀ a ∈ l, f a = some H)
    (ss : List F) (hl : ss.length = l.length) (l' : List G1) (ss' : List F)
    (hl' : l'.length = ss'.length) :
    sumOfProducts (l.map f ++ l'.map some) (ss ++ ss') =
      some (ss.sum • H + (List.zipWith (fun p s => s • p) l' ss').sum) := by
  have h1 : l.map f = (List.replicate l.length H).map some := by
    rw [List.map_replicate, List.eq_replicate_iff]
    refine ⟨by simp, fun b hb => ?_⟩
    obtain ⟨a, ha, rfl⟩ := List.mem_map.1 hb
    exact hf a ha
  rw [h1, ← List.map_append, sumOfProducts_some _ _ (by simp [hl, hl']),
    List.zipWith_append (by simp [hl]), List.sum_append, zipWith_replicate_sum _ _ _ hl.le]

theorem newContext_eq_ok {hash : List UInt8 → G1} {enc1 : G1 → List UInt8} {cd : ScalarCodec F}
    {chal : Transcript → F} {msgs : List (ℤ × F × F)} {gens : Gens G1} {nonce blinding rb : F}
    (hidx : ∀ m ∈ msgs, 0 ≤ m.1 ∧ m.1 < gens.length) (hlim : msgs.length < 65536) :
    let C := (msgs.map fun m => m.2.1).sum • hash gens.state + blinding • gens.h0
    let R := (msgs.map fun m => m.2.2).sum • hash gens.state + rb • gens.h0
    let c := chal (ctxTranscript cd (enc1 R) (enc1 C) nonce)
    newContext hash enc1 cd chal msgs gens nonce blinding rb =
      .ok (⟨C, c, (msgs.map fun m => m.2.1 * c + m.2.2) ++ [blinding * c + rb]⟩, blinding) := by
  intro C R c
  unfold newContext
  have h1 : (msgs.forM fun m => Go.guard (¬ (m.1 > gens.length ∨ m.1 < 0))) = .ok () := by
    rw [Go.forM_eq_ok]
    intro m hm
    rw [Go.guard_eq_ok]
    have := hidx m hm
    omega
  have h2 := (C71_commit (msgs.map fun m => (gens.get hash (m.1 + 1), m.2.2))
    (⟨_, _⟩ : Builder F G1)).2 ⟨by simp; omega, rfl⟩
  unfold commitAll at h2
  rw [h1]
  simp only [Go.ok_bind]
  rw [h2]
  simp only [Go.ok_bind]
  unfold Builder.commit
  rw [Go.guard_true (by simp; omega)]
  simp only [Go.ok_bind, List.map_map]
  have hsum := sop_block msgs (fun m => gens.get hash (m.1 + 1)) (hash gens.state)
    (fun m hm => get_pos (hidx m hm).1 (hidx m hm).2) (msgs.map fun m => m.2.1) (by simp)
    [gens.h0] [blinding] rfl
  have hsum2 := sop_block msgs (fun m => gens.get hash (m.1 + 1)) (hash gens.state)
    (fun m hm => get_pos (hidx m hm).1 (hidx m hm).2) (msgs.map fun m => m.2.2) (by simp)
    [gens.h0] [rb] rfl
  simp only [List.map_cons, List.map_nil, List.zipWith_cons_cons, List.zipWith_nil_left,
    List.sum_cons, List.sum_nil, add_zero] at hsum hsum2
  rw [get_zero, hsum]
  simp only
  have hcontr : Builder.contribution enc1 (⟨List.map (Prod.fst ∘ fun m : ℤ × F × F =>
      (gens.get hash (m.1 + 1), m.2.2)) msgs ++ [some gens.h0],
      List.map (Prod.snd ∘ fun m : ℤ × F × F => (gens.get hash (m.1 + 1), m.2.2)) msgs ++ [rb]⟩ :
      Builder F G1) = enc1 R := by
    unfold Builder.contribution Builder.commitment
    have : sumOfProducts (List.map (Prod.fst ∘ fun m : ℤ × F × F =>
      (gens.get hash (m.1 + 1), m.2.2)) msgs ++ [some gens.h0])
      (List.map (Prod.snd ∘ fun m : ℤ × F × F => (gens.get hash (m.1 + 1), m.2.2)) msgs ++ [rb]) =
      some R := hsum2
    rw [this]
  rw [hcontr]
  unfold Builder.generateProof
  rw [Go.guard_true (by simp)]
  simp only [Go.ok_bind]
  rw [List.zipWith_append (by simp), zipWith_maps]
  rfl

theorem Context.verify_eq {hash : List UInt8 → G1} {enc1 : G1 → List UInt8} {cd : ScalarCodec F}
    {chal : Transcript → F} {ctx : Context F G1} {known : List ℤ} {gens : Gens G1} {nonce : F}
    (hk : ∀ i ∈ known, i ≤ gens.length) (ps : List F) (pb : F) (hps : ctx.proofs = ps ++ [pb])
    (hcnt : ps.length = ((List.range gens.length.toNat).filter fun i : ℕ => ¬ (i : ℤ) ∈ known).length) :
    ctx.verify hash enc1 cd chal known gens nonce = Go.guard (chal (ctxTranscript cd
      (enc1 (ps.sum • hash gens.state + pb • gens.h0 - ctx.challenge • ctx.commitment))
      (enc1 ctx.commitment) nonce) = ctx.challenge) := by
  unfold Context.verify
  have h1 : (known.forM fun i => Go.guard (¬ i > gens.length)) = .ok () := by
    rw [Go.forM_eq_ok]
    intro i hi
    rw [Go.guard_eq_ok]
    have := hk i hi
    omega
  rw [h1]
  simp only [Go.ok_bind]
  have hsum := sop_block ((List.range gens.length.toNat).filter fun i : ℕ => ¬ (i : ℤ) ∈ known)
    (fun i : ℕ => gens.get hash ((i : ℤ) + 1)) (hash gens.state) (fun i hi => by
      have : i < gens.length.toNat := List.mem_range.1 (List.mem_of_mem_filter hi)
      exact get_pos (by omega) (by omega)) ps hcnt
    [gens.h0, ctx.commitment] [pb, -ctx.challenge] rfl
  simp only [List.map_cons, List.map_nil, List.zipWith_cons_cons, List.zipWith_nil_left,
    List.sum_cons, List.sum_nil, add_zero] at hsum
  rw [get_zero, hps, List.append_assoc, List.singleton_append, hsum]
  simp only
  congr 7
  module

/-- Blind issuance: the holder commits to the hidden messages, the issuer knows the others, together
the indices `0..n-1`.  The context is always created, the issuer always accepts it, issues the
signature exactly when the key and `e + x` are not zero, and after unblinding `Verify` accepts the
complete message vector unless `A` is the identity. -/
theorem C69_blind_round_trip (hash : List UInt8 → G1) (enc1 enc1u : G1 → List UInt8)
    (cd : ScalarCodec F) (chal : Transcript → F) (g1 : G1) (g2 : G2) (e : G1 →ₗ[F] G2 →ₗ[F] GT)
    (hg2 : ∀ r : F, r • g2 = 0 → r = 0) (draw : List UInt8 → F × F) (x nonce blinding rb : F)
    (gens : Gens G1) (msgs : List F) (hlen : (msgs.length : ℤ) = gens.length)
    (hpos : msgs ≠ []) (hlim : msgs.length < 65536)
    (hidden : List (ℤ × F × F)) (known : List (ℤ × F))
    (hperm : (known.map Prod.fst ++ hidden.map Prod.fst).Perm
      ((List.range msgs.length).map fun i : ℕ => (i : ℤ)))
    (hk : ∀ m ∈ known, msgs[m.1.toNat]? = some m.2)
    (hh : ∀ m ∈ hidden, msgs[m.1.toNat]? = some m.2.1) :
    ∃ ctx, newContext hash enc1 cd chal hidden gens nonce blinding rb = .ok (ctx, blinding) ∧
      ctx.verify hash enc1 cd chal (known.map Prod.fst) gens nonce = .ok () ∧
      ((∃ sig, ctx.toBlindSignature hash enc1 enc1u cd chal g1 draw known x gens nonce = .ok sig) ↔
        x ≠ 0 ∧ (draw (nonceData hash enc1u cd x gens
          ((known.mergeSort fun a b => decide (a.1 ≤ b.1)).map Prod.snd))).1 + x ≠ 0) ∧
      ∀ sig, ctx.toBlindSignature hash enc1 enc1u cd chal g1 draw known x gens nonce = .ok sig →
        (verify hash g1 g2 e (publicKey g2 x) (toUnblinded sig blinding) gens msgs = .ok () ↔
          sig.a ≠ 0) := by
  have hmem : ∀ i, i ∈ known.map Prod.fst ++ hidden.map Prod.fst ↔ 0 ≤ i ∧ i < gens.length := by
    intro i
    rw [hperm.mem_iff, List.mem_map]
    constructor
    · rintro ⟨j, hj, rfl⟩
      have := List.mem_range.1 hj
      omega
    · rintro ⟨h1, h2⟩
      exact ⟨i.toNat, List.mem_range.2 (by omega), by omega⟩
  have hidx : ∀ m ∈ hidden, 0 ≤ m.1 ∧ m.1 < gens.length := fun m hm =>
    (hmem m.1).1 (List.mem_append_right _ (List.mem_map_of_mem hm))
  have hkidx : ∀ m ∈ known, 0 ≤ m.1 ∧ m.1 < gens.length := fun m hm =>
    (hmem m.1).1 (List.mem_append_left _ (List.mem_map_of_mem hm))
  have hcount := hperm.length_eq
  simp only [List.length_append, List.length_map, List.length_range] at hcount
  have hctx := newContext_eq_ok (hash := hash) (enc1 := enc1) (cd := cd) (chal := chal)
    (nonce := nonce) (blinding := blinding) (rb := rb) hidx (by omega)
  set C := (hidden.map fun m => m.2.1).sum • hash gens.state + blinding • gens.h0 with hC
  set R := (hidden.map fun m => m.2.2).sum • hash gens.state + rb • gens.h0 with hR
  set c := chal (ctxTranscript cd (enc1 R) (enc1 C) nonce) with hc
  simp only at hctx
  refine ⟨_, hctx, ?_⟩
  -- number of hidden positions
  have hnd : (known.map Prod.fst ++ hidden.map Prod.fst).Nodup := by
    rw [hperm.nodup_iff, List.nodup_map_iff (fun a b h => by simpa using h)]
    exact List.nodup_range
  have hfilter : ∀ kn : List ℤ, (∀ i, i ∈ kn ↔ i ∈ known.map Prod.fst) →
      ((List.range gens.length.toNat).filter fun i : ℕ => ¬ (i : ℤ) ∈ kn).length = hidden.length := by
    intro kn hkn
    have hp : (((List.range gens.length.toNat).filter fun i : ℕ => ¬ (i : ℤ) ∈ kn).map
        fun i : ℕ => (i : ℤ)).Perm (hidden.map Prod.fst) := by
      rw [List.perm_ext_iff_of_nodup]
      · intro i
        simp only [List.mem_map, List.mem_filter, List.mem_range, decide_eq_true_eq]
        constructor
        · rintro ⟨j, ⟨hj, hjk⟩, rfl⟩
          have := (hmem j).2 (by omega)
          rw [List.mem_append] at this
          rcases this with h | h
          · exact absurd ((hkn _).2 h) hjk
          · simpa using h
        · intro h
          have hi : i ∈ hidden.map Prod.fst := by simpa using h
          have h2 := (hmem i).1 (List.mem_append_right _ hi)
          refine ⟨i.toNat, ⟨by omega, ?_⟩, by omega⟩
          rw [Int.toNat_of_nonneg h2.1, hkn]
          intro h3
          exact (List.nodup_append.1 hnd).2.2 _ h3 _ hi rfl
      · rw [List.nodup_map_iff (fun a b h => by simpa using h)]
        exact List.nodup_range.filter _
      · exact (List.nodup_append.1 hnd).2.1
    have := hp.length_eq
    simpa using this
  have hver : ∀ kn : List ℤ, (∀ i, i ∈ kn ↔ i ∈ known.map Prod.fst) →
      (⟨C, c, (hidden.map fun m => m.2.1 * c + m.2.2) ++ [blinding * c + rb]⟩ :
        Context F G1).verify hash enc1 cd chal kn gens nonce = .ok () := by
    intro kn hkn
    rw [Context.verify_eq (ps := hidden.map fun m => m.2.1 * c + m.2.2) (pb := blinding * c + rb)
      (fun i hi => by
        obtain ⟨m, hm, rfl⟩ := List.mem_map.1 ((hkn i).1 hi)
        exact (hkidx m hm).2.le) rfl (by rw [hfilter kn hkn, List.length_map]), Go.guard_eq_ok]
    simp only
    have : (hidden.map fun m => m.2.1 * c + m.2.2).sum • hash gens.state +
        (blinding * c + rb) • gens.h0 - c • C = R := by
      rw [hC, hR, List.sum_map_add, List.sum_map_mul_right]
      module
    rw [this]
  have hsorted : ∀ i, i ∈ (known.mergeSort fun a b => decide (a.1 ≤ b.1)).map Prod.fst ↔
      i ∈ known.map Prod.fst := by
    intro i
    exact (List.Perm.map Prod.fst (List.mergeSort_perm known _)).mem_iff
  have hsumP := sop_block known (fun m => gens.get hash (m.1 + 1)) (hash gens.state)
    (fun m hm => get_pos (hkidx m hm).1 (hkidx m hm).2) (known.map Prod.snd) (by simp)
    ([] : List G1) ([] : List F) rfl
  have hblind : ∀ s : F, sumOfProducts (some C :: some g1 :: gens.get hash 0 ::
      known.map fun m => gens.get hash (m.1 + 1)) (1 :: 1 :: s :: known.map Prod.snd) =
      some (C + g1 + s • gens.h0 + (known.map Prod.snd).sum • hash gens.state) := by
    intro s
    have h1 : (known.map fun m => gens.get hash (m.1 + 1)) =
        (List.replicate known.length (hash gens.state)).map some := by
      rw [List.map_replicate, List.eq_replicate_iff]
      refine ⟨by simp, fun b hb => ?_⟩
      obtain ⟨m, hm, rfl⟩ := List.mem_map.1 hb
      exact get_pos (hkidx m hm).1 (hkidx m hm).2
    have := sumOfProducts_some (F := F) (C :: g1 :: gens.h0 ::
      List.replicate known.length (hash gens.state)) (1 :: 1 :: s :: known.map Prod.snd) (by simp)
    rw [get_zero, h1]
    simp only [List.map_cons] at this
    rw [this]
    simp only [List.zipWith_cons_cons, List.sum_cons, one_smul]
    rw [zipWith_replicate_sum _ _ _ (by simp)]
    congr 1
    module
  have hguards : (known.forM fun m => Go.guard (¬ m.1 > gens.length)) = .ok () := by
    rw [Go.forM_eq_ok]
    intro m hm
    rw [Go.guard_eq_ok]
    have := hkidx m hm
    omega
  have htb : ∀ sig, (⟨C, c, (hidden.map fun m => m.2.1 * c + m.2.2) ++ [blinding * c + rb]⟩ :
      Context F G1).toBlindSignature hash enc1 enc1u cd chal g1 draw known x gens nonce = .ok sig ↔
      x ≠ 0 ∧ (draw (nonceData hash enc1u cd x gens
        ((known.mergeSort fun a b => decide (a.1 ≤ b.1)).map Prod.snd))).1 + x ≠ 0 ∧
      sig = ⟨((draw (nonceData hash enc1u cd x gens
        ((known.mergeSort fun a b => decide (a.1 ≤ b.1)).map Prod.snd))).1 + x)⁻¹ •
        (C + g1 + (draw (nonceData hash enc1u cd x gens
        ((known.mergeSort fun a b => decide (a.1 ≤ b.1)).map Prod.snd))).2 • gens.h0 +
          (known.map Prod.snd).sum • hash gens.state),
        (draw (nonceData hash enc1u cd x gens
        ((known.mergeSort fun a b => decide (a.1 ≤ b.1)).map Prod.snd))).1,
        (draw (nonceData hash enc1u cd x gens
        ((known.mergeSort fun a b => decide (a.1 ≤ b.1)).map Prod.snd))).2⟩ := by
    intro sig
    unfold Context.toBlindSignature
    rw [Go.guard_bind_eq_ok, hguards]
    simp only [Go.ok_bind]
    rw [hver _ hsorted]
    simp only [Go.ok_bind]
    rw [Go.guard_bind_eq_ok, hblind]
    simp only [Except.ok.injEq]
    constructor
    · rintro ⟨a, b, c⟩; exact ⟨a, b, c.symm⟩
    · rintro ⟨a, b, c⟩; exact ⟨a, b, c.symm⟩
  refine ⟨hver _ fun _ => Iff.rfl, ?_, ?_⟩
  · constructor
    · rintro ⟨sig, h⟩
      obtain ⟨h1, h2, _⟩ := (htb sig).1 h
      exact ⟨h1, h2⟩
    · rintro ⟨h1, h2⟩
      exact ⟨_, (htb _).2 ⟨h1, h2, rfl⟩⟩
  · intro sig hsig
    obtain ⟨hx, hex, rfl⟩ := (htb sig).1 hsig
    set d := draw (nonceData hash enc1u cd x gens
        ((known.mergeSort fun a b => decide (a.1 ≤ b.1)).map Prod.snd))
    -- the sum of all messages
    have hsum : msgs.sum = (known.map Prod.snd).sum + (hidden.map fun m => m.2.1).sum := by
      have h1 : msgs = ((List.range msgs.length).map fun i : ℕ => (i : ℤ)).map
          fun i => msgs.getD i.toNat 0 := by
        rw [List.map_map]
        refine List.ext_getElem (by simp) fun i h1 h2 => ?_
        simp [h1]
      have h2 := (hperm.map fun i => msgs.getD i.toNat 0).sum_eq
      rw [← h1, List.map_append, List.sum_append, List.map_map, List.map_map] at h2
      rw [← h2]
      congr 2
      · refine List.map_congr_left fun m hm => ?_
        simp [List.getD_eq_getElem?_getD, hk m hm]
      · refine List.map_congr_left fun m hm => ?_
        simp [List.getD_eq_getElem?_getD, hh m hm]
    have hB : C + g1 + d.2 • gens.h0 + (known.map Prod.snd).sum • hash gens.state =
        g1 + (d.2 + blinding) • gens.h0 + msgs.sum • hash gens.state := by
      rw [hC, hsum]; module
    unfold verify publicKey toUnblinded
    rw [Go.guard_bind_eq_ok, Go.guard_bind_eq_ok, Go.guard_bind_eq_ok, Go.guard_bind_eq_ok,
      computeB_eq hpos hlen.le]
    simp only [Go.ok_bind, Go.guard_eq_ok]
    rw [hB]
    constructor
    · rintro ⟨_, _, _, h, _⟩; exact h
    · intro h
      refine ⟨by omega, ?_, fun h => hx (hg2 x h), h, ?_⟩
      · rw [Nat.lt_one_iff, List.length_eq_zero_iff]; exact hpos
      · set B := g1 + (d.2 + blinding) • gens.h0 + msgs.sum • hash gens.state
        have : e ((d.1 + x)⁻¹ • B) (d.1 • g2 + x • g2) = e B g2 := by
          rw [← add_smul, map_smul, map_smul, LinearMap.smul_apply, smul_smul,
            mul_inv_cancel₀ hex, one_smul]
        rw [this, map_neg, LinearMap.neg_apply, add_neg_cancel]

end Verif.Bbs
