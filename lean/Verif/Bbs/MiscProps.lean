import Verif.Bbs.PokProps
import Verif.Common.Toy
import Mathlib.LinearAlgebra.BilinearMap
import Mathlib.Algebra.Algebra.Bilinear

/-!
# BBS+: misuse of the blind-signing and proof interfaces (C96), serialization (C97), examples
-/

set_option linter.unusedSectionVars false

namespace Verif.Bbs

open SigCommon

variable {F : Type} [Field F] [DecidableEq F]
variable {G1 G2 GT : Type} [AddCommGroup G1] [Module F G1] [DecidableEq G1]
  [AddCommGroup G2] [Module F G2] [DecidableEq G2] [AddCommGroup GT] [Module F GT] [DecidableEq GT]

/-! ## C96 -/

/-- what a successful blind issuance returns -/
theorem toBlindSignature_ok {hash : List UInt8 → G1} {enc1 enc1u : G1 → List UInt8}
    {cd : ScalarCodec F} {chal : Transcript → F} {g1 : G1} {draw : List UInt8 → F × F}
    {ctx : Context F G1} {known : List (ℤ × F)} {x : F} {gens : Gens G1} {nonce : F}
    {sig : Signature F G1}
    (h : ctx.toBlindSignature hash enc1 enc1u cd chal g1 draw known x gens nonce = .ok sig) :
    ∃ rest : G1, sumOfProducts (some g1 :: gens.get hash 0 ::
        known.map fun m => gens.get hash (m.1 + 1)) (1 :: sig.s :: known.map Prod.snd) = some rest ∧
      (sig.e, sig.s) = draw (nonceData hash enc1u cd x gens
        ((known.mergeSort fun a b => decide (a.1 ≤ b.1)).map Prod.snd)) ∧
      sig.e + x ≠ 0 ∧ (sig.e + x) • sig.a = ctx.commitment + rest := by
  unfold Context.toBlindSignature at h
  rw [Go.guard_bind_eq_ok, Go.bind_eq_ok] at h
  obtain ⟨_, _, _, h⟩ := h
  simp only at h
  rw [Go.bind_eq_ok] at h
  obtain ⟨_, _, h⟩ := h
  rw [Go.guard_bind_eq_ok] at h
  obtain ⟨hd, h⟩ := h
  split at h
  · cases h
  rename_i b hb
  cases h
  obtain ⟨rest, hrest, hbr⟩ : ∃ rest, sumOfProducts (some g1 :: gens.get hash 0 ::
        known.map fun m => gens.get hash (m.1 + 1)) (1 :: (draw (nonceData hash enc1u cd x gens
        ((known.mergeSort fun a b => decide (a.1 ≤ b.1)).map Prod.snd))).2 :: known.map Prod.snd) =
        some rest ∧ b = ctx.commitment + rest := by
    unfold sumOfProducts at hb ⊢
    split_ifs at hb with hl
    rw [if_pos (by simp)]
    rw [List.mapM_cons] at hb
    cases hq : List.mapM id (some g1 :: gens.get hash 0 ::
        known.map fun m => gens.get hash (m.1 + 1)) with
    | none => rw [hq] at hb; simp at hb
    | some q =>
      rw [hq] at hb
      simp only [id, Option.pure_def, Option.bind_eq_bind, Option.bind_some, Option.some.injEq,
        Option.map_some] at hb ⊢
      refine ⟨_, rfl, ?_⟩
      rw [← hb]
      simp
  refine ⟨rest, hrest, rfl, hd, ?_⟩
  simp only
  rw [smul_smul, mul_inv_cancel₀ hd, one_smul, hbr]

/-- The issuer's `e` and `s` are derived from the secret key, the generators and the known messages
only.  For two contexts with the same known messages they are therefore equal, and every point on the
line through the two commitments gets a blind signature without the issuer. -/
theorem C96_blind_nonce_reuse (hash : List UInt8 → G1) (enc1 enc1u : G1 → List UInt8)
    (cd : ScalarCodec F) (chal : Transcript → F) (g1 : G1) (draw : List UInt8 → F × F)
    (ctx ctx' : Context F G1) (known : List (ℤ × F)) (x : F) (gens : Gens G1) (nonce nonce' : F)
    (sig sig' : Signature F G1)
    (h : ctx.toBlindSignature hash enc1 enc1u cd chal g1 draw known x gens nonce = .ok sig)
    (h' : ctx'.toBlindSignature hash enc1 enc1u cd chal g1 draw known x gens nonce' = .ok sig') :
    sig'.e = sig.e ∧ sig'.s = sig.s ∧ ∃ rest : G1,
      sumOfProducts (some g1 :: gens.get hash 0 :: known.map fun m => gens.get hash (m.1 + 1))
        (1 :: sig.s :: known.map Prod.snd) = some rest ∧
      ∀ t : F, (sig.e + x) • (sig.a + t • (sig.a - sig'.a)) =
        (ctx.commitment + t • (ctx.commitment - ctx'.commitment)) + rest := by
  obtain ⟨rest, h1, h2, h3, h4⟩ := toBlindSignature_ok h
  obtain ⟨rest', h1', h2', h3', h4'⟩ := toBlindSignature_ok h'
  rw [← h2, Prod.mk.injEq] at h2'
  obtain ⟨q1, q2⟩ := h2'
  refine ⟨q1, q2, rest, h1, fun t => ?_⟩
  rw [q2, h1, Option.some.injEq] at h1'
  rw [q1, ← h1'] at h4'
  have : (sig.e + x) • (sig.a + t • (sig.a - sig'.a)) = (sig.e + x) • sig.a +
      t • ((sig.e + x) • sig.a - (sig.e + x) • sig'.a) := by module
  rw [this, h4, h4']
  module

theorem commitAll_ok (cs : List (Option G1 × F)) (h : cs.length ≤ 65536) :
    cs.foldlM (fun (b : Builder F G1) c => b.commit c.1 c.2) Builder.new =
      .ok ⟨cs.map Prod.fst, cs.map Prod.snd⟩ :=
  (C71_commit cs _).2 ⟨h, rfl⟩

/-- `NewBlindSignatureContext` lets the index `length` pass its range check and then panics. -/
theorem C96_index_length_panics (hash : List UInt8 → G1) (enc1 : G1 → List UInt8)
    (cd : ScalarCodec F) (chal : Transcript → F) (msgs : List (ℤ × F × F)) (gens : Gens G1)
    (nonce blinding rb : F) (hidx : ∀ m ∈ msgs, 0 ≤ m.1 ∧ m.1 ≤ gens.length)
    (hlim : msgs.length < 65536) (hbad : ∃ m ∈ msgs, m.1 = gens.length) :
    newContext hash enc1 cd chal msgs gens nonce blinding rb = Go.crash := by
  obtain ⟨m, hm, hml⟩ := hbad
  unfold newContext
  have h1 : (msgs.forM fun m => Go.guard (¬ (m.1 > gens.length ∨ m.1 < 0))) = .ok () := by
    rw [Go.forM_eq_ok]
    intro m hm
    rw [Go.guard_eq_ok]
    have := hidx m hm
    omega
  rw [h1, Go.ok_bind, commitAll_ok _ (by simp; omega), Go.ok_bind]
  simp only
  rw [commit_ok _ _ _ (by simp; omega), Go.ok_bind, sumOfProducts_none_mem]
  refine List.mem_append_left _ (List.mem_map.2 ⟨m, hm, ?_⟩)
  unfold Gens.get
  have := (hidx m hm).1
  rw [if_neg (by omega), if_pos (by omega)]

/-- `BlindSignatureContext.Verify` panics unless the number of responses is the number of unknown
positions plus one. -/
theorem C96_wrong_count_panics (hash : List UInt8 → G1) (enc1 : G1 → List UInt8)
    (cd : ScalarCodec F) (chal : Transcript → F) (ctx : Context F G1) (known : List ℤ)
    (gens : Gens G1) (nonce : F) (hk : ∀ i ∈ known, i ≤ gens.length)
    (hcnt : ctx.proofs.length ≠ ((List.range gens.length.toNat).filter
      fun i : ℕ => ¬ (i : ℤ) ∈ known).length + 1) :
    ctx.verify hash enc1 cd chal known gens nonce = Go.crash := by
  unfold Context.verify
  have h1 : (known.forM fun i => Go.guard (¬ i > gens.length)) = .ok () := by
    rw [Go.forM_eq_ok]
    intro i hi
    rw [Go.guard_eq_ok]
    have := hk i hi
    omega
  rw [h1, Go.ok_bind]
  simp only
  rw [sumOfProducts_none_len]
  simp only [List.length_append, List.length_map, List.length_cons, List.length_nil]
  intro h
  exact hcnt (by omega)

/-- `PokSignatureProof.Verify` panics when a response is missing. -/
theorem C96_pok_missing_panics (hash : List UInt8 → G1) (enc1 : G1 → List UInt8)
    (cd : ScalarCodec F) (chal : Transcript → F) (g1 : G1) (g2 : G2) (e : G1 →ₗ[F] G2 →ₗ[F] GT)
    (p : PokProof F G1) (revealed : List (ℤ × F)) (pk : G2) (gens : Gens G1) (nonce challenge : F)
    (t : Transcript) (h : p.proof1.length < 2 ∨ p.proof2.length < 2 +
      ((List.range gens.length.toNat).filter
        fun i : ℕ => ¬ (i : ℤ) ∈ revealed.map Prod.fst).length) :
    p.verify hash enc1 cd chal g1 g2 e revealed pk gens nonce challenge t = Go.crash := by
  have : p.contribution hash enc1 g1 gens revealed challenge t = Go.crash := by
    unfold PokProof.contribution
    split
    · rename_i e0 e1 r hp
      rw [hp] at h
      simp only
      split
      · rfl
      · rw [if_pos (h.resolve_left (by simp))]
    · rfl
  unfold PokProof.verify
  rw [this]
  rfl

/-- Surplus responses are ignored: a proof can be altered without changing the verdict. -/
theorem C96_pok_extra_ignored (hash : List UInt8 → G1) (enc1 : G1 → List UInt8)
    (cd : ScalarCodec F) (chal : Transcript → F) (g1 : G1) (g2 : G2) (e : G1 →ₗ[F] G2 →ₗ[F] GT)
    (p : PokProof F G1) (revealed : List (ℤ × F)) (pk : G2) (gens : Gens G1) (nonce challenge : F)
    (t : Transcript) (b : Bool) (x1 x2 : List F)
    (h : p.verify hash enc1 cd chal g1 g2 e revealed pk gens nonce challenge t = .ok b) :
    (⟨p.aPrime, p.aBar, p.d, p.proof1 ++ x1, p.proof2 ++ x2⟩ : PokProof F G1).verify hash enc1 cd chal
      g1 g2 e revealed pk gens nonce challenge t = .ok b := by
  unfold PokProof.verify at h ⊢
  rw [Go.bind_eq_ok] at h
  obtain ⟨T, hT, h⟩ := h
  have : (⟨p.aPrime, p.aBar, p.d, p.proof1 ++ x1, p.proof2 ++ x2⟩ : PokProof F G1).contribution hash
      enc1 g1 gens revealed challenge t = .ok T := by
    unfold PokProof.contribution at hT ⊢
    split at hT
    case h_2 => cases hT
    rename_i e0 e1 r hp
    simp only at hT
    simp only [hp, List.cons_append]
    split at hT
    · cases hT
    split_ifs at hT with hl
    rw [if_neg (by rw [List.length_append]; omega),
      List.take_append_of_le_length (by omega)]
    exact hT
  rw [this]
  exact h

/-- The verifier takes messages at negative positions for messages under `h0`: a proof accepted for
some revealed messages is also accepted with two invented ones added. -/
theorem C96_pok_phantom_revealed (hash : List UInt8 → G1) (enc1 : G1 → List UInt8)
    (cd : ScalarCodec F) (chal : Transcript → F) (g1 : G1) (g2 : G2) (e : G1 →ₗ[F] G2 →ₗ[F] GT)
    (p : PokProof F G1) (revealed : List (ℤ × F)) (pk : G2) (gens : Gens G1) (nonce challenge : F)
    (t : Transcript) (b : Bool) (m : F)
    (hrev : ∀ m ∈ revealed, 0 ≤ m.1 ∧ m.1 < gens.length)
    (h : p.verify hash enc1 cd chal g1 g2 e revealed pk gens nonce challenge t = .ok b) :
    p.verify hash enc1 cd chal g1 g2 e ((-1, m) :: (-2, -m) :: revealed) pk gens nonce challenge t =
      .ok b := by
  unfold PokProof.verify at h ⊢
  rw [Go.bind_eq_ok] at h
  obtain ⟨T, hT, h⟩ := h
  have : p.contribution hash enc1 g1 gens ((-1, m) :: (-2, -m) :: revealed) challenge t = .ok T := by
    unfold PokProof.contribution at hT ⊢
    split at hT
    case h_2 => cases hT
    rename_i e0 e1 r hp
    simp only at hT ⊢
    have s1 := sop_block' [g1] [(1 : F)] rfl revealed (fun m => gens.get hash (m.1 + 1))
      (hash gens.state) (fun m hm => get_pos (hrev m hm).1 (hrev m hm).2) (revealed.map Prod.snd)
      (by simp)
    have s2 := sop_block' [g1, gens.h0, gens.h0] [(1 : F), m, -m] rfl revealed
      (fun m => gens.get hash (m.1 + 1))
      (hash gens.state) (fun m hm => get_pos (hrev m hm).1 (hrev m hm).2) (revealed.map Prod.snd)
      (by simp)
    have g0 : gens.get hash (-1 + 1) = some gens.h0 := by simp [Gens.get]
    have g1' : gens.get hash (-2 + 1) = some gens.h0 := by simp [Gens.get]
    simp only [List.map_cons, List.map_nil, List.cons_append, List.nil_append] at s1 s2
    simp only [List.map_cons, g0, g1']
    rw [s1] at hT
    rw [s2]
    simp only at hT ⊢
    have hf : ((List.range gens.length.toNat).filter
        fun i : ℕ => ¬ (i : ℤ) ∈ (-1 : ℤ) :: -2 :: revealed.map Prod.fst) =
        (List.range gens.length.toNat).filter fun i : ℕ => ¬ (i : ℤ) ∈ revealed.map Prod.fst := by
      refine List.filter_congr fun i _ => ?_
      have a1 : (i : ℤ) ≠ -1 := by omega
      have a2 : (i : ℤ) ≠ -2 := by omega
      rw [decide_eq_decide, List.mem_cons, List.mem_cons]
      simp only [a1, a2, false_or]
    have hs : (List.zipWith (fun p s => s • p) [g1, gens.h0, gens.h0] [(1 : F), m, -m]).sum =
        (List.zipWith (fun p s => s • p) [g1] [(1 : F)]).sum := by
      simp only [List.zipWith_cons_cons, List.zipWith_nil_left, List.sum_cons, List.sum_nil]
      module
    rw [hf, hs]
    exact hT
  rw [this]
  exact h

/-! ## C97 -/

theorem readScalars_flatten (cd : ScalarCodec F) (hl : ∀ x, (cd.enc x).length = 32) :
    ∀ (xs : List F) (rest : List UInt8),
      readScalars cd xs.length ((xs.map cd.enc).flatten ++ rest) = .ok xs
  | [], _ => rfl
  | x :: xs, rest => by
    rw [List.length_cons, readScalars, List.map_cons, List.flatten_cons, List.append_assoc,
      List.take_append_of_le_length (hl x).ge, List.take_of_length_le (hl x).le, cd.dec_enc,
      List.drop_append_of_le_length (hl x).ge, List.drop_of_length_le (hl x).le, List.nil_append,
      readScalars_flatten cd hl xs rest]
    rfl

theorem flatten_length (cd : ScalarCodec F) (hl : ∀ x, (cd.enc x).length = 32) (xs : List F) :
    ((xs.map cd.enc).flatten).length = 32 * xs.length := by
  induction xs with
  | nil => rfl
  | cons x xs ih => rw [List.map_cons, List.flatten_cons, List.length_append, hl, ih, List.length_cons]; ring

theorem take_app {a b : List UInt8} {n : ℕ} (h : a.length = n) : (a ++ b).take n = a := by
  rw [← h, List.take_left']; rfl

theorem drop_app {a b : List UInt8} {n : ℕ} (h : a.length = n) : (a ++ b).drop n = b := by
  rw [← h, List.drop_left']; rfl

/-- Signatures and blind signatures survive serialization. -/
theorem C97_signature_round_trip (enc1 : G1 → List UInt8) (dec1 : List UInt8 → Option G1)
    (cd : ScalarCodec F) (hd : ∀ P, dec1 (enc1 P) = some P) (h1 : ∀ P, (enc1 P).length = 48)
    (hl : ∀ x, (cd.enc x).length = 32) (s : Signature F G1) :
    Signature.unmarshal dec1 cd (s.marshal enc1 cd) = .ok s := by
  unfold Signature.unmarshal Signature.marshal
  rw [Go.guard_true (by simp [h1, hl]), Go.ok_bind]
  have e1 : (enc1 s.a ++ cd.enc s.e ++ cd.enc s.s).take 48 = enc1 s.a := by
    rw [List.append_assoc]; exact take_app (h1 _)
  have e2 : (enc1 s.a ++ cd.enc s.e ++ cd.enc s.s).drop 48 = cd.enc s.e ++ cd.enc s.s := by
    rw [List.append_assoc]; exact drop_app (h1 _)
  have e3 : (enc1 s.a ++ cd.enc s.e ++ cd.enc s.s).drop 80 = cd.enc s.s :=
    drop_app (by simp [h1, hl])
  rw [e1, e2, e3, take_app (hl _), hd, cd.dec_enc, cd.dec_enc]
  rfl

/-- Blind-signature contexts with at least one response survive serialization. -/
theorem C97_context_round_trip (enc1 : G1 → List UInt8) (dec1 : List UInt8 → Option G1)
    (cd : ScalarCodec F) (hd : ∀ P, dec1 (enc1 P) = some P) (h1 : ∀ P, (enc1 P).length = 48)
    (hl : ∀ x, (cd.enc x).length = 32) (c : Context F G1) (hne : c.proofs ≠ []) :
    Context.unmarshal dec1 cd (c.marshal enc1 cd) = .ok c := by
  have hp : 1 ≤ c.proofs.length := List.length_pos_iff.2 hne
  unfold Context.unmarshal Context.marshal
  have hlen : (enc1 c.commitment ++ cd.enc c.challenge ++ (c.proofs.map cd.enc).flatten).length =
      80 + 32 * c.proofs.length := by
    rw [List.length_append, List.length_append, h1, hl, flatten_length cd hl]
  rw [hlen, Go.guard_true (by omega), Go.ok_bind, Go.guard_true (by omega), Go.ok_bind]
  have e1 : (enc1 c.commitment ++ cd.enc c.challenge ++ (c.proofs.map cd.enc).flatten).take 48 =
      enc1 c.commitment := by
    rw [List.append_assoc]; exact take_app (h1 _)
  have e2 : (enc1 c.commitment ++ cd.enc c.challenge ++ (c.proofs.map cd.enc).flatten).drop 48 =
      cd.enc c.challenge ++ (c.proofs.map cd.enc).flatten := by
    rw [List.append_assoc]; exact drop_app (h1 _)
  have e3 : (enc1 c.commitment ++ cd.enc c.challenge ++ (c.proofs.map cd.enc).flatten).drop 80 =
      (c.proofs.map cd.enc).flatten := drop_app (by simp [h1, hl])
  have e4 : (80 + 32 * c.proofs.length - 48) / 32 - 1 = c.proofs.length := by omega
  have e5 := readScalars_flatten cd hl c.proofs []
  rw [List.append_nil] at e5
  rw [e1, e2, e3, e4, e5, take_app (hl _), hd, cd.dec_enc]
  rfl

/-- Proofs of knowledge as the prover creates them (two responses in the first list, at least two in
the second) survive serialization. -/
theorem C97_pok_round_trip (enc1 : G1 → List UInt8) (dec1 : List UInt8 → Option G1)
    (cd : ScalarCodec F) (hd : ∀ P, dec1 (enc1 P) = some P) (h1 : ∀ P, (enc1 P).length = 48)
    (hl : ∀ x, (cd.enc x).length = 32) (p : PokProof F G1) (hp1 : p.proof1.length = 2)
    (hp2 : 2 ≤ p.proof2.length) :
    PokProof.unmarshal dec1 cd (p.marshal enc1 cd) = .ok p := by
  unfold PokProof.unmarshal PokProof.marshal
  set f1 := (p.proof1.map cd.enc).flatten with hf1
  set f2 := (p.proof2.map cd.enc).flatten with hf2
  have l1 : f1.length = 64 := by rw [hf1, flatten_length cd hl, hp1]
  have l2 : f2.length = 32 * p.proof2.length := flatten_length cd hl _
  have hlen : (enc1 p.aPrime ++ enc1 p.aBar ++ enc1 p.d ++ f1 ++ f2).length =
      208 + 32 * p.proof2.length := by
    simp only [List.length_append, h1, l1, l2]
  rw [hlen, Go.guard_true (by omega), Go.ok_bind, Go.guard_true (by omega), Go.ok_bind]
  have e1 : (enc1 p.aPrime ++ enc1 p.aBar ++ enc1 p.d ++ f1 ++ f2).take 48 = enc1 p.aPrime := by
    simp only [List.append_assoc]; exact take_app (h1 _)
  have e2 : ((enc1 p.aPrime ++ enc1 p.aBar ++ enc1 p.d ++ f1 ++ f2).drop 48).take 48 =
      enc1 p.aBar := by
    simp only [List.append_assoc]; rw [drop_app (h1 _), take_app (h1 _)]
  have e3 : ((enc1 p.aPrime ++ enc1 p.aBar ++ enc1 p.d ++ f1 ++ f2).drop 96).take 48 = enc1 p.d := by
    rw [List.append_assoc, List.append_assoc, drop_app (by simp [h1]), take_app (h1 _)]
  have e4 : (enc1 p.aPrime ++ enc1 p.aBar ++ enc1 p.d ++ f1 ++ f2).drop 144 = f1 ++ f2 := by
    rw [List.append_assoc, drop_app (by simp [h1])]
  have e5 : (enc1 p.aPrime ++ enc1 p.aBar ++ enc1 p.d ++ f1 ++ f2).drop 208 = f2 :=
    drop_app (by simp [h1, l1])
  have e6 : (208 + 32 * p.proof2.length - 144) / 32 - 2 = p.proof2.length := by omega
  have r1 := readScalars_flatten cd hl p.proof1 f2
  have r2 := readScalars_flatten cd hl p.proof2 []
  rw [hp1] at r1
  rw [List.append_nil] at r2
  rw [e1, e2, e3, e4, e5, e6, hd, hd, hd, hf1, r1, hf2, r2]
  rfl

/-! ## What the hash inputs bind (C67, C68, C69, C70) -/

theorem flatten_enc_inj (cd : ScalarCodec F) {n : ℕ} (hn : 0 < n) (hl : ∀ x, (cd.enc x).length = n) :
    ∀ a b : List F, (a.map cd.enc).flatten = (b.map cd.enc).flatten → a = b
  | [], [], _ => rfl
  | [], y :: b, h => by
    have := congrArg List.length h
    simp [hl] at this
    omega
  | x :: a, [], h => by
    have := congrArg List.length h
    simp [hl] at this
    omega
  | x :: a, y :: b, h => by
    rw [List.map_cons, List.map_cons, List.flatten_cons, List.flatten_cons] at h
    obtain ⟨h1, h2⟩ := List.append_inj h (by rw [hl, hl])
    have h3 := cd.dec_enc x
    rw [h1, cd.dec_enc] at h3
    rw [Option.some.inj h3, flatten_enc_inj cd hn hl a b h2]

/-- The bytes from which `Sign` derives its nonces determine the key and the message vector. -/
theorem C67_nonce_binding (hash : List UInt8 → G1) (enc1u : G1 → List UInt8) (cd : ScalarCodec F)
    {n : ℕ} (hn : 0 < n) (hl : ∀ x, (cd.enc x).length = n) (gens : Gens G1) (sk sk' : F)
    (msgs msgs' : List F)
    (h : nonceData hash enc1u cd sk gens msgs = nonceData hash enc1u cd sk' gens msgs') :
    sk = sk' ∧ msgs = msgs' := by
  unfold nonceData at h
  rw [List.append_assoc, List.append_assoc] at h
  obtain ⟨h1, h2⟩ := List.append_inj h (by rw [hl, hl])
  have h3 := cd.dec_enc sk
  rw [h1, cd.dec_enc] at h3
  exact ⟨(Option.some.inj h3).symm, flatten_enc_inj cd hn hl _ _ (List.append_cancel_left h2)⟩

/-- The generator state has 201 bytes and determines public key and number of messages. -/
theorem C68_state_binding (w w' : List UInt8) (n n' : ℤ) (h0 : 0 ≤ n) (h1 : n < 2 ^ 32)
    (h0' : 0 ≤ n') (h1' : n' < 2 ^ 32) :
    (genState w n).length = 201 ∧
    (w.length = 192 → w'.length = 192 → genState w n = genState w' n' → w = w' ∧ n = n') := by
  have hbb : ∀ k, (beBytes 4 k).length = 4 := fun k => beBytes_length 4 k
  constructor
  · unfold genState
    simp only [List.length_append, List.length_take, List.length_replicate, hbb]
    omega
  · intro hw hw' h
    unfold genState at h
    rw [List.take_of_length_le hw.le, List.take_of_length_le hw'.le, hw, hw'] at h
    simp only [Nat.sub_self, List.replicate_zero, List.append_nil] at h
    rw [List.append_assoc, List.append_assoc] at h
    obtain ⟨h2, h3⟩ := List.append_inj h (by rw [hw, hw'])
    refine ⟨h2, ?_⟩
    have h4 := congrArg beNat (List.append_cancel_left h3)
    rw [beNat_beBytes _ _ (by omega), beNat_beBytes _ _ (by omega)] at h4
    omega

theorem guard_chal_ok {p : Prop} [Decidable p] (h : Go.guard p = .ok ()) : p := Go.guard_eq_ok.1 h

/-- the commitment that the verifier of a context recomputes from the proofs: the generators of the positions that are not known, the
blinding generator and the commitment, by the responses and the negated challenge -/
def recommitment (hash : List UInt8 → G1) (ctx : Context F G1) (known : List ℤ) (gens : Gens G1) : Option G1 :=
  sumOfProducts ((((List.range gens.length.toNat).filter fun i : ℕ => ¬ (i : ℤ) ∈ known).map fun i : ℕ => gens.get hash ((i : ℤ) + 1)) ++
    [gens.get hash 0, some ctx.commitment]) (ctx.proofs ++ [-ctx.challenge])

/-- A context accepted under two nonces, or two contexts with equal challenge and different
commitments: then the two transcripts that the verifier hashed are a collision of the challenge function. -/
theorem C69_context_binding (hash : List UInt8 → G1) (enc1 : G1 → List UInt8)
    (henc : Function.Injective enc1) (cd : ScalarCodec F) (chal : Transcript → F)
    (ctx ctx' : Context F G1) (known known' : List ℤ) (gens : Gens G1) (nonce nonce' : F)
    (h : ctx.verify hash enc1 cd chal known gens nonce = .ok ())
    (h' : ctx'.verify hash enc1 cd chal known' gens nonce' = .ok ())
    (hc : ctx.challenge = ctx'.challenge)
    (hne : nonce ≠ nonce' ∨ ctx.commitment ≠ ctx'.commitment) :
    ∃ r r', recommitment hash ctx known gens = some r ∧ recommitment hash ctx' known' gens = some r' ∧
      ctxTranscript cd (enc1 r) (enc1 ctx.commitment) nonce ≠ ctxTranscript cd (enc1 r') (enc1 ctx'.commitment) nonce' ∧
      chal (ctxTranscript cd (enc1 r) (enc1 ctx.commitment) nonce) =
        chal (ctxTranscript cd (enc1 r') (enc1 ctx'.commitment) nonce') := by
  have key : ∀ (ctx : Context F G1) (known : List ℤ) (nonce : F),
      ctx.verify hash enc1 cd chal known gens nonce = .ok () →
      ∃ r, recommitment hash ctx known gens = some r ∧
        chal (ctxTranscript cd (enc1 r) (enc1 ctx.commitment) nonce) = ctx.challenge := by
    intro ctx known nonce h
    unfold Context.verify at h
    rw [Go.bind_eq_ok] at h
    obtain ⟨_, _, h⟩ := h
    simp only at h
    split at h
    · cases h
    · rename_i c hsum
      exact ⟨c, hsum, guard_chal_ok h⟩
  obtain ⟨r, hs, hr⟩ := key _ _ _ h
  obtain ⟨r', hs', hr'⟩ := key _ _ _ h'
  refine ⟨r, r', hs, hs', ?_, (hr.trans hc).trans hr'.symm⟩
  intro heq
  unfold ctxTranscript at heq
  simp only [List.cons.injEq, Prod.mk.injEq, true_and, and_true] at heq
  obtain ⟨_, h2, h3⟩ := heq
  rcases hne with hne | hne
  · have h4 := cd.dec_enc nonce
    rw [h3, cd.dec_enc] at h4
    exact hne (Option.some.inj h4).symm
  · exact hne (henc h2)

/-- The issuer signs only after the context has been verified for exactly the known positions, with a
non-zero key. -/
theorem C69_issuer_verifies (hash : List UInt8 → G1) (enc1 enc1u : G1 → List UInt8)
    (cd : ScalarCodec F) (chal : Transcript → F) (g1 : G1) (draw : List UInt8 → F × F)
    (ctx : Context F G1) (known : List (ℤ × F)) (x : F) (gens : Gens G1) (nonce : F)
    (sig : Signature F G1)
    (h : ctx.toBlindSignature hash enc1 enc1u cd chal g1 draw known x gens nonce = .ok sig) :
    x ≠ 0 ∧ ∃ idx : List ℤ, idx.Perm (known.map Prod.fst) ∧
      ctx.verify hash enc1 cd chal idx gens nonce = .ok () := by
  unfold Context.toBlindSignature at h
  rw [Go.guard_bind_eq_ok, Go.bind_eq_ok] at h
  obtain ⟨hx, _, _, h⟩ := h
  simp only at h
  rw [Go.bind_eq_ok] at h
  obtain ⟨_, h1, _⟩ := h
  exact ⟨hx, _, (List.mergeSort_perm known _).map Prod.fst, h1⟩

/-- A proof is only created when every generator has a message. -/
theorem C70_message_count (hash : List UInt8 → G1) (g1 : G1) (sig : Signature F G1) (gens : Gens G1)
    (msgs : List (ProofMsg F)) (rnd : PokRand F) (pok : Pok F G1)
    (h : newPok hash g1 sig gens msgs rnd = .ok pok) : (msgs.length : ℤ) = gens.length := by
  unfold newPok at h
  rw [Go.guard_bind_eq_ok] at h
  exact h.1

/-- A proof of knowledge accepted under two nonces, or two proofs with equal challenge that differ in
`A'`, `Abar` or `D`: then the two transcripts that the verifier hashed are a collision of the challenge function. -/
theorem C70_proof_binding (hash : List UInt8 → G1) (enc1 : G1 → List UInt8)
    (henc : Function.Injective enc1) (cd : ScalarCodec F) (chal : Transcript → F) (g1 : G1) (g2 : G2)
    (e : G1 →ₗ[F] G2 →ₗ[F] GT) (p p' : PokProof F G1) (revealed revealed' : List (ℤ × F))
    (pk pk' : G2) (gens gens' : Gens G1) (nonce nonce' c : F) (t : Transcript)
    (h : p.verify hash enc1 cd chal g1 g2 e revealed pk gens nonce c t = .ok true)
    (h' : p'.verify hash enc1 cd chal g1 g2 e revealed' pk' gens' nonce' c t = .ok true)
    (hne : nonce ≠ nonce' ∨ p.aPrime ≠ p'.aPrime ∨ p.aBar ≠ p'.aBar ∨ p.d ≠ p'.d) :
    ∃ T T', p.contribution hash enc1 g1 gens revealed c t = .ok T ∧ p'.contribution hash enc1 g1 gens' revealed' c t = .ok T' ∧
      T ++ [("nonce", cd.enc nonce)] ≠ T' ++ [("nonce", cd.enc nonce')] ∧
      chal (T ++ [("nonce", cd.enc nonce)]) = chal (T' ++ [("nonce", cd.enc nonce')]) := by
  have key : ∀ (p : PokProof F G1) (revealed : List (ℤ × F)) (pk : G2) (gens : Gens G1) (nonce : F),
      p.verify hash enc1 cd chal g1 g2 e revealed pk gens nonce c t = .ok true →
      ∃ x y, p.contribution hash enc1 g1 gens revealed c t = .ok (t ++ [("A'", enc1 p.aPrime), ("Abar", enc1 p.aBar),
        ("D", enc1 p.d), ("Proof1", x), ("Proof2", y)]) ∧ c = pokChallenge cd chal (t ++ [("A'", enc1 p.aPrime), ("Abar", enc1 p.aBar),
        ("D", enc1 p.d), ("Proof1", x), ("Proof2", y)]) nonce := by
    intro p revealed pk gens nonce h
    unfold PokProof.verify at h
    rw [Go.bind_eq_ok] at h
    obtain ⟨T, hT, h⟩ := h
    simp only [Except.ok.injEq, Bool.and_eq_true, decide_eq_true_eq] at h
    have hT0 := hT
    unfold PokProof.contribution at hT
    split at hT
    case h_2 => cases hT
    simp only at hT
    split at hT
    · cases hT
    split_ifs at hT with hl
    split at hT
    · cases hT
    · rw [Except.ok.injEq] at hT
      rw [← hT] at h hT0
      exact ⟨_, _, hT0, h.2⟩
  obtain ⟨x, y, hc, hr⟩ := key _ _ _ _ _ h
  obtain ⟨x', y', hc', hr'⟩ := key _ _ _ _ _ h'
  unfold pokChallenge at hr hr'
  refine ⟨_, _, hc, hc', ?_, hr.symm.trans hr'⟩
  intro heq
  rw [List.append_assoc, List.append_assoc] at heq
  have heq := List.append_cancel_left heq
  simp only [List.cons_append, List.nil_append, List.cons.injEq, Prod.mk.injEq, true_and,
    and_true] at heq
  obtain ⟨h1, h2, h3, _, _, h5⟩ := heq
  rcases hne with hne | hne | hne | hne
  · have h4 := cd.dec_enc nonce
    rw [h5, cd.dec_enc] at h4
    exact hne (Option.some.inj h4).symm
  · exact hne (henc h1)
  · exact hne (henc h2)
  · exact hne (henc h3)

/-! ## Examples -/

namespace ToyRun

/-- the pairing `(a, b) ↦ a·b` -/
def e : Toy.K →ₗ[Toy.K] Toy.K →ₗ[Toy.K] Toy.K := LinearMap.mul Toy.K Toy.K

def hash (b : List UInt8) : Toy.K := (b.foldl (fun a x => a * 3 + x.toNat) 5 : ℕ)
def enc (x : Toy.K) : List UInt8 := Toy.codec.enc x
def chal (t : Transcript) : Toy.K := (t.foldl (fun a x => a * 7 + (x.2.foldl (fun a x => a * 3 + x.toNat) 5)) 5 : ℕ)
def draw (b : List UInt8) : Toy.K × Toy.K := (hash b + 1, hash (1 :: b) + 2)
def g1 : Toy.K := 3
def g2 : Toy.K := 5
def x : Toy.K := 17
def gens : Gens Toy.K := match initGens hash enc (publicKey g2 x) 3 with
  | .ok g => g
  | .error _ => ⟨0, 0, []⟩
def msgs : List Toy.K := [4, 9, 100]
def sig : Signature Toy.K Toy.K := match sign hash enc Toy.codec g1 draw x gens msgs with
  | .ok s => s
  | .error _ => ⟨0, 0, 0⟩

/-- C67: a signature is created and accepted -/
example : sign hash enc Toy.codec g1 draw x gens msgs = .ok sig ∧
    (verify hash g1 g2 e (publicKey g2 x) sig gens msgs = .ok ()) := by decide +kernel

/-- C68: the hypotheses hold for the public key above, and a forged message vector is accepted -/
example : (initGens hash enc (publicKey g2 x) 3 = .ok gens ∧
    verify hash g1 g2 e (publicKey g2 x) sig gens msgs = .ok ()) ∧
    (∃ s : Toy.K, verify hash g1 g2 e (publicKey g2 x) ⟨sig.a, sig.e, s⟩ gens [200, 1] = .ok ()) := by
  have h1 : initGens hash enc (publicKey g2 x) 3 = .ok gens := by rfl
  have h2 : verify hash g1 g2 e (publicKey g2 x) sig gens msgs = .ok () := by decide +kernel
  exact ⟨⟨h1, h2⟩, _, C68_universal_forgery hash enc g1 g2 e (publicKey g2 x) 3 gens h1 sig msgs h2
    [200, 1] (by simp) (by simp)⟩

def hidden : List (ℤ × Toy.K × Toy.K) := [(2, 100, 8), (0, 4, 21)]
def known : List (ℤ × Toy.K) := [(1, 9)]
def ctx (b : Toy.K) : Context Toy.K Toy.K :=
  match newContext hash enc Toy.codec chal hidden gens 77 b 55 with
  | .ok c => c.1
  | .error _ => ⟨0, 0, []⟩
def blind (b : Toy.K) : Signature Toy.K Toy.K :=
  match (ctx b).toBlindSignature hash enc enc Toy.codec chal g1 draw known x gens 77 with
  | .ok c => c
  | .error _ => ⟨0, 0, 0⟩

/-- C69: hypotheses on hidden and known messages -/
example : (known.map Prod.fst ++ hidden.map Prod.fst).Perm
      ((List.range msgs.length).map fun i : ℕ => (i : ℤ)) ∧
    (∀ m ∈ known, msgs[m.1.toNat]? = some m.2) ∧ (∀ m ∈ hidden, msgs[m.1.toNat]? = some m.2.1) ∧
    (ctx 33).toBlindSignature hash enc enc Toy.codec chal g1 draw known x gens 77 = .ok (blind 33) ∧
    verify hash g1 g2 e (publicKey g2 x) (toUnblinded (blind 33) 33) gens msgs = .ok () := by
  decide +kernel

/-- C96: two contexts with different commitments and the same issuer nonces -/
example : (ctx 33).toBlindSignature hash enc enc Toy.codec chal g1 draw known x gens 77 = .ok (blind 33) ∧
    (ctx 34).toBlindSignature hash enc enc Toy.codec chal g1 draw known x gens 77 = .ok (blind 34) ∧
    (ctx 33).commitment ≠ (ctx 34).commitment ∧ (blind 33).s = (blind 34).s := by decide +kernel

/-- C96: the index 3 of three messages panics -/
example : newContext hash enc Toy.codec chal [(3, 1, 2)] gens 77 33 55 = Go.crash :=
  C96_index_length_panics hash enc Toy.codec chal [(3, 1, 2)] gens 77 33 55 (by decide +kernel)
    (by simp) (by decide +kernel)

def pmsgs : List (ProofMsg Toy.K) := [.revealed 4, .hidden 9 31, .revealed 100]
def rnd : PokRand Toy.K := ⟨3, 4, 5, 6, 7, 8⟩
def pok (r : PokRand Toy.K) : Pok Toy.K Toy.K := match newPok hash g1 sig gens pmsgs r with
  | .ok p => p
  | .error _ => ⟨0, 0, 0, Builder.new, Builder.new, [], []⟩
def c : Toy.K := pokChallenge Toy.codec chal ((pok rnd).contribution enc []) 77
def pf (c : Toy.K) : PokProof Toy.K Toy.K := match (pok rnd).generateProof c with
  | .ok p => p
  | .error _ => ⟨0, 0, 0, [], []⟩

/-- C70: the hypotheses on the signature, and an accepted proof -/
example : sig.a ≠ 0 ∧ (x + sig.e) • sig.a =
      specB g1 gens.h0 (List.replicate 3 (hash gens.state)) sig.s (pmsgs.map ProofMsg.msg) ∧
    [(2, 100), (0, 4)].Perm (revealedFrom 0 pmsgs) ∧
    (pf c).verify hash enc Toy.codec chal g1 g2 e [(2, 100), (0, 4)] (publicKey g2 x) gens 77 c [] =
      .ok true := by decide +kernel

example : GensAre hash gens 3 (List.replicate 3 (hash gens.state)) :=
  gensAre_replicate hash gens 3 (by decide +kernel)

/-- C96: with phantom messages -/
example : (pf c).verify hash enc Toy.codec chal g1 g2 e [(-1, 5), (-2, -5), (2, 100), (0, 4)]
    (publicKey g2 x) gens 77 c [] = .ok true :=
  C96_pok_phantom_revealed hash enc Toy.codec chal g1 g2 e (pf c) [(2, 100), (0, 4)] _ gens 77 c [] _ 5
    (by decide +kernel) (by decide +kernel)

/-- C98: two proofs with the same commitments and different challenges -/
example : (pf 10).contribution hash enc g1 gens [(2, 100), (0, 4)] 10 [] =
      (pf 20).contribution hash enc g1 gens [(2, 100), (0, 4)] 20 [] ∧
    (∃ T, (pf 10).contribution hash enc g1 gens [(2, 100), (0, 4)] 10 [] = .ok T) ∧
    (pf 10).verifySigPok g2 e (publicKey g2 x) = true := by
  refine ⟨by decide +kernel, ⟨_, rfl⟩, by decide +kernel⟩

/-- C97: 48-byte points and 32-byte scalars -/
def enc48 (x : Toy.K) : List UInt8 := Toy.codec.enc x ++ List.replicate 46 0
def dec48 (b : List UInt8) : Option Toy.K :=
  if b.drop 2 = List.replicate 46 0 then Toy.codec.dec (b.take 2) else none
def codec32 : ScalarCodec Toy.K where
  enc x := Toy.codec.enc x ++ List.replicate 30 0
  dec b := if b.drop 2 = List.replicate 30 0 then Toy.codec.dec (b.take 2) else none
  dec_enc x := by
    have : (Toy.codec.enc x).length = 2 := rfl
    rw [drop_app this, take_app this, if_pos rfl, Toy.codec.dec_enc]
  enc_dec b x h := by
    split_ifs at h with h1
    rw [Toy.codec.enc_dec _ _ h, ← h1, List.take_append_drop]

example : PokProof.unmarshal dec48 codec32 ((pf c).marshal enc48 codec32) = .ok (pf c) :=
  C97_pok_round_trip enc48 dec48 codec32
    (fun x => by
      have : (Toy.codec.enc x).length = 2 := rfl
      unfold dec48 enc48
      rw [drop_app this, take_app this, if_pos rfl, Toy.codec.dec_enc]) (fun _ => by rfl)
    (fun _ => by rfl) (pf c) (by decide +kernel) (by decide +kernel)

/-- binding theorems: encodings of fixed positive length, injective -/
example : (∀ x, (codec32.enc x).length = 32) ∧ Function.Injective enc ∧
    (ctx 33).verify hash enc Toy.codec chal [1] gens 77 = .ok () :=
  ⟨fun _ => rfl, fun a b h => by
    have := Toy.codec.dec_enc a
    rw [show Toy.codec.enc a = Toy.codec.enc b from h, Toy.codec.dec_enc] at this
    exact (Option.some.inj this).symm, by decide +kernel⟩

end ToyRun

end Verif.Bbs
