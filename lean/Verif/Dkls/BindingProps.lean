import Mathlib.Data.List.FinRange
import Mathlib.Tactic.NormNum
import Verif.Dkls.MulProps

/-!
# C142: what the hashes of the oblivious transfers and of the multiplication bind
-/

set_option linter.unusedSectionVars false

namespace Verif.Dkls

open Verif.Ot

variable {F : Type} [Field F] [DecidableEq F]
variable {G : Type} [AddCommGroup G] [Module F G] [DecidableEq G]

/-- C142: the copy between encodings of different lengths panics -/
theorem C142_copy_lengths (v : ℕ) (x y : List UInt8) :
    constantTimeCopy v x y = Go.crash ↔ x.length ≠ y.length := by
  unfold constantTimeCopy
  split_ifs with h
  · exact ⟨fun _ => h, fun _ => rfl⟩
  · exact ⟨fun h' => (by cases h'), fun h' => absurd h' h⟩

example : constantTimeCopy 1 [1, 2] [3] = Go.crash := (C142_copy_lengths _ _ _).2 (by decide)

/-- C142: the pad of the seed oblivious transfer binds the session's salt, the slot and the point: equal
pads come from equal data or from two named strings that SHA3 maps to one digest -/
theorem C142_pad (env : Ot.Env F G) (hp : Function.Injective env.penc) (salt salt' : Digest) (i i' : ℕ)
    (hi : i < 256) (hi' : i' < 256) (rho rho' : G)
    (h : padOf env salt i rho = padOf env salt' i' rho') :
    (salt = salt' ∧ i = i' ∧ rho = rho') ∨
      (salt.toList ++ [UInt8.ofNat i] ++ env.penc rho ≠ salt'.toList ++ [UInt8.ofNat i'] ++ env.penc rho' ∧
        env.sha (salt.toList ++ [UInt8.ofNat i] ++ env.penc rho) =
          env.sha (salt'.toList ++ [UInt8.ofNat i'] ++ env.penc rho')) := by
  by_cases he : salt.toList ++ [UInt8.ofNat i] ++ env.penc rho =
      salt'.toList ++ [UInt8.ofNat i'] ++ env.penc rho'
  · left
    obtain ⟨h1, h2⟩ := List.append_inj he (by simp)
    obtain ⟨h3, h4⟩ := List.append_inj h1 (by simp)
    refine ⟨Vector.toList_inj.1 h3, ?_, hp h2⟩
    have h5 := congrArg UInt8.toNat (List.cons.inj h4).1
    rwa [UInt8.toNat_ofNat', UInt8.toNat_ofNat', Nat.mod_eq_of_lt (by omega),
      Nat.mod_eq_of_lt (by omega)] at h5
  · exact Or.inr ⟨he, h⟩

/-- C142: the slot is one byte: slots 256 apart, which need a batch of more than 256, share their pad -/
theorem C142_pad_wraps (env : Ot.Env F G) (salt : Digest) (i : ℕ) (rho : G) :
    padOf env salt (i + 256) rho = padOf env salt i rho := by
  unfold padOf
  rw [show UInt8.ofNat (i + 256) = UInt8.ofNat i by apply UInt8.toNat_inj.1; simp]

/-- C142: the receiver keeps the public key the proof is about, and one pad and one masked point per slot
of the batch; its choices stay -/
theorem C142_receiver_state (env : Ot.Env F G) (r : Receiver G) (a : ℕ → F)
    (proof : Option (Schnorr.Proof F G)) (out : List (List UInt8)) (r' : Receiver G)
    (h : Receiver.round2 env r a proof = .ok (out, r')) :
    ∃ pf, proof = some pf ∧ r'.senderPublicKey = some pf.statement ∧ r'.choices = r.choices ∧
      r'.packed = r.packed ∧ out.length = r.batchSize ∧ r'.pads.length = r.batchSize ∧
      ∀ i < r.batchSize, r'.pads[i]? = some (padOf env
        (env.ext ((r.transcript.extract "sender schnorr proof").extract "random oracle salts")) i
        (a i • pf.statement)) := by
  unfold Receiver.round2 at h
  cases proof with
  | none => cases h
  | some pf =>
    simp only [deref, Go.ok_bind, Go.bind_eq_ok] at h
    obtain ⟨-, -, l, hl, h⟩ := h
    obtain ⟨h1, h2⟩ := Prod.mk.inj (Except.ok.inj h)
    rw [Go.mapM_eq_ok] at hl
    have hlen := hl.length_eq
    rw [List.length_range] at hlen
    refine ⟨pf, rfl, ?_⟩
    subst h2
    refine ⟨rfl, rfl, rfl, by rw [← h1]; simp [← hlen], by simp [← hlen], ?_⟩
    intro i hi
    have hi' : i < l.length := by omega
    have h3 := List.Forall₂.get hl (i := i) (by simpa using hi) hi'
    simp only [List.get_eq_getElem, List.getElem_range] at h3
    unfold Receiver.transferOne at h3
    simp only [Go.bind_eq_ok] at h3
    obtain ⟨w, -, res, -, h3⟩ := h3
    have h4 := Except.ok.inj h3
    show (l.map Prod.snd)[i]? = _
    rw [List.getElem?_map, List.getElem?_eq_getElem hi', ← h4]
    rfl

/-- C142: the two bytes of a row are its number, most significant byte first -/
theorem C142_row_bytes (j : ℕ) (hj : j < 65536) : beNat (be16 j) = j := by
  unfold be16 beNat
  simp only [List.foldl_cons, List.foldl_nil, UInt8.toNat_ofNat']
  omega

/-- C142: the weights of the consistency check bind the row and the digest of the receiver's message -/
theorem C142_weight (env : KEnv F) (d d' : Digest) (j j' : ℕ) (hj : j < 65536) (hj' : j' < 65536)
    (h : chiJ env d j = chiJ env d' j') :
    (d = d' ∧ j = j') ∨ (be16 j ++ d.toList ≠ be16 j' ++ d'.toList ∧
      env.sha (be16 j ++ d.toList) = env.sha (be16 j' ++ d'.toList)) := by
  by_cases he : be16 j ++ d.toList = be16 j' ++ d'.toList
  · left
    obtain ⟨h1, h2⟩ := List.append_inj he (by simp [be16])
    have h3 := congrArg beNat h1
    rw [C142_row_bytes j hj, C142_row_bytes j' hj'] at h3
    exact ⟨Vector.toList_inj.1 h2, h3⟩
  · exact Or.inr ⟨he, h⟩

theorem enc_inj (cd : ScalarCodec F) {a b : F} (h : cd.enc a = cd.enc b) : a = b := by
  have := cd.dec_enc a
  rw [h, cd.dec_enc] at this
  exact (Option.some.inj this).symm

/-- C142: both components of each of the first 256 rows are in the transcript from which the challenges of
the multiplication are drawn (those of the other rows are not, see C118) -/
theorem C142_tau_rows (cd : ScalarCodec F) (t t' : Merlin) (tau tau' : Fin cotL → F × F)
    (ht : t.length = t'.length) (h : appendTau cd t tau = appendTau cd t' tau') :
    t = t' ∧ ∀ j : Fin cotL, j.val < 256 → tau j = tau' j := by
  unfold appendTau at h
  have key : ∀ (l : List (Fin kappa)) (t t' : Merlin), t.length = t'.length →
      l.foldl (fun t i => (t.append (s!"row {i.val} of Tau") (cd.enc (tau ⟨i.val, kappa_lt i⟩).1)).append
        (s!"row {i.val} of Tau") (cd.enc (tau ⟨i.val, kappa_lt i⟩).2)) t =
      l.foldl (fun t i => (t.append (s!"row {i.val} of Tau") (cd.enc (tau' ⟨i.val, kappa_lt i⟩).1)).append
        (s!"row {i.val} of Tau") (cd.enc (tau' ⟨i.val, kappa_lt i⟩).2)) t' →
      t = t' ∧ ∀ i ∈ l, tau ⟨i.val, kappa_lt i⟩ = tau' ⟨i.val, kappa_lt i⟩ := by
    intro l
    induction l with
    | nil => intro t t' _ h; exact ⟨h, by simp⟩
    | cons i l ih =>
      intro t t' hl h
      rw [List.foldl_cons, List.foldl_cons] at h
      obtain ⟨h1, h2⟩ := ih _ _ (by simp [Merlin.append, hl]) h
      obtain ⟨h3, h4⟩ := List.append_inj' h1 rfl
      obtain ⟨h5, h6⟩ := List.append_inj' h3 rfl
      refine ⟨h5, ?_⟩
      intro k hk
      rcases List.mem_cons.1 hk with rfl | hk
      · refine Prod.ext (enc_inj cd ?_) (enc_inj cd ?_)
        · exact (MerlinOp.append.inj (List.cons.inj h6).1).2
        · exact (MerlinOp.append.inj (List.cons.inj h4).1).2
      · exact h2 k hk
  obtain ⟨h1, h2⟩ := key _ _ _ ht h
  exact ⟨h1, fun j hj => h2 ⟨j.val, hj⟩ (List.mem_finRange _)⟩

/-! examples -/

example : Function.Injective Ot.toyEnv.penc := by
  intro a b h
  exact enc_inj Toy.codec h
example : beNat (be16 671) = 671 := C142_row_bytes 671 (by norm_num)
example : be16 671 = [2, 159] := by decide

-- a receiver with eight slots accepts the proof of the examples of the seed OT
example : (do
    let r ← newReceiver (G := Toy.K) Ot.toyRnd 8 Ot.toySid
    Receiver.round2 Ot.toyEnv r (fun i => ((i + 2 : ℕ) : Toy.K)) (some ⟨58, 40, 5⟩)).isOk = true := by
  decide +kernel

-- two rows of different values in the first 256, the hypothesis on the transcripts
example : ∃ tau tau' : Fin cotL → Toy.K × Toy.K,
    appendTau Toy.codec [] tau ≠ appendTau Toy.codec [] tau' := by
  refine ⟨fun _ => (1, 1), fun _ => (1, 2), fun h => ?_⟩
  have := (C142_tau_rows Toy.codec [] [] _ _ rfl h).2 ⟨0, by decide⟩ (by norm_num)
  exact absurd this (by decide)

end Verif.Dkls
