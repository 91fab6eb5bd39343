import Verif.DklsV0.DkgProps

/-!
# C200: the seed OT of the older DKLs
-/

namespace Verif.DklsV0
open Verif.Legacy Verif.Ot

/-- choice bit `i`: bit `i mod 8` of byte `i / 8` -/
abbrev bit (packed : Digest) (i : ℕ) : Bool := bitAt packed i

theorem choiceBit_eq (packed : Digest) (i : ℕ) : choiceBit packed i = (bit packed i).toNat := extractBit_eq _ _

theorem ctCopy_bool (w : Bool) (x y : Digest) : ctCopy w.toNat x y = if w then y else x := ctVec_bool w x y

section
variable {env : Env} {A : Type} [AddCommGroup A] (L : Sound env A)

theorem neg_pt (P : A) : (L.xy (-P)).1 = (L.xy P).1 ∧ Core.neg (some (L.xy P).2) (some env.curve.params.P) = .ok (L.xy (-P)).2 := by
  have hp : 0 < env.curve.params.P := lt_of_le_of_lt (L.range P).1 (L.range P).2.1
  show _ ∧ Big.mod (-(L.xy P).2) env.curve.params.P = _
  rw [Big.mod, if_neg hp.ne']
  by_cases h : P = 0
  · subst h
    rw [neg_zero, L.zero]; simp
  · have e := L.neg P h
    have r := L.range (-P)
    have r' := L.range P
    rw [e] at r ⊢
    refine ⟨rfl, ?_⟩
    simp only at r ⊢
    rw [← Int.add_emod_left, ← sub_eq_add_neg, Int.emod_eq_of_lt r.2.2.1 r.2.2.2]

theorem senderPubKey_eq (b k : ℤ) : senderPubKey env b k = .ok (honest L b k, ⟨b, L.pt (-(b • L.g))⟩) := by
  unfold senderPubKey
  obtain ⟨h1, h2⟩ := neg_pt L (b • L.g)
  rw [base L, Go.ok_bind, prove_eq L, Go.ok_bind, show (L.pt (b • L.g)).Y = some (L.xy (b • L.g)).2 from rfl, h2, Go.ok_bind]
  rw [Computes.pt, Computes.pt, h1]

/-- the pad of a point in slot `i` -/
def padOf (P : A) (i : ℕ) : Digest := env.sha (enc L P ++ [UInt8.ofNat i])

theorem pad_eq (P : A) (i : ℕ) : pad env (L.pt P) i = .ok (padOf L P i) := by
  unfold pad
  rw [pt_bytes]; rfl

/-- what the receiver sends in a slot with choice `w`, scalar `a` and the sender's key `B` -/
def sent (B : A) (w : Bool) (a : ℤ) : A := a • L.g + if w then B else 0

theorem receiverSlot_eq (B : A) (w : Bool) (a : ℤ) (i : ℕ) :
    receiverSlot env (some (L.pt B)) w.toNat a i = .ok (L.pt (sent L B w a), padOf L (a • B) i) := by
  unfold receiverSlot
  rw [base L, Go.ok_bind, pt_bytes, Go.ok_bind, padd L, Go.ok_bind, pt_bytes, Go.ok_bind,
    constantTimeCopy_bool w _ _ (by rw [enc_length, enc_length]), Go.ok_bind]
  have : (if w = true then enc L (a • L.g + B) else enc L (a • L.g)) = enc L (sent L B w a) := by
    cases w
    · simp [sent]
    · simp [sent]
  rw [this, fromBytes_enc, Go.ok_bind, mult L, Go.ok_bind, pad_eq]; rfl

/-- C200: the receiver's message and pads for every key of the sender, choice and scalars -/
theorem C200_receiver (B : A) (packed : Digest) (a : Fin 256 → ℤ) : receiverPad env (some (L.pt B)) packed a =
    .ok (fun i => L.pt (sent L B (bit packed i) (a i)), fun i => padOf L (a i • B) i) := by
  unfold receiverPad
  rw [Go.tabulate_ok (fun i => (L.pt (sent L B (bit packed i) (a i)), padOf L (a i • B) i))]
  · rfl
  · intro i
    rw [choiceBit_eq, receiverSlot_eq]

/-- C200: the message hides the choices: for other choices there are scalars with the same message -/
theorem C200_hiding (b : ℤ) (packed packed' : Digest) (a : Fin 256 → ℤ) :
    ∃ a' : Fin 256 → ℤ, (∀ i : Fin 256, a' i = a i + ((bit packed i).toNat - (bit packed' i).toNat) * b) ∧
      (receiverPad env (some (L.pt (b • L.g))) packed' a').map Prod.fst = (receiverPad env (some (L.pt (b • L.g))) packed a).map Prod.fst := by
  refine ⟨_, fun i => rfl, ?_⟩
  rw [C200_receiver, C200_receiver]
  refine congrArg Except.ok (funext fun i => congrArg L.toComputes.pt ?_)
  show sent L _ _ _ = sent L _ _ _
  unfold sent
  cases bit packed i <;> cases bit packed' i <;> simp [add_smul, neg_smul]

theorem senderSlot_eq (b : ℤ) (Q : A) (i : ℕ) : senderSlot env ⟨b, L.pt (-(b • L.g))⟩ (L.pt Q) i =
    .ok ((padOf L (b • Q) i, padOf L (b • (Q - b • L.g)) i),
      xorBytes (hh env (padOf L (b • Q) i)) (hh env (padOf L (b • (Q - b • L.g)) i))) := by
  unfold senderSlot
  rw [mult L, Go.ok_bind, pad_eq, Go.ok_bind, padd L, Go.ok_bind, mult L, Go.ok_bind, pad_eq, ← sub_eq_add_neg]; rfl

/-- C200: the sender's pads and challenges for every message of points of the group -/
theorem C200_sender (b : ℤ) (Q : Fin 256 → A) : senderPad env ⟨b, L.pt (-(b • L.g))⟩ (fun i => L.pt (Q i)) =
    .ok (fun i => (padOf L (b • Q i) i, padOf L (b • (Q i - b • L.g)) i),
      fun i => xorBytes (hh env (padOf L (b • Q i) i)) (hh env (padOf L (b • (Q i - b • L.g)) i))) := by
  unfold senderPad
  rw [Go.tabulate_ok (fun i : Fin 256 => ((padOf L (b • Q i) i, padOf L (b • (Q i - b • L.g)) i),
      xorBytes (hh env (padOf L (b • Q i) i)) (hh env (padOf L (b • (Q i - b • L.g)) i))))]
  · rfl
  · intro i; exact senderSlot_eq L b (Q i) i

/-- C200: when the sender goes on, and with which openings -/
theorem C200_response (rho : Fin 256 → Digest × Digest) (input : Fin 256 → Digest) (op : Fin 256 → Digest × Digest) :
    senderVerification env rho input = .ok op ↔
      ∀ i, input i = hh env (rho i).1 ∧ op i = (env.sha (rho i).1.toList, env.sha (rho i).2.toList) := by
  rw [senderVerification, Go.tabulate_eq_ok]
  refine forall_congr' fun i => ?_
  rw [Go.guard_bind_eq_ok]
  exact ⟨fun ⟨h1, h2⟩ => ⟨h1.symm, (Except.ok.inj h2).symm⟩, fun ⟨h1, h2⟩ => ⟨h1.symm, congrArg Except.ok h2.symm⟩⟩

/-- C200: when the receiver accepts: the opening of the chosen pad is that of its own pad and the two openings give the challenge -/
theorem C200_final (packed : Digest) (rho xi : Fin 256 → Digest) (input : Fin 256 → Digest × Digest) :
    receiverFinal env packed rho xi input = .ok () ↔
      ∀ i : Fin 256, pick (bit packed i) (input i) = env.sha (rho i).toList ∧
        xorBytes (env.sha (input i).1.toList) (env.sha (input i).2.toList) = xi i := by
  have key : ∀ i : Fin 256, (do
      let w := choiceBit packed i
      let temp1 := ctCopy w (ctCopy (1 - w) (Vector.replicate 32 0) (input i).1) (input i).2
      Go.guard (env.sha (rho i).toList = temp1)
      Go.guard (xorBytes (env.sha (input i).1.toList) (env.sha (input i).2.toList) = xi i)) = .ok () ↔
      pick (bit packed i) (input i) = env.sha (rho i).toList ∧
        xorBytes (env.sha (input i).1.toList) (env.sha (input i).2.toList) = xi i := by
    intro i
    have e : ctCopy (choiceBit packed i) (ctCopy (1 - choiceBit packed i) (Vector.replicate 32 0) (input i).1) (input i).2 =
        pick (bit packed i) (input i) := by
      rw [choiceBit_eq, show 1 - (bit packed i).toNat = (!bit packed i).toNat by cases bit packed i <;> rfl, ctCopy_bool, ctCopy_bool, pick]
      cases bit packed i <;> rfl
    show (do
      Go.guard (env.sha (rho i).toList = ctCopy (choiceBit packed i) (ctCopy (1 - choiceBit packed i) (Vector.replicate 32 0) (input i).1) (input i).2)
      Go.guard (xorBytes (env.sha (input i).1.toList) (env.sha (input i).2.toList) = xi i)) = .ok () ↔ _
    rw [e, Go.guard_bind_eq_ok, Go.guard_eq_ok, eq_comm]
  unfold receiverFinal
  rw [Go.bind_eq_ok]
  constructor
  · rintro ⟨r, h, -⟩ i
    exact (key i).1 (Go.tabulate_eq_ok.1 h i)
  · intro h
    exact ⟨fun _ => (), Go.tabulate_ok _ fun i => (key i).2 (h i), rfl⟩

/-- C200: honest parties: every round succeeds and the receiver ends with the pad of its choice in every slot, for all scalars and choices -/
theorem C200_honest (b k : ℤ) (packed : Digest) (a : Fin 256 → ℤ) : ∃ proof s pub msg rhoR rhoS xi op,
    senderPubKey env b k = .ok (proof, s) ∧ receiverPubKey env proof = .ok pub ∧ receiverPad env pub packed a = .ok (msg, rhoR) ∧
    senderPad env s msg = .ok (rhoS, xi) ∧ senderVerification env rhoS (receiverVerification env packed rhoR xi) = .ok op ∧
    receiverFinal env packed rhoR xi op = .ok () ∧ (∀ i : Fin 256, rhoR i = pick (bit packed i) (rhoS i)) ∧
    (∀ i, rhoR i = padOf L ((a i * b) • L.g) i) ∧
    (∀ i : Fin 256, pick (!bit packed i) (rhoS i) = padOf L ((a i * b + (if bit packed i then b ^ 2 else -b ^ 2)) • L.g) i) := by
  have h0 : ∀ i : Fin 256, padOf L (a i • b • L.g) i = pick (bit packed i) (padOf L (b • sent L (b • L.g) (bit packed i) (a i)) i,
      padOf L (b • (sent L (b • L.g) (bit packed i) (a i) - b • L.g)) i) := by
    intro i
    have hc : a i • b • L.g = b • a i • L.g := smul_comm _ _ _
    cases h : bit packed i <;> simp [pick, sent, hc]
  refine ⟨honest L b k, ⟨b, L.pt (-(b • L.g))⟩, some (L.pt (b • L.g)), _, _, _, _, _, senderPubKey_eq L b k, ?_, C200_receiver L _ packed a,
    C200_sender L b _, (C200_response _ _ _).2 fun i => ⟨?_, rfl⟩, (C200_final _ _ _ _).2 fun i => ⟨?_, rfl⟩, h0, ?_, ?_⟩
  · unfold receiverPubKey
    rw [verify_honest]; rfl
  · rw [receiverVerification, choiceBit_eq, ctCopy_bool, h0]
    cases bit packed i
    · rfl
    · exact xor_cancel _ _
  · rw [h0]
    cases bit packed i <;> rfl
  · intro i
    show padOf L (a i • b • L.g) i = _
    rw [mul_smul]
  · intro i
    show pick (!bit packed i) (padOf L (b • sent L (b • L.g) (bit packed i) (a i)) i,
      padOf L (b • (sent L (b • L.g) (bit packed i) (a i) - b • L.g)) i) = _
    cases h : bit packed i
    · show padOf L _ _ = padOf L _ _
      congr 1
      simp only [sent, Bool.false_eq_true, if_false]
      rw [add_zero, smul_sub, smul_smul, smul_smul, mul_comm b (a i), ← sub_smul, sub_eq_add_neg, sq]
    · show padOf L _ _ = padOf L _ _
      congr 1
      simp only [sent, if_true]
      rw [smul_add, smul_smul, smul_smul, mul_comm b (a i), ← add_smul, sq]

/-- C200: the sender can test choice bits: it replaces the challenges of slots `T` by ones made from arbitrary second openings; when the
choice bits in `T` are zero both checks pass, and when one is not the response shows it unless the challenge was the right one -/
theorem C200_selective (b : ℤ) (packed : Digest) (a : Fin 256 → ℤ) (T : Fin 256 → Bool) (o : Fin 256 → Digest) :
    let Q := fun i : Fin 256 => sent L (b • L.g) (bit packed i) (a i)
    let rho0 := fun i : Fin 256 => padOf L (b • Q i) i
    let rho1 := fun i : Fin 256 => padOf L (b • (Q i - b • L.g)) i
    let op := fun i : Fin 256 => (env.sha (rho0 i).toList, if T i then o i else env.sha (rho1 i).toList)
    let xi := fun i : Fin 256 => xorBytes (env.sha (op i).1.toList) (env.sha (op i).2.toList)
    let rhoR := fun i : Fin 256 => padOf L (a i • b • L.g) i
    ((∀ i : Fin 256, T i = true → bit packed i = false) →
      receiverFinal env packed rhoR xi op = .ok () ∧ ∀ i, receiverVerification env packed rhoR xi i = hh env (rho0 i)) ∧
    ∀ i : Fin 256, T i = true → bit packed i = true →
      (receiverVerification env packed rhoR xi i = hh env (rho0 i) ↔ env.sha (o i).toList = hh env (rho1 i)) := by
  intro Q rho0 rho1 op xi rhoR
  have h0 : ∀ i : Fin 256, rhoR i = pick (bit packed i) (rho0 i, rho1 i) := by
    intro i
    have hc : a i • b • L.g = b • a i • L.g := smul_comm _ _ _
    show padOf L (a i • b • L.g) i = pick (bit packed i) (padOf L (b • Q i) i, padOf L (b • (Q i - b • L.g)) i)
    cases h : bit packed i <;> simp [pick, sent, hc, Q, h]
  have hr : ∀ i : Fin 256, receiverVerification env packed rhoR xi i = if bit packed i then xorBytes (xi i) (hh env (rho1 i)) else hh env (rho0 i) := by
    intro i
    rw [receiverVerification, choiceBit_eq, ctCopy_bool, h0]
    cases bit packed i <;> rfl
  refine ⟨fun hT => ⟨(C200_final _ _ _ _).2 fun i => ⟨?_, rfl⟩, fun i => ?_⟩, fun i hi hb => ?_⟩
  · rw [h0]
    cases h : bit packed i
    · rfl
    · have : T i = false := by
        cases h' : T i
        · rfl
        · rw [hT i h'] at h; cases h
      show (if T i = true then o i else _) = _
      rw [this]; rfl
  · rw [hr]
    cases h : bit packed i
    · rfl
    · have : T i = false := by
        cases h' : T i
        · rfl
        · rw [hT i h'] at h; cases h
      have e : xi i = xorBytes (hh env (rho0 i)) (hh env (rho1 i)) := by
        show xorBytes (hh env (rho0 i)) (env.sha (if T i = true then o i else _).toList) = _
        rw [this]; rfl
      rw [e, if_pos rfl, xor_cancel]
  · rw [hr, hb, if_pos rfl]
    have e : xi i = xorBytes (hh env (rho0 i)) (env.sha (o i).toList) := by
      show xorBytes (hh env (rho0 i)) (env.sha (if T i = true then o i else _).toList) = _
      rw [hi]; rfl
    rw [e]
    constructor
    · intro h
      have h2 := congrArg (fun z => xorBytes z (hh env (rho1 i))) h
      simp only [xor_cancel] at h2
      have h3 := congrArg (xorBytes (hh env (rho0 i))) h2
      simpa only [xor_cancel_left] using h3
    · intro h
      rw [h, xor_cancel]

end

/-- an honest run on secp256k1, with any hash -/
example (sha : List UInt8 → Digest) (packed : Digest) : ∃ proof s pub msg rhoR rhoS xi,
    senderPubKey (k256Env [] sha (fun _ => 0) (fun _ _ _ _ => true)) 5 7 = .ok (proof, s) ∧
    receiverPubKey (k256Env [] sha (fun _ => 0) (fun _ _ _ _ => true)) proof = .ok pub ∧
    receiverPad (k256Env [] sha (fun _ => 0) (fun _ _ _ _ => true)) pub packed (fun i => i + 3) = .ok (msg, rhoR) ∧
    senderPad (k256Env [] sha (fun _ => 0) (fun _ _ _ _ => true)) s msg = .ok (rhoS, xi) ∧
    ∀ i : Fin 256, rhoR i = pick (bit packed i) (rhoS i) := by
  obtain ⟨a, b, c, d, e, f, g, h, h1, h2, h3, h4, -, -, h5, -⟩ :=
    C200_honest (k256Sound [] sha (fun _ => 0) (fun _ _ _ _ => true)) 5 7 packed (fun i => i + 3)
  exact ⟨a, b, c, d, e, f, g, h1, h2, h3, h4, h5⟩

/-- choices that meet the hypothesis of `C200_selective` -/
example : (∀ i : Fin 256, (decide (i.val < 8)) = true → bit (Vector.replicate 32 0) i = false) ∧ bit (Vector.replicate 32 1) 8 = true := by decide +kernel

end Verif.DklsV0
