import Verif.Gg20.JsonModel

/-!
# C211: the JSON form of the messages and keys of GG20
-/

namespace Verif.Gg20.Json
open Verif.Legacy Verif.Core

/-- what is assumed of the standard library -/
structure JEnv.Lawful (E : JEnv) : Prop where
  b64 : ∀ b, E.unb64 (E.b64 b) = some b
  key : ∀ n < 2 ^ 32, E.unkey (E.key n) = some n

/-- a point on one of the five curves of the table -/
def Std (E : JEnv) (a : EcPoint) : Prop := E.curves.byName a.curve.params.name = some a.curve

variable {E : JEnv}

theorem big_enc (z : Option ℤ) : (encBig z).big = .ok z := by cases z <;> rfl

theorem mapM_enc {α β : Type} {enc : α → β} {dec : β → Go α} : ∀ {l : List α}, (∀ a ∈ l, dec (enc a) = .ok a) →
    (l.map enc).mapM dec = .ok l
  | [], _ => rfl
  | a :: l, h => by
    rw [List.map_cons, List.mapM_cons, h a (by simp), Go.ok_bind, mapM_enc fun b hb => h b (by simp [hb])]
    rfl

theorem ptr_enc {α : Type} {enc : α → J} {dec : J → Go α} (hn : ∀ a, enc a ≠ .null) : ∀ (a : Option α), (∀ x ∈ a, dec (enc x) = .ok x) →
    J.ptr dec (encPtr enc a) = .ok a
  | none, _ => rfl
  | some a, h => by
    rw [encPtr]
    have h1 := h a rfl
    cases h2 : enc a with
    | null => exact absurd h2 (hn a)
    | _ => rw [J.ptr, ← h2, h1]; · rfl
           · exact nofun

theorem bigs_enc (l : List (Option ℤ)) : (J.arr (l.map encBig)).bigs = .ok l := mapM_enc fun a _ => big_enc a

theorem u8_enc (b : UInt8) : (J.num b.toNat).u8 = .ok b := by
  have : b.toNat < 2 ^ 8 := b.toNat_lt
  rw [J.u8, if_pos ⟨by omega, by omega⟩]
  simp

theorem u32_enc {n : ℕ} (h : n < 2 ^ 32) : (J.num n).u32 = .ok n := by
  rw [J.u32, if_pos ⟨by omega, by omega⟩]
  simp

theorem map_enc {α : Type} {enc : α → J} {dec : J → Go α} (hE : E.Lawful) (hn : ∀ a, enc a ≠ .null) (m : List (ℕ × Option α))
    (hk : ∀ e ∈ m, e.1 < 2 ^ 32) (h : ∀ e ∈ m, ∀ x ∈ e.2, dec (enc x) = .ok x) : J.map E dec (encMap E enc m) = .ok m := by
  rw [encMap, J.map]
  refine mapM_enc fun e he => ?_
  dsimp only
  rw [hE.key e.1 (hk e he), ptr_enc hn e.2 (h e he)]
  rfl

theorem proof5_rt (p : Proof5) : range1Dec E p.enc = .ok p ∧ pdlDec E p.enc = .ok p := by
  constructor <;>
    simp [range1Dec, pdlDec, Proof5.ofEntries, Proof5.enc, J.entries, J.entriesPtr, field, sel, big_enc, Go.ok_bind]

theorem range2_rt (p : Range2Proof) : Range2Proof.dec E p.enc = .ok p := by
  simp [Range2Proof.dec, Range2Proof.enc, J.entriesPtr, field, sel, big_enc, Go.ok_bind]

theorem response_rt (p : ResponseProof) : ResponseProof.dec E p.enc = .ok p := by
  have := ptr_enc (dec := Range2Proof.dec E) (enc := Range2Proof.enc) (fun _ => nofun) p.r2proof fun x _ => range2_rt x
  simp [ResponseProof.dec, ResponseProof.enc, J.entries, field, sel, big_enc, this, Go.ok_bind]

/-- C211: the proofs of GG20 come back from JSON as they were, fields that are nil included -/
theorem C211_proofs :
    (∀ p : CdlProof, CdlProof.dec E p.enc = .ok p) ∧ (∀ p : Proof5, range1Dec E p.enc = .ok p ∧ pdlDec E p.enc = .ok p) ∧
    (∀ p : Range2Proof, Range2Proof.dec E p.enc = .ok p) ∧ ∀ p : ResponseProof, ResponseProof.dec E p.enc = .ok p :=
  ⟨fun p => by simp [CdlProof.dec, CdlProof.enc, J.entriesPtr, field, sel, bigs_enc, Go.ok_bind], proof5_rt, range2_rt, response_rt⟩

theorem point_rt {a : EcPoint} (h : Std E a) : pointDec E (pointEnc a) = .ok a := by
  simp only [pointDec, pointEnc, J.entries, field, sel, EcPoint.marshalJSON]
  simp [big_enc, Go.ok_bind, J.string, unmarshalJSON, show E.curves.byName a.curve.params.name = some a.curve from h]

theorem witness_rt (hE : E.Lawful) {w : Witness} (h : w.r.length = 32) : witnessDec E (witnessEnc E w) = .ok w := by
  have h1 : J.byteArray 32 (.arr (w.r.map fun b => J.num b.toNat)) = .ok w.r := by
    rw [J.byteArray, List.take_of_length_le (by simp [h]), mapM_enc fun a _ => u8_enc a, Go.ok_bind, h]
    simp
  have h1' : J.byteArray 32 (.arr (List.map (fun b => J.num b.toNat) w.r)) = .ok w.r := h1
  simp [witnessDec, witnessEnc, J.entries, field, sel, J.bytes, hE.b64, h1', Go.ok_bind]

/-- C211: so do the messages: the response of the second round when both proofs are there, the values of the third and sixth round, witnesses
(whose blinding has 32 bytes), and the broadcasts of the first and fifth round -/
theorem C211_messages (hE : E.Lawful) :
    (∀ a b : ResponseProof, P2PSend.dec E (P2PSend.enc ⟨some a, some b⟩) = .ok ⟨some a, some b⟩) ∧
    (∀ z, round3Dec E (round3Enc z) = .ok z ∧ round6Dec E (round6Enc z) = .ok z) ∧
    (∀ w : Witness, w.r.length = 32 → witnessDec E (witnessEnc E w) = .ok w) ∧
    (∀ m : Round1Bcast, m.id < 2 ^ 32 → Round1Bcast.dec E (m.enc E) = .ok m) ∧
    ∀ m : Round5Bcast, (∀ a ∈ m.rbar, Std E a) → Round5Bcast.dec E m.enc = .ok m := by
  refine ⟨fun a b => ?_, fun z => ⟨?_, ?_⟩, fun w h => witness_rt hE h, fun m h => ?_, fun m h => ?_⟩
  · have h1 := response_rt (E := E) a
    have h2 := response_rt (E := E) b
    simp [P2PSend.dec, P2PSend.enc, encPtr, J.entries, field, sel, h1, h2, Go.ok_bind]
  · simp [round3Dec, round3Enc, J.entries, field, sel, big_enc, Go.ok_bind]
  · simp [round6Dec, round6Enc, J.entries, field, sel, big_enc, Go.ok_bind]
  · have h1 := ptr_enc (dec := range1Dec E) (enc := Proof5.enc) (fun _ => nofun) m.proof fun x _ => (proof5_rt x).1
    have hu := u32_enc h
    simp [Round1Bcast.dec, Round1Bcast.enc, J.entries, field, sel, big_enc, J.bytes, hE.b64, hu, h1, Go.ok_bind]
  · have h1 := ptr_enc (dec := pdlDec E) (enc := Proof5.enc) (fun _ => nofun) m.proof fun x _ => (proof5_rt x).2
    have h2 := ptr_enc (dec := pointDec E) (enc := pointEnc) (fun _ => nofun) m.rbar fun x hx => point_rt (h x hx)
    simp [Round5Bcast.dec, Round5Bcast.enc, J.entries, field, sel, h1, h2, Go.ok_bind]

/-- C211: but the message with which a participant of the key generation gives another their share has no exported field: its JSON form does not
depend on the share, and every document that is decoded gives a message without a share -/
theorem C211_dkg_share_lost (m m' : DkgRound2P2PSend) (j : J) :
    m.enc = m'.enc ∧ ∀ r, DkgRound2P2PSend.dec j = .ok r → r.xij = none := by
  refine ⟨rfl, fun r h => ?_⟩
  obtain ⟨_, _, h⟩ := Go.bind_eq_ok.1 h
  rw [← Except.ok.inj h]

/-- C211: Paillier keys come back when their square is right; decoding makes it right and checks nothing else -/
theorem C211_paillier :
    (∀ n : ℤ, PublicKey.dec E (PublicKey.enc ⟨some n, some (n * n)⟩) = .ok ⟨some n, some (n * n)⟩) ∧
    (∀ (n : ℤ) l t u, SecretKey.dec E (SecretKey.enc ⟨⟨some n, some (n * n)⟩, l, t, u⟩) = .ok ⟨⟨some n, some (n * n)⟩, l, t, u⟩) ∧
    (∀ j pk, PublicKey.dec E j = .ok pk → pk.N2 = pk.N.map fun n => n * n) ∧
    (∀ j sk, SecretKey.dec E j = .ok sk → sk.pk.N2 = sk.pk.N.map fun n => n * n) := by
  refine ⟨fun n => ?_, fun n l t u => ?_, fun j pk h => ?_, fun j sk h => ?_⟩
  · simp [PublicKey.dec, PublicKey.enc, J.entries, field, sel, big_enc, Go.ok_bind]
  · simp [SecretKey.dec, SecretKey.enc, J.entries, field, sel, big_enc, Go.ok_bind]
  · obtain ⟨l, _, h⟩ := Go.bind_eq_ok.1 h
    obtain ⟨n, _, h⟩ := Go.bind_eq_ok.1 h
    cases n with
    | none => rw [← Except.ok.inj h]; rfl
    | some n => rw [← Except.ok.inj h]; rfl
  · obtain ⟨l, _, h⟩ := Go.bind_eq_ok.1 h
    obtain ⟨n, _, h⟩ := Go.bind_eq_ok.1 h
    obtain ⟨_, _, h⟩ := Go.bind_eq_ok.1 h
    obtain ⟨_, _, h⟩ := Go.bind_eq_ok.1 h
    obtain ⟨_, _, h⟩ := Go.bind_eq_ok.1 h
    rw [← Except.ok.inj h]

theorem share_rt {isPrime : ℤ → Bool} {s : Share} {p : EcPoint} (hid : s.id < 2 ^ 32) (hp : s.point = some p) (hs : Std E p)
    (hN : isPrime p.curve.params.N = true) (hm : s.value.modulus = p.curve.params.N)
    (hv : 0 ≤ s.value.value ∧ s.value.value < p.curve.params.N) : Share.dec E isPrime s.enc = .ok s := by
  obtain ⟨id, ⟨md, v⟩, pt⟩ := s
  dsimp only at hid hp hm hv
  subst hp
  subst hm
  have h1 := ptr_enc (dec := pointDec E) (enc := pointEnc) (fun _ => nofun) (some p) fun x hx => by
    rw [← Option.mem_some_iff.1 hx]; exact point_rt hs
  have h2 : newElement p.curve.params.N (some v) = .ok ⟨p.curve.params.N, v⟩ :=
    if_pos ⟨hv.2, by rcases hv.1.eq_or_lt with h | h
                     · rw [← h]; simp
                     · rw [Int.sign_eq_one_of_pos h]; norm_num⟩
  have hu := u32_enc hid
  simp [Share.dec, Share.enc, J.entries, field, sel, hu, J.big, h1, hN, h2, Go.ok_bind]

/-- C211: a share comes back if its point is on a curve of the table, of prime order, and its value is reduced modulo that order.  A document
without a point, or with a value that is missing, negative or too large, panics. -/
theorem C211_share (isPrime : ℤ → Bool) :
    (∀ (s : Share) (p : EcPoint), s.id < 2 ^ 32 → s.point = some p → Std E p → isPrime p.curve.params.N = true →
      s.value.modulus = p.curve.params.N → 0 ≤ s.value.value → s.value.value < p.curve.params.N → Share.dec E isPrime s.enc = .ok s) ∧
    (∀ (id : ℕ) (v : ℤ), id < 2 ^ 32 → Share.dec E isPrime (.obj [("Identifier", .num id), ("Value", .num v)]) = Go.crash) ∧
    (Share.dec E isPrime .null = Go.crash) ∧
    ∀ (id : ℕ) (v : ℤ) (p : EcPoint), id < 2 ^ 32 → Std E p → v < 0 ∨ p.curve.params.N ≤ v →
      Share.dec E isPrime (.obj [("Identifier", .num id), ("Value", .num v), ("Point", pointEnc p)]) = Go.crash := by
  refine ⟨fun s p h1 h2 h3 h4 h5 h6 h7 => share_rt h1 h2 h3 h4 h5 ⟨h6, h7⟩, fun id v h => ?_, ?_, fun id v p h hp hv => ?_⟩
  · have hu := u32_enc h
    simp [Share.dec, J.entries, field, sel, hu, J.big, J.ptr, Go.ok_bind]
  · simp [Share.dec, J.entries, field, J.u32, J.big, J.ptr, Go.ok_bind]
  · have h1 := ptr_enc (dec := pointDec E) (enc := pointEnc) (fun _ => nofun) (some p) fun x hx => by
      rw [← Option.mem_some_iff.1 hx]; exact point_rt hp
    have h1' : J.ptr (pointDec E) (pointEnc p) = .ok (some p) := h1
    have h2 : newElement p.curve.params.N (some v) = Go.crash := if_neg (by
      rintro ⟨h3, h4⟩
      rcases hv with hv | hv
      · rw [Int.sign_eq_neg_one_of_neg hv] at h4; omega
      · omega)
    have hu := u32_enc h
    by_cases hN : isPrime p.curve.params.N = true
    · simp [Share.dec, J.entries, field, sel, hu, J.big, h1', hN, h2, Go.ok_bind, Go.crash, Go.error_bind]
    · simp [Share.dec, J.entries, field, sel, hu, J.big, h1', hN, Go.ok_bind]

/-! ### Panics -/

/-- the computation does not panic -/
def Calm {α : Type} (x : Go α) : Prop := x ≠ Go.crash

theorem calm_bind {α β : Type} {x : Go α} {f : α → Go β} (hx : Calm x) (hf : ∀ a, Calm (f a)) : Calm (x >>= f) := by
  cases x with
  | ok a => exact hf a
  | error e => exact fun h => hx (by rw [show e = Fail.panic from Except.error.inj h])

theorem calm_ok {α : Type} (a : α) : Calm (.ok a : Go α) := nofun
theorem calm_big (j : J) : Calm j.big := by cases j <;> exact nofun
theorem calm_entries (j : J) : Calm j.entries := by cases j <;> exact nofun
theorem calm_string (j : J) : Calm j.string := by cases j <;> exact nofun

theorem calm_mapM {α β : Type} {f : α → Go β} (hf : ∀ a, Calm (f a)) : ∀ l : List α, Calm (l.mapM f)
  | [] => nofun
  | a :: l => by
    rw [List.mapM_cons]
    exact calm_bind (hf a) fun _ => calm_bind (calm_mapM hf l) fun _ => calm_ok _

theorem calm_bigs (j : J) : Calm j.bigs := by
  cases j with
  | arr l => exact calm_mapM calm_big l
  | _ => exact nofun

theorem calm_u32 (j : J) : Calm j.u32 := by
  cases j with
  | num z => rw [J.u32]; split <;> exact nofun
  | _ => exact nofun

theorem calm_u8 (j : J) : Calm j.u8 := by
  cases j with
  | num z => rw [J.u8]; split <;> exact nofun
  | _ => exact nofun

theorem calm_bytes (j : J) : Calm (J.bytes E j) := by
  cases j with
  | str s => rw [J.bytes]; split <;> exact nofun
  | arr l => exact calm_mapM calm_u8 l
  | _ => exact nofun

theorem calm_byteArray (n : ℕ) (j : J) : Calm (J.byteArray n j) := by
  cases j with
  | arr l => exact calm_bind (calm_mapM calm_u8 _) fun _ => calm_ok _
  | _ => exact nofun

theorem calm_ptr {α : Type} {dec : J → Go α} (h : ∀ j, j ≠ .null → Calm (dec j)) (j : J) : Calm (J.ptr dec j) := by
  cases j with
  | null => exact nofun
  | _ => exact calm_bind (h _ nofun) fun _ => calm_ok _

theorem calm_entriesPtr {j : J} (h : j ≠ .null) : Calm j.entriesPtr := by
  cases j with
  | null => exact absurd rfl h
  | _ => exact nofun

theorem calm_five (l : List (String × J)) : Calm (Proof5.ofEntries E l) :=
  calm_bind (calm_big _) fun _ => calm_bind (calm_big _) fun _ => calm_bind (calm_big _) fun _ => calm_bind (calm_big _) fun _ =>
    calm_bind (calm_big _) fun _ => calm_ok _

theorem calm_range2 {j : J} (h : j ≠ .null) : Calm (Range2Proof.dec E j) :=
  calm_bind (calm_entriesPtr h) fun _ => calm_bind (calm_big _) fun _ => calm_bind (calm_big _) fun _ => calm_bind (calm_big _) fun _ =>
    calm_bind (calm_big _) fun _ => calm_bind (calm_big _) fun _ => calm_bind (calm_big _) fun _ => calm_bind (calm_big _) fun _ =>
    calm_bind (calm_big _) fun _ => calm_ok _

theorem calm_pdl {j : J} (h : j ≠ .null) : Calm (pdlDec E j) := calm_bind (calm_entriesPtr h) fun _ => calm_five _

theorem calm_response (j : J) : Calm (ResponseProof.dec E j) :=
  calm_bind (calm_entries _) fun _ => calm_bind (calm_ptr (fun _ h => calm_range2 h) _) fun _ => calm_bind (calm_big _) fun _ =>
    calm_bind (calm_big _) fun _ => calm_ok _

theorem calm_point (j : J) : Calm (pointDec E j) := by
  refine calm_bind (calm_entries _) fun _ => calm_bind (calm_string _) fun _ => calm_bind (calm_big _) fun _ =>
    calm_bind (calm_big _) fun _ => ?_
  rw [unmarshalJSON]
  split <;> exact nofun

/-- C211: no document of any form makes the decoders of the broadcasts, of the responses, of the first range proof, of witnesses, points, Paillier
keys and parameters panic.  `null` makes those of the proof of the discrete logarithm modulo a composite, of the second range proof and of the
message of the fifth round panic, and nothing else does. -/
theorem C211_panics (j : J) :
    (Calm (range1Dec E j) ∧ Calm (ResponseProof.dec E j) ∧ Calm (P2PSend.dec E j) ∧ Calm (round3Dec E j) ∧ Calm (round6Dec E j) ∧
      Calm (witnessDec E j) ∧ Calm (pointDec E j) ∧ Calm (Round1Bcast.dec E j) ∧ Calm (Round5Bcast.dec E j) ∧
      Calm (PublicKey.dec E j) ∧ Calm (SecretKey.dec E j) ∧ Calm (ProofParams.dec E j)) ∧
    (CdlProof.dec E j = Go.crash ↔ j = .null) ∧ (Range2Proof.dec E j = Go.crash ↔ j = .null) ∧ (pdlDec E j = Go.crash ↔ j = .null) := by
  refine ⟨⟨?_, calm_response j, ?_, ?_, ?_, ?_, calm_point j, ?_, ?_, ?_, ?_, ?_⟩, ⟨fun h => ?_, ?_⟩, ⟨fun h => ?_, ?_⟩, ⟨fun h => ?_, ?_⟩⟩
  · exact calm_bind (calm_entries _) fun _ => calm_five _
  · exact calm_bind (calm_entries _) fun _ => calm_bind (calm_response _) fun _ => calm_bind (calm_response _) fun _ => calm_ok _
  · exact calm_bind (calm_entries _) fun _ => calm_big _
  · exact calm_bind (calm_entries _) fun _ => calm_big _
  · exact calm_bind (calm_entries _) fun _ => calm_bind (calm_bytes _) fun _ => calm_bind (calm_byteArray _ _) fun _ => calm_ok _
  · exact calm_bind (calm_entries _) fun _ => calm_bind (calm_u32 _) fun _ => calm_bind (calm_bytes _) fun _ => calm_bind (calm_big _) fun _ =>
      calm_bind (calm_ptr (fun _ _ => calm_bind (calm_entries _) fun _ => calm_five _) _) fun _ => calm_ok _
  · exact calm_bind (calm_entries _) fun _ => calm_bind (calm_ptr (fun _ _ => calm_point _) _) fun _ =>
      calm_bind (calm_ptr (fun _ h => calm_pdl h) _) fun _ => calm_ok _
  · refine calm_bind (calm_entries _) fun _ => calm_bind (calm_big _) fun n => ?_
    cases n <;> exact nofun
  · exact calm_bind (calm_entries _) fun _ => calm_bind (calm_big _) fun _ => calm_bind (calm_big _) fun _ => calm_bind (calm_big _) fun _ =>
      calm_bind (calm_big _) fun _ => calm_ok _
  · exact calm_bind (calm_entries _) fun _ => calm_bind (calm_big _) fun _ => calm_bind (calm_big _) fun _ => calm_bind (calm_big _) fun _ =>
      calm_ok _
  · by_contra hn
    exact absurd h (calm_bind (calm_entriesPtr hn) fun _ => calm_bind (calm_bigs _) fun _ => calm_bind (calm_bigs _) fun _ => calm_ok _)
  · rintro rfl; rfl
  · by_contra hn
    exact absurd h (calm_range2 hn)
  · rintro rfl; rfl
  · by_contra hn
    exact absurd h (calm_pdl hn)
  · rintro rfl; rfl

/-! ### What a participant keeps -/

/-- all parts of the data of a participant can be encoded and come back -/
structure Good (E : JEnv) (isPrime : ℤ → Bool) (pd : ParticipantData) : Prop where
  id : pd.id < 2 ^ 32
  key : ∀ sk ∈ pd.decryptKey, sk.pk.N2 = sk.pk.N.map fun n => n * n
  share : ∀ s ∈ pd.share, Share.dec E isPrime s.enc = .ok s
  pk : ∀ p ∈ pd.publicKey, Std E p
  shares : ∀ e ∈ pd.publicShares, e.1 < 2 ^ 32 ∧ ∀ x ∈ e.2, ∀ p ∈ x, Std E p
  keys : ∀ e ∈ pd.encryptKeys, e.1 < 2 ^ 32 ∧ ∀ k ∈ e.2, k.N2 = k.N.map fun n => n * n

theorem params_rt (p : ProofParams) : ProofParams.dec E p.enc = .ok p := by
  simp [ProofParams.dec, ProofParams.enc, J.entries, field, sel, big_enc, Go.ok_bind]

theorem pk_rt {k : PublicKey} (h : k.N2 = k.N.map fun n => n * n) : PublicKey.dec E k.enc = .ok k := by
  obtain ⟨n, n2⟩ := k
  dsimp only at h
  subst h
  cases n <;> simp [PublicKey.dec, PublicKey.enc, J.entries, field, sel, big_enc, Go.ok_bind]

theorem sk_rt {k : SecretKey} (h : k.pk.N2 = k.pk.N.map fun n => n * n) : SecretKey.dec E k.enc = .ok k := by
  obtain ⟨⟨n, n2⟩, l, t, u⟩ := k
  dsimp only at h
  subst h
  simp [SecretKey.dec, SecretKey.enc, J.entries, field, sel, big_enc, Go.ok_bind]

theorem publicShare_rt {x : Option EcPoint} (h : ∀ p ∈ x, Std E p) : publicShareDec E (publicShareEnc x) = .ok x := by
  have := ptr_enc (dec := pointDec E) (enc := pointEnc) (fun _ => nofun) x fun x hx => point_rt (h x hx)
  simp [publicShareDec, publicShareEnc, J.entries, field, sel, this, Go.ok_bind]

theorem pd_rt (hE : E.Lawful) {isPrime : ℤ → Bool} {pd : ParticipantData} (g : Good E isPrime pd) (dp : Option ProofParams)
    (pp : List (ℕ × Option ProofParams)) (t : KeyGenType)
    (jp : J) (hjp : J.map E (ProofParams.dec E) jp = .ok pp) (ht : t = match dp with
      | some p => KeyGenType.trusted (some p)
      | none => KeyGenType.distributed pp) :
    ParticipantData.dec E isPrime (.obj [("Id", .num pd.id), ("DecryptKey", encPtr SecretKey.enc pd.decryptKey),
      ("SecretKeyShare", encPtr Share.enc pd.share), ("EcdsaPublicKey", encPtr pointEnc pd.publicKey),
      ("DealerParams", encPtr ProofParams.enc dp), ("ParticipantParams", jp),
      ("PublicShares", encMap E publicShareEnc pd.publicShares), ("EncryptKeys", encMap E PublicKey.enc pd.encryptKeys)]) =
      .ok { pd with keyGenType := some t } := by
  have h1 := ptr_enc (dec := SecretKey.dec E) (enc := SecretKey.enc) (fun _ => nofun) pd.decryptKey fun x hx => sk_rt (g.key x hx)
  have h2 := ptr_enc (dec := Share.dec E isPrime) (enc := Share.enc) (fun _ => nofun) pd.share g.share
  have h3 := ptr_enc (dec := pointDec E) (enc := pointEnc) (fun _ => nofun) pd.publicKey fun x hx => point_rt (g.pk x hx)
  have h4 := ptr_enc (dec := ProofParams.dec E) (enc := ProofParams.enc) (fun _ => nofun) dp fun x _ => params_rt x
  have h5 := map_enc (dec := publicShareDec E) (enc := publicShareEnc) hE (fun _ => nofun) pd.publicShares (fun e he => (g.shares e he).1)
    fun e he x hx => publicShare_rt ((g.shares e he).2 x hx)
  have h6 := map_enc (dec := PublicKey.dec E) (enc := PublicKey.enc) hE (fun _ => nofun) pd.encryptKeys (fun e he => (g.keys e he).1)
    fun e he x hx => pk_rt ((g.keys e he).2 x hx)
  have hu := u32_enc g.id
  subst ht
  cases dp <;> simp [ParticipantData.dec, J.entries, field, sel, pdNames, hu, h1, h2, h3, h4, h5, h6, hjp, Go.ok_bind]

/-- C211: what a participant keeps comes back, with the parameters of the dealer or those of each participant.  A dealer without parameters comes
back as a distributed key generation without parameters; without a `KeyGenType` encoding panics. -/
theorem C211_participant (hE : E.Lawful) (isPrime : ℤ → Bool) (pd : ParticipantData) (g : Good E isPrime pd) :
    (∀ p, pd.keyGenType = some (.trusted (some p)) → (pd.enc E >>= ParticipantData.dec E isPrime) = .ok pd) ∧
    (∀ m, (∀ e ∈ m, e.1 < 2 ^ 32) → pd.keyGenType = some (.distributed m) → (pd.enc E >>= ParticipantData.dec E isPrime) = .ok pd) ∧
    (pd.keyGenType = some (.trusted none) →
      (pd.enc E >>= ParticipantData.dec E isPrime) = .ok { pd with keyGenType := some (.distributed []) }) ∧
    (pd.keyGenType = none → pd.enc E = Go.crash) := by
  refine ⟨fun p h => ?_, fun m hm h => ?_, fun h => ?_, fun h => ?_⟩
  · have := pd_rt hE g (some p) [] (.trusted (some p)) .null rfl rfl
    rw [ParticipantData.enc, h]
    refine Eq.trans this ?_
    obtain ⟨_, _, _, _, _, _, _⟩ := pd
    dsimp only at h
    rw [h]
  · have := pd_rt hE g none m (.distributed m) (encMap E ProofParams.enc m)
      (map_enc (enc := ProofParams.enc) hE (fun _ => nofun) m hm fun _ _ x _ => params_rt x) rfl
    rw [ParticipantData.enc, h]
    refine Eq.trans this ?_
    obtain ⟨_, _, _, _, _, _, _⟩ := pd
    dsimp only at h
    rw [h]
  · have := pd_rt hE g none [] (.distributed []) .null rfl rfl
    rw [ParticipantData.enc, h]
    exact this
  · rw [ParticipantData.enc, h]; rfl

/-- C211: the public shares are the points of the shares under the same identifiers; no share, or a nil one, is refused -/
theorem C211_publicShares (m : List (ℕ × Option Share)) :
    (∀ r, preparePublicShares m = .ok r ↔ m ≠ [] ∧ m.map (fun e => (e.1, e.2.map (·.point))) = r.map fun e => (e.1, some e.2)) := by
  intro r
  unfold preparePublicShares
  have key : ∀ (m : List (ℕ × Option Share)) (r : List (ℕ × Option EcPoint)),
      m.mapM publicShareOf = .ok r ↔ m.map (fun e => (e.1, e.2.map (·.point))) = r.map fun e => (e.1, some e.2) := by
    intro m
    induction m with
    | nil => intro r; cases r <;> simp [pure, Except.pure]
    | cons e m ih =>
      obtain ⟨i, s⟩ := e
      intro r
      rw [List.mapM_cons]
      cases s with
      | none =>
        simp only [publicShareOf, Go.err, Go.error_bind]
        constructor
        · exact nofun
        · intro h; cases r <;> simp at h
      | some s =>
        rw [show publicShareOf (i, some s) = .ok (i, s.point) from rfl, Go.ok_bind, Go.bind_eq_ok]
        constructor
        · rintro ⟨r', h1, h2⟩
          rw [← Except.ok.inj h2]
          simp [(ih r').1 h1]
        · intro h
          cases r with
          | nil => simp at h
          | cons a r =>
            simp only [List.map_cons, List.cons.injEq, Prod.mk.injEq, Option.map_some, Option.some.injEq] at h
            exact ⟨r, (ih r).2 h.2, by rw [show a = (i, s.point) from Prod.ext h.1.1.symm h.1.2.symm]; rfl⟩
  cases m with
  | nil => simp [Go.err]
  | cons e m => rw [← key]; simp

/-! ### Examples -/

/-- base64 and decimal keys replaced by one character for each byte and for the identifier -/
def exEnv (c : StdCurves) : JEnv where
  fold _ _ := false
  b64 b := String.ofList (b.map fun x => Char.ofNat x.toNat)
  unb64 s := some (s.toList.map fun c => UInt8.ofNat c.toNat)
  key n := String.ofList (List.replicate n 'x')
  unkey s := some s.toList.length
  curves := c

theorem exEnv_lawful (c : StdCurves) : (exEnv c).Lawful := by
  refine ⟨fun b => ?_, fun n _ => ?_⟩
  · show some _ = some _
    simp only [exEnv, String.toList_ofList, List.map_map, Option.some.injEq]
    conv_rhs => rw [← List.map_id b]
    refine List.map_congr_left fun x _ => ?_
    have hx : x.toNat < 256 := x.toNat_lt
    have : (Char.ofNat x.toNat).toNat = x.toNat := by
      have hv : x.toNat.isValidChar := Or.inl (by omega)
      rw [Char.ofNat, dif_pos hv]
      rfl
    rw [Function.comp_apply, this]
    simp
  · show some _ = some _
    simp [exEnv]

/-- the curve of an example: the operations do not matter -/
def exCurve : ECurve where
  params := ⟨[], 23, 7, 3, 1, 2, 5, "P-256"⟩
  isOnCurve _ _ := .ok true
  add _ _ _ _ := .ok (none, none)
  double _ _ := .ok (none, none)
  scalarMult _ _ _ := .ok (none, none)
  scalarBaseMult _ := .ok (none, none)

/-- the data of participant 3 with share 5, under a distributed key generation -/
def exData : ParticipantData where
  id := 3
  decryptKey := some ⟨⟨some 35, some 1225⟩, some 12, some 24, some 3⟩
  share := some ⟨3, ⟨7, 5⟩, some ⟨exCurve, some 4, some (-1)⟩⟩
  publicKey := some ⟨exCurve, some 1, some 2⟩
  keyGenType := some (.distributed [(1, some ⟨some 15, some 4, none⟩), (2, none)])
  publicShares := [(1, some (some ⟨exCurve, some 1, some 2⟩)), (2, none)]
  encryptKeys := [(1, some ⟨some 33, some 1089⟩)]

example : (exData.enc (exEnv ⟨exCurve, exCurve, exCurve, exCurve, exCurve⟩) >>=
    ParticipantData.dec (exEnv ⟨exCurve, exCurve, exCurve, exCurve, exCurve⟩) fun n => n = 7) = .ok exData := by
  refine (C211_participant (exEnv_lawful _) _ exData ⟨by decide, ?_, ?_, ?_, ?_, ?_⟩).2.1 _ ?_ rfl
  · intro sk h; rw [← Option.some.inj h]; rfl
  · intro s h; rw [← Option.some.inj h]
    exact share_rt (p := ⟨exCurve, some 4, some (-1)⟩) (by decide) rfl rfl (by decide) rfl (by decide)
  · intro p h; rw [← Option.some.inj h]; rfl
  · intro e he
    simp only [exData, List.mem_cons, List.not_mem_nil, or_false] at he
    rcases he with rfl | rfl
    · refine ⟨by decide, fun x hx p hp => ?_⟩
      rw [← Option.some.inj hx] at hp
      rw [← Option.some.inj hp]; rfl
    · exact ⟨by decide, nofun⟩
  · intro e he
    rw [List.mem_singleton.1 he]
    exact ⟨by decide, fun k hk => by rw [← Option.some.inj hk]; rfl⟩
  · decide

example (c : StdCurves) : Round1Bcast.dec (exEnv c) (Round1Bcast.enc (exEnv c) ⟨7, [1, 2, 255], some 9, some ⟨some 1, none, some (-3), some 4, some 5⟩⟩) =
    .ok ⟨7, [1, 2, 255], some 9, some ⟨some 1, none, some (-3), some 4, some 5⟩⟩ :=
  (C211_messages (exEnv_lawful c)).2.2.2.1 _ (by decide)

example (c : StdCurves) (s : Option (ℕ × ℤ)) : DkgRound2P2PSend.dec (DkgRound2P2PSend.enc ⟨s⟩) = .ok ⟨none⟩ ∧ pdlDec (exEnv c) .null = Go.crash :=
  ⟨rfl, ((C211_panics .null).2.2.2).2 rfl⟩

end Verif.Gg20.Json
