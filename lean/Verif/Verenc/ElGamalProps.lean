import Verif.Verenc.ElGamalModel
import Verif.Common.Toy
import Mathlib.Tactic.Module
import Mathlib.Tactic.LinearCombination
import Mathlib.Algebra.Module.BigOperators

/-!
# Properties of the El-Gamal verifiable encryption (C82, C83, C105, C106)
-/

set_option linter.unusedSectionVars false

namespace Verif.ElGamal

variable {F : Type} [Field F] [DecidableEq F]
variable {G : Type} [AddCommGroup G] [Module F G] [DecidableEq G]

/-! ## Specification -/

/-- AES-GCM opens what it sealed, with a tag of 16 bytes -/
structure AeadOk (env : Env F G) : Prop where
  open_seal : ∀ k n m a, env.opn k n (env.gseal k n m a) a = some m
  tag : ∀ k n m a, 16 ≤ (env.gseal k n m a).length

/-- the scalar that a message stands for -/
inductive Denotes (env : Env F G) : Bool → Bytes → F → Prop
  | hashed (b : Bytes) (s : F) : env.cd.dec b = some s → Denotes env true b s
  | plain (b : Bytes) : Denotes env false b (env.hashS b)

/-- the point that multiplies the message -/
def baseOf (env : Env F G) (g ek : G) (nonce : Bytes) : Option Bytes → G
  | none => g
  | some d => env.hashP (d ++ env.encU ek ++ nonce)

theorem msgScalar_eq_ok (env : Env F G) (h : Bool) (b : Bytes) (s : F) :
    msgScalar env h b = .ok s ↔ Denotes env h b s := by
  cases h
  · simp only [msgScalar, Bool.false_eq_true, if_false]
    constructor
    · rintro ⟨⟩; exact .plain b
    · rintro ⟨⟩; rfl
  · simp only [msgScalar, if_true, Go.ofOption_eq_ok]
    constructor
    · exact .hashed b s
    · rintro ⟨⟩; assumption

theorem Denotes.unique {env : Env F G} {h : Bool} {b : Bytes} {s s' : F} (a : Denotes env h b s)
    (a' : Denotes env h b s') : s = s' := by
  have h1 := (msgScalar_eq_ok env h b s).2 a
  have h2 := (msgScalar_eq_ok env h b s').2 a'
  rw [h1] at h2
  exact Except.ok.inj h2

/-! ## Encryption -/

/-- `VerifiableEncrypt` succeeds exactly on a message that denotes a scalar, a non-zero blinding, and, when a
proof is wanted, a proof nonce; the ciphertext is `(b•g, m•h + b•Q)` with the message sealed under the key
derived from `b•Q`. -/
theorem C82_encrypt (env : Env F G) (g ek : G) (msg : Bytes) (p : Params F) (fresh : F) (cn : Bytes) (r : F)
    (ct : CipherText G) (pf : Option (Proof F)) :
    (verifiableEncrypt env g ek (some msg) p fresh cn r).2 = .ok (ct, pf) ↔
      ∃ b m, b = p.blinding.getD fresh ∧ b ≠ 0 ∧ Denotes env p.messageIsHashed msg m ∧
        ct.c1 = b • g ∧ ct.c2 = m • baseOf env g ek cn p.domain + b • ek ∧ ct.nonce = cn ∧
        ct.msgIsHashed = p.messageIsHashed ∧
        ct.aead = env.gseal (env.kdf (b • ek)) cn msg (env.encU ct.c1 ++ env.encU ct.c2) ∧
        (p.genProof = false ∧ pf = none ∨
          p.genProof = true ∧ ∃ n c, p.proofNonce = some n ∧
            c = env.hashS (env.encC ct.c1 ++ env.encC ct.c2 ++ env.encC (r • g) ++
              env.encC (r • ek + b • baseOf env g ek cn p.domain) ++ n) ∧
            pf = some ⟨c, b - c * m, r - c * b⟩) := by
  have hb : chooseBase env g ek p.domain cn = baseOf env g ek cn p.domain := by
    cases p.domain <;> rfl
  simp only [verifiableEncrypt, Go.guard_bind_eq_ok, hb]
  generalize p.blinding.getD fresh = b
  generalize baseOf env g ek cn p.domain = h
  constructor
  · rintro ⟨h0, hx⟩
    obtain ⟨c, hc, hx⟩ := Go.bind_eq_ok.1 hx
    simp only [encryptWithRandNonce] at hc
    obtain ⟨m, hm, hc⟩ := Go.bind_eq_ok.1 hc
    cases hc
    have hm' := (msgScalar_eq_ok _ _ _ _).1 hm
    cases hg : p.genProof
    · rw [hg] at hx
      simp only [Bool.false_eq_true, if_false, Except.ok.injEq, Prod.mk.injEq] at hx
      obtain ⟨rfl, rfl⟩ := hx
      exact ⟨b, m, rfl, h0, hm', rfl, rfl, rfl, rfl, rfl, .inl ⟨rfl, rfl⟩⟩
    · rw [hg] at hx
      simp only [if_true] at hx
      obtain ⟨n, hn, hx⟩ := Go.bind_eq_ok.1 hx
      obtain ⟨q, hq, hx⟩ := Go.bind_eq_ok.1 hx
      simp only [genProof] at hq
      rw [hm] at hq
      cases hq
      cases hx
      exact ⟨b, m, rfl, h0, hm', rfl, rfl, rfl, rfl, rfl,
        .inr ⟨rfl, n, _, Go.ofOption_eq_ok.1 hn, rfl, rfl⟩⟩
  · rintro ⟨_, m, rfl, h0, hm, h1, h2, h3, h4, h5, h6⟩
    refine ⟨h0, ?_⟩
    have hm' := (msgScalar_eq_ok _ _ _ _).2 hm
    obtain ⟨c1, c2, n, a, hh⟩ := ct
    simp only at h1 h2 h3 h4 h5
    subst h1 h2 h3 h4
    simp only [encryptWithRandNonce, hm', Go.ok_bind]
    rcases h6 with ⟨hg, rfl⟩ | ⟨hg, n', c, hn, rfl, rfl⟩
    · rw [hg]; simp [h5, aad]
    · rw [hg]
      simp only [if_true, hn, Go.ofOption, genProof, hm', Go.ok_bind]
      simp [h5, aad, challenge]

/-- `VerifiableEncrypt` refuses the nil message and leaves the parameters alone -/
theorem C82_encrypt_nil (env : Env F G) (g ek : G) (p : Params F) (fresh : F) (cn : Bytes) (r : F) :
    verifiableEncrypt env g ek none p fresh cn r = (p, .error .error) := rfl

/-! ## Decryption -/

/-- the outcome of `VerifiableDecrypt` for any ciphertext: accepted exactly when nonce and AEAD have
admissible lengths, the AEAD opens, and the message found there is the one in the El-Gamal part -/
theorem C82_decrypt_exact (env : Env F G) (g : G) (x : F) (ct : CipherText G) (msg : Bytes) (m : F) :
    verifiableDecrypt env g x (some ct) = .ok (msg, m) ↔
      ct.nonce.length = 12 ∧ 16 ≤ ct.aead.length ∧
      env.opn (env.kdf (x • ct.c1)) ct.nonce ct.aead (env.encU ct.c1 ++ env.encU ct.c2) = some msg ∧
      Denotes env ct.msgIsHashed msg m ∧ m • g = ct.c2 - x • ct.c1 := by
  simp only [verifiableDecrypt, decryptData, Go.ofOption, Go.ok_bind]
  constructor
  · intro hx
    obtain ⟨d, hd, hx⟩ := Go.bind_eq_ok.1 hx
    obtain ⟨hl, hd⟩ := Go.guard_bind_eq_ok.1 hd
    split at hd
    · cases hd
    · rename_i hn
      obtain ⟨mm, ho, hd⟩ := Go.bind_eq_ok.1 hd
      obtain ⟨s, hs, hd⟩ := Go.bind_eq_ok.1 hd
      cases hd
      obtain ⟨he, hx⟩ := Go.guard_bind_eq_ok.1 hx
      cases hx
      refine ⟨by omega, by omega, Go.ofOption_eq_ok.1 ho, (msgScalar_eq_ok _ _ _ _).1 hs, he⟩
  · rintro ⟨hn, ha, ho, hm, he⟩
    rw [Go.guard_true (by omega), Go.ok_bind, if_neg (by omega)]
    rw [show env.opn (env.kdf (x • ct.c1)) ct.nonce ct.aead (aad env ct.c1 ct.c2) = some msg from ho]
    simp only [(msgScalar_eq_ok _ _ _ _).2 hm, Go.ok_bind]
    rw [Go.guard_true he]
    rfl

/-- the same for a domain -/
theorem C82_decrypt_domain_exact (env : Env F G) (g : G) (x : F) (d : Bytes) (ct : CipherText G)
    (msg : Bytes) (m : F) :
    verifiableDecryptWithDomain env g x d (some ct) = .ok (msg, m) ↔
      ct.nonce.length = 12 ∧ 16 ≤ ct.aead.length ∧
      env.opn (env.kdf (x • ct.c1)) ct.nonce ct.aead (env.encU ct.c1 ++ env.encU ct.c2) = some msg ∧
      Denotes env ct.msgIsHashed msg m ∧
      m • env.hashP (d ++ env.encU (x • g) ++ ct.nonce) = ct.c2 - x • ct.c1 := by
  simp only [verifiableDecryptWithDomain, decryptData, Go.ofOption, Go.ok_bind]
  constructor
  · intro hx
    obtain ⟨e, hd, hx⟩ := Go.bind_eq_ok.1 hx
    obtain ⟨hl, hd⟩ := Go.guard_bind_eq_ok.1 hd
    split at hd
    · cases hd
    · rename_i hn
      obtain ⟨mm, ho, hd⟩ := Go.bind_eq_ok.1 hd
      obtain ⟨s, hs, hd⟩ := Go.bind_eq_ok.1 hd
      cases hd
      obtain ⟨he, hx⟩ := Go.guard_bind_eq_ok.1 hx
      cases hx
      refine ⟨by omega, by omega, Go.ofOption_eq_ok.1 ho, (msgScalar_eq_ok _ _ _ _).1 hs, he⟩
  · rintro ⟨hn, ha, ho, hm, he⟩
    rw [Go.guard_true (by omega), Go.ok_bind, if_neg (by omega)]
    rw [show env.opn (env.kdf (x • ct.c1)) ct.nonce ct.aead (aad env ct.c1 ct.c2) = some msg from ho]
    simp only [(msgScalar_eq_ok _ _ _ _).2 hm, Go.ok_bind]
    rw [Go.guard_true (by exact he)]
    rfl

/-- Decryption inverts encryption, with and without a domain, for every message, blinding and nonce. -/
theorem C82_roundtrip (env : Env F G) (ha : AeadOk env) (g : G) (x : F) (msg : Bytes) (p : Params F)
    (fresh : F) (cn : Bytes) (hcn : cn.length = 12) (r : F) (ct : CipherText G) (pf : Option (Proof F))
    (h : (verifiableEncrypt env g (encryptionKey g x) (some msg) p fresh cn r).2 = .ok (ct, pf)) :
    ∃ m, Denotes env p.messageIsHashed msg m ∧
      (p.domain = none → verifiableDecrypt env g x (some ct) = .ok (msg, m)) ∧
      (∀ d, p.domain = some d → verifiableDecryptWithDomain env g x d (some ct) = .ok (msg, m)) := by
  obtain ⟨b, m, -, -, hm, h1, h2, h3, h4, h5, -⟩ := (C82_encrypt _ _ _ _ _ _ _ _ _ _).1 h
  have ht : x • ct.c1 = b • encryptionKey g x := by
    rw [h1, encryptionKey, smul_smul, smul_smul, mul_comm]
  refine ⟨m, hm, fun hd => (C82_decrypt_exact _ _ _ _ _ _).2 ?_,
    fun d hd => (C82_decrypt_domain_exact _ _ _ _ _ _ _).2 ?_⟩ <;>
    refine ⟨by rw [h3, hcn], by rw [h5]; exact ha.tag _ _ _ _, ?_, by rw [h4]; exact hm, ?_⟩
  · rw [ht, h3, h5]; exact ha.open_seal _ _ _ _
  · rw [ht, h2, hd, add_sub_cancel_right]; rfl
  · rw [ht, h3, h5]; exact ha.open_seal _ _ _ _
  · rw [ht, h2, hd, add_sub_cancel_right, h3]; rfl

/-- A ciphertext made for one domain (or none) is accepted for another one exactly when the message times the
two base points agree. -/
theorem C82_cross_domain (env : Env F G) (ha : AeadOk env) (g : G) (x : F) (msg : Bytes) (p : Params F)
    (fresh : F) (cn : Bytes) (hcn : cn.length = 12) (r : F) (ct : CipherText G) (pf : Option (Proof F))
    (h : (verifiableEncrypt env g (encryptionKey g x) (some msg) p fresh cn r).2 = .ok (ct, pf)) :
    ∃ m, Denotes env p.messageIsHashed msg m ∧
      ((∃ o, verifiableDecrypt env g x (some ct) = .ok o) ↔
        m • g = m • baseOf env g (x • g) cn p.domain) ∧
      ∀ d, (∃ o, verifiableDecryptWithDomain env g x d (some ct) = .ok o) ↔
        m • env.hashP (d ++ env.encU (x • g) ++ cn) = m • baseOf env g (x • g) cn p.domain := by
  obtain ⟨b, m, -, -, hm, h1, h2, h3, h4, h5, -⟩ := (C82_encrypt _ _ _ _ _ _ _ _ _ _).1 h
  have ht : x • ct.c1 = b • encryptionKey g x := by
    rw [h1, encryptionKey, smul_smul, smul_smul, mul_comm]
  have hopen : env.opn (env.kdf (x • ct.c1)) ct.nonce ct.aead (env.encU ct.c1 ++ env.encU ct.c2) =
      some msg := by rw [ht, h3, h5]; exact ha.open_seal _ _ _ _
  have hsub : ct.c2 - x • ct.c1 = m • baseOf env g (x • g) cn p.domain := by
    rw [ht, h2, add_sub_cancel_right]; rfl
  refine ⟨m, hm, ⟨?_, fun he => ⟨(msg, m), ?_⟩⟩, fun d => ⟨?_, fun he => ⟨(msg, m), ?_⟩⟩⟩
  · rintro ⟨⟨msg', m'⟩, ho⟩
    obtain ⟨-, -, o1, o2, o3⟩ := (C82_decrypt_exact _ _ _ _ _ _).1 ho
    rw [hopen] at o1; cases o1
    rw [h4] at o2
    rw [hm.unique o2, o3, hsub, hm.unique o2]
  · exact (C82_decrypt_exact _ _ _ _ _ _).2
      ⟨by rw [h3, hcn], by rw [h5]; exact ha.tag _ _ _ _, hopen, by rw [h4]; exact hm, by rw [hsub, he]⟩
  · rintro ⟨⟨msg', m'⟩, ho⟩
    obtain ⟨-, -, o1, o2, o3⟩ := (C82_decrypt_domain_exact _ _ _ _ _ _ _).1 ho
    rw [hopen] at o1; cases o1
    rw [h4] at o2
    rw [h3] at o3
    rw [hm.unique o2, o3, hsub, hm.unique o2]
  · exact (C82_decrypt_domain_exact _ _ _ _ _ _ _).2
      ⟨by rw [h3, hcn], by rw [h5]; exact ha.tag _ _ _ _, hopen, by rw [h4]; exact hm,
        by rw [hsub, h3, he]⟩

/-- Decrypting a sum of ciphertexts gives the sum of the messages times the generator. -/
theorem C82_homomorphic (g : G) (x : F) (c0 : F × F) (l : List (F × F)) :
    (l.foldl (fun acc mr => acc.add (homEncrypt g (encryptionKey g x) mr.1 mr.2))
      (homEncrypt g (encryptionKey g x) c0.1 c0.2)).decrypt x =
      (c0.1 + (l.map Prod.fst).sum) • g := by
  have key : ∀ (l : List (F × F)) (c : HomCipherText G),
      (l.foldl (fun acc mr => acc.add (homEncrypt g (encryptionKey g x) mr.1 mr.2)) c).decrypt x =
      c.decrypt x + (l.map Prod.fst).sum • g := by
    intro l
    induction l with
    | nil => intro c; simp
    | cons a t ih =>
      intro c
      rw [List.foldl_cons, ih]
      simp only [HomCipherText.decrypt, HomCipherText.add, homEncrypt, encryptionKey, List.map_cons,
        List.sum_cons]
      module
  rw [key]
  simp only [HomCipherText.decrypt, homEncrypt, encryptionKey]
  module

/-- The El-Gamal part of a ciphertext can be added into a homomorphic sum: without a domain it contributes
its message scalar. -/
theorem C82_homomorphic_from_verifiable (env : Env F G) (g : G) (x : F) (msg : Bytes) (p : Params F)
    (fresh : F) (cn : Bytes) (r : F) (ct : CipherText G) (pf : Option (Proof F)) (hd : p.domain = none)
    (h : (verifiableEncrypt env g (encryptionKey g x) (some msg) p fresh cn r).2 = .ok (ct, pf))
    (c : HomCipherText G) :
    ∃ m, Denotes env p.messageIsHashed msg m ∧
      (c.add ct.toHom).decrypt x = c.decrypt x + m • g := by
  obtain ⟨b, m, -, -, hm, h1, h2, -⟩ := (C82_encrypt _ _ _ _ _ _ _ _ _ _).1 h
  refine ⟨m, hm, ?_⟩
  rw [hd] at h2
  simp only [HomCipherText.decrypt, HomCipherText.add, CipherText.toHom, h1, h2, encryptionKey, baseOf]
  module

/-! ## Proofs of encryption -/

/-- what the verifier accepts: the challenge is the hash of the two recomputed commitments -/
theorem C83_accept_iff (env : Env F G) (g ek : G) (n : Bytes) (ct : CipherText G) (pf : Proof F) :
    verifyEncryptProof env g ek n ct pf = .ok () ↔
      env.hashS (env.encC ct.c1 ++ env.encC ct.c2 ++ env.encC (pf.challenge • ct.c1 + pf.schnorr2 • g) ++
        env.encC (pf.challenge • ct.c2 + pf.schnorr2 • ek + pf.schnorr1 • g) ++ n) = pf.challenge := by
  simp only [verifyEncryptProof, verify, challenge]
  exact Go.guard_eq_ok

/-- Honest proofs made without a domain verify, for every message, blinding and nonce. -/
theorem C83_complete (env : Env F G) (g : G) (ek : G) (msg : Bytes) (p : Params F)
    (fresh : F) (cn : Bytes) (r : F) (ct : CipherText G) (pf : Proof F) (n : Bytes)
    (hn : p.proofNonce = some n) (hd : p.domain = none)
    (h : (verifiableEncrypt env g ek (some msg) p fresh cn r).2 = .ok (ct, some pf)) :
    verifyEncryptProof env g ek n ct pf = .ok () := by
  obtain ⟨b, m, -, -, hm, h1, h2, -, -, -, h6⟩ := (C82_encrypt _ _ _ _ _ _ _ _ _ _).1 h
  rcases h6 with ⟨-, h6⟩ | ⟨-, n', c, hn', hc, hp⟩
  · cases h6
  rw [hn] at hn'; cases hn'
  rw [hd] at hc h2
  cases hp
  rw [C83_accept_iff]
  rw [hc]
  rw [← hc]
  have e1 : c • ct.c1 + (r - c * b) • g = r • g := by rw [h1]; module
  have e2 : c • ct.c2 + (r - c * b) • ek + (b - c * m) • g = r • ek + b • g := by
    rw [h2]; simp only [baseOf]; module
  simp only [e1, e2]
  exact hc.symm

/-- An honest proof made for the domain `d` with the proof nonce `n` is checked by `VerifyDomainEncryptProof`
against the base point of the *nonce*: it is accepted exactly when the hash with the second commitment shifted
by the response times the difference of the base points still gives the same challenge. -/
theorem C83_domain_exact (env : Env F G) (g : G) (ek : G) (msg : Bytes) (p : Params F)
    (fresh : F) (cn : Bytes) (r : F) (ct : CipherText G) (pf : Proof F) (n d : Bytes)
    (hn : p.proofNonce = some n) (hd : p.domain = some d)
    (h : (verifiableEncrypt env g ek (some msg) p fresh cn r).2 = .ok (ct, some pf)) :
    verifyDomainEncryptProof env g ek n ct pf = .ok () ↔
      env.hashS (env.encC ct.c1 ++ env.encC ct.c2 ++ env.encC (r • g) ++
        env.encC (r • ek + p.blinding.getD fresh • env.hashP (d ++ env.encU ek ++ cn) +
          pf.schnorr1 • (env.hashP (n ++ env.encU ek ++ cn) - env.hashP (d ++ env.encU ek ++ cn))) ++ n) =
      env.hashS (env.encC ct.c1 ++ env.encC ct.c2 ++ env.encC (r • g) ++
        env.encC (r • ek + p.blinding.getD fresh • env.hashP (d ++ env.encU ek ++ cn)) ++ n) := by
  obtain ⟨b, m, hb, -, hm, h1, h2, h3, -, -, h6⟩ := (C82_encrypt _ _ _ _ _ _ _ _ _ _).1 h
  rcases h6 with ⟨-, h6⟩ | ⟨-, n', c, hn', hc, hp⟩
  · cases h6
  rw [hn] at hn'; cases hn'
  rw [hd] at hc h2
  cases hp
  rw [← hb]
  simp only [baseOf] at hc h2
  rw [← hc]
  simp only [verifyDomainEncryptProof, verify, Go.guard_eq_ok, challenge, domainBase, h3]
  have e1 : c • ct.c1 + (r - c * b) • g = r • g := by rw [h1]; module
  generalize env.hashP (n ++ env.encU ek ++ cn) = hN at *
  generalize env.hashP (d ++ env.encU ek ++ cn) = hD at *
  have e2 : c • ct.c2 + (r - c * b) • ek + (b - c * m) • hN =
      r • ek + b • hD + (b - c * m) • (hN - hD) := by
    rw [h2]; module
  rw [e1, e2]

/-- in particular it verifies when the proof nonce is the domain -/
theorem C83_domain_complete (env : Env F G) (g : G) (ek : G) (msg : Bytes) (p : Params F)
    (fresh : F) (cn : Bytes) (r : F) (ct : CipherText G) (pf : Proof F) (d : Bytes)
    (hn : p.proofNonce = some d) (hd : p.domain = some d)
    (h : (verifiableEncrypt env g ek (some msg) p fresh cn r).2 = .ok (ct, some pf)) :
    verifyDomainEncryptProof env g ek d ct pf = .ok () := by
  rw [C83_domain_exact env g ek msg p fresh cn r ct pf d d hn hd h]
  rw [sub_self, smul_zero, add_zero]

/-- Two accepting transcripts with the same commitments and different challenges give a blinding and a message
that open the ciphertext. -/
theorem C83_special_soundness (g ek h : G) (c1 c2 r1 r2 : G) (c c' s1 s1' s2 s2' : F)
    (e1 : c • c1 + s2 • g = r1) (e2 : c • c2 + s2 • ek + s1 • h = r2)
    (e1' : c' • c1 + s2' • g = r1) (e2' : c' • c2 + s2' • ek + s1' • h = r2) (hc : c ≠ c') :
    c1 = ((s2' - s2) / (c - c')) • g ∧
    c2 = ((s1' - s1) / (c - c')) • h + ((s2' - s2) / (c - c')) • ek := by
  have hc' : c - c' ≠ 0 := sub_ne_zero.2 hc
  have inj : ∀ a b : G, (c - c') • a = (c - c') • b → a = b := by
    intro a b hab
    have := congrArg (fun y => (c - c')⁻¹ • y) hab
    simpa only [smul_smul, inv_mul_cancel₀ hc', one_smul] using this
  constructor
  · apply inj
    rw [smul_smul, mul_div_cancel₀ _ hc']
    rw [← sub_eq_zero] at e1 e1' ⊢
    have : c • c1 + s2 • g - r1 - (c' • c1 + s2' • g - r1) = 0 := by rw [e1, e1', sub_zero]
    rw [← this]; module
  · apply inj
    rw [smul_add, smul_smul, smul_smul, mul_div_cancel₀ _ hc', mul_div_cancel₀ _ hc']
    rw [← sub_eq_zero] at e2 e2' ⊢
    have : c • c2 + s2 • ek + s1 • h - r2 - (c' • c2 + s2' • ek + s1' • h - r2) = 0 := by
      rw [e2, e2', sub_zero]
    rw [← this]; module

/-- The proof reveals the message times the generator: the blinding of the ciphertext serves as the nonce of
the message response, so `C1 - s1•g = c•m•g`. -/
theorem C83_leak (env : Env F G) (g : G) (ek : G) (msg : Bytes) (p : Params F)
    (fresh : F) (cn : Bytes) (r : F) (ct : CipherText G) (pf : Proof F)
    (h : (verifiableEncrypt env g ek (some msg) p fresh cn r).2 = .ok (ct, some pf))
    (hc : pf.challenge ≠ 0) :
    ∃ m, Denotes env p.messageIsHashed msg m ∧
      m • g = pf.challenge⁻¹ • (ct.c1 - pf.schnorr1 • g) := by
  obtain ⟨b, m, -, -, hm, h1, h2, h3, -, -, h6⟩ := (C82_encrypt _ _ _ _ _ _ _ _ _ _).1 h
  rcases h6 with ⟨-, h6⟩ | ⟨-, n', c, hn', hcc, hp⟩
  · cases h6
  cases hp
  refine ⟨m, hm, ?_⟩
  have : ct.c1 - (b - c * m) • g = c • m • g := by rw [h1]; module
  rw [this, smul_smul, inv_mul_cancel₀ hc, one_smul]

/-! ## Reuse of parameters -/

/-- `VerifiableEncrypt` leaves the blinding in the caller's parameters; any further call with them uses
the same blinding, whatever the randomness. -/
theorem C105_params (env : Env F G) (g ek ek' : G) (msg msg' : Bytes) (p : Params F) (fresh fresh' : F)
    (cn cn' : Bytes) (r r' : F) :
    let p1 := (verifiableEncrypt env g ek (some msg) p fresh cn r).1
    p1.blinding = some (p.blinding.getD fresh) ∧
    p1 = { p with blinding := some (p.blinding.getD fresh) } ∧
    (verifiableEncrypt env g ek' (some msg') p1 fresh' cn' r').2 =
      (verifiableEncrypt env g ek' (some msg') p (p.blinding.getD fresh) cn' r').2 := by
  refine ⟨rfl, rfl, ?_⟩
  simp only [verifiableEncrypt, Option.getD_some]
  cases p.blinding <;> rfl

/-- Two ciphertexts made with the same parameters have the same first component and, without a domain, their
second components differ by the difference of the messages times the generator: anybody can tell whether
two messages are equal. -/
theorem C105_reuse (env : Env F G) (g ek : G) (msg msg' : Bytes) (p : Params F) (fresh fresh' : F)
    (cn cn' : Bytes) (r r' : F) (ct ct' : CipherText G) (pf pf' : Option (Proof F))
    (hd : p.domain = none)
    (h : (verifiableEncrypt env g ek (some msg) p fresh cn r).2 = .ok (ct, pf))
    (h' : (verifiableEncrypt env g ek (some msg')
      (verifiableEncrypt env g ek (some msg) p fresh cn r).1 fresh' cn' r').2 = .ok (ct', pf')) :
    ∃ m m', Denotes env p.messageIsHashed msg m ∧ Denotes env p.messageIsHashed msg' m' ∧
      ct'.c1 = ct.c1 ∧ ct'.c2 - ct.c2 = (m' - m) • g ∧
      ((∀ s : F, s • g = 0 → s = 0) → (ct'.c2 = ct.c2 ↔ m' = m)) := by
  rw [(C105_params env g ek ek msg msg' p fresh fresh' cn cn' r r').2.2] at h'
  obtain ⟨b, m, hb, -, hm, h1, h2, -⟩ := (C82_encrypt _ _ _ _ _ _ _ _ _ _).1 h
  obtain ⟨b', m', hb', -, hm', h1', h2', -⟩ := (C82_encrypt _ _ _ _ _ _ _ _ _ _).1 h'
  have hbb : b' = b := by
    rw [hb, hb']; cases p.blinding <;> rfl
  subst hbb
  rw [hd] at h2 h2'
  simp only [baseOf] at h2 h2'
  have hs : ct'.c2 - ct.c2 = (m' - m) • g := by rw [h2, h2']; module
  refine ⟨m, m', hm, hm', by rw [h1, h1'], hs, fun hg => ?_⟩
  rw [← sub_eq_zero, hs, ← sub_eq_zero (a := m')]
  exact ⟨hg _, fun e => by rw [e, zero_smul]⟩

/-- Two proofs for the same message made with the same parameters reveal the message scalar and the
blinding to anybody, as soon as their challenges differ. -/
theorem C105_recover (env : Env F G) (g ek : G) (msg : Bytes) (p : Params F) (fresh fresh' : F)
    (cn cn' : Bytes) (r r' : F) (ct ct' : CipherText G) (pf pf' : Proof F)
    (h : (verifiableEncrypt env g ek (some msg) p fresh cn r).2 = .ok (ct, some pf))
    (h' : (verifiableEncrypt env g ek (some msg)
      (verifiableEncrypt env g ek (some msg) p fresh cn r).1 fresh' cn' r').2 = .ok (ct', some pf'))
    (hc : pf.challenge ≠ pf'.challenge) :
    Denotes env p.messageIsHashed msg ((pf'.schnorr1 - pf.schnorr1) / (pf.challenge - pf'.challenge)) ∧
    ct.c1 = (pf.schnorr1 + pf.challenge *
      ((pf'.schnorr1 - pf.schnorr1) / (pf.challenge - pf'.challenge))) • g := by
  rw [(C105_params env g ek ek msg msg p fresh fresh' cn cn' r r').2.2] at h'
  obtain ⟨b, m, hb, -, hm, h1, -, -, -, -, h6⟩ := (C82_encrypt _ _ _ _ _ _ _ _ _ _).1 h
  obtain ⟨b', m', hb', -, hm', h1', -, -, -, -, h6'⟩ := (C82_encrypt _ _ _ _ _ _ _ _ _ _).1 h'
  have hbb : b' = b := by
    rw [hb, hb']; cases p.blinding <;> rfl
  subst hbb
  cases hm.unique hm'
  rcases h6 with ⟨-, h6⟩ | ⟨-, -, c, -, -, hp⟩
  · cases h6
  rcases h6' with ⟨-, h6'⟩ | ⟨-, -, c', -, -, hp'⟩
  · cases h6'
  cases hp
  cases hp'
  simp only at hc ⊢
  have hc' : c - c' ≠ 0 := sub_ne_zero.2 hc
  have : (b' - c' * m - (b' - c * m)) / (c - c') = m := by
    rw [div_eq_iff hc']; ring
  rw [this]
  exact ⟨hm, by rw [h1]; congr 1; ring⟩

/-! ## Malformed inputs -/

/-- Decryption of any ciphertext panics exactly when its nonce is longer than 12 bytes and its AEAD part has at
least 16 bytes; the nil ciphertext is refused. -/
theorem C106_decrypt_panics (env : Env F G) (g : G) (x : F) (d : Bytes) (ct : CipherText G) :
    (verifiableDecrypt env g x (some ct) = .error .panic ↔ 12 < ct.nonce.length ∧ 16 ≤ ct.aead.length) ∧
    (verifiableDecryptWithDomain env g x d (some ct) = .error .panic ↔
      12 < ct.nonce.length ∧ 16 ≤ ct.aead.length) ∧
    verifiableDecrypt env g x none = .error .error ∧
    verifiableDecryptWithDomain env g x d none = .error .error := by
  refine ⟨?_, ?_, rfl, rfl⟩ <;>
  · simp only [verifiableDecrypt, verifiableDecryptWithDomain, decryptData, Go.ofOption, Go.ok_bind]
    by_cases hl : ct.nonce.length < 12 ∨ ct.aead.length < 16
    · rw [Go.guard_false (not_not.2 hl)]
      constructor
      · intro hh; cases hh
      · omega
    · rw [Go.guard_true hl, Go.ok_bind]
      by_cases hn : ct.nonce.length = 12
      · rw [if_neg (by omega)]
        constructor
        · intro hh
          exfalso
          cases ho : env.opn (env.kdf (x • ct.c1)) ct.nonce ct.aead (aad env ct.c1 ct.c2) with
          | none => rw [ho] at hh; cases hh
          | some m =>
            rw [ho] at hh
            simp only [Go.ok_bind] at hh
            cases hm : msgScalar env ct.msgIsHashed m with
            | error e =>
              have : e = .error := by
                simp only [msgScalar] at hm
                split at hm
                · cases hd : env.cd.dec m with
                  | none => rw [hd] at hm; cases hm; rfl
                  | some s => rw [hd] at hm; cases hm
                · cases hm
              subst this
              rw [hm] at hh; cases hh
            | ok s =>
              rw [hm] at hh
              simp only [Go.ok_bind] at hh
              unfold Go.guard at hh
              split at hh <;> cases hh
        · omega
      · rw [if_pos hn]
        exact ⟨fun _ => ⟨by omega, by omega⟩, fun _ => rfl⟩

/-- Proofs survive serialization; a proof for an unknown curve panics instead of being refused, and that is the
only way the decoder panics. -/
theorem C106_proof_codec (cd : ScalarCodec F) (known : String → Bool) (name : String) (p : Proof F)
    (tv : ProofMarshal) :
    (known name = true → Proof.unmarshal cd known (p.marshal cd name) = .ok p) ∧
    (Proof.unmarshal cd known tv = .error .panic ↔ known tv.curve = false) ∧
    (Proof.unmarshal cd known tv = .ok p ↔ known tv.curve = true ∧ tv = p.marshal cd tv.curve) := by
  refine ⟨fun h => ?_, ?_, ?_⟩
  · simp only [Proof.unmarshal, Proof.marshal, h, if_true, cd.dec_enc, Go.ofOption, Go.ok_bind]
  · unfold Proof.unmarshal
    cases hk : known tv.curve
    · simp [Go.crash]
    · simp only [if_true]
      cases cd.dec tv.challenge <;> cases cd.dec tv.schnorr1 <;> cases cd.dec tv.schnorr2 <;>
        simp [Go.ofOption, Go.err, Go.ok_bind, Go.error_bind]
  · constructor
    · intro h
      unfold Proof.unmarshal at h
      cases hk : known tv.curve
      · rw [hk] at h; cases h
      · rw [hk] at h
        simp only [if_true] at h
        obtain ⟨c, hc, h⟩ := Go.bind_eq_ok.1 h
        obtain ⟨s1, h1, h⟩ := Go.bind_eq_ok.1 h
        obtain ⟨s2, h2, h⟩ := Go.bind_eq_ok.1 h
        cases h
        refine ⟨rfl, ?_⟩
        obtain ⟨a, b, c', d⟩ := tv
        simp only [Proof.marshal, ProofMarshal.mk.injEq]
        exact ⟨(cd.enc_dec _ _ (Go.ofOption_eq_ok.1 hc)).symm, (cd.enc_dec _ _ (Go.ofOption_eq_ok.1 h1)).symm,
          (cd.enc_dec _ _ (Go.ofOption_eq_ok.1 h2)).symm, trivial⟩
    · rintro ⟨hk, h⟩
      rw [h]
      simp only [Proof.unmarshal, Proof.marshal, hk, if_true, cd.dec_enc, Go.ofOption, Go.ok_bind]

/-- Ciphertexts survive serialization, and the decoder never panics. -/
theorem C106_ciphertext_codec (encC : G → Bytes) (decC : Bytes → Option G)
    (hdec : ∀ p, decC (encC p) = some p) (known : String → Bool) (name : String) (c : CipherText G)
    (tv : CipherTextMarshal) :
    (known name = true → CipherText.unmarshal decC known (c.marshal encC name) = .ok c) ∧
    (known tv.curve = false → CipherText.unmarshal decC known tv = .error .error) ∧
    CipherText.unmarshal decC known tv ≠ .error .panic := by
  refine ⟨fun h => ?_, fun h => ?_, ?_⟩
  · unfold CipherText.unmarshal
    rw [Go.guard_true (by exact h)]
    simp only [CipherText.marshal, hdec, Go.ofOption, Go.ok_bind]
  · simp only [CipherText.unmarshal]
    rw [Go.guard_false (by simp [h])]
    rfl
  · unfold CipherText.unmarshal
    by_cases hk : known tv.curve = true
    · rw [Go.guard_true hk]
      cases decC tv.c1 <;> cases decC tv.c2 <;>
        simp [Go.ofOption, Go.err, Go.ok_bind, Go.error_bind]
    · rw [Go.guard_false hk]
      simp [Go.err, Go.error_bind]

/-! ## Examples -/

/-- toy AEAD: the message, the key and a constant tag; toy hashes -/
def toyEnv : Env Toy.K Toy.K where
  cd := Toy.codec
  hashS b := b.foldl (fun (a : Toy.K) x => 3 * a + (x.toNat : Toy.K) + 1) 5
  hashP b := b.foldl (fun (a : Toy.K) x => 7 * a + (x.toNat : Toy.K) + 1) 9
  encC := Toy.codec.enc
  encU := Toy.codec.enc
  kdf := Toy.codec.enc
  gseal k _ m a := List.replicate 16 0 ++ k ++ a ++ m
  opn k _ c a := if c.take (16 + (k ++ a).length) = List.replicate 16 0 ++ k ++ a then
    some (c.drop (16 + (k ++ a).length)) else none

theorem toyEnv_aead : AeadOk toyEnv where
  open_seal k n m a := by
    have hlen : (List.replicate 16 (0 : UInt8) ++ k ++ a).length = 16 + (k ++ a).length := by
      simp; omega
    simp only [toyEnv]
    rw [← hlen, List.take_left', List.drop_left'] <;> simp
  tag k n m a := by simp [toyEnv]

/-- toy parameters with a proof, without a domain and without a blinding -/
def toyParams : Params Toy.K := ⟨false, none, none, true, some [1, 2]⟩

def toyNonce : Bytes := [1, 2, 3, 4, 5, 6, 7, 8, 9, 10, 11, 12]

/-- an encryption with a proof that is accepted and decrypts; the premises of C82_encrypt, C82_roundtrip,
C83_complete and C83_leak are met -/
example : ∃ ct pf, (verifiableEncrypt toyEnv (1 : Toy.K) (encryptionKey 1 (42 : Toy.K)) (some [9, 9])
      toyParams 17 toyNonce 23).2 = .ok (ct, some pf) ∧
    verifyEncryptProof toyEnv (1 : Toy.K) (encryptionKey 1 (42 : Toy.K)) [1, 2] ct pf = .ok () ∧
    pf.challenge ≠ 0 ∧ (verifiableDecrypt toyEnv (1 : Toy.K) 42 (some ct)).toOption.map Prod.fst =
      some [9, 9] := by
  refine ⟨_, _, rfl, ?_⟩
  decide +kernel

/-- an honest proof for a domain different from the nonce is refused, one with equal domain and nonce is
accepted -/
example :
    (∃ ct pf, (verifiableEncrypt toyEnv (1 : Toy.K) (encryptionKey 1 (42 : Toy.K)) (some [9, 9])
      { toyParams with domain := some [7] } 17 toyNonce 23).2 = .ok (ct, some pf) ∧
      verifyDomainEncryptProof toyEnv (1 : Toy.K) (encryptionKey 1 (42 : Toy.K)) [1, 2] ct pf =
        .error .error) ∧
    (∃ ct pf, (verifiableEncrypt toyEnv (1 : Toy.K) (encryptionKey 1 (42 : Toy.K)) (some [9, 9])
      { toyParams with domain := some [1, 2] } 17 toyNonce 23).2 = .ok (ct, some pf) ∧
      verifyDomainEncryptProof toyEnv (1 : Toy.K) (encryptionKey 1 (42 : Toy.K)) [1, 2] ct pf = .ok ()) := by
  refine ⟨⟨_, _, rfl, ?_⟩, ⟨_, _, rfl, ?_⟩⟩ <;> decide +kernel

/-- two calls with the same parameters: the second one uses the blinding 17 of the first although fresh
randomness 99 is at hand; challenges differ as the premise of C105_recover wants -/
example : ∃ ct ct' pf pf', (verifiableEncrypt toyEnv (1 : Toy.K) 42 (some [9, 9]) toyParams 17 toyNonce
      23).2 = .ok (ct, some pf) ∧
    (verifiableEncrypt toyEnv (1 : Toy.K) 42 (some [9, 9]) (verifiableEncrypt toyEnv (1 : Toy.K) 42
      (some [9, 9]) toyParams 17 toyNonce 23).1 99 toyNonce 24).2 = .ok (ct', some pf') ∧
    ct.c1 = 17 ∧ ct'.c1 = 17 ∧ pf.challenge ≠ pf'.challenge := by
  refine ⟨_, _, _, _, rfl, rfl, ?_⟩
  decide +kernel

/-- a ciphertext with a nonce of 13 bytes panics -/
example : verifiableDecrypt toyEnv (1 : Toy.K) (42 : Toy.K)
    (some ⟨1, 2, List.replicate 13 0, List.replicate 16 0, false⟩) = .error .panic := by decide +kernel

/-- an unknown curve panics -/
example : Proof.unmarshal Toy.codec (fun s => s == "toy") ⟨[], [], [], "other"⟩ = .error .panic := by
  decide +kernel

/-- a sum of three ciphertexts -/
example : ([((2 : Toy.K), (5 : Toy.K)), (3, 6)].foldl (fun acc mr => acc.add (homEncrypt (1 : Toy.K)
    (encryptionKey 1 (42 : Toy.K)) mr.1 mr.2)) (homEncrypt (1 : Toy.K) (encryptionKey 1 (42 : Toy.K))
    (4 : Toy.K) 7)).decrypt
    (42 : Toy.K) = 9 := by decide +kernel

/-- special soundness on concrete transcripts -/
example : ((3 : Toy.K) • (17 : Toy.K) + (10 : Toy.K) • (1 : Toy.K) = 61) ∧
    ((5 : Toy.K) • (17 : Toy.K) + (-24 : Toy.K) • (1 : Toy.K) = 61) ∧ (3 : Toy.K) ≠ 5 ∧
    (((-24 : Toy.K) - 10) / (3 - 5)) • (1 : Toy.K) = 17 := by decide +kernel

end Verif.ElGamal
