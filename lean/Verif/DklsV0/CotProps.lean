import Verif.DklsV0.CotModel
import Verif.DklsV0.SeedProps
import Verif.Dkls.MulProps

/-!
# C201: the correlated OT extension of the older DKLs

The consistency check of the protocol multiplies in GF(2^256); the code multiplies bit by bit.
-/

namespace Verif.DklsV0
open Verif.Legacy Verif.Ot

/-! ## Bits -/

/-- the sum of bits modulo two -/
def parity {n : ℕ} (f : Fin n → Bool) : Bool := (List.finRange n).foldl (fun a j => a ^^ f j) false

theorem parity_list {α : Type} (f g : α → Bool) : ∀ (l : List α) (x y : Bool),
    l.foldl (fun a j => a ^^ (f j ^^ g j)) (x ^^ y) = (l.foldl (fun a j => a ^^ f j) x ^^ l.foldl (fun a j => a ^^ g j) y)
  | [], _, _ => rfl
  | a :: l, x, y => by
    rw [List.foldl_cons, List.foldl_cons, List.foldl_cons, ← parity_list f g l]
    congr 1
    cases x <;> cases y <;> cases f a <;> cases g a <;> rfl

theorem parity_xor {n : ℕ} (f g : Fin n → Bool) : parity (fun j => f j ^^ g j) = (parity f ^^ parity g) :=
  parity_list f g _ false false

theorem parity_false {n : ℕ} : parity (fun _ : Fin n => false) = false := by
  unfold parity
  generalize List.finRange n = l
  induction l with
  | nil => rfl
  | cons a l ih => exact ih

theorem parity_and {n : ℕ} (c : Bool) (f : Fin n → Bool) : parity (fun j => c && f j) = (c && parity f) := by
  cases c
  · simp only [Bool.false_and]; exact parity_false
  · simp only [Bool.true_and]

theorem bitAt_xorSum {n : ℕ} (f : Fin n → Digest) (k : ℕ) (hk : k < 256) :
    bitAt (xorSum n f) k = parity fun j => bitAt (f j) k := by
  unfold xorSum parity
  have : ∀ (l : List (Fin n)) (acc : Digest) (b : Bool), bitAt acc k = b →
      bitAt (l.foldl (fun acc j => xorBytes acc (f j)) acc) k = l.foldl (fun a j => a ^^ bitAt (f j) k) b := by
    intro l
    induction l with
    | nil => intro acc b h; exact h
    | cons a l ih =>
      intro acc b h
      refine ih _ _ ?_
      rw [bitAt_xor _ _ _ (by omega), h]
  exact this _ _ _ (bitAt_zero _)

theorem bitAt_and {n : ℕ} (v w : Vector UInt8 n) (i : ℕ) (hi : i < 8 * n) : bitAt (andBytes v w) i = (bitAt v i && bitAt w i) := by
  rw [bitAt_eq _ _ hi, bitAt_eq _ _ hi, bitAt_eq _ _ hi, andBytes, Vector.getElem_zipWith, UInt8.toNat_and, Nat.testBit_and]

theorem bitAt_or {n : ℕ} (v w : Vector UInt8 n) (i : ℕ) (hi : i < 8 * n) : bitAt (orBytes v w) i = (bitAt v i || bitAt w i) := by
  rw [bitAt_eq _ _ hi, bitAt_eq _ _ hi, bitAt_eq _ _ hi, orBytes, Vector.getElem_zipWith, UInt8.toNat_or, Nat.testBit_or]

theorem mask_bit {n : ℕ} (c : Bool) (v : Vector UInt8 n) (i : ℕ) :
    bitAt (maskBytes (convertBitToBitmask (UInt8.ofNat c.toNat)) v) i = (c && bitAt v i) := by
  rw [bitmask_bool, maskBytes_bool]
  cases c
  · rw [if_neg (by simp), bitAt_zero]; rfl
  · rw [if_pos rfl]; rfl

/-! ## The two parties -/

section
variable (env : Env)

/-- the pseudorandom row of a seed -/
def expand (m : ℕ) (idExt seed : Digest) : Vector UInt8 (extBytes m) :=
  copied (extBytes m) ((xmd env seed.toList idExt.toList (extBytes m)).toOption.getD [])

theorem xmd_ok (msg dst : List UInt8) (hd : dst.length ≤ 255) (len : ℕ) (h0 : 0 < len) (h : len ≤ 8160) :
    ∃ r, xmd env msg dst len = .ok r ∧ r.length = len := by
  obtain ⟨r, h1, h2⟩ := Core.C89_expand_length (fun x => (env.sha x).toList) 32 64 (by omega) (by omega)
    (fun x => Vector.length_toList) msg dst hd len (by omega) (by omega)
  exact ⟨r, h1, by omega⟩

theorem row_ok {m : ℕ} (hm : m ≤ 126) (idExt seed : Digest) :
    ∃ r, xmd env seed.toList idExt.toList (extBytes m) = .ok r ∧ copied (extBytes m) r = expand env m idExt seed := by
  obtain ⟨r, h, -⟩ := xmd_ok env seed.toList idExt.toList (by rw [Vector.length_toList]; omega) (extBytes m)
    (by show 0 < 64 * m + 20 + 42; omega) (by show 64 * m + 20 + 42 ≤ 8160; omega)
  exact ⟨r, h, by rw [expand, h]; rfl⟩

/-- what the receiver sends in row `i` -/
def rowU (m : ℕ) (idExt : Digest) (w : Vector UInt8 (extBytes m)) (rho : Digest × Digest) : Vector UInt8 (extBytes m) :=
  xorBytes (xorBytes (expand env m idExt rho.1) (expand env m idExt rho.2)) w

theorem cotRow_eq {m : ℕ} (hm : m ≤ 126) (idExt : Digest) (w : Vector UInt8 (extBytes m)) (rho : Digest × Digest) :
    cotRow env m idExt w rho = .ok (expand env m idExt rho.1, rowU env m idExt w rho) := by
  obtain ⟨r0, h0, e0⟩ := row_ok env hm idExt rho.1
  obtain ⟨r1, h1, e1⟩ := row_ok env hm idExt rho.2
  unfold cotRow
  rw [h0, Go.ok_bind, h1, Go.ok_bind, e0, e1]; rfl

/-- the choice vector followed by the random bytes -/
def wOf {m : ℕ} (choice : List UInt8) (gamma : Vector UInt8 42) : Vector UInt8 (extBytes m) := copied _ (choice ++ gamma.toList)

/-- C201: the suffix of the hashes tells the columns apart as long as there are at most 2048 of them, as for all `m ≤ 2`; column 2048 has the suffix
of column 0.  The challenges are the hashes of the digest of all rows with it. -/
theorem C201_idx (U : Fin 256 → List UInt8) : (∀ j j', j < 2048 → j' < 2048 → idx j = idx j' → j = j') ∧ idx 2048 = idx 0 ∧ (∀ m ≤ 2, 8 * extBytes m ≤ 2048) ∧
    ∀ j < 2048, chi env (hashU env U) j = env.sha ((env.sha (List.ofFn U).flatten).toList ++ [UInt8.ofNat (j % 8), UInt8.ofNat (j / 8)]) := by
  have e : ∀ j, idx j = [UInt8.ofNat (j % 8), UInt8.ofNat (j / 8)] := fun j => by
    unfold idx
    rw [show (0x07 : ℕ) = 2 ^ 3 - 1 from rfl, Nat.and_two_pow_sub_one_eq_mod, Nat.shiftRight_eq_div_pow]
  refine ⟨fun j j' h h' he => ?_, by decide, fun m hm => by simp only [extBytes, choBytes]; omega, fun j _ => ?_⟩
  · rw [e, e] at he
    have h1 := congrArg UInt8.toNat (List.cons.inj he).1
    have h2 := congrArg UInt8.toNat (List.cons.inj (List.cons.inj he).2).1
    simp only [UInt8.toNat_ofNat'] at h1 h2
    omega
  · unfold chi hashU
    rw [e]

/-- C201: the receiver's message and state, for every earlier state, when the choice vector has the right length -/
theorem C201_init {m : ℕ} (hm : m ≤ 126) (st : CotReceiver m) (rho : Fin 256 → Digest × Digest) (idExt : Digest) (choice : List UInt8)
    (hc : choice.length = choBytes m) (gamma : Vector UInt8 42) : ∃ msg st', cotInit env st rho idExt choice gamma = .ok (msg, st') ∧
      st'.w = wOf choice gamma ∧
      (∀ i, msg.U i = (rowU env m idExt st'.w (rho i)).toList) ∧
      (∀ (j : ℕ) (hj : j < 8 * extBytes m) (i : Fin 256),
        bitAt (st'.psi[j]'hj) i = (bitAt (st.psi[j]'hj) i || bitAt (expand env m idExt (rho i).1) j)) ∧
      (∀ k < 256, bitAt msg.wPrime k = parity fun j : Fin (8 * extBytes m) => bitAt st'.w j && bitAt (chi env (hashU env msg.U) j) k) ∧
      (∀ k < 256, bitAt msg.vPrime k = parity fun j : Fin (8 * extBytes m) => bitAt st'.psi[j.val] k && bitAt (chi env (hashU env msg.U) j) k) := by
  have hw : (Vector.ofFn fun j : Fin (extBytes m) => if j.val < choBytes m then (if j.val < choice.length then choice.getD j.val 0 else st.w[j.val])
      else gamma.toList.getD (j.val - choBytes m) 0) = wOf choice gamma := by
    refine Vector.ext fun j hj => ?_
    rw [wOf, copied, Vector.getElem_ofFn, Vector.getElem_ofFn]
    simp only
    split
    · rename_i h
      rw [if_pos (by omega), List.getD_append _ _ _ _ (by omega)]
    · rename_i h
      rw [List.getD_append_right _ _ _ _ (by omega), hc]
  unfold cotInit
  simp only
  rw [hw, Go.tabulate_ok _ (fun i => cotRow_eq env hm idExt (wOf choice gamma) (rho i))]
  refine ⟨_, _, rfl, rfl, fun i => rfl, fun j hj i => ?_, fun k hk => ?_, fun k hk => ?_⟩
  · dsimp only
    rw [Vector.getElem_ofFn, bitAt_or _ _ _ (by omega)]
    refine congrArg₂ (· || ·) rfl ?_
    rw [C34_transpose _ _ _ (by omega) hj, Vector.getElem_ofFn]
  · dsimp only
    rw [bitAt_xorSum _ _ hk]
    congr 1
    funext j
    rw [extractBit_bitAt, mask_bit]
  · dsimp only
    rw [bitAt_xorSum _ _ hk]
    congr 1
    funext j
    rw [bitAt_and _ _ _ (by omega)]

theorem cotZRow_eq {m : ℕ} (hm : m ≤ 126) (idExt rho : Digest) (c : Bool) (U : List UInt8) (hU : extBytes m ≤ U.length) :
    cotZRow env m idExt rho c.toNat U =
      .ok (xorBytes (expand env m idExt rho) (maskBytes (convertBitToBitmask (UInt8.ofNat c.toNat)) (copied (extBytes m) U))) := by
  obtain ⟨r0, h0, e0⟩ := row_ok env hm idExt rho
  unfold cotZRow
  rw [h0, Go.ok_bind, if_neg (by omega), e0]; rfl

/-- C201: the sender's matrix for every message whose rows are long enough -/
theorem C201_zeta {m : ℕ} (hm : m ≤ 126) (idExt packed : Digest) (rho : Fin 256 → Digest) (U : Fin 256 → List UInt8)
    (hU : ∀ i, extBytes m ≤ (U i).length) : ∃ zeta, cotZeta env m idExt packed rho U = .ok zeta ∧
      ∀ (j : ℕ) (hj : j < 8 * extBytes m) (i : Fin 256),
        bitAt (zeta[j]'hj) i = (bitAt (expand env m idExt (rho i)) j ^^ (bit packed i && bitAt (copied (extBytes m) (U i)) j)) := by
  unfold cotZeta
  rw [Go.tabulate_ok _ (fun i => by rw [choiceBit_eq]; exact cotZRow_eq env hm idExt (rho i) (bit packed i) (U i) (hU i))]
  refine ⟨_, rfl, fun j hj i => ?_⟩
  rw [C34_transpose _ _ _ (by omega) hj, Vector.getElem_ofFn, bitAt_xor _ _ _ hj, mask_bit]

/-- C201: a message with a short row makes the sender panic -/
theorem C201_short {m : ℕ} (hm : m ≤ 126) (idExt packed : Digest) (rho : Fin 256 → Digest) (main : Fin (512 * m) → ℤ) (ot : Fin 160 → Fin m → ℤ)
    (input : CotInit) (i : Fin 256) (hi : (input.U i).length < extBytes m) :
    cotTransfer env m idExt packed rho main ot input = Go.crash := by
  have hz : cotZeta env m idExt packed rho input.U = Go.crash := by
    unfold cotZeta
    have : ∀ i, cotZRow env m idExt (rho i) (choiceBit packed i) (input.U i) =
        if (input.U i).length < extBytes m then Go.crash else .ok (xorBytes (expand env m idExt (rho i))
          (maskBytes (~~~(UInt8.ofNat (choiceBit packed i) - 1)) (copied (extBytes m) (input.U i)))) := by
      intro i
      obtain ⟨r0, h0, e0⟩ := row_ok env hm idExt (rho i)
      unfold cotZRow
      rw [h0, Go.ok_bind, e0]
    classical
    have hex : ∃ n : ℕ, ∃ h : n < 256, (input.U ⟨n, h⟩).length < extBytes m := ⟨i, i.2, hi⟩
    obtain ⟨hn, hlt⟩ := Nat.find_spec hex
    rw [(Go.tabulate_eq_error (e := .panic)).2 ⟨⟨Nat.find hex, hn⟩, ?_, ?_⟩]
    · rfl
    · rw [this, if_pos hlt]
    · intro j hj
      rw [this, if_neg]
      · exact ⟨_, rfl⟩
      · intro h
        exact Nat.find_min hex (show j.val < Nat.find hex from hj) ⟨j.2, h⟩
  unfold cotTransfer
  rw [hz]; rfl

/-- C201: what the check tests, bit by bit -/
theorem C201_check {m : ℕ} (packed : Digest) (zeta : Vector Digest (8 * extBytes m)) (input : CotInit) :
    cotCheck env packed zeta input ↔ ∀ k < 256,
      (parity fun j : Fin (8 * extBytes m) => bitAt zeta[j.val] k && bitAt (chi env (hashU env input.U) j) k) =
        (bitAt input.vPrime k ^^ (bit packed k && bitAt input.wPrime k)) := by
  have e : ∀ k < 256, bitAt (xorSum (8 * extBytes m) (fun j => andBytes zeta[j.val] (chi env (hashU env input.U) j))) k =
      parity fun j : Fin (8 * extBytes m) => bitAt zeta[j.val] k && bitAt (chi env (hashU env input.U) j) k := fun k hk => by
    rw [bitAt_xorSum _ _ hk]
    congr 1
    funext j
    rw [bitAt_and _ _ _ (by omega)]
  have e' : ∀ k < 256, bitAt (xorBytes input.vPrime (andBytes packed input.wPrime)) k =
      (bitAt input.vPrime k ^^ (bit packed k && bitAt input.wPrime k)) := fun k hk => by
    rw [bitAt_xor _ _ _ (by omega), bitAt_and _ _ _ (by omega)]
  unfold cotCheck
  constructor
  · intro h k hk
    rw [← e k hk, ← e' k hk, h]
  · intro h
    refine vec_ext fun k hk => ?_
    rw [e k (by omega), e' k (by omega), h k (by omega)]

/-- the 32 bytes with given bits -/
theorem exists_bits (f : ℕ → Bool) : ∃ v : Digest, ∀ k < 256, bitAt v k = f k := by
  have hb : ∀ g : ℕ → Bool, ∃ b : UInt8, ∀ p < 8, b.toNat.testBit p = g p := by
    intro g
    refine ⟨UInt8.ofNat (∑ p ∈ Finset.range 8, (g p).toNat * 2 ^ p), ?_⟩
    have : ∀ x0 x1 x2 x3 x4 x5 x6 x7 : Bool, ∀ p < 8,
        (UInt8.ofNat (x0.toNat * 2 ^ 0 + x1.toNat * 2 ^ 1 + x2.toNat * 2 ^ 2 + x3.toNat * 2 ^ 3 + x4.toNat * 2 ^ 4 + x5.toNat * 2 ^ 5 +
          x6.toNat * 2 ^ 6 + x7.toNat * 2 ^ 7)).toNat.testBit p = [x0, x1, x2, x3, x4, x5, x6, x7].getD p false := by decide +kernel
    intro p hp
    have h := this (g 0) (g 1) (g 2) (g 3) (g 4) (g 5) (g 6) (g 7) p hp
    simp only [Finset.sum_range_succ, Finset.sum_range_zero, zero_add]
    rw [h]
    interval_cases p <;> rfl
  choose b hb using fun i : ℕ => hb fun p => f (8 * i + p)
  refine ⟨Vector.ofFn fun i => b i, fun k hk => ?_⟩
  rw [bitAt_eq _ _ (by omega), Vector.getElem_ofFn, hb _ _ (by omega)]
  show f (8 * (k / 8) + k % 8) = f k
  congr 1; omega

theorem expand_pick (m : ℕ) (idExt : Digest) (c : Bool) (r : Digest × Digest) (j : ℕ) : bitAt (expand env m idExt (pick c r)) j =
    if c then bitAt (expand env m idExt r.2) j else bitAt (expand env m idExt r.1) j := by cases c <;> rfl

/-- C201: the check is vacuous.  A receiver may use another choice vector in every row (any rows `U` at all): the two values that it sends
with them can be chosen so that the check passes for every secret `packed` of the sender.  The sender's matrix then differs from the
receiver's by a different vector in each row. -/
theorem C201_check_vacuous {m : ℕ} (hm : m ≤ 126) (idExt : Digest) (rho : Fin 256 → Digest × Digest) (U : Fin 256 → List UInt8)
    (hU : ∀ i, extBytes m ≤ (U i).length) : ∃ wPrime vPrime, ∀ packed, ∃ zeta,
      cotZeta env m idExt packed (fun i => pick (bit packed i) (rho i)) U = .ok zeta ∧ cotCheck env packed zeta ⟨wPrime, vPrime, U⟩ ∧
      ∀ (j : ℕ) (hj : j < 8 * extBytes m) (i : Fin 256), bitAt (zeta[j]'hj) i = (bitAt (expand env m idExt (rho i).1) j ^^
        (bit packed i && bitAt (xorBytes (xorBytes (expand env m idExt (rho i).1) (expand env m idExt (rho i).2)) (copied (extBytes m) (U i))) j)) := by
  obtain ⟨vP, hv⟩ := exists_bits fun k => if h : k < 256 then
    parity fun j : Fin (8 * extBytes m) => bitAt (expand env m idExt (rho ⟨k, h⟩).1) j && bitAt (chi env (hashU env U) j) k else false
  obtain ⟨wP, hw⟩ := exists_bits fun k => if h : k < 256 then
    parity fun j : Fin (8 * extBytes m) => bitAt (xorBytes (xorBytes (expand env m idExt (rho ⟨k, h⟩).1) (expand env m idExt (rho ⟨k, h⟩).2))
      (copied (extBytes m) (U ⟨k, h⟩))) j && bitAt (chi env (hashU env U) j) k else false
  refine ⟨wP, vP, fun packed => ?_⟩
  obtain ⟨zeta, hz, hzb⟩ := C201_zeta env hm idExt packed (fun i => pick (bit packed i) (rho i)) U hU
  have hb : ∀ (j : ℕ) (hj : j < 8 * extBytes m) (i : Fin 256), bitAt (zeta[j]'hj) i = (bitAt (expand env m idExt (rho i).1) j ^^
        (bit packed i && bitAt (xorBytes (xorBytes (expand env m idExt (rho i).1) (expand env m idExt (rho i).2)) (copied (extBytes m) (U i))) j)) := by
    intro j hj i
    rw [hzb j hj i, bitAt_xor _ _ _ hj, bitAt_xor _ _ _ hj, expand_pick]
    cases bit packed i <;> cases bitAt (expand env m idExt (rho i).1) j <;> cases bitAt (expand env m idExt (rho i).2) j <;>
      cases bitAt (copied (extBytes m) (U i)) j <;> rfl
  refine ⟨zeta, hz, (C201_check env packed zeta _).2 fun k hk => ?_, hb⟩
  rw [hv k hk, hw k hk, dif_pos hk, dif_pos hk, ← parity_and, ← parity_xor]
  congr 1
  funext j
  have := hb j.val j.2 ⟨k, hk⟩
  simp only at this
  rw [this]
  generalize bitAt (expand env m idExt (rho ⟨k, hk⟩).1) j = a
  generalize bitAt (xorBytes (xorBytes _ _) _) j = b
  generalize bitAt (chi env (hashU env U) j) k = c
  cases a <;> cases bit packed k <;> cases b <;> cases c <;> rfl

theorem copied_toList {n : ℕ} (v : Vector UInt8 n) : copied n v.toList = v := by
  refine Vector.ext fun i hi => ?_
  rw [copied, Vector.getElem_ofFn, vec_getD _ _ hi]

/-- C201: honest parties, with a new receiver and the seeds of the seed OT: the check passes and the sender's columns differ from the
receiver's by `packed` where the choice bit is set -/
theorem C201_agree {m : ℕ} (hm : m ≤ 126) (rho : Fin 256 → Digest × Digest) (idExt packed : Digest) (choice : List UInt8)
    (hc : choice.length = choBytes m) (gamma : Vector UInt8 42) : ∃ msg st' zeta,
      cotInit env (newCotReceiver m) rho idExt choice gamma = .ok (msg, st') ∧ st'.w = wOf choice gamma ∧
      cotZeta env m idExt packed (fun i => pick (bit packed i) (rho i)) msg.U = .ok zeta ∧ cotCheck env packed zeta msg ∧
      ∀ (j : ℕ) (hj : j < 8 * extBytes m), (zeta[j]'hj) = if bitAt st'.w j then xorBytes (st'.psi[j]'hj) packed else st'.psi[j]'hj := by
  obtain ⟨msg, st', h1, hw, hU, hpsi, hW, hV⟩ := C201_init env hm (newCotReceiver m) rho idExt choice hc gamma
  obtain ⟨zeta, hz, hzb⟩ := C201_zeta env hm idExt packed (fun i => pick (bit packed i) (rho i)) msg.U (fun i => by
    rw [hU i, Vector.length_toList])
  have hp : ∀ (j : ℕ) (hj : j < 8 * extBytes m) (i : Fin 256), bitAt (st'.psi[j]'hj) i = bitAt (expand env m idExt (rho i).1) j := by
    intro j hj i
    rw [hpsi j hj i]
    have : (newCotReceiver m).psi[j]'hj = Vector.replicate 32 0 := by rw [newCotReceiver]; exact Vector.getElem_replicate _
    rw [this, bitAt_zero, Bool.false_or]
  have hb : ∀ (j : ℕ) (hj : j < 8 * extBytes m) (k : ℕ), k < 256 → bitAt (zeta[j]'hj) k = (bitAt (st'.psi[j]'hj) k ^^ (bit packed k && bitAt st'.w j)) := by
    intro j hj k hk
    have e1 := hzb j hj ⟨k, hk⟩
    have e2 := hp j hj ⟨k, hk⟩
    simp only at e1 e2
    rw [e1, e2, hU, copied_toList, rowU, bitAt_xor _ _ _ hj, bitAt_xor _ _ _ hj, expand_pick]
    cases bit packed k <;> cases bitAt (expand env m idExt (rho ⟨k, hk⟩).1) j <;> cases bitAt (expand env m idExt (rho ⟨k, hk⟩).2) j <;>
      cases bitAt st'.w j <;> rfl
  refine ⟨msg, st', zeta, h1, hw, hz, (C201_check env packed zeta msg).2 fun k hk => ?_, fun j hj => vec_ext fun k hk => ?_⟩
  · rw [hW k hk, hV k hk, ← parity_and, ← parity_xor]
    congr 1
    funext j
    rw [hb j.val j.2 k hk]
    generalize bitAt st'.psi[j.val] k = a
    generalize bitAt st'.w j.val = b
    generalize bitAt (chi env (hashU env msg.U) j) k = c
    cases a <;> cases bit packed k <;> cases b <;> cases c <;> rfl
  · rw [hb j hj k (by omega)]
    cases h : bitAt st'.w j
    · simp
    · rw [if_pos rfl, bitAt_xor _ _ _ (by omega), Bool.and_true]

/-! ## Correlation -/

variable {env}

theorem tau_eq (h0 : 0 < env.q) (a b c : ℤ) : tau env a b c = .ok ((a - b + c) % env.q) := by
  unfold tau
  rw [sc_sub h0, Go.ok_bind, sc_add h0, Int.emod_add_emod]

theorem natAbs_mod (h0 : 0 < env.q) (hq : env.q ≤ 256 ^ 32) (x : ℤ) : (x % (env.q : ℤ)).natAbs < 256 ^ 32 := by
  have hp : (0 : ℤ) < env.q := by exact_mod_cast h0
  have h0 := Int.emod_nonneg x hp.ne'
  have h1 := Int.emod_lt_of_pos x hp
  omega

theorem bytes_mod (h0 : 0 < env.q) (hq : env.q ≤ 256 ^ 32) (x : ℤ) :
    env.sc.bytes (x % env.q) = .ok (beBytes 32 (x % (env.q : ℤ)).natAbs) ∧ ((beNat (beBytes 32 (x % (env.q : ℤ)).natAbs) : ℕ) : ℤ) = x % env.q := by
  refine ⟨by rw [sc_bytes, if_pos (natAbs_mod h0 hq x)], ?_⟩
  rw [beNat_beBytes _ _ (natAbs_mod h0 hq x), Int.natAbs_of_nonneg (Int.emod_nonneg _ (by omega))]

theorem cotSlot_eq (h0 : 0 < env.q) (hq : env.q ≤ 256 ^ 32) (h : ℤ) (w : Bool) (taus : List ℤ) (j : ℕ) (t : ℤ) (ht : taus[j]? = some t) :
    cotSlot env h w.toNat taus j = .ok ((-h + if w then t else 0) % env.q) := by
  unfold cotSlot
  rw [sc_neg h0, Go.ok_bind, (bytes_mod h0 hq _).1, Go.ok_bind, index_eq_ok.2 ht, Go.ok_bind, sc_add h0, Go.ok_bind, Int.emod_add_emod,
    (bytes_mod h0 hq _).1, Go.ok_bind, constantTimeCopy_bool w _ _ (by rw [beBytes_length, beBytes_length]), Go.ok_bind]
  cases w
  · rw [if_neg (by simp), if_neg (by simp), (bytes_mod h0 hq _).2, add_zero]
  · rw [if_pos rfl, if_pos rfl, (bytes_mod h0 hq _).2]

/-- the correlation in a slot: hashes `H0` of the sender's column, `H1` of its shift, and that of the receiver -/
theorem corr (q : ℕ) (H0 H1 h x : ℤ) (w : Bool) (hh : h = if w then H1 else H0) :
    (H0 + (-h + if w then (H1 - H0 + x) % (q : ℤ) else 0) % (q : ℤ)) % q = (if w then x else 0) % q := by
  rw [hh]
  cases w
  · simp
  · simp only [if_true]
    rw [Int.add_emod_emod, ← add_assoc, Int.add_emod_emod]
    congr 1; ring

variable (env)
/-- the integers of an OT column -/
def colOf (m : ℕ) (row : Digest) (j k : ℕ) : ℤ :=
  beNat (((((xmd env (row.toList ++ idx j) Core.dstCoinbase (32 * m)).toOption.getD []).drop (k * 32)).take 32))
variable {env}

theorem otColumn_eq {m : ℕ} (hm0 : 0 < m) (hm : m ≤ 126) (row : Digest) (j : ℕ) : otColumn env m row j = .ok (colOf env m row j) := by
  obtain ⟨r, h, -⟩ := xmd_ok env (row.toList ++ idx j) Core.dstCoinbase (by decide +kernel) (32 * m) (by omega) (by omega)
  have e : colOf env m row j = fun k => ((beNat ((r.drop (k * 32)).take 32) : ℕ) : ℤ) := by
    funext k
    rw [colOf, h]; rfl
  unfold otColumn
  rw [h, e]; rfl

/-- C201: honest parties, new receiver: everything succeeds and the outputs are additive shares of the product of each choice bit and the
sender's input, in all `512·m` slots and in the `160·m` slots at the end -/
theorem C201_honest {m : ℕ} (hm0 : 0 < m) (hm : m ≤ 126) (h0 : 0 < env.q) (hq : env.q ≤ 256 ^ 32) (rho : Fin 256 → Digest × Digest)
    (idExt packed : Digest) (choice : List UInt8) (hc : choice.length = choBytes m) (gamma : Vector UInt8 42)
    (main : Fin (512 * m) → ℤ) (ot : Fin 160 → Fin m → ℤ) : ∃ msg st' msg2 out tB tBOT,
      cotInit env (newCotReceiver m) rho idExt choice gamma = .ok (msg, st') ∧
      cotTransfer env m idExt packed (fun i => pick (bit packed i) (rho i)) main ot msg = .ok (msg2, out) ∧
      cotFinish env st' msg2 = .ok (tB, tBOT) ∧
      (∀ j, (out.tA j + tB j) % (env.q : ℤ) = (if (choice.getD (j / 8) 0).toNat.testBit (j % 8) then main j else 0) % env.q) ∧
      (∀ j k, (out.tAOT j k + tBOT j k) % (env.q : ℤ) =
        (if (choice.getD (64 * m + j / 8) 0).toNat.testBit (j % 8) then ot j k else 0) % env.q) := by
  obtain ⟨msg, st', zeta, h1, hw, h2, h3, h4⟩ := C201_agree env hm rho idExt packed choice hc gamma
  have hbit : ∀ j < 8 * choBytes m, bitAt st'.w j = (choice.getD (j / 8) 0).toNat.testBit (j % 8) := by
    intro j hj
    rw [hw, bitAt, wOf, copied, vec_getD _ _ (by simp only [extBytes]; omega), Vector.getElem_ofFn]
    simp only
    rw [List.getD_append _ _ _ _ (by omega)]
  have hrz : ∀ (j : ℕ) (hj : j < 8 * extBytes m), zeta.toList.getD j (Vector.replicate 32 0) = zeta[j]'hj := by
    intro j hj
    rw [List.getD_eq_getElem?_getD, Vector.getElem?_toList, Vector.getElem?_eq_getElem hj]; rfl
  have hrp : ∀ (j : ℕ) (hj : j < 8 * extBytes m), st'.psi.toList.getD j (Vector.replicate 32 0) = st'.psi[j]'hj := by
    intro j hj
    rw [List.getD_eq_getElem?_getD, Vector.getElem?_toList, Vector.getElem?_eq_getElem hj]; rfl
  have hrow : ∀ j < 8 * extBytes m, st'.psi.toList.getD j (Vector.replicate 32 0) = if bitAt st'.w j then
      xorBytes (zeta.toList.getD j (Vector.replicate 32 0)) packed else zeta.toList.getD j (Vector.replicate 32 0) := by
    intro j hj
    rw [hrz j hj, hrp j hj, h4 j hj]
    cases bitAt st'.w j
    · rfl
    · rw [if_pos rfl, if_pos rfl, xor_cancel]
  let rz := fun j : ℕ => zeta.toList.getD j (Vector.replicate 32 0)
  let tA := fun j : Fin (512 * m) => intOf (env.sha ((rz j).toList ++ idx j))
  let tM := fun j : Fin (512 * m) => (intOf (env.sha ((xorBytes (rz j) packed).toList ++ idx j)) - tA j + main j) % (env.q : ℤ)
  let oA := fun (j : Fin 160) (k : Fin m) => colOf env m (rz (512 * m + j)) j k
  let oM := fun (j : Fin 160) (k : Fin m) => (colOf env m (xorBytes (rz (512 * m + j)) packed) j k - oA j k + ot j k) % (env.q : ℤ)
  have hT : cotTransfer env m idExt packed (fun i => pick (bit packed i) (rho i)) main ot msg =
      .ok (⟨List.ofFn tM, fun j => List.ofFn (oM j)⟩, ⟨tA, oA⟩) := by
    unfold cotTransfer
    rw [h2, Go.ok_bind, Go.guard_true h3, Go.ok_bind]
    simp only
    rw [Go.tabulate_ok tM (fun j => tau_eq h0 _ _ _), Go.ok_bind, Go.tabulate_ok (fun j => (oA j, oM j))]
    · rfl
    · intro j
      rw [otColumn_eq hm0 hm, Go.ok_bind, otColumn_eq hm0 hm, Go.ok_bind, Go.tabulate_ok (oM j) (fun k => tau_eq h0 _ _ _)]; rfl
  let rp := fun j : ℕ => st'.psi.toList.getD j (Vector.replicate 32 0)
  let tB := fun j : Fin (512 * m) => (-intOf (env.sha ((rp j).toList ++ idx j)) + if bitAt st'.w j then tM j else 0) % (env.q : ℤ)
  let oB := fun (j : Fin 160) (k : Fin m) => (-colOf env m (rp (512 * m + j)) j k + if bitAt st'.w (512 * m + j) then oM j k else 0) % (env.q : ℤ)
  have hF : cotFinish env st' ⟨List.ofFn tM, fun j => List.ofFn (oM j)⟩ = .ok (tB, oB) := by
    unfold cotFinish
    simp only
    have hx : ∀ j, (extractBit st'.w.toList j).toNat = (bitAt st'.w j).toNat := fun j => extractBit_eq _ _
    rw [Go.tabulate_ok tB, Go.ok_bind, Go.tabulate_ok oB]
    · rfl
    · intro j
      rw [otColumn_eq hm0 hm, Go.ok_bind]
      refine Go.tabulate_ok _ fun k => ?_
      rw [hx]
      exact cotSlot_eq h0 hq _ _ _ _ _ (by rw [List.getElem?_ofFn, dif_pos k.2])
    · intro j
      rw [hx]
      exact cotSlot_eq h0 hq _ _ _ _ _ (by rw [List.getElem?_ofFn, dif_pos j.2])
  refine ⟨msg, st', _, _, tB, oB, h1, hT, hF, fun j => ?_, fun j k => ?_⟩
  · rw [← hbit j.val (by have := j.2; simp only [choBytes]; omega)]
    refine corr env.q _ _ _ _ _ ?_
    show intOf (env.sha ((rp j).toList ++ idx j)) = _
    have : rp j = if bitAt st'.w j then xorBytes (rz j) packed else rz j := hrow j.val (by have := j.2; simp only [extBytes, choBytes]; omega)
    rw [this]
    cases bitAt st'.w j.val <;> rfl
  · have hj : 512 * m + j.val < 8 * choBytes m := by have := j.2; simp only [choBytes]; omega
    have hb := hbit _ hj
    rw [show (512 * m + j.val) / 8 = 64 * m + j.val / 8 by omega, show (512 * m + j.val) % 8 = j.val % 8 by omega] at hb
    rw [← hb]
    refine corr env.q _ (colOf env m (xorBytes (rz (512 * m + j)) packed) j k) _ _ _ ?_
    show colOf env m (rp (512 * m + j)) j k = _
    have : rp (512 * m + j) = if bitAt st'.w (512 * m + j) then xorBytes (rz (512 * m + j)) packed else rz (512 * m + j) :=
      hrow (512 * m + j.val) (by simp only [extBytes]; omega)
    rw [this]
    cases bitAt st'.w (512 * m + j.val) <;> rfl

end

/-- rows that satisfy the hypothesis of `C201_check_vacuous`, each with another choice vector -/
example : ∀ i : Fin 256, extBytes 2 ≤ ((fun i : Fin 256 => List.replicate 190 (UInt8.ofNat i.val)) i).length := by
  intro i; rw [List.length_replicate]

/-- the example: for every hash function and all seeds -/
example (env : Env) (idExt : Digest) (rho : Fin 256 → Digest × Digest) : ∃ wPrime vPrime, ∀ packed, ∃ zeta,
    cotZeta env 2 idExt packed (fun i => pick (bit packed i) (rho i)) (fun i : Fin 256 => List.replicate 190 (UInt8.ofNat i.val)) = .ok zeta ∧
    cotCheck env packed zeta ⟨wPrime, vPrime, fun i : Fin 256 => List.replicate 190 (UInt8.ofNat i.val)⟩ := by
  obtain ⟨a, b, h⟩ := C201_check_vacuous env (m := 2) (by omega) idExt rho (fun i : Fin 256 => List.replicate 190 (UInt8.ofNat i.val))
    (fun i => by rw [List.length_replicate])
  exact ⟨a, b, fun p => let ⟨z, h1, h2, _⟩ := h p; ⟨z, h1, h2⟩⟩

end Verif.DklsV0
