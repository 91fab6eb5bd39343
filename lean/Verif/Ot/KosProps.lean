import Verif.Ot.KosModel
import Verif.Ot.SimplestProps

/-!
# C35: the OT extension

Specification: the seed OT gave the extension's receiver pairs of keys `keys i`, and its sender one of
each pair, chosen by bit `i` of `∇` (`SeedOk`).  Slot `j` has the choice bit `bitAt ext j`.
-/

set_option linter.unusedSectionVars false

namespace Verif.Ot

variable {F : Type} [Field F] [DecidableEq F]

/-! ## Specification -/

/-- the outputs of the two parties of a seed OT of 256 slots -/
structure SeedOk (keys : List (Digest × Digest)) (seed : SeedReceiver) (nabla : Digest) : Prop where
  packed : seed.packed = nabla.toList
  choices : ∀ i < 256, seed.choices[i]? = some (bitAt nabla i).toNat
  pads : ∀ i < 256, ∃ ks, keys[i]? = some ks ∧ seed.pads[i]? = some (pick (bitAt nabla i) ks)

/-- multiple of a vector by a bit -/
def bitMul (b : Bool) (v : Digest) : Digest := if b then v else Vector.replicate 32 0

/-- an embedding of the byte vectors into a commutative ring which turns `xorBytes` into addition and
`binaryFieldMul` into multiplication; `toField` (C33) is one whose ring is the field GF(2^256) -/
structure RingMap {R : Type} [CommRing R] (φ : Digest → R) : Prop where
  inj : Function.Injective φ
  xor : ∀ a b, φ (xorBytes a b) = φ a + φ b
  mul : ∀ a b, φ (binaryFieldMul a b) = φ a * φ b
  zero : φ (Vector.replicate 32 0) = 0

theorem ringMap_toField : RingMap toField := ⟨toField_injective, toField_xor, toField_mul, toField_zero⟩

/-! ## Auxiliary facts -/

theorem bitAt_zero {n : ℕ} (i : ℕ) : bitAt (Vector.replicate n 0) i = false := by
  unfold bitAt
  rw [Vector.toList_replicate, List.getD_eq_getElem?_getD, List.getElem?_replicate]
  split <;> simp

theorem bitAt_map {n : ℕ} (f : UInt8 → UInt8) (v : Vector UInt8 n) (i : ℕ) (hi : i < 8 * n) :
    bitAt (v.map f) i = (f (v[i / 8]'(by omega))).toNat.testBit (i % 8) := by
  unfold bitAt
  rw [vec_getD _ _ (by omega), Vector.getElem_map]

theorem bitAt_eq {n : ℕ} (v : Vector UInt8 n) (i : ℕ) (hi : i < 8 * n) :
    bitAt v i = (v[i / 8]'(by omega)).toNat.testBit (i % 8) := by
  unfold bitAt
  rw [vec_getD _ _ (by omega)]

theorem bitmask_bool (c : Bool) : convertBitToBitmask (UInt8.ofNat c.toNat) = if c then 255 else 0 := by
  cases c <;> rfl

theorem maskBytes_bool {n : ℕ} (c : Bool) (v : Vector UInt8 n) :
    maskBytes (if c then 255 else 0) v = if c then v else Vector.replicate n 0 := by
  unfold maskBytes
  cases c
  · refine Vector.ext fun i hi => ?_
    simp
  · refine Vector.ext fun i hi => ?_
    simp only [if_true, Vector.getElem_map]
    rw [show (255 : UInt8) = -1 from rfl, UInt8.neg_one_and]

theorem extractBit_bool (v : List UInt8) (i : ℕ) :
    extractBit v i = UInt8.ofNat ((v.getD (i / 8) 0).toNat.testBit (i % 8)).toNat := by
  rw [← UInt8.toNat_inj, extractBit_eq]
  cases (v.getD (i / 8) 0).toNat.testBit (i % 8) <;> rfl

theorem extractBit_bitAt {n : ℕ} (v : Vector UInt8 n) (i : ℕ) :
    extractBit v.toList i = UInt8.ofNat (bitAt v i).toNat := extractBit_bool _ _

theorem digestOf_toList (v : Digest) : digestOf v.toList = .ok v := by
  unfold digestOf
  rw [if_neg (by simp)]
  refine congrArg Except.ok (Vector.ext fun i hi => ?_)
  rw [Vector.getElem_ofFn, vec_getD _ _ hi]

theorem map_xorSum {R : Type} [CommRing R] {φ : Digest → R} (hφ : RingMap φ) (n : ℕ) (f : Fin n → Digest) :
    φ (xorSum n f) = ∑ j, φ (f j) := by
  unfold xorSum
  have key : ∀ (l : List (Fin n)) (acc : Digest),
      φ (l.foldl (fun acc j => xorBytes acc (f j)) acc) =
        φ acc + (l.map fun j => φ (f j)).sum := by
    intro l
    induction l with
    | nil => intro acc; simp
    | cons a l ih =>
      intro acc
      rw [List.foldl_cons, ih, hφ.xor, List.map_cons, List.sum_cons, add_assoc]
  rw [key, hφ.zero, zero_add, ← List.ofFn_eq_map, List.sum_ofFn]

theorem map_bitMul {R : Type} [CommRing R] {φ : Digest → R} (hφ : RingMap φ) (b : Bool) (v : Digest) : φ (bitMul b v) = if b then φ v else 0 := by
  cases b
  · simp [bitMul, hφ.zero]
  · simp [bitMul]

/-- the extended choices -/
theorem ext_bit (choice : Vector UInt8 cotBytes) (rnd : Vector UInt8 42) (j : ℕ) (hj : j < cotL) :
    bitAt (choice ++ rnd : Vector UInt8 extBytes) j = bitAt choice j := by
  have h : j / 8 < cotBytes := by
    have : cotL = 8 * cotBytes := by decide
    omega
  unfold bitAt
  rw [Vector.toList_append, List.getD_append _ _ _ _ (by simpa using h)]

/-! ## The consistency check -/

/-- The expansion of the two keys of row `i`. -/
def row (env : KEnv F) (sid : Digest) (k : Digest) : Vector UInt8 extBytes := env.read sid extBytes k.toList

/-- the extension with a correct seed OT: whatever matrix `U` arrives, row `i` of the sender's matrix is
`v⁰_i ⊕ ∇_i·d_i` with `d_i = U_i ⊕ v⁰_i ⊕ v¹_i` the choice vector the receiver has used in row `i` -/
theorem kosZeta_bits (env : KEnv F) (keys : List (Digest × Digest)) (seed : SeedReceiver) (nabla : Digest)
    (h : SeedOk keys seed nabla) (sid : Digest) (U : Vector (Vector UInt8 extBytes) (8 * kappaBytes)) :
    ∃ zeta, kosZeta env seed sid U = .ok zeta ∧
      ∀ i (hi : i < 8 * kappaBytes) j (hj : j < 8 * extBytes) ks, keys[i]? = some ks →
        bitAt zeta[j] i = (bitAt (row env sid ks.1) j ^^ (bitAt nabla i &&
          (bitAt U[i] j ^^ bitAt (row env sid ks.1) j ^^ bitAt (row env sid ks.2) j))) := by
  have hz : ∀ i : Fin (8 * kappaBytes), ∃ y, (do
      let pad ← index seed.pads i.val
      let v := env.read sid extBytes pad.toList
      let c ← index seed.choices i.val
      let mask := convertBitToBitmask (UInt8.ofNat c)
      (.ok (xorBytes v (maskBytes mask U[i])) : Go (Vector UInt8 extBytes))) = .ok y ∧
      ∀ ks, keys[i.val]? = some ks → y = xorBytes (row env sid (pick (bitAt nabla i) ks))
        (if bitAt nabla i then U[i] else Vector.replicate extBytes 0) := by
    intro i
    obtain ⟨ks, h1, h2⟩ := h.pads i.val i.isLt
    rw [index_eq_ok.2 h2, index_eq_ok.2 (h.choices i.val i.isLt)]
    simp only [Go.ok_bind]
    rw [bitmask_bool, maskBytes_bool]
    refine ⟨_, rfl, fun ks' hk => ?_⟩
    rw [h1] at hk
    rw [← Option.some.inj hk]
    rfl
  choose z hz1 hz2 using hz
  refine ⟨transposeBooleanMatrix (Vector.ofFn z), ?_, ?_⟩
  · unfold kosZeta
    rw [Go.tabulate_ok z hz1]
    rfl
  · intro i hi j hj ks hk
    rw [C34_transpose _ i j hi hj, Vector.getElem_ofFn, hz2 ⟨i, hi⟩ ks hk, bitAt_xor _ _ _ hj]
    simp only [Fin.getElem_fin]
    cases bitAt nabla i
    · simp [pick, bitAt_zero]
    · simp only [pick, if_true, Bool.true_and]
      cases bitAt (row env sid ks.1) j <;> cases bitAt (row env sid ks.2) j <;> cases bitAt U[i] j <;> rfl

/-- the decision of the consistency check on arbitrary messages: over GF(2^256) (`φ := toField`), the message is refused
unless `Σ χ_j ζ_j = V' + ∇·W'`, where column `j` of the sender's matrix is `ζ_j = ψ_j ⊕ (∇ ∧ d_j)` for
the choice bits `d_j` which the receiver used in the rows -/
theorem C35_check {R : Type} [CommRing R] {φ : Digest → R} (hφ : RingMap φ) (env : KEnv F) (keys : List (Digest × Digest)) (seed : SeedReceiver) (nabla : Digest)
    (h : SeedOk keys seed nabla) (sid : Digest) (input : Fin cotL → F × F) (m : KosRound1) :
    ∃ zeta : Vector Digest (8 * extBytes),
      (∀ i (hi : i < 8 * kappaBytes) j (hj : j < 8 * extBytes) ks, keys[i]? = some ks →
        bitAt zeta[j] i = (bitAt (row env sid ks.1) j ^^ (bitAt nabla i &&
          (bitAt m.U[i] j ^^ bitAt (row env sid ks.1) j ^^ bitAt (row env sid ks.2) j)))) ∧
      (∀ out, kosRound2 env seed sid input m = .ok out →
        ∑ j : Fin (8 * extBytes), φ zeta[j] * φ (chiJ env (hashU env m.U) j) =
          φ m.vPrime + φ nabla * φ m.wPrime) ∧
      (∑ j : Fin (8 * extBytes), φ zeta[j] * φ (chiJ env (hashU env m.U) j) ≠
          φ m.vPrime + φ nabla * φ m.wPrime → kosRound2 env seed sid input m = Go.err) := by
  obtain ⟨zeta, hz, hbits⟩ := kosZeta_bits env keys seed nabla h sid m.U
  refine ⟨zeta, hbits, ?_⟩
  have key : kosCheck env zeta nabla m ↔
      ∑ j : Fin (8 * extBytes), φ zeta[j] * φ (chiJ env (hashU env m.U) j) =
          φ m.vPrime + φ nabla * φ m.wPrime := by
    unfold kosCheck
    rw [← hφ.inj.eq_iff, map_xorSum hφ, hφ.xor, hφ.mul]
    simp only [hφ.mul]
  unfold kosRound2
  rw [hz, Go.ok_bind, h.packed, digestOf_toList, Go.ok_bind]
  constructor
  · intro out ho
    exact key.1 (Go.guard_bind_eq_ok.1 ho).1
  · intro hne
    rw [Go.guard_false (fun hx => hne (key.1 hx))]
    rfl

/-! ## The honest run -/

/-- what the first round computes -/
theorem kosRound1_eq {R : Type} [CommRing R] {φ : Digest → R} (hφ : RingMap φ) (env : KEnv F) (keys : List (Digest × Digest)) (hk : 256 ≤ keys.length) (sid : Digest)
    (choice : Vector UInt8 cotBytes) (rnd : Vector UInt8 42) :
    ∃ m r, kosRound1 env keys sid choice rnd = .ok (m, r) ∧ r.ext = choice ++ rnd ∧ r.sid = sid ∧
      (∀ i (_ : i < 8 * kappaBytes) ks, keys[i]? = some ks →
        m.U[i] = xorBytes (xorBytes (row env sid ks.1) (row env sid ks.2)) (choice ++ rnd)) ∧
      (∀ i (_ : i < 8 * kappaBytes) j (hj : j < 8 * extBytes) ks, keys[i]? = some ks →
        bitAt r.psi[j] i = bitAt (row env sid ks.1) j) ∧
      φ m.wPrime = ∑ j : Fin (8 * extBytes), (if bitAt (choice ++ rnd : Vector UInt8 extBytes) j then
        φ (chiJ env (hashU env m.U) j) else 0) ∧
      φ m.vPrime = ∑ j : Fin (8 * extBytes), φ r.psi[j] * φ (chiJ env (hashU env m.U) j) := by
  have hv : ∀ i : Fin (8 * kappaBytes), ∃ y, (do
      let k ← index keys i.val
      (.ok (env.read sid extBytes k.1.toList, env.read sid extBytes k.2.toList) :
        Go (Vector UInt8 extBytes × Vector UInt8 extBytes))) = .ok y ∧
      ∀ ks, keys[i.val]? = some ks → y = (row env sid ks.1, row env sid ks.2) := by
    intro i
    have hi : i.val < keys.length := lt_of_lt_of_le i.isLt hk
    rw [index_eq_ok.2 (List.getElem?_eq_getElem hi)]
    refine ⟨_, rfl, fun ks h => ?_⟩
    rw [List.getElem?_eq_getElem hi, Option.some.injEq] at h
    rw [← h]
    rfl
  choose v hv1 hv2 using hv
  unfold kosRound1
  rw [Go.tabulate_ok v hv1]
  simp only [Go.ok_bind]
  refine ⟨_, _, rfl, rfl, rfl, ?_, ?_, ?_, ?_⟩
  · intro i hi ks h
    simp only
    rw [Vector.getElem_ofFn, hv2 ⟨i, hi⟩ ks h]
  · intro i hi j hj ks h
    simp only
    rw [C34_transpose _ i j hi hj, Vector.getElem_ofFn, hv2 ⟨i, hi⟩ ks h]
  · simp only
    rw [map_xorSum hφ]
    refine Finset.sum_congr rfl fun j _ => ?_
    rw [extractBit_bitAt, bitmask_bool, maskBytes_bool]
    cases bitAt (choice ++ rnd : Vector UInt8 extBytes) j.val
    · simp [hφ.zero]
    · simp
  · simp only
    rw [map_xorSum hφ]
    simp only [hφ.mul]

/-- after an honest first round the sender's columns are `ψ_j ⊕ w_j·∇` -/
theorem kosZeta_honest (env : KEnv F) (keys : List (Digest × Digest)) (seed : SeedReceiver) (nabla : Digest)
    (h : SeedOk keys seed nabla) (sid : Digest) (choice : Vector UInt8 cotBytes) (rnd : Vector UInt8 42)
    (m : KosRound1) (r : KosReceiver)
    (hU : ∀ i (_ : i < 8 * kappaBytes) ks, keys[i]? = some ks →
        m.U[i] = xorBytes (xorBytes (row env sid ks.1) (row env sid ks.2)) (choice ++ rnd))
    (hpsi : ∀ i (_ : i < 8 * kappaBytes) j (hj : j < 8 * extBytes) ks, keys[i]? = some ks →
        bitAt r.psi[j] i = bitAt (row env sid ks.1) j) :
    ∃ zeta, kosZeta env seed sid m.U = .ok zeta ∧ ∀ j (hj : j < 8 * extBytes),
      zeta[j] = xorBytes r.psi[j] (bitMul (bitAt (choice ++ rnd : Vector UInt8 extBytes) j) nabla) := by
  obtain ⟨zeta, hz, hbits⟩ := kosZeta_bits env keys seed nabla h sid m.U
  refine ⟨zeta, hz, fun j hj => vec_ext fun i hi => ?_⟩
  obtain ⟨ks, hks, -⟩ := h.pads i hi
  rw [hbits i hi j hj ks hks, hU i hi ks hks, bitAt_xor _ _ _ hj, bitAt_xor _ _ _ hj, bitAt_xor _ _ _ hi,
    hpsi i hi j hj ks hks]
  unfold bitMul
  cases bitAt (choice ++ rnd : Vector UInt8 extBytes) j <;> cases bitAt (row env sid ks.1) j <;>
    cases bitAt (row env sid ks.2) j <;> cases hn : bitAt nabla i <;> simp [bitAt_zero, hn]

theorem kosShare_eq (env : KEnv F) (hl : ∀ x y, (env.cd.enc x).length = (env.cd.enc y).length) (b : Bool) (s tau : F) :
    kosShare env b.toNat s tau = .ok (-s + if b then tau else 0) := by
  unfold kosShare
  simp only
  rw [constantTimeCopy_bool _ _ _ (hl _ _)]
  simp only [Go.ok_bind]
  rw [Go.ofOption_eq_ok]
  cases b
  · simp [env.cd.dec_enc]
  · simp [env.cd.dec_enc]

theorem slotScalar_cases (env : KEnv F) (sid : Digest) (j : ℕ) (v : Digest) (k : ℕ) :
    (∃ s, slotScalar env sid j v k = .ok s) ∨ slotScalar env sid j v k = Go.err := by
  unfold slotScalar
  simp only
  cases env.cd.dec _
  · exact Or.inr rfl
  · exact Or.inl ⟨_, rfl⟩

theorem kosSlot_error {env : KEnv F} {sid : Digest} {j : ℕ} {v nabla : Digest} {input : F × F} {e : Fail}
    (h : kosSlot env sid j v nabla input = .error e) : e = Fail.error := by
  unfold kosSlot at h
  rcases slotScalar_cases env sid j v 0 with ⟨a, ha⟩ | ha
  swap
  · rw [ha, Go.error_bind] at h
    exact (Except.error.inj h).symm
  rcases slotScalar_cases env sid j v 1 with ⟨b, hb⟩ | hb
  swap
  · rw [ha, hb, Go.ok_bind, Go.error_bind] at h
    exact (Except.error.inj h).symm
  rcases slotScalar_cases env sid j (xorBytes v nabla) 0 with ⟨c, hc⟩ | hc
  swap
  · rw [ha, hb, hc, Go.ok_bind, Go.ok_bind, Go.error_bind] at h
    exact (Except.error.inj h).symm
  rcases slotScalar_cases env sid j (xorBytes v nabla) 1 with ⟨d, hd⟩ | hd
  swap
  · rw [ha, hb, hc, hd, Go.ok_bind, Go.ok_bind, Go.ok_bind, Go.error_bind] at h
    exact (Except.error.inj h).symm
  rw [ha, hb, hc, hd, Go.ok_bind, Go.ok_bind, Go.ok_bind, Go.ok_bind] at h
  cases h

/-- all the pseudorandom strings of the slots are encodings of scalars -/
def Decodable (env : KEnv F) (sid : Digest) (psi : Fin cotL → Digest) (nabla : Digest) : Prop :=
  ∀ (j : Fin cotL) (k : ℕ), k < 2 → (∃ s, slotScalar env sid j (psi j) k = .ok s) ∧
    ∃ s, slotScalar env sid j (xorBytes (psi j) nabla) k = .ok s

/-- Honest runs.  The consistency check passes.  If all the pseudorandom strings encode scalars, both
parties finish and their shares of slot `j` add up to the sender's inputs where the choice bit is one and
to zero where it is zero.  Otherwise the sender returns an error. -/
theorem C35_honest (env : KEnv F) (hl : ∀ x y, (env.cd.enc x).length = (env.cd.enc y).length)
    (keys : List (Digest × Digest)) (seed : SeedReceiver) (nabla : Digest)
    (h : SeedOk keys seed nabla) (sid : Digest) (choice : Vector UInt8 cotBytes) (rnd : Vector UInt8 42)
    (input : Fin cotL → F × F) :
    ∃ m r, kosRound1 env keys sid choice rnd = .ok (m, r) ∧
      (Decodable env sid (fun j => r.psi[j.val]'(slot_lt j)) nabla →
        ∃ tA tau tB, kosRound2 env seed sid input m = .ok (tA, tau) ∧ kosRound3 env r tau = .ok tB ∧
          ∀ j, tA j + tB j = if bitAt choice j then input j else 0) ∧
      (¬ Decodable env sid (fun j => r.psi[j.val]'(slot_lt j)) nabla →
        kosRound2 env seed sid input m = Go.err) := by
  have hk : 256 ≤ keys.length := by
    obtain ⟨ks, hks, -⟩ := h.pads 255 (by norm_num)
    exact (List.getElem?_eq_some_iff.1 hks).1
  obtain ⟨m, r, h1, hext, hsid, hU, hpsi, hw, hv⟩ := kosRound1_eq ringMap_toField env keys hk sid choice rnd
  obtain ⟨zeta, hz, hzeta⟩ := kosZeta_honest env keys seed nabla h sid choice rnd m r hU hpsi
  refine ⟨m, r, h1, ?_⟩
  -- the check
  have hcheck : kosCheck env zeta nabla m := by
    have hφ := ringMap_toField
    generalize toField = φ at *
    unfold kosCheck
    rw [← hφ.inj.eq_iff, map_xorSum hφ, hφ.xor, hφ.mul, hw, hv, Finset.mul_sum,
      ← Finset.sum_add_distrib]
    refine Finset.sum_congr rfl fun j _ => ?_
    rw [hφ.mul, Fin.getElem_fin, hzeta j.val j.isLt, hφ.xor, map_bitMul hφ, add_mul]
    simp only [Fin.getElem_fin]
    congr 1
    split <;> simp
  have h2 : kosRound2 env seed sid input m = (do
      let out ← Go.tabulate cotL fun j => kosSlot env sid j.val (zeta[j.val]'(slot_lt j)) nabla (input j)
      .ok (fun j => (out j).1, fun j => (out j).2)) := by
    unfold kosRound2
    rw [hz, Go.ok_bind, h.packed, digestOf_toList, Go.ok_bind, Go.guard_true hcheck, Go.ok_bind]
  rw [h2]
  have hzj : ∀ j : Fin cotL, zeta[j.val]'(slot_lt j) =
      if bitAt choice j then xorBytes (r.psi[j.val]'(slot_lt j)) nabla else r.psi[j.val]'(slot_lt j) := by
    intro j
    rw [hzeta j.val (slot_lt j), ext_bit _ _ _ j.isLt]
    unfold bitMul
    cases bitAt choice j.val
    · refine vec_ext fun i hi => ?_
      rw [bitAt_xor _ _ _ hi]
      simp [bitAt_zero]
    · rfl
  have hzj' : ∀ j : Fin cotL, xorBytes (zeta[j.val]'(slot_lt j)) nabla =
      if bitAt choice j then r.psi[j.val]'(slot_lt j) else xorBytes (r.psi[j.val]'(slot_lt j)) nabla := by
    intro j
    rw [hzj]
    cases bitAt choice j.val
    · rfl
    · exact xor_cancel _ _
  constructor
  · intro hd
    have hd1 := fun j k hk => (hd j k hk).1
    have hd2 := fun j k hk => (hd j k hk).2
    choose S hS using hd1
    choose S' hS' using hd2
    -- the shares of the sender
    let A : Fin cotL → ℕ → F := fun j k => if hk : k < 2 then
      (if bitAt choice j then S' j k hk else S j k hk) else 0
    let T : Fin cotL → ℕ → F := fun j k => if hk : k < 2 then
      (if bitAt choice j then S j k hk else S' j k hk) else 0
    have hA : ∀ j k, k < 2 → slotScalar env sid j.val (zeta[j.val]'(slot_lt j)) k = .ok (A j k) := by
      intro j k hk
      rw [hzj]
      simp only [A, hk, dif_pos]
      cases bitAt choice j.val
      · exact hS j k hk
      · exact hS' j k hk
    have hT : ∀ j k, k < 2 → slotScalar env sid j.val (xorBytes (zeta[j.val]'(slot_lt j)) nabla) k =
        .ok (T j k) := by
      intro j k hk
      rw [hzj']
      simp only [T, hk, dif_pos]
      cases bitAt choice j.val
      · exact hS' j k hk
      · exact hS j k hk
    rw [Go.tabulate_ok (fun j => ((A j 0, A j 1), (T j 0 - A j 0 + (input j).1, T j 1 - A j 1 + (input j).2)))]
    swap
    · intro j
      unfold kosSlot
      rw [hA j 0 (by norm_num), hA j 1 (by norm_num), hT j 0 (by norm_num), hT j 1 (by norm_num)]
      rfl
    simp only [Go.ok_bind]
    refine ⟨_, _, fun j => (-(S j 0 (by norm_num)) + (if bitAt choice j then T j 0 - A j 0 + (input j).1 else 0),
      -(S j 1 (by norm_num)) + (if bitAt choice j then T j 1 - A j 1 + (input j).2 else 0)), rfl, ?_, ?_⟩
    · unfold kosRound3
      refine Go.tabulate_ok _ fun j => ?_
      have hb : (extractBit r.ext.toList j.val).toNat = (bitAt choice j).toNat := by
        rw [hext, extractBit_bitAt, ext_bit _ _ _ j.isLt]
        cases bitAt choice j.val <;> rfl
      unfold kosSlotB
      rw [hb, hsid, hS j 0 (by norm_num), hS j 1 (by norm_num)]
      simp only [Go.ok_bind]
      rw [kosShare_eq env hl, kosShare_eq env hl]
      rfl
    · intro j
      refine Prod.ext ?_ ?_
      · simp only [A, T, Prod.fst_add]
        cases bitAt choice j.val
        · simp
        · simp only [if_true, Nat.zero_lt_two, dif_pos]
          ring
      · simp only [A, T, Prod.snd_add]
        cases bitAt choice j.val
        · simp
        · simp only [if_true, Nat.one_lt_two, dif_pos]
          ring
  · intro hd
    generalize hx : Go.tabulate cotL (fun j => kosSlot env sid j.val (zeta[j.val]'(slot_lt j)) nabla (input j)) = x
    cases x with
    | ok out =>
      rw [Go.tabulate_eq_ok] at hx
      exfalso
      apply hd
      intro j k hk
      have hj := hx j
      unfold kosSlot at hj
      obtain ⟨a0, ha0, hj⟩ := Go.bind_eq_ok.1 hj
      obtain ⟨a1, ha1, hj⟩ := Go.bind_eq_ok.1 hj
      obtain ⟨t0, ht0, hj⟩ := Go.bind_eq_ok.1 hj
      obtain ⟨t1, ht1, -⟩ := Go.bind_eq_ok.1 hj
      rw [hzj'] at ht0 ht1
      rw [hzj] at ha0 ha1
      have hk2 : k = 0 ∨ k = 1 := by omega
      cases hb : bitAt choice j.val <;> simp only [hb, if_true, Bool.false_eq_true, if_false] at ha0 ha1 ht0 ht1 <;>
        rcases hk2 with rfl | rfl
      · exact ⟨⟨_, ha0⟩, _, ht0⟩
      · exact ⟨⟨_, ha1⟩, _, ht1⟩
      · exact ⟨⟨_, ht0⟩, _, ha0⟩
      · exact ⟨⟨_, ht1⟩, _, ha1⟩
    | error e =>
      obtain ⟨j, hj, -⟩ := Go.tabulate_eq_error.1 hx
      rw [Go.error_bind, kosSlot_error hj]

/-- The hypothesis of `C35_honest` is what an honest seed OT of 256 slots provides: the sender of the seed
OT has the keys, the receiver of the seed OT the packed bits, the choices and the chosen pads. -/
theorem C35_from_seed {G : Type} [AddCommGroup G] [Module F G] [DecidableEq G] (env : Env F G) (hp : PointsOk env) (sid : Digest)
    (rnd : ℕ → UInt8) (b k : F) (a : ℕ → F) (pf : Schnorr.Proof F G)
    (hpf : (Schnorr.newProver env.gen none (proofSid env sid).toList).prove env.shaL env.penc env.cd
      b k = .ok pf)
    (hA : ∀ i < 256, a i • env.gen + (if choice rnd i then b • env.gen else 0) ≠ 0) :
    ∃ s r, honestRun env 256 sid rnd b k a = .ok (s, r) ∧
      SeedOk s.keys ⟨r.packed, r.choices, r.pads⟩ (Vector.ofFn fun i => rnd i.val) := by
  obtain ⟨s, r, hrun, hch, hpk, hpads, hkeys⟩ := honestRun_eq env hp 256 (by norm_num) sid rnd b k a pf hpf hA
  have hb : ∀ i < 256, bitAt (Vector.ofFn (fun i : Fin 32 => rnd i.val)) i = choice rnd i := by
    intro i hi
    rw [bitAt_eq _ _ (by omega), Vector.getElem_ofFn]
    rfl
  refine ⟨s, r, hrun, ?_, ?_, ?_⟩
  · show r.packed = _
    rw [hpk]
    refine List.ext_getElem (by simp) fun i h1 h2 => ?_
    rw [List.getElem_map, List.getElem_range, Vector.getElem_toList, Vector.getElem_ofFn]
  · intro i hi
    show r.choices[i]? = _
    rw [hch, List.getElem?_map, List.getElem?_range hi, hb i hi]
    rfl
  · intro i hi
    refine ⟨_, by rw [hkeys, List.getElem?_map, List.getElem?_range hi]; rfl, ?_⟩
    show r.pads[i]? = _
    rw [hpads, List.getElem?_map, List.getElem?_range hi, hb i hi]
    simp only [Option.map_some, pick]
    refine congrArg some ?_
    cases choice rnd i
    · simp [smul_smul, mul_comm]
    · simp [smul_smul, mul_comm]

/-! ## The hypotheses can be met -/

/-- toy environment: the stream repeats the encoding of a checksum -/
def toyKEnv : KEnv Toy.K where
  sha := toyEnv.sha
  shake _ d i := ((Accum.padCodec 30).enc (((d.foldl (fun a b => 3 * a + b) 1).toNat : ℕ) : Toy.K)).getD (i % 32) 0
  cd := Accum.padCodec 30

theorem toyK_len (x : Toy.K) : (toyKEnv.cd.enc x).length = 32 := by
  simp [toyKEnv, Accum.padCodec, Toy.codec]

theorem toyK_slot (sid : Digest) (j : ℕ) (v : Digest) (k : ℕ) (hk : k < 2) :
    ∃ s, slotScalar toyKEnv sid j v k = .ok s := by
  refine ⟨((((be16 j ++ v.toList).foldl (fun a b => 3 * a + b) 1).toNat : ℕ) : Toy.K), ?_⟩
  unfold slotScalar
  simp only
  rw [Go.ofOption_eq_ok]
  have hl := toyK_len ((((be16 j ++ v.toList).foldl (fun a b => 3 * a + b) 1).toNat : ℕ) : Toy.K)
  have : ((toyKEnv.read sid 64 (be16 j ++ v.toList)).toList.drop (k * 32)).take 32 =
      toyKEnv.cd.enc ((((be16 j ++ v.toList).foldl (fun a b => 3 * a + b) 1).toNat : ℕ) : Toy.K) := by
    refine List.ext_getElem (by rw [hl]; simp; omega) fun i h1 h2 => ?_
    rw [List.getElem_take, List.getElem_drop]
    unfold KEnv.read
    rw [Vector.getElem_toList, Vector.getElem_ofFn]
    have hi : (k * 32 + i) % 32 = i := by omega
    show List.getD _ _ _ = _
    rw [hi, List.getD_eq_getElem?_getD]
    exact congrArg (fun o => Option.getD o 0) (List.getElem?_eq_getElem h2)
  rw [this, toyKEnv.cd.dec_enc]

/-- toy seed OT -/
def toyNabla : Digest := Vector.ofFn fun i => UInt8.ofNat (37 * i.val + 5)

/-- toy keys -/
def toyKeys (i : ℕ) : Digest × Digest :=
  (Vector.replicate 32 (UInt8.ofNat i), Vector.replicate 32 (UInt8.ofNat (i + 100)))

theorem toySeed (n : ℕ) (hn : 256 ≤ n) : SeedOk ((List.range n).map toyKeys)
    ⟨toyNabla.toList, (List.range n).map fun i => (bitAt toyNabla i).toNat,
      (List.range n).map fun i => pick (bitAt toyNabla i) (toyKeys i)⟩ toyNabla where
  packed := rfl
  choices i hi := by simp [show i < n by omega]
  pads i hi := by simp [show i < n by omega]

/-- `C35_honest`, `C35_check`: the hypotheses and the condition on the strings hold together -/
example (sid : Digest) : RingMap toField ∧ (∀ x y, (toyKEnv.cd.enc x).length = (toyKEnv.cd.enc y).length) ∧
    (∃ keys seed, SeedOk keys seed toyNabla) ∧ ∀ psi, Decodable toyKEnv sid psi toyNabla :=
  ⟨ringMap_toField, fun x y => by rw [toyK_len, toyK_len], ⟨_, _, toySeed 256 le_rfl⟩,
    fun psi j k hk => ⟨toyK_slot _ _ _ _ hk, toyK_slot _ _ _ _ hk⟩⟩

end Verif.Ot
