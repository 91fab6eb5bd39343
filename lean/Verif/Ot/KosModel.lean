import Verif.Ot.SimplestModel
import Verif.Common.Tabulate

/-!
# Model of the OT extension `pkg/ot/extension/kos/kos.go`

Fixed-size Go arrays of scalars `[L][OtWidth]curves.Scalar` are functions `Fin cotL → F × F` (nil
entries are not modelled).  `shake sid data` is the output stream of cSHAKE256 with function name
`sid` and customization string `"Coinbase_DKLs_cOT"` after absorbing `data`.
-/

namespace Verif.Ot

variable {F : Type} [Field F] [DecidableEq F]

/-- hash functions and scalar codec -/
structure KEnv (F : Type) where
  /-- SHA3-256 -/
  sha : List UInt8 → Digest
  /-- cSHAKE256 as a byte stream -/
  shake : Digest → List UInt8 → ℕ → UInt8
  /-- `Scalar.Bytes`, `Scalar.SetBytes` -/
  cd : ScalarCodec F

/-- reading `n` bytes from a fresh cSHAKE256 (kos.go:218-229, 275-283) -/
def KEnv.read (env : KEnv F) (sid : Digest) (n : ℕ) (data : List UInt8) : Vector UInt8 n :=
  Vector.ofFn fun i => env.shake sid data i.val

/-- `binary.BigEndian.PutUint16(jBytes[:], uint16(j))` -/
def be16 (j : ℕ) : List UInt8 := [UInt8.ofNat (j / 256), UInt8.ofNat j]

/-- a slice used as a 32-byte vector (`binaryFieldMul` and kos.go:341 read the entries 0 to 31) -/
def digestOf (l : List UInt8) : Go Digest :=
  if l.length < 32 then Go.crash else .ok (Vector.ofFn fun i => l.getD i.val 0)

theorem slot_lt (j : Fin cotL) : j.val < 8 * extBytes := lt_of_lt_of_le j.isLt (by decide)

/-- `Round1Output` (kos.go:155-159) -/
structure KosRound1 where
  U : Vector (Vector UInt8 extBytes) (8 * kappaBytes)
  wPrime : Digest
  vPrime : Digest

/-- `Receiver` (kos.go:53-67) after `Round1Initialize` -/
structure KosReceiver where
  /-- `extendedPackedChoices` -/
  ext : Vector UInt8 extBytes
  psi : Vector Digest (8 * extBytes)
  sid : Digest

/-- the digest of the matrix `U` (kos.go:215, 237, 243 and 271, 288, 293) -/
def hashU (env : KEnv F) (U : Vector (Vector UInt8 extBytes) (8 * kappaBytes)) : Digest :=
  env.sha (U.toList.map Vector.toList).flatten

/-- `chiJ` (kos.go:245-253, 296-304) -/
def chiJ (env : KEnv F) (digest : Digest) (j : ℕ) : Digest := env.sha (be16 j ++ digest.toList)

/-- an accumulation `acc[k] ^= f(j)[k]` over `j < lPrime` (kos.go:244-260, 295-309) -/
def xorSum (n : ℕ) (f : Fin n → Digest) : Digest :=
  (List.finRange n).foldl (fun acc j => xorBytes acc (f j)) (Vector.replicate 32 0)

/-- `Round1Initialize` (kos.go:203-262): `choice` is the packed choice vector, `rnd` the random
bytes `gamma^{ext}`, `keys` the seed OT's `OneTimePadEncryptionKeys` -/
def kosRound1 (env : KEnv F) (keys : List (Digest × Digest)) (sid : Digest)
    (choice : Vector UInt8 cotBytes) (rnd : Vector UInt8 42) : Go (KosRound1 × KosReceiver) := do
  let ext : Vector UInt8 extBytes := choice ++ rnd
  let v ← Go.tabulate (8 * kappaBytes) fun i => do
    let k ← index keys i.val
    .ok (env.read sid extBytes k.1.toList, env.read sid extBytes k.2.toList)
  let U := Vector.ofFn fun i => xorBytes (xorBytes (v i).1 (v i).2) ext
  let psi := transposeBooleanMatrix (Vector.ofFn fun i => (v i).1)
  let digest := hashU env U
  let wPrime := xorSum (8 * extBytes) fun j =>
    maskBytes (convertBitToBitmask (extractBit ext.toList j.val)) (chiJ env digest j.val)
  let vPrime := xorSum (8 * extBytes) fun j => binaryFieldMul psi[j] (chiJ env digest j.val)
  .ok (⟨U, wPrime, vPrime⟩, ⟨ext, psi, sid⟩)

/-- the two scalars of slot `j` derived from a row (kos.go:325-338, 343-362, 371-388) -/
def slotScalar (env : KEnv F) (sid : Digest) (j : ℕ) (row : Digest) (k : ℕ) : Go F :=
  let column := env.read sid 64 (be16 j ++ row.toList)
  Go.ofOption (env.cd.dec ((column.toList.drop (k * 32)).take 32))

/-- `ReceiverOutput` of the seed OT as used by the extension -/
structure SeedReceiver where
  packed : List UInt8
  choices : List ℕ
  pads : List Digest

/-- the matrix `zeta` (kos.go:273-292) -/
def kosZeta (env : KEnv F) (seed : SeedReceiver) (sid : Digest) (U : Vector (Vector UInt8 extBytes) (8 * kappaBytes)) :
    Go (Vector Digest (8 * extBytes)) := do
  let z ← Go.tabulate (8 * kappaBytes) fun i => do
    let pad ← index seed.pads i.val
    let v := env.read sid extBytes pad.toList
    let c ← index seed.choices i.val
    let mask := convertBitToBitmask (UInt8.ofNat c)
    .ok (xorBytes v (maskBytes mask U[i]))
  .ok (transposeBooleanMatrix (Vector.ofFn z))

/-- the consistency check (kos.go:293-319) -/
def kosCheck (env : KEnv F) (zeta : Vector Digest (8 * extBytes)) (nabla : Digest) (m : KosRound1) : Prop :=
  xorSum (8 * extBytes) (fun j => binaryFieldMul zeta[j] (chiJ env (hashU env m.U) j.val)) =
    xorBytes m.vPrime (binaryFieldMul nabla m.wPrime)

instance (env : KEnv F) (zeta : Vector Digest (8 * extBytes)) (nabla : Digest) (m : KosRound1) :
    Decidable (kosCheck env zeta nabla m) := by unfold kosCheck; infer_instance

/-- slot `j` of lines 321-363: the sender's shares and `tau` -/
def kosSlot (env : KEnv F) (sid : Digest) (j : ℕ) (zetaJ nabla : Digest) (input : F × F) :
    Go ((F × F) × (F × F)) := do
  let a0 ← slotScalar env sid j zetaJ 0
  let a1 ← slotScalar env sid j zetaJ 1
  let t0 ← slotScalar env sid j (xorBytes zetaJ nabla) 0
  let t1 ← slotScalar env sid j (xorBytes zetaJ nabla) 1
  .ok ((a0, a1), (t0 - a0 + input.1, t1 - a1 + input.2))

/-- `Round2Transfer` (kos.go:269-365): the sender's shares `tA` and the message `tau` -/
def kosRound2 (env : KEnv F) (seed : SeedReceiver) (sid : Digest) (input : Fin cotL → F × F)
    (m : KosRound1) : Go ((Fin cotL → F × F) × (Fin cotL → F × F)) := do
  let zeta ← kosZeta env seed sid m.U
  let nabla ← digestOf seed.packed
  Go.guard (kosCheck env zeta nabla m)
  let out ← Go.tabulate cotL fun j => kosSlot env sid j.val (zeta[j.val]'(slot_lt j)) nabla (input j)
  .ok (fun j => (out j).1, fun j => (out j).2)

/-- lines 390-397 for one scalar -/
def kosShare (env : KEnv F) (bit : ℕ) (s tau : F) : Go F := do
  let share := -s
  let wj0 ← constantTimeCopy bit (env.cd.enc share) (env.cd.enc (share + tau))
  Go.ofOption (env.cd.dec wj0)

/-- slot `j` of `Round3Transfer` (kos.go:370-398) -/
def kosSlotB (env : KEnv F) (sid : Digest) (j : ℕ) (psiJ : Digest) (bit : ℕ) (tau : F × F) : Go (F × F) := do
  let s0 ← slotScalar env sid j psiJ 0
  let b0 ← kosShare env bit s0 tau.1
  let s1 ← slotScalar env sid j psiJ 1
  let b1 ← kosShare env bit s1 tau.2
  .ok (b0, b1)

/-- `Round3Transfer` (kos.go:368-400): the receiver's shares `tB` -/
def kosRound3 (env : KEnv F) (r : KosReceiver) (tau : Fin cotL → F × F) : Go (Fin cotL → F × F) :=
  Go.tabulate cotL fun j =>
    kosSlotB env r.sid j.val (r.psi[j.val]'(slot_lt j)) (extractBit r.ext.toList j.val).toNat (tau j)

end Verif.Ot
