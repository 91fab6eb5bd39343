import Verif.DklsV0.DkgModel
import Verif.Ot.KosModel

/-!
# Model of the older correlated OT extension and multiplication (`pkg/tecdsa/dkls/v0/ot.go:273-523`, `multiply.go`)

The number `m` of multiplications that share an extension is arbitrary; the signing code has `m = 2`.  The bit matrices `psi` and `zeta` are
filled bit by bit with `|=` in the Go code; the loop over the rows is the one of `transposeBooleanMatrix` in the newer code, whose model is
reused, followed by one `|=` with what the matrix contained before.
-/

namespace Verif.DklsV0
open Verif.Legacy Verif.Ot

/-- `l >> 3` for `l = 2·m·kappa + 2·s` (ot.go:295) -/
abbrev choBytes (m : ℕ) : ℕ := 64 * m + 20
/-- `lPrime >> 3` for `lPrime = l + kappaOT` (ot.go:296) -/
abbrev extBytes (m : ℕ) : ℕ := choBytes m + 42

/-- `ExpandMessageXmd` with SHA-256 -/
def xmd (env : Env) (msg dst : List UInt8) (len : ℕ) : Go (List UInt8) :=
  Core.expandXmd (fun x => (env.sha x).toList) 32 64 msg dst len

/-- `v := make([]byte, n); copy(v, row)` -/
def copied (n : ℕ) (row : List UInt8) : Vector UInt8 n := Vector.ofFn fun j => row.getD j.val 0

/-- byte-wise `a & b` -/
def andBytes {n : ℕ} (a b : Vector UInt8 n) : Vector UInt8 n := Vector.zipWith (· &&& ·) a b
/-- byte-wise `a | b` -/
def orBytes {n : ℕ} (a b : Vector UInt8 n) : Vector UInt8 n := Vector.zipWith (· ||| ·) a b

/-- `byte(j&0x07), byte(j>>3)`: indices of 2048 and above wrap -/
def idx (j : ℕ) : List UInt8 := [UInt8.ofNat (j &&& 0x07), UInt8.ofNat (j >>> 3)]

/-- the hash of the rows of `U` (ot.go:386, 430) -/
def hashU (env : Env) (U : Fin 256 → List UInt8) : Digest := env.sha (List.ofFn U).flatten

/-- `chiJ` (ot.go:382, 434) -/
def chi (env : Env) (digest : Digest) (j : ℕ) : Digest := env.sha (digest.toList ++ idx j)

/-- `cOTInitStorage` (ot.go:329-333) -/
structure CotInit where
  wPrime : Digest
  vPrime : Digest
  U : Fin 256 → List UInt8

/-- `cOTStorage` (ot.go:335-338) -/
structure CotMsg where
  tauMain : List ℤ
  tauOT : Fin 160 → List ℤ

/-- `cOTReceiver` (ot.go:273-282) -/
structure CotReceiver (m : ℕ) where
  w : Vector UInt8 (extBytes m)
  psi : Vector Digest (8 * extBytes m)

/-- `newCOTReceiver` (ot.go:293-311) -/
def newCotReceiver (m : ℕ) : CotReceiver m := ⟨Vector.replicate _ 0, Vector.replicate _ (Vector.replicate 32 0)⟩

/-- one row (ot.go:358-368): `v[0][i]`, `v[1][i]` and `U[i]` -/
def cotRow (env : Env) (m : ℕ) (idExt : Digest) (w : Vector UInt8 (extBytes m)) (rho : Digest × Digest) :
    Go (Vector UInt8 (extBytes m) × Vector UInt8 (extBytes m)) := do
  let r0 ← xmd env rho.1.toList idExt.toList (extBytes m)
  let r1 ← xmd env rho.2.toList idExt.toList (extBytes m)
  let v0 := copied (extBytes m) r0
  let v1 := copied (extBytes m) r1
  .ok (v0, xorBytes (xorBytes v0 v1) w)

/-- `cOTReceiver.init` (ot.go:340-395): `rho` are the pads of the seed OT, `gamma` the random bytes; the choice vector is copied into the
first bytes of `w` -/
def cotInit (env : Env) {m : ℕ} (st : CotReceiver m) (rho : Fin 256 → Digest × Digest) (idExt : Digest) (choice : List UInt8)
    (gamma : Vector UInt8 42) : Go (CotInit × CotReceiver m) := do
  let w : Vector UInt8 (extBytes m) := Vector.ofFn fun j =>
    if j.val < choBytes m then (if j.val < choice.length then choice.getD j.val 0 else st.w[j.val]) else gamma.toList.getD (j.val - choBytes m) 0
  let rows ← Go.tabulate 256 fun i => cotRow env m idExt w (rho i)
  let t := transposeBooleanMatrix (nr := 32) (Vector.ofFn fun i => (rows i).1)
  let psi : Vector Digest (8 * extBytes m) := Vector.ofFn fun j => orBytes st.psi[j.val] t[j.val]
  let U : Fin 256 → List UInt8 := fun i => (rows i).2.toList
  let digest := hashU env U
  let wPrime := xorSum (8 * extBytes m) fun j => maskBytes (convertBitToBitmask (extractBit w.toList j)) (chi env digest j)
  let vPrime := xorSum (8 * extBytes m) fun j => andBytes psi[j.val] (chi env digest j)
  .ok (⟨wPrime, vPrime, U⟩, ⟨w, psi⟩)

/-- one row of the sender (ot.go:413-425): an index outside of a row of the peer panics, more bytes are not looked at -/
def cotZRow (env : Env) (m : ℕ) (idExt : Digest) (rho : Digest) (c : ℕ) (U : List UInt8) : Go (Vector UInt8 (extBytes m)) := do
  let row ← xmd env rho.toList idExt.toList (extBytes m)
  if U.length < extBytes m then Go.crash else
  .ok (xorBytes (copied (extBytes m) row) (maskBytes (~~~(UInt8.ofNat c - 1)) (copied (extBytes m) U)))

/-- ot.go:406-429: `zeta` -/
def cotZeta (env : Env) (m : ℕ) (idExt packed : Digest) (rho : Fin 256 → Digest) (U : Fin 256 → List UInt8) :
    Go (Vector Digest (8 * extBytes m)) := do
  let z ← Go.tabulate 256 fun i => cotZRow env m idExt (rho i) (choiceBit packed i) (U i)
  .ok (transposeBooleanMatrix (nr := 32) (Vector.ofFn z))

/-- the check (ot.go:431-446) -/
def cotCheck (env : Env) {m : ℕ} (packed : Digest) (zeta : Vector Digest (8 * extBytes m)) (input : CotInit) : Prop :=
  xorSum (8 * extBytes m) (fun j => andBytes zeta[j.val] (chi env (hashU env input.U) j)) =
    xorBytes input.vPrime (andBytes packed input.wPrime)

instance (env : Env) {m : ℕ} (packed : Digest) (zeta : Vector Digest (8 * extBytes m)) (input : CotInit) :
    Decidable (cotCheck env packed zeta input) := by unfold cotCheck; infer_instance

/-- `tau` from the two hashes and the input (ot.go:461-462, 483-484) -/
def tau (env : Env) (h1 h0 input : ℤ) : Go ℤ := do
  let t ← env.sc.sub h1 h0
  env.sc.add t input

/-- `ExpandMessageXmd(sha256.New, append(row, …), "Coinbase_tECDSA", 32·m)` split in integers (ot.go:468-473, 507-514) -/
def otColumn (env : Env) (m : ℕ) (row : Digest) (j : ℕ) : Go (ℕ → ℤ) := do
  let column ← xmd env (row.toList ++ idx j) Core.dstCoinbase (32 * m)
  .ok fun k => beNat ((column.drop (k * 32)).take 32)

/-- `cOTSender` (ot.go:284-291) after `transfer` -/
structure CotOut (m : ℕ) where
  tA : Fin (512 * m) → ℤ
  tAOT : Fin 160 → Fin m → ℤ

/-- `cOTSender.transfer` (ot.go:397-488): `packed` and `rho` are those of the seed OT receiver -/
def cotTransfer (env : Env) (m : ℕ) (idExt packed : Digest) (rho : Fin 256 → Digest) (inputMain : Fin (512 * m) → ℤ)
    (inputOT : Fin 160 → Fin m → ℤ) (input : CotInit) : Go (CotMsg × CotOut m) := do
  let zeta ← cotZeta env m idExt packed rho input.U
  Go.guard (cotCheck env packed zeta input)
  let row := fun j : ℕ => zeta.toList.getD j (Vector.replicate 32 0)
  let tA := fun j : Fin (512 * m) => intOf (env.sha ((row j).toList ++ idx j))
  let main ← Go.tabulate (512 * m) fun j => tau env (intOf (env.sha ((xorBytes (row j) packed).toList ++ idx j))) (tA j) (inputMain j)
  let ot ← Go.tabulate 160 fun j => do
    let c0 ← otColumn env m (row (512 * m + j)) j
    let c1 ← otColumn env m (xorBytes (row (512 * m + j)) packed) j
    let t ← Go.tabulate m fun k => tau env (c1 k) (c0 k) (inputOT j k)
    .ok ((fun k : Fin m => c0 k), t)
  .ok (⟨List.ofFn main, fun j => List.ofFn (ot j).2⟩, ⟨tA, fun j => (ot j).1⟩)

/-- one slot of the receiver (ot.go:498-504, 514-519): `tau` is looked up after the first encoding -/
def cotSlot (env : Env) (h : ℤ) (bit : ℕ) (taus : List ℤ) (j : ℕ) : Go ℤ := do
  let t ← env.sc.neg h
  let w0 ← env.sc.bytes t
  let tau ← index taus j
  let s ← env.sc.add t tau
  let w1 ← env.sc.bytes s
  let w ← constantTimeCopy bit w0 w1
  .ok (beNat w)

/-- `cOTReceiver.transfer` (ot.go:490-523): `tB` and `tBOT` -/
def cotFinish (env : Env) {m : ℕ} (st : CotReceiver m) (input : CotMsg) : Go ((Fin (512 * m) → ℤ) × (Fin 160 → Fin m → ℤ)) := do
  let row := fun j : ℕ => st.psi.toList.getD j (Vector.replicate 32 0)
  let tB ← Go.tabulate (512 * m) fun j =>
    cotSlot env (intOf (env.sha ((row j).toList ++ idx j))) (extractBit st.w.toList j).toNat input.tauMain j
  let tBOT ← Go.tabulate 160 fun j => do
    let c ← otColumn env m (row (512 * m + j)) j
    Go.tabulate m fun k => cotSlot env (c k) (extractBit st.w.toList (512 * m + j)).toNat (input.tauOT j) k
  .ok (tB, tBOT)

/-! ## Multiplication -/

/-- subtraction of an element of the gadget vector when the bit is set (multiply.go:74-77, 82-85) -/
def subIf (env : Env) (bytes : List UInt8) (bit : ℕ) (g : ℤ) : Go (List UInt8) := do
  let s ← env.sc.sub (beNat bytes) g
  let mask ← env.sc.bytes s
  constantTimeCopy bit bytes mask

/-- a loop of such subtractions -/
def subLoop (env : Env) (v : List UInt8) (g : ℕ → ℤ) : ℕ → List UInt8 → Go (List UInt8)
  | 0, bytes => .ok bytes
  | n + 1, bytes => do
    let bytes ← subLoop env v g n bytes
    subIf env bytes (extractBit v n).toNat (g n)

/-- the last `2·s` choice bits: only the first `s` are drawn at random (multiply.go:69-71) -/
def tailBytes (rnd : Vector UInt8 10) : List UInt8 := rnd.toList ++ List.replicate 10 0

/-- the encoding of one input (multiply.go:64, 73-86) with its random bytes `r` -/
def encodeOne (env : Env) (beta : ℤ) (r : Digest) (tail : List UInt8) : Go (List UInt8) := do
  let b ← env.sc.bytes beta
  let b ← subLoop env r.toList (fun j => env.gadget (256 + j)) 256 b
  let b ← subLoop env tail (fun j => env.gadget (512 + j)) 160 b
  .ok b.reverse

/-- `MultiplyReceiver.encode` (multiply.go:58-89) -/
def encode (env : Env) {m : ℕ} (beta : Fin m → ℤ) (r : Fin m → Digest) (rnd : Vector UInt8 10) : Go (List UInt8) := do
  let parts ← Go.tabulate m fun i => encodeOne env (beta i) (r i) (tailBytes rnd)
  .ok ((List.ofFn fun i => parts i ++ (r i).toList).flatten ++ tailBytes rnd)

/-- `MultiplyInit` (multiply.go:92-98) -/
def multiplyInit (env : Env) {m : ℕ} (st : CotReceiver m) (rho : Fin 256 → Digest × Digest) (idExt : Digest) (beta : Fin m → ℤ)
    (r : Fin m → Digest) (rnd : Vector UInt8 10) (gamma : Vector UInt8 42) : Go (CotInit × CotReceiver m) := do
  let omega ← encode env beta r rnd
  cotInit env st rho idExt omega gamma

/-- `T = scalar.Add(T, f(j))` for `j < n`, starting from `T` -/
def addLoop (env : Env) (f : ℕ → ℤ) : ℕ → ℤ → Go ℤ
  | 0, acc => .ok acc
  | n + 1, acc => do
    let acc ← addLoop env f n acc
    env.sc.add acc (f n)

/-- the sums `TA[i]`, `TB[i]` (multiply.go:124-136, 146-158) -/
def sums (env : Env) {m : ℕ} (t : Fin (512 * m) → ℤ) (tOT : Fin 160 → Fin m → ℤ) (i : Fin m) : Go ℤ := do
  let a ← addLoop env (fun j => if h : 512 * i.val + j < 512 * m then t ⟨512 * i.val + j, h⟩ else 0) 512 0
  addLoop env (fun j => if h : j < 160 then tOT ⟨j, h⟩ i else 0) 160 a

/-- `Multiply` (multiply.go:104-137): the message and `TA` -/
def multiply (env : Env) {m : ℕ} (idExt packed : Digest) (rho : Fin 256 → Digest) (alpha : Fin m → ℤ) (input : CotInit) :
    Go (CotMsg × (Fin m → ℤ)) := do
  let main ← Go.tabulate (512 * m) fun j => env.sc.mul (env.gadget (j.val % 512)) (alpha ⟨j.val / 512, by omega⟩)
  let ot ← Go.tabulate 160 fun j => Go.tabulate m fun i => env.sc.mul (env.gadget (j.val + 512)) (alpha i)
  let (msg, out) ← cotTransfer env m idExt packed rho main ot input
  let ta ← Go.tabulate m fun i => sums env out.tA out.tAOT i
  .ok (msg, ta)

/-- `MultiplyTransfer` (multiply.go:142-159): `TB` -/
def multiplyTransfer (env : Env) {m : ℕ} (st : CotReceiver m) (input : CotMsg) : Go (Fin m → ℤ) := do
  let (tB, tBOT) ← cotFinish env st input
  Go.tabulate m fun i => sums env tB tBOT i

end Verif.DklsV0
