import Verif.Common.Bytes
import Verif.Common.BigInt

/-!
# Model of `pkg/core` (mod.go, commit.go, hash.go), `internal/hash.go` and
`pkg/core/curves/field.go`

Hash functions, HMAC and HKDF are arbitrary functions.  Big integers are `ℤ`, nil pointers `none`.
-/

namespace Verif.Core

/-! ## `pkg/core/mod.go` -/

/-- `ConstantTimeEqByte` (mod.go:38-63).  `subtle.ConstantTimeCompare` returns 1 iff the byte
strings are equal (lengths included). -/
def constantTimeEqByte (a b : Option ℤ) : UInt8 :=
  match a, b with
  | none, none => 1
  | none, some _ => 0
  | some _, none => 0
  | some a, some b =>
    let sameBytes : UInt8 := if intBytes a = intBytes b then 1 else 0
    let sameSign : UInt8 := if a.sign = b.sign then 1 else 0
    sameBytes &&& sameSign

/-- `ConstantTimeEq` (mod.go:68-70). -/
def constantTimeEq (a b : Option ℤ) : Bool := constantTimeEqByte a b == 1

/-- `In` (mod.go:74-85). -/
def inZm (x m : Option ℤ) : Go Unit :=
  match x, m with
  | some x, some m => Go.guard (¬ x < 0 ∧ x < m)
  | _, _ => Go.err

/-- `Add` (mod.go:88-99). -/
def add (x y m : Option ℤ) : Go ℤ :=
  match x, y with
  | some x, some y => match m with
    | none => .ok (x + y)
    | some m => Big.mod (x + y) m
  | _, _ => Go.err

/-- `Mul` (mod.go:102-114). -/
def mul (x y m : Option ℤ) : Go ℤ :=
  match x, y with
  | some x, some y => match m with
    | none => .ok (x * y)
    | some m => Big.mod (x * y) m
  | _, _ => Go.err

/-- `Exp` (mod.go:117-123).  The returned pointer may be nil (`none`) with a nil error. -/
def exp (x y m : Option ℤ) : Go (Option ℤ) :=
  match x, y with
  | some x, some y => .ok (Big.exp x y (m.getD 0))
  | _, _ => Go.err

/-- `Neg` (mod.go:126-133). -/
def neg (x m : Option ℤ) : Go ℤ :=
  match x, m with
  | some x, some m => Big.mod (-x) m
  | _, _ => Go.err

/-- `Inv` (mod.go:136-145); `ModInverse` with modulus 0 panics. -/
def inv (x m : Option ℤ) : Go ℤ :=
  match x, m with
  | some x, some m => if m = 0 then Go.crash else Go.ofOption (Big.modInverse x m)
  | _, _ => Go.err

/-- `Rand` (mod.go:148-168) with the sequence of values that `crypto/rand.Int` returns; `fuel`
bounds the number of loop iterations looked at, `none` means "still looping". -/
def rand (draws : ℕ → ℤ) : ℕ → ℕ → Option ℤ
  | 0, _ => none
  | fuel + 1, i => if 1 < draws i then some (draws i) else rand draws fuel (i + 1)

/-! ## `pkg/core/commit.go` -/

/-- `Witness` (commit.go:30-33). -/
structure Witness where
  msg : List UInt8
  r : List UInt8

/-- `Commit` (commit.go:60-81) with the 32 random bytes `r`; `hmac key msg` is HMAC-SHA256. -/
def commit (hmac : List UInt8 → List UInt8 → List UInt8) (msg r : List UInt8) :
    List UInt8 × Witness := (hmac r msg, ⟨msg, r⟩)

/-- `Open` (commit.go:85-97). -/
def openC (hmac : List UInt8 → List UInt8 → List UInt8) (c : List UInt8) (d : Witness) :
    Go Bool := do
  Go.guard (c.length = 32)
  .ok (decide (hmac d.r d.msg = c))

/-! ## `pkg/core/hash.go` -/

/-- `I2OSP` (hash.go:78-87); slicing with a negative length panics. -/
def i2osp (b n : ℤ) : Go (List UInt8) :=
  let os := intBytes b
  if n > os.length then .ok (List.replicate (n.toNat - os.length) 0 ++ os)
  else if n < 0 then Go.crash
  else .ok (os.take n.toNat)

/-- `OS2IP` (hash.go:89-91). -/
def os2ip (os : List UInt8) : ℕ := beNat os

/-- `xor` (hash.go:113-121) on slices of the same length (both are hash outputs). -/
def xor (a b : List UInt8) : List UInt8 := List.zipWith (· ^^^ ·) a b

/-- Steps 8-10 of `ExpandMessageXmd` (hash.go:153-166): the blocks `b[1..]`; `k` is the number of
blocks still to produce after `prev = b[i-1]`. -/
def xmdBlocks (H : List UInt8 → List UInt8) (b0 dstPrime : List UInt8) :
    ℕ → ℕ → List UInt8 → Go (List (List UInt8))
  | 0, _, _ => .ok []
  | k + 1, i, prev => do
    let ib ← i2osp i 1
    let bi := H (xor b0 prev ++ ib ++ dstPrime)
    let rest ← xmdBlocks H b0 dstPrime k (i + 1) bi
    .ok (bi :: rest)

/-- `ExpandMessageXmd` (hash.go:123-172) with a hash of `size` output bytes and `block` block
bytes.  `ell` is computed exactly (the code uses `float64`, exact below `2^53`).  `ell ≤ 0` makes
`b[1]` an index out of range (or `make` panic). -/
def expandXmd (H : List UInt8 → List UInt8) (size block : ℕ) (msg dst : List UInt8)
    (lenInBytes : ℤ) : Go (List UInt8) := do
  let ell : ℤ := (lenInBytes + size - 1) / size
  Go.guard (¬ ell > 255)
  if ell ≤ 0 then Go.crash else do
  let dl ← i2osp dst.length 1
  let dstPrime := dst ++ dl
  let zPad ← i2osp 0 block
  let l2 ← i2osp lenInBytes 2
  let z1 ← i2osp 0 1
  let b0 := H (zPad ++ msg ++ l2 ++ z1 ++ dstPrime)
  let one ← i2osp 1 1
  let b1 := H (b0 ++ one ++ dstPrime)
  let rest ← xmdBlocks H b0 dstPrime (ell.toNat - 1) 2 b1
  .ok (((b1 :: rest).flatten).take lenInBytes.toNat)

/-- `DST` of `hashToField` (hash.go:184): the ASCII string `Coinbase_tECDSA`. -/
def dstCoinbase : List UInt8 := "Coinbase_tECDSA".toUTF8.toList

/-- `Hash` (hash.go:220-226) via `hashToField` (hash.go:174-218) for a supported curve: SHA-256
(`size = 32`, `block = 64`), `L = 48`, `m = 1`, one element, reduced modulo `p`.  The `getParams`
error for an unknown curve name is `p = none`. -/
def hashToField (H : List UInt8 → List UInt8) (p : Option ℤ) (msg : List UInt8) : Go ℤ :=
  match p with
  | none => Go.err
  | some p => do
    let u ← expandXmd H 32 64 msg dstCoinbase 48
    Big.mod (os2ip (u.take 48)) p

/-! ## `internal/hash.go` -/

/-- The bit trick of `ByteSub` (internal/hash.go:82-84) with its wrapping `int8` arithmetic. -/
def isZeroBit (b : UInt8) : UInt8 :=
  (((b.toInt8 >>> 7) ||| ((-b.toInt8) >>> 7)) + 1).toUInt8

/-- `ByteSub` (internal/hash.go:74-93). -/
def byteSub (m : UInt8) : List UInt8 → List UInt8
  | [] => []
  | b :: bs =>
    let b1 := b - m
    let s := isZeroBit b1
    (b1 ||| (0 - s)) :: byteSub (s &&& m) bs

/-- The loop shared by `internal.Hash` (internal/hash.go:46-58) and `FiatShamir`
(hash.go:258-270); `kdf ikm` is the 32-byte HKDF-SHA256 output for the fixed salt and info. -/
def chain (kdf : List UInt8 → List UInt8) : List UInt8 → List UInt8 → List (List UInt8) → List UInt8
  | _, okm, [] => okm
  | f, okm, v :: vs => chain kdf (byteSub 1 f) (kdf (f ++ v ++ okm)) vs

/-- Initial counter: 32 bytes 0xFF (hash.go:256). -/
def f0 : List UInt8 := List.replicate 32 255

/-- Initial output key material: 32 zero bytes (hash.go:255). -/
def okm0 : List UInt8 := List.replicate 32 0

/-- `internal.Hash` (internal/hash.go:36-60); a nil slice is `none`. -/
def internalHash (kdf : List UInt8 → List UInt8) (values : List (Option (List UInt8))) :
    Go (List UInt8) :=
  match values.mapM id with
  | none => Go.err
  | some vs => .ok (chain kdf f0 okm0 vs)

/-- `FiatShamir` (hash.go:247-272). -/
def fiatShamir (kdf : List UInt8 → List UInt8) (values : List (Option ℤ)) : Go (List UInt8) :=
  match values.mapM id with
  | none => Go.err
  | some vs => .ok (chain kdf f0 okm0 (vs.map intBytes))

/-! ## `pkg/core/curves/field.go` -/

/-- `Element` (field.go:28-31). -/
structure Element where
  modulus : ℤ
  value : ℤ
  deriving DecidableEq, Repr

/-- `newElement` (field.go:84-90) including `IsValid` (field.go:93-96); a nil value panics too. -/
def newElement (p : ℤ) (v : Option ℤ) : Go Element :=
  match v with
  | none => Go.crash
  | some v => if v < p ∧ 0 ≤ v.sign then .ok ⟨p, v⟩ else Go.crash

/-- `validateFields` (field.go:260-264). -/
def validateFields (x y : Element) : Go Unit :=
  if x.modulus = y.modulus then .ok () else Go.crash

namespace Element

/-- `Add` (field.go:174-180). -/
def add (x y : Element) : Go Element := do
  validateFields x y
  newElement x.modulus (some (← Big.mod (x.value + y.value) x.modulus))

/-- `Sub` (field.go:183-189). -/
def sub (x y : Element) : Go Element := do
  validateFields x y
  newElement x.modulus (some (← Big.mod (x.value - y.value) x.modulus))

/-- `Neg` (field.go:192-196). -/
def neg (x : Element) : Go Element := do
  newElement x.modulus (some (← Big.mod (-x.value) x.modulus))

/-- `Mul` (field.go:199-205). -/
def mul (x y : Element) : Go Element := do
  validateFields x y
  newElement x.modulus (some (← Big.mod (x.value * y.value) x.modulus))

/-- `Div` (field.go:208-215); a nil inverse is dereferenced by `big.Int.Mul`. -/
def div (x y : Element) : Go Element := do
  validateFields x y
  if x.modulus = 0 then Go.crash else
  match Big.modInverse y.value x.modulus with
  | none => Go.crash
  | some yInv => newElement x.modulus (some (← Big.mod (x.value * yInv) x.modulus))

/-- `Pow` (field.go:218-222). -/
def pow (x y : Element) : Go Element := do
  validateFields x y
  newElement x.modulus (Big.exp x.value y.value x.modulus)

/-- `Invert` (field.go:224-226). -/
def invert (x : Element) : Go Element :=
  if x.modulus = 0 then Go.crash else newElement x.modulus (Big.modInverse x.value x.modulus)

/-- `Bytes` (field.go:238-240). -/
def bytes (x : Element) : List UInt8 := intBytes x.value

/-- `IsEqual` (field.go:243-249). -/
def isEqual (x y : Element) : Bool :=
  if x.modulus = y.modulus then decide (x.value = y.value) else false

end Element

/-- `ElementFromBytes` (field.go:134-136). -/
def elementFromBytes (p : ℤ) (b : List UInt8) : Go Element := newElement p (some (beNat b))

/-- `ReducedElementFromBytes` (field.go:163-167). -/
def reducedElementFromBytes (p : ℤ) (b : List UInt8) : Go Element := do
  newElement p (some (← Big.mod (beNat b) p))

/-- `Clone` (field.go:252-254). -/
def Element.clone (x : Element) : Go Element := elementFromBytes x.modulus x.bytes

end Verif.Core
