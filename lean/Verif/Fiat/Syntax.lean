import Verif.Native.LimbModel

/-!
# The straight-line programs of fiat-crypto

The generated field arithmetic (`pkg/core/curves/native/{k256,p256,pasta}/{fp,fq}/*_{fp,fq}.go`) consists of lists of assignments to
fresh variables of type `uint64`. The programs are kept as data, one constructor for each form of assignment that occurs, and
executed on 64-bit words.
-/

namespace Verif.Fiat
open Verif.Native

/-- the expressions on the right-hand sides: a variable `xn`, `arg1[i]`, `arg2[i]`, a literal, `x + y` (wrapping) and `x & y` -/
inductive E where
  | r (n : ℕ)
  | a (i : ℕ)
  | b (i : ℕ)
  | k (w : ℕ)
  | plus (x y : E)
  | band (x y : E)

/-- the assignments; the target `0` stands for the blank identifier `_`

* `mul hi lo x y`: `hi, lo = bits.Mul64(x, y)`
* `add s c x y z`: `s, c = bits.Add64(x, y, z)` (also through `fiat_pasta_fp_addcarryx_u64`, `pasta_fp.go:61-64`)
* `sub d b x y z`: `d, b = bits.Sub64(x, y, z)` (also through `fiat_pasta_fp_subborrowx_u64`, `pasta_fp.go:67-70`)
* `set n x`: `xn := x`
* `cmov n c x y`: `cmovznzU64(&xn, c, x, y)` -/
inductive S where
  | mul (hi lo : ℕ) (x y : E)
  | add (s c : ℕ) (x y z : E)
  | sub (d b : ℕ) (x y z : E)
  | set (n : ℕ) (x : E)
  | cmov (n : ℕ) (c x y : E)

/-- a function body: the assignments and the four values written to `out1` at its end -/
structure Prog where
  code : List S
  out : List E

/-- the limb `arg[i]` -/
def limb (x : Limbs) : ℕ → UInt64
  | 0 => x.l0
  | 1 => x.l1
  | 2 => x.l2
  | 3 => x.l3
  | _ => 0

/-- the arguments and the current values of the variables -/
structure St where
  arg1 : Limbs
  arg2 : Limbs
  reg : ℕ → UInt64

/-- the value of an expression -/
def E.eval (σ : St) : E → UInt64
  | .r n => σ.reg n
  | .a i => limb σ.arg1 i
  | .b i => limb σ.arg2 i
  | .k w => UInt64.ofNat w
  | .plus x y => x.eval σ + y.eval σ
  | .band x y => x.eval σ &&& y.eval σ

/-- an assignment to one variable -/
def St.put (σ : St) (n : ℕ) (v : UInt64) : St := if n = 0 then σ else { σ with reg := fun m => if m = n then v else σ.reg m }

/-- high word of `bits.Mul64`: the 128-bit product divided by `2^64` -/
def mulHi (x y : UInt64) : UInt64 := UInt64.ofNat (x.toNat * y.toNat / 2 ^ 64)

/-- carry of `bits.Add64`: 1 iff the sum does not fit; for a carry-in of 0 or 1 (`Prog.carriesOk` checks that no other occurs) -/
def addCarry (x y z : UInt64) : UInt64 := UInt64.ofNat ((x.toNat + y.toNat + z.toNat) / 2 ^ 64)

/-- borrow of `bits.Sub64`: 1 iff the difference is negative -/
def subBorrow (x y z : UInt64) : UInt64 := if x.toNat < y.toNat + z.toNat then 1 else 0

/-- `fiat_pasta_fp_cmovznz_u64` (`pasta_fp.go:83-88`): the mask is `0 - arg1` -/
def cmovMask (c x y : UInt64) : UInt64 :=
  let m := (0 - c) &&& 0xffffffffffffffff
  (m &&& y) ||| (~~~m &&& x)

/-- `cmovznzU64` (`secp256k1_fp.go:68-72`, `p256_fp.go:70-74`): the mask is `arg1 * 0xffffffffffffffff` -/
def cmovMul (c x y : UInt64) : UInt64 :=
  let m := c * 0xffffffffffffffff
  (m &&& y) ||| (~~~m &&& x)

/-- the effect of an assignment; the two targets of a tuple assignment are written after both values are computed -/
def S.exec (σ : St) : S → St
  | .mul hi lo x y => (σ.put hi (mulHi (x.eval σ) (y.eval σ))).put lo (x.eval σ * y.eval σ)
  | .add s c x y z => (σ.put s (x.eval σ + y.eval σ + z.eval σ)).put c (addCarry (x.eval σ) (y.eval σ) (z.eval σ))
  | .sub d b x y z => (σ.put d (x.eval σ - y.eval σ - z.eval σ)).put b (subBorrow (x.eval σ) (y.eval σ) (z.eval σ))
  | .set n x => σ.put n (x.eval σ)
  | .cmov n c x y => σ.put n (cmovMask (c.eval σ) (x.eval σ) (y.eval σ))

/-- the state after the assignments; Go's `var` starts the variables at zero -/
def Prog.final (p : Prog) (x y : Limbs) : St := p.code.foldl S.exec ⟨x, y, fun _ => 0⟩

/-- `out1` after the call; `out1` is written only at the end, so it may share memory with the arguments -/
def Prog.run (p : Prog) (x y : Limbs) : Limbs :=
  let v := fun i => match p.out[i]? with
    | some e => e.eval (p.final x y)
    | none => 0
  ⟨v 0, v 1, v 2, v 3⟩

end Verif.Fiat
