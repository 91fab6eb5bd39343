import Verif.Bls381.GModel
import Verif.Common.Go

/-!
# The pairing engine of BLS12-381 (`pairings.go`)

The operations of `fp2` are those of the field `Fp2 Fq` (`Verif.Bls381.Fp2Field`: `Square` and `Double` are `x * x` and
`x + x`). An `Engine` is the list of its pairs. A read or a write outside of a slice is a panic.
-/

namespace Verif.Bls381

open Verif.Primes Verif.Native

/-- `coefficients` (`pairings.go:19-21`) -/
structure Coeffs where
  a : Fp2 Fq
  b : Fp2 Fq
  c : Fp2 Fq
deriving DecidableEq

/-- `g2Prepared` (`pairings.go:14-17`) -/
structure Prepared where
  identity : Bool
  coefficients : List Coeffs

/-- `Engine` (`pairings.go:5-12`) -/
abbrev Engine := List (Proj Fq × Proj (Fp2 Fq))

/-- `AddPair` (`pairings.go:31-39`) -/
def addPair (e : Engine) (g1 : Proj Fq) (g2 : Proj (Fp2 Fq)) : Engine :=
  let p1 := gToAffine g1
  let p2 := gToAffine g2
  if (decide (p1.z = 0) || decide (p2.z = 0)) = false then e ++ [(p1, p2)] else e

/-- `AddPairInvG1` (`pairings.go:42-46`) -/
def addPairInvG1 (e : Engine) (g1 : Proj Fq) (g2 : Proj (Fp2 Fq)) : Engine := addPair e (gNeg g1) g2

/-- `AddPairInvG2` (`pairings.go:49-53`) -/
def addPairInvG2 (e : Engine) (g1 : Proj Fq) (g2 : Proj (Fp2 Fq)) : Engine := addPair e g1 (gNeg g2)

/-- `Reset` (`pairings.go:55-58`) -/
def engineReset (_ : Engine) : Engine := []

/-- `doublingStep` (`pairings.go:161-204`): the coefficients and the new value of `p` -/
def doublingStep (p : Proj (Fp2 Fq)) : Coeffs × Proj (Fp2 Fq) :=
  let t0 := p.x * p.x
  let t1 := p.y * p.y
  let t2 := t1 * t1
  let t3 := t1 + p.x
  let t3 := t3 * t3
  let t3 := t3 - t0
  let t3 := t3 - t2
  let t3 := t3 + t3
  let t4 := t0 + t0
  let t4 := t4 + t0
  let t6 := p.x + t4
  let t5 := t4 * t4
  let zsqr := p.z * p.z
  let x := t5 - t3
  let x := x - t3
  let z := p.z + p.y
  let z := z * z
  let z := z - t1
  let z := z - zsqr
  let y := t3 - x
  let y := y * t4
  let t2 := t2 + t2
  let t2 := t2 + t2
  let t2 := t2 + t2
  let y := y - t2
  let t3 := t4 * zsqr
  let t3 := t3 + t3
  let t3 := -t3
  let t6 := t6 * t6
  let t6 := t6 - t0
  let t6 := t6 - t5
  let t1 := t1 + t1
  let t1 := t1 + t1
  let t6 := t6 - t1
  let t0 := z * zsqr
  let t0 := t0 + t0
  (⟨t0, t3, t6⟩, ⟨x, y, z⟩)

/-- `additionStep` (`pairings.go:206-254`): the coefficients and the new value of `r` -/
def additionStep (r q : Proj (Fp2 Fq)) : Coeffs × Proj (Fp2 Fq) :=
  let zsqr := r.z * r.z
  let ysqr := q.y * q.y
  let t0 := zsqr * q.x
  let t1 := q.y + r.z
  let t1 := t1 * t1
  let t1 := t1 - ysqr
  let t1 := t1 - zsqr
  let t1 := t1 * zsqr
  let t2 := t0 - r.x
  let t3 := t2 * t2
  let t4 := t3 + t3
  let t4 := t4 + t4
  let t5 := t4 * t2
  let t6 := t1 - r.y
  let t6 := t6 - r.y
  let t9 := t6 * q.x
  let t7 := t4 * r.x
  let x := t6 * t6
  let x := x - t5
  let x := x - t7
  let x := x - t7
  let z := r.z + t2
  let z := z * z
  let z := z - zsqr
  let z := z - t3
  let t10 := q.y + z
  let t8 := t7 - x
  let t8 := t8 * t6
  let t0 := r.y * t5
  let t0 := t0 + t0
  let y := t8 - t0
  let t10 := t10 * t10
  let t10 := t10 - ysqr
  let zsqr := z * z
  let t10 := t10 - zsqr
  let t9 := t9 + t9
  let t9 := t9 - t10
  let t10 := z + z
  let t6 := -t6
  let t1 := t6 + t6
  (⟨t10, t1, t9⟩, ⟨x, y, z⟩)

/-- `int(((paramX >> 1) >> i) & 1)` (`pairings.go:83`, `131`) -/
def paramBit (i : ℕ) : Bool := (((paramX >>> 1) >>> UInt64.ofNat i) &&& 1) == 1

/-- `coefficientsG2` (`pairings.go:3`) -/
def coefficientsG2 : ℕ := 68

/-- `cfs[k] = c` -/
def store (cfs : List Coeffs) (k : ℕ) (c : Coeffs) : Go (List Coeffs) :=
  if k < cfs.length then .ok (cfs.set k c) else Go.crash

/-- `cfs[k]` -/
def load (cfs : List Coeffs) (k : ℕ) : Go Coeffs :=
  match cfs[k]? with
  | some c => .ok c
  | none => Go.crash

/-- the loop of `computeCoeffs` over the bits `i-1, …, 0` (`pairings.go:130-143`) and the last doubling (`pairings.go:144`) -/
def coeffLoop (q : Proj (Fp2 Fq)) : ℕ → Bool → Proj (Fp2 Fq) → List Coeffs → ℕ → Go (List Coeffs)
  | 0, _, c, cfs, k => store cfs k (doublingStep c).1
  | i + 1, found, c, cfs, k =>
    let x := paramBit i
    if found = false then coeffLoop q i (found || x) c cfs k
    else do
      let (d, c) := doublingStep c
      let cfs ← store cfs k d
      let k := k + 1
      if x = true then do
        let (a, c) := additionStep c q
        let cfs ← store cfs k a
        coeffLoop q i found c cfs (k + 1)
      else coeffLoop q i found c cfs k

/-- one iteration of the outer loop of `computeCoeffs` (`pairings.go:121-148`) -/
def prepare (g2 : Proj (Fp2 Fq)) : Go Prepared := do
  let identity := decide (g2.z = 0)
  let q := sel g2 g2Generator identity
  let cfs ← coeffLoop q 64 false q (List.replicate coefficientsG2 ⟨0, 0, 0⟩) 0
  pure ⟨identity, cfs⟩

/-- `computeCoeffs` (`pairings.go:119-150`) -/
def computeCoeffs (e : Engine) : Go (List Prepared) := e.mapM fun p => prepare p.2

/-- `ell` (`pairings.go:152-159`) -/
def pairEll (f : Fp12 Fq) (coeffs : Coeffs) (p : Proj Fq) : Fp12 Fq :=
  let x := coeffs.a.mul0 p.y
  let y := coeffs.b.mul0 p.x
  f.mulByABD coeffs.c y x

/-- the inner loops of `millerLoop` (`pairings.go:90-95`, `100-105`, `110-115`) -/
def lineAll (e : Engine) (coeffs : List Prepared) (cIdx : ℕ) (f : Fp12 Fq) : Go (Fp12 Fq) :=
  (e.zip coeffs).foldlM (fun f pt => do
    let identity := decide (pt.1.1.z = 0) || pt.2.identity
    let c ← load pt.2.coefficients cIdx
    let newF := pairEll f c pt.1.1
    pure (sel newF f identity)) f

/-- the loop of `millerLoop` over the bits `i-1, …, 0` (`pairings.go:82-109`) -/
def millerBits (e : Engine) (coeffs : List Prepared) : ℕ → Bool → ℕ → Fp12 Fq → Go (Fp12 Fq × ℕ)
  | 0, _, cIdx, f => .ok (f, cIdx)
  | i + 1, found, cIdx, f =>
    let x := paramBit i
    if found = false then millerBits e coeffs i (found || x) cIdx f
    else do
      let f ← lineAll e coeffs cIdx f
      let cIdx := cIdx + 1
      if x = true then do
        let f ← lineAll e coeffs cIdx f
        millerBits e coeffs i found (cIdx + 1) f.square
      else millerBits e coeffs i found cIdx f.square

/-- `millerLoop` (`pairings.go:78-117`) -/
def millerLoop (e : Engine) (f : Fp12 Fq) (coeffs : List Prepared) : Go (Fp12 Fq) := do
  let (f, cIdx) ← millerBits e coeffs 64 false 0 f
  let f ← lineAll e coeffs cIdx f
  pure f.conj

/-- `pairing`, `Result` (`pairings.go:64-76`) -/
def enginePairing (e : Engine) : Go (Fp12 Fq) :=
  if e.length = 0 then .ok Fp12.one
  else do
    let coeffs ← computeCoeffs e
    let f ← millerLoop e Fp12.one coeffs
    pure (finalExponentiation f f)

/-- `Check` (`pairings.go:60-62`) -/
def engineCheck (e : Engine) : Go Bool := do
  let f ← enginePairing e
  pure f.isOne

end Verif.Bls381
