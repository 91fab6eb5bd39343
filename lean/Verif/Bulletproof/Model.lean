import Verif.Common.Codec
import Verif.Common.GoList
import Mathlib.Algebra.Module.Basic
import Mathlib.Algebra.BigOperators.Group.List.Basic

/-!
# Bulletproofs

`pkg/bulletproof/`: `helpers.go`, `ipp_prover.go`, `ipp_verifier.go`, `range_prover.go`,
`range_verifier.go`, `range_batch_prover.go`, `range_batch_verifier.go`.

Scalars are a field `F`, points a module `G` over it.  A merlin transcript is the list of its operations:
`(label, some message)` for `AppendMessage`, `(label, none)` for `ExtractBytes`; `chal` maps the operations
so far, the extraction included, to the scalar obtained from it (64 bytes through `SetBytesWide`).
Randomness is passed as arguments.  Lengths (`n`) are natural numbers.
-/

namespace Verif.Bulletproof

abbrev Bytes := List UInt8

/-- operations performed on a merlin transcript -/
abbrev Transcript := List (String × Option Bytes)

/-- what depends on the curve: `Scalar.Bytes/SetBytes`, `Scalar.BigInt`, `Point.ToAffineUncompressed`, and the
scalar read from a transcript -/
structure Env (F G : Type) where
  cd : ScalarCodec F
  bigInt : F → ℤ
  encU : G → Bytes
  chal : Transcript → F

section
variable {F : Type} [Field F] [DecidableEq F]
variable {G : Type} [AddCommGroup G] [Module F G] [DecidableEq G]

/-! ## helpers.go -/

/-- `innerProduct` (helpers.go:16-32) -/
def innerProduct (a b : List F) : Go F := do
  Go.guard (a.length = b.length)
  Go.guard (¬ (a.length < 1))
  .ok ((a.zip b).foldl (fun acc p => p.1 * p.2 + acc) 0)

/-- `splitPointVector`, `splitScalarVector` (helpers.go:35-60) -/
def splitVector {α : Type} (l : List α) : Go (List α × List α) := do
  Go.guard (¬ (l.length < 1))
  Go.guard (l.length % 2 = 0)
  let nPrime := l.length / 2
  .ok (l.take nPrime, l.drop nPrime)

/-- `multiplyScalarToPointVector` (helpers.go:63-71) -/
def smulVec (x : F) (g : List G) : List G := g.map fun e => x • e

/-- `multiplyScalarToScalarVector` (helpers.go:74-82) -/
def mulVec (x : F) (a : List F) : List F := a.map fun e => e * x

/-- `multiplyPairwisePointVectors` (helpers.go:85-95) -/
def addPoints (g h : List G) : Go (List G) := do
  Go.guard (g.length = h.length)
  .ok (List.zipWith (· + ·) g h)

/-- `multiplyPairwiseScalarVectors` (helpers.go:98-108) -/
def hadamard (a b : List F) : Go (List F) := do
  Go.guard (a.length = b.length)
  .ok (List.zipWith (· * ·) a b)

/-- `addPairwiseScalarVectors` (helpers.go:111-121) -/
def addVec (a b : List F) : Go (List F) := do
  Go.guard (a.length = b.length)
  .ok (List.zipWith (· + ·) a b)

/-- `subtractPairwiseScalarVectors` (helpers.go:124-133) -/
def subVec (a b : List F) : Go (List F) := do
  Go.guard (a.length = b.length)
  .ok (List.zipWith (· - ·) a b)

/-- `Scalar.Invert`: zero has no inverse -/
def invert (x : F) : Go F := if x = 0 then Go.err else .ok x⁻¹

/-- `invertScalars` (helpers.go:136-147) -/
def invertScalars (xs : List F) : Go (List F) := xs.mapM invert

/-- `isPowerOfTwo` (helpers.go:150-152) -/
def isPowerOfTwo (i : ℕ) : Bool := i &&& (i - 1) == 0

/-- `get2nVector` (helpers.go:156-163): the first entry of an empty vector is out of range -/
def get2nVector (F : Type) [Field F] (length : ℕ) : Go (List F) :=
  if length = 0 then Go.crash else .ok (List.iterate (fun x => x + x) 1 length)

/-- `get1nVector` (helpers.go:165-171) -/
def get1nVector (F : Type) [Field F] (length : ℕ) : List F := List.replicate length 1

/-- `getknVector` (helpers.go:173-181): two entries are written without looking at the length -/
def getknVector (k : F) (length : ℕ) : Go (List F) :=
  if length < 2 then Go.crash else .ok (1 :: List.iterate (fun x => x * k) k (length - 1))

/-- `Point.SumOfProducts` on the vectors of this package: the sum (C50, C51), and for different lengths a
`nil` whose next method call panics (or, for Ed25519, a panic at once) -/
def sumOfProducts (g : List G) (a : List F) : Go G :=
  if g.length = a.length then .ok (List.zipWith (fun s p => s • p) a g).sum else Go.crash

/-! ## Transcript -/

/-- `transcript.AppendMessage` -/
def append (t : Transcript) (label : String) (m : Bytes) : Transcript := t ++ [(label, some m)]

/-- `transcript.ExtractBytes(label, 64)` and `SetBytesWide`: the scalar and the new transcript -/
def extract (env : Env F G) (t : Transcript) (label : String) : F × Transcript :=
  (env.chal (t ++ [(label, none)]), t ++ [(label, none)])

/-- `InnerProductProver.calcx` (ipp_prover.go:330-342), one turn of `getxs` (ipp_verifier.go:145-155) -/
def calcxIPP (env : Env F G) (capL capR : G) (t : Transcript) : F × Transcript :=
  extract env (append (append t "addRecursiveL" (env.encU capL)) "addRecursiveR" (env.encU capR)) "getx"

/-! ## ipp_prover.go -/

/-- `ippGenerators` (generators.go:22-25) -/
structure Gens (G : Type) where
  gs : List G
  hs : List G

/-- `InnerProductProof` (ipp_prover.go:29-33) -/
structure IPP (F G : Type) where
  a : F
  b : F
  capLs : List G
  capRs : List G
  deriving DecidableEq

/-- `ippRecursion` (ipp_prover.go:38-45) without `c` and `capP`, which are computed and never used -/
structure Rec (F G : Type) where
  a : List F
  b : List F
  capLs : List G
  capRs : List G
  g : List G
  h : List G
  u : G
  transcript : Transcript

/-- one turn of `proveRecursive` after the base case (ipp_prover.go:203-317): the argument of the recursive
call -/
def proveStep (env : Env F G) (p : Rec F G) : Go (Rec F G) := do
  let (aLo, aHi) ← splitVector p.a
  let (bLo, bHi) ← splitVector p.b
  let (gLo, gHi) ← splitVector p.g
  let (hLo, hHi) ← splitVector p.h
  let cL ← innerProduct aLo bHi
  let cR ← innerProduct aHi bLo
  let lga ← sumOfProducts gHi aLo
  let lhb ← sumOfProducts hLo bHi
  let capL := lga + lhb + cL • p.u
  let rga ← sumOfProducts gLo aHi
  let rhb ← sumOfProducts hHi bLo
  let capR := rga + rhb + cR • p.u
  let newL := p.capLs ++ [capL]
  let newR := p.capRs ++ [capR]
  let xt := calcxIPP env capL capR p.transcript
  let x := xt.1
  let xInv ← invert x
  let gPrime ← addPoints (smulVec xInv gLo) (smulVec x gHi)
  let hPrime ← addPoints (smulVec x hLo) (smulVec xInv hHi)
  let aPrime ← addVec (mulVec x aLo) (mulVec xInv aHi)
  let bPrime ← addVec (mulVec xInv bLo) (mulVec x bHi)
  .ok ⟨aPrime, bPrime, newL, newR, gPrime, hPrime, p.u, xt.2⟩

/-- `proveRecursive` (ipp_prover.go:180-324): the vectors halve in every call, so as many calls as the vectors
have entries (and one for the empty ones) are enough; the proof and the transcript -/
def proveRecursive (env : Env F G) : ℕ → Rec F G → Go (IPP F G × Transcript)
  | 0, _ => Go.crash
  | fuel + 1, p => do
    Go.guard (p.a.length = p.b.length)
    Go.guard (p.g.length = p.h.length)
    Go.guard (p.a.length = p.g.length)
    match p.a, p.b with
    | [a], [b] => .ok (⟨a, b, p.capLs, p.capRs⟩, p.transcript)
    | _, _ => do
      let p' ← proveStep env p
      proveRecursive env fuel p'

/-- `InnerProductProver.Prove` (ipp_prover.go:135-177) -/
def ippProve (env : Env F G) (gens : Gens G) (a b : List F) (u : G) (t : Transcript) :
    Go (IPP F G × Transcript) := do
  Go.guard (isPowerOfTwo a.length = true)
  Go.guard (gens.gs.length = gens.hs.length)
  let _ ← innerProduct a b
  Go.guard (¬ (a.length > gens.gs.length))
  let proofG := gens.gs.take a.length
  let proofH := gens.hs.take b.length
  proveRecursive env (a.length + 1) ⟨a, b, [], [], proofG, proofH, u, t⟩

/-- `InnerProductProver.getP` (ipp_prover.go:104-130) -/
def getP (gens : Gens G) (a b : List F) (u : G) : Go G := do
  Go.guard (isPowerOfTwo a.length = true)
  Go.guard (gens.gs.length = gens.hs.length)
  let c ← innerProduct a b
  if a.length > gens.gs.length then Go.crash
  else
    let ga ← sumOfProducts (gens.gs.take a.length) a
    let hb ← sumOfProducts (gens.hs.take b.length) b
    .ok (ga + hb + c • u)

/-- `rangeToIPP` (ipp_prover.go:77-99); `capPhmuinv` and `tHat` only enter the unused `capP` and `c` -/
def rangeToIPP (env : Env F G) (proofG proofH : List G) (l r : List F) (u : G) (t : Transcript) :
    Go (IPP F G × Transcript) :=
  proveRecursive env (l.length + 1) ⟨l, r, [], [], proofG, proofH, u, t⟩

/-! ## ipp_verifier.go -/

/-- `getxs` (ipp_verifier.go:142-159); `capRs[i]` may be out of range -/
def getxs (env : Env F G) : Transcript → List G → List G → Go (List F × Transcript)
  | t, [], _ => .ok ([], t)
  | _, _ :: _, [] => Go.crash
  | t, l :: ls, r :: rs => do
    let xt := calcxIPP env l r t
    let rest ← getxs env xt.2 ls rs
    .ok (xt.1 :: rest.1, rest.2)

/-- one entry of `gets` (ipp_verifier.go:167-178): `j` runs over the positions of `xs` -/
def getsEntry (xs : List F) (i : ℕ) : Go F :=
  (xs.zipIdx).foldlM (fun si xj =>
    if i.testBit (xs.length - xj.2 - 1) then .ok (si * xj.1)
    else do
      let inv ← invert xj.1
      .ok (si * inv)) 1

/-- `gets` (ipp_verifier.go:164-183) -/
def gets (xs : List F) (n : ℕ) : Go (List F) := (List.range n).mapM (getsEntry xs)

/-- the inner loop of `getsNew` (ipp_verifier.go:203-205): `i` runs over the multiples of `2·d` below `n`,
`d = 1 << (len(xs)-j-1)` -/
def getsNewRow (xj : F) (d n : ℕ) (ss : List F) : List F :=
  (List.range ((n + 2 * d - 1) / (2 * d))).foldl (fun ss k =>
    let i := k * (2 * d)
    ss.set (i + d) (ss.getD i 0 * (xj * xj))) ss

/-- `getsNew` (ipp_verifier.go:189-209); entries not yet assigned are zero here and `nil` there -/
def getsNew (xs : List F) (n : ℕ) : Go (List F) := do
  let p := xs.foldl (fun acc xj => acc * xj) 1
  let s0 ← invert p
  let ss := (List.replicate n (0 : F)).set 0 s0
  .ok ((xs.zipIdx).foldl (fun ss xj => getsNewRow xj.1 (2 ^ (xs.length - xj.2 - 1)) n ss) ss)

/-- `getRHS` (ipp_verifier.go:101-116) -/
def getRHS (capP : G) : List G → List G → List F → Go G
  | [], _, _ => .ok capP
  | l :: ls, r :: rs, x :: xs => do
    let xjSquareInv ← invert (x * x)
    getRHS (capP + (x * x) • l + xjSquareInv • r) ls rs xs
  | _ :: _, _, _ => Go.crash

/-- `getLHS` (ipp_verifier.go:119-137) -/
def getLHS (u : G) (proof : IPP F G) (g h : List G) (s : List F) : Go G := do
  let sInv ← invertScalars s
  let gas ← sumOfProducts g (mulVec proof.a s)
  let hbsInv ← sumOfProducts h (mulVec proof.b sInv)
  .ok (gas + hbsInv + (proof.a * proof.b) • u)

/-- `InnerProductVerifier.Verify` (ipp_verifier.go:32-70) -/
def ippVerify (env : Env F G) (gens : Gens G) (capP u : G) (proof : IPP F G) (t : Transcript) : Go Bool := do
  Go.guard (proof.capLs.length = proof.capRs.length)
  Go.guard (gens.gs.length = gens.hs.length)
  let n := 2 ^ proof.capLs.length
  Go.guard (¬ (n > gens.gs.length))
  let proofG := gens.gs.take n
  let proofH := gens.hs.take n
  let xs ← getxs env t proof.capLs proof.capRs
  let s ← getsNew xs.1 n
  let lhs ← getLHS u proof proofG proofH s
  let rhs ← getRHS capP proof.capLs proof.capRs xs.1
  .ok (lhs = rhs)

/-- `VerifyFromRangeProof` (ipp_verifier.go:74-98) -/
def verifyFromRangeProof (env : Env F G) (proofG proofH : List G) (capPhmuinv u : G) (tHat : F)
    (proof : IPP F G) (t : Transcript) : Go Bool := do
  let n := 2 ^ proof.capLs.length
  let xs ← getxs env t proof.capLs proof.capRs
  let s ← gets xs.1 n
  let lhs ← getLHS u proof proofG proofH s
  let capP := capPhmuinv + tHat • u
  let rhs ← getRHS capP proof.capLs proof.capRs xs.1
  .ok (lhs = rhs)

/-! ## range_prover.go -/

/-- `RangeProof` (range_prover.go:36-41) -/
structure RangeProof (F G : Type) where
  capA : G
  capS : G
  capT1 : G
  capT2 : G
  taux : F
  mu : F
  tHat : F
  ipp : IPP F G
  deriving DecidableEq

/-- `RangeProofGenerators` (range_prover.go:43-45) -/
structure PGens (G : Type) where
  g : G
  h : G
  u : G

/-- `cmoveScalar` (range_prover.go:418-434); both encodings have the same length -/
def cmoveScalar (env : Env F G) (x y : F) (which : ℕ) : Go F := do
  Go.guard (¬ (which ≠ 0 ∧ which ≠ 1))
  let mask : UInt8 := 0 - UInt8.ofNat which
  let bytes := List.zipWith (fun xb yb => xb ^^^ ((xb ^^^ yb) &&& mask)) (env.cd.enc x) (env.cd.enc y)
  Go.ofOption (env.cd.dec bytes)

/-- `getaL` (range_prover.go:396-415); `vBytes[i>>3]` may be out of range -/
def getaL (env : Env F G) (v : F) (n : ℕ) : Go (List F) :=
  let vBytes := env.cd.enc v
  (List.range n).mapM fun i =>
    match vBytes[i / 8]? with
    | none => Go.crash
    | some b => cmoveScalar env 0 1 (b.toNat >>> (i % 8) % 2)

/-- `getcapV` (range_prover.go:390-392) -/
def getcapV (v gamma : F) (g h : G) : G := gamma • h + v • g

/-- `calcyz` (range_prover.go:440-458), `calcyzBatched` (range_batch_prover.go:257-277) -/
def calcyz (env : Env F G) (capV : List G) (capA capS : G) (t : Transcript) : F × F × Transcript :=
  let t := capV.foldl (fun t v => append t "addV" (env.encU v)) t
  let t := append t "addcapA" (env.encU capA)
  let t := append t "addcapS" (env.encU capS)
  let y := extract env t "gety"
  let z := extract env y.2 "getz"
  (y.1, z.1, z.2)

/-- `calcx` (range_prover.go:464-476) -/
def calcx (env : Env F G) (capT1 capT2 : G) (t : Transcript) : F × Transcript :=
  extract env (append (append t "addcapT1" (env.encU capT1)) "addcapT2" (env.encU capT2)) "getx"

/-- `deltayz` (range_verifier.go:162-187) -/
def deltayz (y z : F) (n : ℕ) : Go F := do
  let onen := get1nVector F n
  let yn ← getknVector y n
  let onendotyn ← innerProduct onen yn
  let termFirst := (z - z * z) * onendotyn
  let twon ← get2nVector F n
  let onendottwon ← innerProduct onen twon
  let termSecond := z * z * z * onendottwon
  .ok (termFirst - termSecond)

/-- `gethPrime` (range_verifier.go:118-129): the powers are computed before the error of `Invert` is looked at;
from the third one on that calls a method of the `nil` inverse -/
def gethPrime (h : List G) (y : F) : Go (List G) :=
  if y = 0 then
    if h.length = 2 then Go.err else Go.crash
  else do
    let yInvn ← getknVector y⁻¹ h.length
    .ok (List.zipWith (fun e p => e • p) yInvn h)

/-- `getPhmu` (range_verifier.go:134-159) -/
def getPhmu (proofG proofHPrime : List G) (h capA capS : G) (x y z mu : F) (n : ℕ) : Go G := do
  let yn ← getknVector y n
  let twon ← get2nVector F n
  let e ← addVec (mulVec z yn) (mulVec (z * z) twon)
  let lastElem ← sumOfProducts proofHPrime e
  let zgdotonen ← sumOfProducts proofG (mulVec (-z) (get1nVector F n))
  .ok (capA + x • capS + zgdotonen + lastElem - mu • h)

/-- the randomness of `Prove` and `BatchProve` -/
structure Rand (F : Type) where
  alpha : F
  rho : F
  tau1 : F
  tau2 : F
  sL : ℕ → F
  sR : ℕ → F

/-- `RangeProver.Prove` (range_prover.go:88-285) -/
def rangeProve (env : Env F G) (gens : Gens G) (v gamma : F) (n : ℕ) (pg : PGens G) (rand : Rand F)
    (t : Transcript) : Go (RangeProof F G × Transcript) := do
  Go.guard (¬ (n > gens.gs.length))
  let proofG := gens.gs.take n
  let proofH := gens.hs.take n
  Go.guard (¬ (env.bigInt v < 0))
  Go.guard (¬ (env.bigInt v > 2 ^ n))
  let aL ← getaL env v n
  let onen := get1nVector F n
  let aR ← subVec aL onen
  let gaL ← sumOfProducts proofG aL
  let haR ← sumOfProducts proofH aR
  let capA := rand.alpha • pg.h + gaL + haR
  let sL := (List.range n).map rand.sL
  let sR := (List.range n).map rand.sR
  let gsL ← sumOfProducts proofG sL
  let hsR ← sumOfProducts proofH sR
  let capS := rand.rho • pg.h + gsL + hsR
  let capV := getcapV v gamma pg.g pg.h
  let yzt := calcyz env [capV] capA capS t
  let y := yzt.1
  let z := yzt.2.1
  let zonen := mulVec z onen
  let constantTerml ← subVec aL zonen
  let twoN ← get2nVector F n
  let zSquareTwon := mulVec (z * z) twoN
  let aRPluszonen ← addVec aR zonen
  let yn ← getknVector y n
  let had ← hadamard yn aRPluszonen
  let constantTermr ← addVec had zSquareTwon
  let linearTermr ← hadamard yn sR
  let t1a ← innerProduct sL constantTermr
  let t1b ← innerProduct linearTermr constantTerml
  let t1 := t1a + t1b
  let t2 ← innerProduct sL linearTermr
  let capT1 := t1 • pg.g + rand.tau1 • pg.h
  let capT2 := t2 • pg.g + rand.tau2 • pg.h
  let xt := calcx env capT1 capT2 yzt.2.2
  let x := xt.1
  let l ← addVec constantTerml (mulVec x sL)
  let r ← addVec constantTermr (mulVec x linearTermr)
  let delta ← deltayz y z n
  let t0 := v * (z * z) + delta
  let tHat := t0 + t1 * x + t2 * (x * x)
  let taux := rand.tau2 * (x * x) + rand.tau1 * x + z * z * gamma
  let mu := rand.alpha + rand.rho * x
  let hPrime ← gethPrime proofH y
  let _ ← getPhmu proofG hPrime pg.h capA capS x y z mu n
  let wt := extract env xt.2 "getw"
  let ipp ← rangeToIPP env proofG hPrime l r (wt.1 • pg.u) wt.2
  .ok (⟨capA, capS, capT1, capT2, taux, mu, tHat, ipp.1⟩, ipp.2)

/-! ## range_verifier.go -/

/-- `checktHat` (range_verifier.go:100-115) -/
def checktHat (proof : RangeProof F G) (capV g h : G) (delta x z : F) : Bool :=
  let lhs := proof.tHat • g + proof.taux • h
  let rhs := (z * z) • capV + delta • g + x • proof.capT1 + (x * x) • proof.capT2
  lhs = rhs

/-- `RangeVerifier.Verify` (range_verifier.go:42-97) -/
def rangeVerify (env : Env F G) (gens : Gens G) (proof : RangeProof F G) (capV : G) (pg : PGens G) (n : ℕ)
    (t : Transcript) : Go Bool := do
  Go.guard (¬ (n > gens.gs.length))
  let proofG := gens.gs.take n
  let proofH := gens.hs.take n
  let yzt := calcyz env [capV] proof.capA proof.capS t
  let y := yzt.1
  let z := yzt.2.1
  let xt := calcx env proof.capT1 proof.capT2 yzt.2.2
  let x := xt.1
  let wt := extract env xt.2 "getw"
  let delta ← deltayz y z n
  Go.guard (checktHat proof capV pg.g pg.h delta x z = true)
  let hPrime ← gethPrime proofH y
  let capPhmu ← getPhmu proofG hPrime pg.h proof.capA proof.capS x y z proof.mu n
  verifyFromRangeProof env proofG hPrime capPhmu (wt.1 • pg.u) proof.tHat proof.ipp wt.2

/-! ## range_batch_prover.go -/

/-- `checkRange` (range_prover.go:366-378) -/
def checkRange (env : Env F G) (v : F) (n : ℕ) : Go Unit := Go.guard (¬ (env.bigInt v > 2 ^ n))

/-- `getSumTermrXBatched` (range_batch_prover.go:223-235): `zExp` is multiplied by `z` before use -/
def getSumTermrX (z : F) (n m : ℕ) : Go (List F) := do
  let twoN ← get2nVector F n
  .ok ((List.range m).foldl (fun (st : List F × F) _ =>
    let zExp := st.2 * z
    (st.1 ++ mulVec zExp twoN, zExp)) ([], z)).1

/-- `getcapVBatched` (range_batch_prover.go:237-243); `gamma[i]` may be out of range -/
def getcapVBatched (g h : G) : List F → List F → Go (List G)
  | [], _ => .ok []
  | _ :: _, [] => Go.crash
  | v :: vs, gamma :: gs => do
    let rest ← getcapVBatched g h vs gs
    .ok (getcapV v gamma g h :: rest)

/-- `getaLBatched` (range_batch_prover.go:245-255) -/
def getaLBatched (env : Env F G) (v : List F) (n : ℕ) : Go (List F) := do
  let ls ← v.mapM fun vi => getaL env vi n
  .ok ls.flatten

/-- `deltayzBatched` (range_batch_prover.go:279-310) -/
def deltayzBatched (y z : F) (n m : ℕ) : Go F := do
  let ynm ← getknVector y (n * m)
  let onenmdotynm ← innerProduct (get1nVector F (n * m)) ynm
  let termFirst := (z - z * z) * onenmdotynm
  let twon ← get2nVector F n
  let onendottwon ← innerProduct (get1nVector F n) twon
  let termSecond := ((List.range m).foldl (fun (st : F × F) _ =>
    let zExp := st.2 * z
    (st.1 + zExp * onendottwon, zExp)) (0, z * z)).1
  .ok (termFirst - termSecond)

/-- the loop of `getPhmuBatched` (range_batch_prover.go:316-327): `j` counts from 1 -/
def lastElemLoop (proofHPrime : List G) (twoN : List F) (z : F) (n m : ℕ) : Go (G × F) :=
  (List.range m).foldlM (fun (st : G × F) j => do
    let hSub := (proofHPrime.take ((j + 1) * n)).drop (j * n)
    let zExp := st.2 * z
    let elem ← sumOfProducts hSub (mulVec zExp twoN)
    .ok (st.1 + elem, zExp)) (0, z)

/-- `getPhmuBatched` (range_batch_prover.go:313-348) -/
def getPhmuBatched (proofG proofHPrime : List G) (h capA capS : G) (x y z mu : F) (n m : ℕ) : Go G := do
  let twoN ← get2nVector F n
  let last ← lastElemLoop proofHPrime twoN z n m
  let ynm ← getknVector y (n * m)
  let hPrimezynm ← sumOfProducts proofHPrime (mulVec z ynm)
  let lastElem := last.1 + hPrimezynm
  let zgdotonen ← sumOfProducts proofG (mulVec (-z) (get1nVector F (n * m)))
  .ok (capA + x • capS + zgdotonen + lastElem - mu • h)

/-- the sum over the blinding factors in `taux` (range_batch_prover.go:176-181); `gamma[j-1]` may be out of
range -/
def zsumLoop (z : F) (gamma : List F) (m : ℕ) : Go (F × F) :=
  (List.range m).foldlM (fun (st : F × F) j => do
    let zExp := st.2 * z
    match gamma[j]? with
    | none => Go.crash
    | some gj => .ok (st.1 + zExp * gj, zExp)) (0, z)

/-- `RangeProver.BatchProve` (range_batch_prover.go:16-219) -/
def batchProve (env : Env F G) (gens : Gens G) (v gamma : List F) (n : ℕ) (pg : PGens G) (rand : Rand F)
    (t : Transcript) : Go (RangeProof F G × Transcript) := do
  let m := v.length
  let nm := n * m
  Go.guard (¬ (nm > gens.gs.length))
  let proofG := gens.gs.take nm
  let proofH := gens.hs.take nm
  v.forM fun vi => checkRange env vi n
  let aL ← getaLBatched env v n
  let onenm := get1nVector F nm
  let aR ← subVec aL onenm
  let gaL ← sumOfProducts proofG aL
  let haR ← sumOfProducts proofH aR
  let capA := rand.alpha • pg.h + gaL + haR
  let sL := (List.range nm).map rand.sL
  let sR := (List.range nm).map rand.sR
  let gsL ← sumOfProducts proofG sL
  let hsR ← sumOfProducts proofH sR
  let capS := rand.rho • pg.h + gsL + hsR
  let capV ← getcapVBatched pg.g pg.h v gamma
  let yzt := calcyz env capV capA capS t
  let y := yzt.1
  let z := yzt.2.1
  let zonenm := mulVec z onenm
  let constantTerml ← subVec aL zonenm
  let zSum ← getSumTermrX z n m
  let aRPluszonenm ← addVec aR zonenm
  let ynm ← getknVector y nm
  let had ← hadamard ynm aRPluszonenm
  let constantTermr ← addVec had zSum
  let linearTermr ← hadamard ynm sR
  let t1a ← innerProduct sL constantTermr
  let t1b ← innerProduct linearTermr constantTerml
  let t1 := t1a + t1b
  let t2 ← innerProduct sL linearTermr
  let capT1 := t1 • pg.g + rand.tau1 • pg.h
  let capT2 := t2 • pg.g + rand.tau2 • pg.h
  let xt := calcx env capT1 capT2 yzt.2.2
  let x := xt.1
  let l ← addVec constantTerml (mulVec x sL)
  let r ← addVec constantTermr (mulVec x linearTermr)
  let zm ← getknVector z m
  let sumv := (List.zipWith (fun a b => a * b) (mulVec (z * z) zm) v).foldl (fun acc e => acc + e) 0
  let delta ← deltayzBatched y z n m
  let t0 := sumv + delta
  let tHat := t0 + t1 * x + t2 * (x * x)
  let zsum ← zsumLoop z gamma m
  let taux := rand.tau2 * (x * x) + rand.tau1 * x + zsum.1
  let mu := rand.alpha + rand.rho * x
  let hPrime ← gethPrime proofH y
  let _ ← getPhmuBatched proofG hPrime pg.h capA capS x y z mu n m
  let wt := extract env xt.2 "getw"
  let ipp ← rangeToIPP env proofG hPrime l r (wt.1 • pg.u) wt.2
  .ok (⟨capA, capS, capT1, capT2, taux, mu, tHat, ipp.1⟩, ipp.2)

/-! ## range_batch_verifier.go -/

/-- `checktHatBatched` (range_batch_verifier.go:73-91) -/
def checktHatBatched (proof : RangeProof F G) (capV : List G) (g h : G) (delta x z : F) (m : ℕ) : Go Bool := do
  let lhs := proof.tHat • g + proof.taux • h
  let zm ← getknVector z m
  let capVz ← sumOfProducts capV (mulVec (z * z) zm)
  let rhs := capVz + delta • g + x • proof.capT1 + (x * x) • proof.capT2
  .ok (lhs = rhs)

/-- `RangeVerifier.VerifyBatched` (range_batch_verifier.go:13-70) -/
def verifyBatched (env : Env F G) (gens : Gens G) (proof : RangeProof F G) (capV : List G) (pg : PGens G)
    (n : ℕ) (t : Transcript) : Go Bool := do
  let m := capV.length
  let nm := n * m
  Go.guard (¬ (nm > gens.gs.length))
  let proofG := gens.gs.take nm
  let proofH := gens.hs.take nm
  let yzt := calcyz env capV proof.capA proof.capS t
  let y := yzt.1
  let z := yzt.2.1
  let xt := calcx env proof.capT1 proof.capT2 yzt.2.2
  let x := xt.1
  let wt := extract env xt.2 "getw"
  let delta ← deltayzBatched y z n m
  let ok ← checktHatBatched proof capV pg.g pg.h delta x z m
  Go.guard (ok = true)
  let hPrime ← gethPrime proofH y
  let capPhmu ← getPhmuBatched proofG hPrime pg.h proof.capA proof.capS x y z proof.mu n m
  verifyFromRangeProof env proofG hPrime capPhmu (wt.1 • pg.u) proof.tHat proof.ipp wt.2

/-! ## Serialization -/

/-- `Point.ToAffineCompressed`/`FromAffineCompressed` and the two lengths `UnmarshalBinary` uses -/
structure PointCodec (G : Type) where
  enc : G → Bytes
  dec : Bytes → Option G
  pointLen : ℕ
  scalarLen : ℕ

/-- `InnerProductProof.MarshalBinary` (ipp_prover.go:345-355); `capRs[i]` may be out of range -/
def IPP.marshal (cd : ScalarCodec F) (pc : PointCodec G) (p : IPP F G) : Go Bytes :=
  if p.capRs.length < p.capLs.length then Go.crash
  else .ok (cd.enc p.a ++ cd.enc p.b ++ (List.zipWith (fun l r => pc.enc l ++ pc.enc r) p.capLs p.capRs).flatten)

/-- the slice `data[ptr : ptr+len]` followed by the rest; out of range panics (`data` is taken to have no spare
capacity) -/
def slice (len : ℕ) (data : Bytes) : Go (Bytes × Bytes) :=
  if data.length < len then Go.crash else .ok (data.take len, data.drop len)

/-- a scalar field of `UnmarshalBinary` -/
def readScalar (cd : ScalarCodec F) (pc : PointCodec G) (data : Bytes) : Go (F × Bytes) := do
  let s ← slice pc.scalarLen data
  let x ← Go.ofOption (cd.dec s.1)
  .ok (x, s.2)

/-- a point field of `UnmarshalBinary` -/
def readPoint (pc : PointCodec G) (data : Bytes) : Go (G × Bytes) := do
  let s ← slice pc.pointLen data
  let x ← Go.ofOption (pc.dec s.1)
  .ok (x, s.2)

/-- the loop over the points (ipp_prover.go:377-391); `fuel` turns suffice when points have positive length -/
def readPairs (pc : PointCodec G) : ℕ → Bytes → Go (List G × List G)
  | 0, _ => Go.crash
  | fuel + 1, data =>
    if data.length = 0 then .ok ([], [])
    else do
      let l ← readPoint pc data
      let r ← readPoint pc l.2
      let rest ← readPairs pc fuel r.2
      .ok (l.1 :: rest.1, r.1 :: rest.2)

/-- `InnerProductProof.UnmarshalBinary` (ipp_prover.go:359-396) -/
def IPP.unmarshal (cd : ScalarCodec F) (pc : PointCodec G) (data : Bytes) : Go (IPP F G) := do
  let a ← readScalar cd pc data
  let b ← readScalar cd pc a.2
  let lr ← readPairs pc (data.length + 1) b.2
  .ok ⟨a.1, b.1, lr.1, lr.2⟩

/-- `RangeProof.MarshalBinary` (range_prover.go:288-300) -/
def RangeProof.marshal (cd : ScalarCodec F) (pc : PointCodec G) (p : RangeProof F G) : Go Bytes := do
  let i ← p.ipp.marshal cd pc
  .ok (pc.enc p.capA ++ pc.enc p.capS ++ pc.enc p.capT1 ++ pc.enc p.capT2 ++ cd.enc p.taux ++ cd.enc p.mu ++
    cd.enc p.tHat ++ i)

/-- `RangeProof.UnmarshalBinary` (range_prover.go:304-361) -/
def RangeProof.unmarshal (cd : ScalarCodec F) (pc : PointCodec G) (data : Bytes) : Go (RangeProof F G) := do
  let capA ← readPoint pc data
  let capS ← readPoint pc capA.2
  let capT1 ← readPoint pc capS.2
  let capT2 ← readPoint pc capT1.2
  let taux ← readScalar cd pc capT2.2
  let mu ← readScalar cd pc taux.2
  let tHat ← readScalar cd pc mu.2
  let ipp ← IPP.unmarshal cd pc tHat.2
  .ok ⟨capA.1, capS.1, capT1.1, capT2.1, taux.1, mu.1, tHat.1, ipp⟩

end
end Verif.Bulletproof
