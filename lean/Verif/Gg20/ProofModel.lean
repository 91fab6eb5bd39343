import Verif.Paillier.Model
import Mathlib.Algebra.Module.Defs
import Mathlib.Data.ZMod.Basic

/-!
# Model of `pkg/tecdsa/gg20/proof` (util.go, mta.go, pdl.go, cdl.go)

Big integers are `ℤ`; a big-integer pointer that can come from a peer (a field of a proof, a
ciphertext) is an `Option ℤ`, `none` being nil.  The curve is a group `G` with an action of
`ZMod q`, `q` its order; points are group elements, so points off the curve are not modelled.
`xy` gives the affine coordinates that are fed to the hash ((0,0) for the identity,
ec_point.go:53-61).  Random values are arguments; JSON is not modelled.
-/

namespace Verif.Gg20

/-! ## util.go -/

/-- `pedersen` (util.go:33-50). -/
def pedersen (g h alpha beta n : Option ℤ) : Go ℤ :=
  match g, h, alpha, beta, n with
  | some g, some h, some alpha, some beta, some n => do
    let gAlpha ← Core.exp (some g) (some alpha) (some n)
    let hBeta ← Core.exp (some h) (some beta) (some n)
    Core.mul gAlpha hBeta (some n)
  | _, _, _, _, _ => Go.err

/-- `inc` (util.go:18-30). -/
def inc (alpha beta n : Option ℤ) : Go ℤ :=
  match alpha, beta, n with
  | some alpha, some beta, some n => do
    let nn ← Core.mul (some n) (some n) none
    pedersen (some (n + 1)) (some beta) (some alpha) (some n) (some nn)
  | _, _, _ => Go.err

/-- `schnorr` (util.go:53-64). -/
def schnorr (x y z : Option ℤ) : Go ℤ :=
  match x, y, z with
  | some x, some y, some z => do
    let r ← Core.mul (some x) (some y) none
    .ok (r + z)
  | _, _, _ => Go.err

/-! ## Parameters -/

/-- `dealer.ProofParams` (dealer.go:47-51). -/
structure Dealer where
  N : ℤ
  H1 : ℤ
  H2 : ℤ
  deriving DecidableEq, Repr

/-- The curve parameters used by the proofs (`Curve.Params()`), and the HKDF of `FiatShamir`. -/
structure Curve (q : ℕ) (G : Type*) where
  gen : G
  xy : G → ℤ × ℤ
  kdf : List UInt8 → List UInt8

/-- `new(big.Int).SetBytes(challenge)` of the Fiat-Shamir hash of some values. -/
def challenge (kdf : List UInt8 → List UInt8) (values : List (Option ℤ)) : Go ℤ := do
  let bytes ← Core.fiatShamir kdf values
  .ok (beNat bytes : ℤ)

variable {q : ℕ} {G : Type*} [AddCommGroup G] [Module (ZMod q) G]

/-- `randProof1Params` (mta.go:68-70) and `randPdlParams` (pdl.go:84-86). -/
structure Rand1 where
  alpha : ℤ
  beta : ℤ
  gamma : ℤ
  rho : ℤ

/-- `Range1Proof` (mta.go:74-76) and `PdlProof` (pdl.go:37-39). -/
structure Proof1 where
  z : Option ℤ
  e : Option ℤ
  s : Option ℤ
  s1 : Option ℤ
  s2 : Option ℤ
  deriving DecidableEq

/-! ## Range proof 1 (mta.go) -/

/-- The hash input of the first range proof (mta.go:410, 476). -/
def range1Input (E : Curve q G) (N : ℤ) (D : Dealer) (c z : Option ℤ) (u w : ℤ) :
    List (Option ℤ) :=
  [some (E.xy E.gen).1, some (E.xy E.gen).2, some (q : ℤ), some N, some D.N, some D.H1, some D.H2,
    c, z, some u, some w]

/-- `genProof1` (mta.go:390-445). -/
def genProof1 (E : Curve q G) (pk : Paillier.PublicKey) (D : Dealer) (a c r : ℤ) (rp : Rand1) :
    Go Proof1 := do
  let z ← pedersen (some D.H1) (some D.H2) (some a) (some rp.rho) (some D.N)
  let u ← inc (some rp.alpha) (some rp.beta) (some pk.N)
  let w ← pedersen (some D.H1) (some D.H2) (some rp.alpha) (some rp.gamma) (some D.N)
  let e ← challenge E.kdf (range1Input E pk.N D (some c) (some z) u w)
  let s ← pedersen (some r) (some rp.beta) (some e) (some 1) (some pk.N)
  let s1 ← schnorr (some e) (some a) (some rp.alpha)
  let s2 ← schnorr (some e) (some rp.rho) (some rp.gamma)
  .ok ⟨some z, some e, some s, some s1, some s2⟩

/-- `Proof1Params.Prove` (mta.go:319-333) with the values `rand1` draws. -/
def prove1 (E : Curve q G) (pk : Paillier.PublicKey) (D : Dealer) (a c r : ℤ) (rp : Rand1) :
    Go Proof1 := do
  Core.inZm (some a) (some (q : ℤ))
  Core.inZm (some r) (some pk.N)
  genProof1 E pk D a c r rp

/-- `Range1Proof.uHatConstruct` (mta.go:491-511). -/
def uHat1 (pk : Paillier.PublicKey) (c : Option ℤ) (pi : Proof1) : Go ℤ := do
  let x ← inc pi.s1 pi.s (some pk.N)
  let cInv ← Core.inv c (some pk.N2)
  let y ← Core.exp (some cInv) pi.e (some pk.N2)
  Core.mul (some x) y (some pk.N2)

/-- `Range1Proof.wHatConstruct` (mta.go:513-533). -/
def wHat1 (D : Dealer) (pi : Proof1) : Go ℤ := do
  let a ← pedersen (some D.H1) (some D.H2) pi.s1 pi.s2 (some D.N)
  let zInv ← Core.inv pi.z (some D.N)
  let b ← Core.exp (some zInv) pi.e (some D.N)
  Core.mul (some a) b (some D.N)

/-- The comparison `x.Cmp(bound) == 1 → error` on a pointer; nil panics. -/
def cmpLe (x : Option ℤ) (bound : ℤ) : Go Unit :=
  match x with
  | none => Go.crash
  | some x => Go.guard (¬ x > bound)

/-- `Range1Proof.Verify` (mta.go:448-489). -/
def verify1 (E : Curve q G) (pk : Paillier.PublicKey) (D : Dealer) (c : Option ℤ) (pi : Proof1) :
    Go Unit := do
  cmpLe pi.s1 ((q : ℤ) ^ 3)
  let u ← uHat1 pk c pi
  let w ← wHat1 D pi
  let eHat ← challenge E.kdf (range1Input E pk.N D c pi.z u w)
  Go.guard (Core.constantTimeEq pi.e (some eHat) = true)

/-! ## Range proof 2 (mta.go) -/

/-- `randProof2Params` (mta.go:105-108). -/
structure Rand2 where
  alpha : ℤ
  beta : ℤ
  gamma : ℤ
  rho : ℤ
  rhoTick : ℤ
  sigma : ℤ
  tau : ℤ

/-- `Range2Proof` (mta.go:112-115). -/
structure Proof2 where
  z : Option ℤ
  e : Option ℤ
  s : Option ℤ
  s1 : Option ℤ
  s2 : Option ℤ
  t : Option ℤ
  t1 : Option ℤ
  t2 : Option ℤ
  deriving DecidableEq

/-- The hash input of the second range proof (mta.go:626-639, 752-764); `wc` carries `X` and `u`
when the variant with check is used. -/
def range2Input (E : Curve q G) (N : ℤ) (D : Dealer) (wc : Option (G × G)) (c1 c2 z : Option ℤ)
    (zTick : ℤ) (t : Option ℤ) (v w : ℤ) : List (Option ℤ) :=
  match wc with
  | some (X, u) =>
    [some (E.xy E.gen).1, some (E.xy E.gen).2, some (q : ℤ), some N, some D.N, some D.H1,
      some D.H2, some (E.xy X).1, some (E.xy X).2, c1, c2, some (E.xy u).1, some (E.xy u).2, z,
      some zTick, t, some v, some w]
  | none =>
    [some (E.xy E.gen).1, some (E.xy E.gen).2, some (q : ℤ), some N, some D.N, some D.H1,
      some D.H2, c1, c2, z, some zTick, t, some v, some w]

/-- Lines 577-682 of `genProof2` (mta.go): everything after the range check of `x`.  `X` is given
exactly in the variant with check. -/
def genProof2Core (E : Curve q G) (pk : Paillier.PublicKey) (D : Dealer) (X : Option G)
    (x y r c1 c2 : ℤ) (rp : Rand2) : Go Proof2 := do
  let z ← pedersen (some D.H1) (some D.H2) (some x) (some rp.rho) (some D.N)
  let zTick ← pedersen (some D.H1) (some D.H2) (some rp.alpha) (some rp.rhoTick) (some D.N)
  let t ← pedersen (some D.H1) (some D.H2) (some y) (some rp.sigma) (some D.N)
  let vLhs ← Core.exp (some c1) (some rp.alpha) (some pk.N2)
  let vRhs ← inc (some rp.gamma) (some rp.beta) (some pk.N)
  let v ← Core.mul vLhs (some vRhs) (some pk.N2)
  let w ← pedersen (some D.H1) (some D.H2) (some rp.gamma) (some rp.tau) (some D.N)
  let e ← challenge E.kdf (range2Input E pk.N D (X.map fun X => (X, (rp.alpha : ZMod q) • E.gen))
    (some c1) (some c2) (some z) zTick (some t) v w)
  let s ← pedersen (some r) (some rp.beta) (some e) (some 1) (some pk.N)
  let s1 ← schnorr (some e) (some x) (some rp.alpha)
  let s2 ← schnorr (some e) (some rp.rho) (some rp.rhoTick)
  let t1 ← schnorr (some e) (some y) (some rp.gamma)
  let t2 ← schnorr (some e) (some rp.sigma) (some rp.tau)
  .ok ⟨some z, some e, some s, some s1, some s2, some t, some t1, some t2⟩

/-- `genProof2` (mta.go:559-683). -/
def genProof2 (E : Curve q G) (pk : Paillier.PublicKey) (D : Dealer) (X : Option G)
    (x y r c1 c2 : ℤ) (rp : Rand2) : Go Proof2 := do
  Core.inZm (some x) (some (q : ℤ))
  genProof2Core E pk D X x y r c1 c2 rp

/-- `new(big.Int).Exp(x, y, m)` on pointers: a nil exponent panics (a nil pointer dereference in
`math/big`); the result is nil when there is no inverse. -/
def rawExp (x : ℤ) (y : Option ℤ) (m : ℤ) : Go (Option ℤ) :=
  match y with
  | none => Go.crash
  | some y => .ok (Big.exp x y m)

/-- `Range2Proof.zHatTickConstruct` (mta.go:800-820); `wHatConstruct` (mta.go:849-869) has the same
shape with `t1, t2, t` for `s1, s2, z`, and `PdlProof.wHatConstruct` (pdl.go:264-283) is the same
code. -/
def hHat (D : Dealer) (s1 s2 z e : Option ℤ) : Go ℤ := do
  let hs ← pedersen (some D.H1) (some D.H2) s1 s2 (some D.N)
  let zInv ← Core.inv z (some D.N)
  let zInvToE ← rawExp zInv e D.N
  Core.mul (some hs) zInvToE (some D.N)

/-- `Range2Proof.vHatConstruct` (mta.go:822-847). -/
def vHat2 (pk : Paillier.PublicKey) (c1 c2 : Option ℤ) (pi : Proof2) : Go ℤ := do
  let a ← inc pi.t1 pi.s (some pk.N)
  let c2Inv ← Core.inv c2 (some pk.N2)
  let b ← pedersen c1 (some c2Inv) pi.s1 pi.e (some pk.N2)
  Core.mul (some a) (some b) (some pk.N2)

/-- `Range2Proof.uHatConstruct` (mta.go:775-798), reached only with non-nil `s1` and `e`; scalars
are reduced modulo the group order (ec_point.go:107-125, 160-174). -/
def uHat2 (E : Curve q G) (X : G) (s1 e : ℤ) : G :=
  ((s1 % (q : ℤ) : ℤ) : ZMod q) • E.gen + ((-e : ℤ) : ZMod q) • X

/-- `verify2Proof` (mta.go:695-773); `X = none` is the variant without check. -/
def verify2 (E : Curve q G) (pk : Paillier.PublicKey) (D : Dealer) (X : Option G)
    (c1 c2 : Option ℤ) (pi : Proof2) : Go Unit := do
  cmpLe pi.s1 ((q : ℤ) ^ 3)
  cmpLe pi.t1 ((q : ℤ) ^ 7)
  let zTick ← hHat D pi.s1 pi.s2 pi.z pi.e
  let v ← vHat2 pk c1 c2 pi
  let w ← hHat D pi.t1 pi.t2 pi.t pi.e
  let eHat ← challenge E.kdf (range2Input E pk.N D
    (X.map fun X => (X, uHat2 E X (pi.s1.getD 0) (pi.e.getD 0))) c1 c2 pi.z zTick pi.t v w)
  Go.guard (Core.constantTimeEq pi.e (some eHat) = true)

/-! ## The multiplicative-to-additive conversion (mta.go) -/

/-- `ResponseProof` (mta.go:52-55). -/
structure Response where
  proof : Proof2
  C2 : Option ℤ
  beta : ℤ
  deriving DecidableEq

/-- `genResponseProof` (mta.go:200-264) with the drawn `β'`, the Paillier nonce and the randomness
of the proof.  `B = none` is `Prove`, `B = some _` is `ProveWc`. -/
def genResponse (E : Curve q G) (pk : Paillier.PublicKey) (D : Dealer) (B : Option G)
    (smallB c1 betaTick rBeta : ℤ) (rp : Rand2) : Go Response := do
  let cb ← pk.mul (some smallB) (some c1)
  let cBeta ← pk.encrypt (some betaTick) (some rBeta)
  let c2 ← pk.add (some cb) (some cBeta)
  let beta ← Core.neg (some betaTick) (some (q : ℤ))
  let proof ← genProof2 E pk D B smallB betaTick rBeta c1 c2 rp
  .ok ⟨proof, some c2, beta⟩

/-- `Finalize` / `FinalizeWc` (mta.go:268-315). -/
def finalize (E : Curve q G) (sk : Paillier.SecretKey) (D : Dealer) (B : Option G) (c1 : ℤ)
    (rp : Response) : Go ℤ := do
  verify2 E sk.pk D B (some c1) rp.C2 rp.proof
  let alpha ← sk.decrypt rp.C2
  Big.mod alpha (q : ℤ)

/-! ## Proof of discrete logarithm (pdl.go) -/

/-- The hash input of the PDL proof (pdl.go:129-132, 206-210). -/
def pdlInput (E : Curve q G) (N : ℤ) (D : Dealer) (R X : G) (c : ℤ) (u : G) (z v w : ℤ) :
    List (Option ℤ) :=
  [some N, some D.N, some D.H1, some D.H2, some (E.xy E.gen).1, some (E.xy E.gen).2,
    some (q : ℤ), some (E.xy R).1, some (E.xy R).2, some (E.xy X).1, some (E.xy X).2, some c,
    some (E.xy u).1, some (E.xy u).2, some z, some v, some w]

/-- `PdlProofParams.Prove` (pdl.go:90-161) for non-nil parameters. -/
def pdlProve (E : Curve q G) (pk : Paillier.PublicKey) (D : Dealer) (R X : G) (x r c : ℤ)
    (rp : Rand1) : Go Proof1 := do
  let u := (rp.alpha : ZMod q) • R
  let z ← pedersen (some D.H1) (some D.H2) (some x) (some rp.rho) (some D.N)
  let v ← inc (some rp.alpha) (some rp.beta) (some pk.N)
  let w ← pedersen (some D.H1) (some D.H2) (some rp.alpha) (some rp.gamma) (some D.N)
  let e ← challenge E.kdf (pdlInput E pk.N D R X c u z v w)
  let s ← pedersen (some r) (some rp.beta) (some e) (some 1) (some pk.N)
  let s1 ← schnorr (some e) (some x) (some rp.alpha)
  let s2 ← schnorr (some e) (some rp.rho) (some rp.gamma)
  .ok ⟨some z, some e, some s, some s1, some s2⟩

/-- `PdlProof.vHatConstruct` (pdl.go:243-262). -/
def pdlVHat (pk : Paillier.PublicKey) (c s1 s e : ℤ) : Go ℤ := do
  let a ← inc (some s1) (some s) (some pk.N)
  let cInv ← Core.inv (some c) (some pk.N2)
  let b ← rawExp cInv (some e) pk.N2
  Core.mul (some a) b (some pk.N2)

/-- `PdlProof.uHatConstruct` (pdl.go:222-241). -/
def pdlUHat (R X : G) (s1 e : ℤ) : G :=
  ((s1 % (q : ℤ) : ℤ) : ZMod q) • R + ((-e : ℤ) : ZMod q) • X

/-- `PdlProof.Verify` (pdl.go:165-220); the ciphertext may be nil. -/
def pdlVerify (E : Curve q G) (pk : Paillier.PublicKey) (D : Dealer) (R X : G) (c : Option ℤ)
    (pi : Proof1) : Go Unit :=
  match pi.z, pi.e, pi.s, pi.s1, pi.s2, c with
  | some z, some e, some s, some s1, some s2, some c => do
    cmpLe (some s1) ((q : ℤ) ^ 3)
    let u : G := pdlUHat (q := q) R X s1 e
    let v ← pdlVHat pk c s1 s e
    let w ← hHat D (some s1) (some s2) (some z) (some e)
    let eHat ← challenge E.kdf (pdlInput E pk.N D R X c u z v w)
    Go.guard (Core.constantTimeEq (some e) (some eHat) = true)
  | _, _, _, _, _, _ => Go.err

/-! ## Proof of composite discrete logarithm (cdl.go) -/

/-- `ell` (cdl.go:18). -/
def ell : ℕ := 128

/-- `CdlProof` (cdl.go:30-32). -/
structure CdlProof where
  u : List (Option ℤ)
  s : List (Option ℤ)

/-- The hash input (cdl.go:77-83, 139-146): six parameters, then the `u`'s copied into a slice of
length `ell`; missing entries stay nil, surplus entries are dropped. -/
def cdlInput (E : Curve q G) (N h1 h2 : ℤ) (u : List (Option ℤ)) : List (Option ℤ) :=
  [some (E.xy E.gen).1, some (E.xy E.gen).2, some (q : ℤ), some N, some h1, some h2] ++
    (u.take ell ++ List.replicate (ell - u.length) none)

/-- `int64(e.Bit(i))` for the non-negative `e`. -/
def bit (e : ℤ) (i : ℕ) : ℤ := if e.toNat.testBit i then 1 else 0

/-- `CdlProofParams.Prove` (cdl.go:66-116) for non-nil parameters and the `ell` values drawn. -/
def cdlProve (E : Curve q G) (p' q' h1 h2 x N : ℤ) (alpha : Fin ell → ℤ) : Go CdlProof := do
  let us ← (List.finRange ell).mapM fun i => Core.exp (some h1) (some (alpha i)) (some N)
  let e ← challenge E.kdf (cdlInput E N h1 h2 us)
  let ss ← (List.finRange ell).mapM fun i => Big.mod (alpha i + bit e i * x) (p' * q')
  .ok ⟨us, ss.map some⟩

/-- One iteration of the verification loop (cdl.go:155-162). -/
def cdlStep (N h1 h2 e : ℤ) (us ss : List (Option ℤ)) (i : ℕ) : Go Unit :=
  match ss[i]? with
  | none | some none => Go.crash
  | some (some s) =>
    match us[i]? with
    | none | some none => Go.crash
    | some (some u) => do
      let right ← match Big.exp h2 (bit e i) N with
        | none => Go.crash
        | some y => Big.mod (u * y) N
      match Big.exp h1 s N with
      | none => Go.crash
      | some left => Go.guard (left = right)

/-- `CdlProof.Verify` (cdl.go:120-166) for non-nil slices and parameters. -/
def cdlVerify (E : Curve q G) (N h1 h2 : ℤ) (pi : CdlProof) : Go Unit := do
  Go.guard (¬ N.natAbs.size < 1024)
  let e ← challenge E.kdf (cdlInput E N h1 h2 pi.u)
  (List.range ell).forM (cdlStep N h1 h2 e pi.u pi.s)

end Verif.Gg20
