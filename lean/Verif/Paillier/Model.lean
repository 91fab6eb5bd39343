import Verif.Core.Model

/-!
# Model of `pkg/paillier` (paillier.go, psf.go)

Big integers are `ℤ`; nil pointers are `none`.  Safe-prime generation is in `GenModel.lean`, JSON in `Gg20/JsonModel.lean`.
-/

namespace Verif.Paillier

/-- `PublicKey` (paillier.go:39-42). -/
structure PublicKey where
  N : ℤ
  N2 : ℤ
  deriving DecidableEq, Repr

/-- `SecretKey` (paillier.go:52-57). -/
structure SecretKey where
  pk : PublicKey
  lambda : ℤ
  totient : ℤ
  U : ℤ
  deriving DecidableEq, Repr

/-- `lcm` (paillier.go:170-181) on non-nil arguments; `Div` is Euclidean division. -/
def lcm (x y : ℤ) : ℤ :=
  if (Int.gcd x y : ℤ) = 0 then 0 else |x / (Int.gcd x y : ℤ) * y|

/-- `l` (paillier.go:186-208) on a non-nil argument. -/
def PublicKey.l (pk : PublicKey) (x : ℤ) : Go ℤ := do
  Go.guard (¬ pk.N = 0)
  Go.guard (x % pk.N = 1)
  Core.inZm (some x) (some pk.N2)
  .ok ((x - 1) / pk.N)

/-- `NewPubkey` (paillier.go:211-219). -/
def newPubkey (n : Option ℤ) : Go PublicKey :=
  match n with
  | none => Go.err
  | some n => .ok ⟨n, n * n⟩

/-- `NewSecretKey` (paillier.go:114-147).  `u.ModInverse(u, n)` leaves `u` unchanged when there is
no inverse; its result is discarded. -/
def newSecretKey (p q : Option ℤ) : Go SecretKey :=
  match p, q with
  | some p, some q => do
    let pm1 := p - 1
    let qm1 := q - 1
    let n := p * q
    let nn := n * n
    let lambda := lcm pm1 qm1
    let totient := pm1 * qm1
    let pk : PublicKey := ⟨n, nn⟩
    let t := (Big.exp (n + 1) lambda nn).getD (n + 1)
    let u ← pk.l t
    let u' := (Big.modInverse u n).getD u
    .ok ⟨pk, lambda, totient, u'⟩
  | _, _ => Go.err

/-- `keyGenerator` (paillier.go:81-111) for two results of the prime generator.  The loop condition
`p == q` compares pointers; the two generated values live at different addresses, so the loop body
runs once whatever the values are. -/
def keyGenerator (g1 g2 : Go ℤ) : Go SecretKey :=
  match g1, g2 with
  | .ok p, .ok q => newSecretKey (some p) (some q)
  | _, _ => Go.err

/-- `Add` (paillier.go:222-247). -/
def PublicKey.add (pk : PublicKey) (c d : Option ℤ) : Go ℤ :=
  match c, d with
  | some c, some d => do
    Core.inZm (some c) (some pk.N2)
    Core.inZm (some d) (some pk.N2)
    Core.mul (some c) (some d) (some pk.N2)
  | _, _ => Go.err

/-- `Mul` (paillier.go:250-273). -/
def PublicKey.mul (pk : PublicKey) (a c : Option ℤ) : Go ℤ :=
  match a, c with
  | some a, some c => do
    Core.inZm (some a) (some pk.N)
    Core.inZm (some c) (some pk.N2)
    Go.ofOption (Big.exp c a pk.N2)
  | _, _ => Go.err

/-- `encrypt` (paillier.go:289-321) with its nonce. -/
def PublicKey.encrypt (pk : PublicKey) (msg r : Option ℤ) : Go ℤ :=
  match msg, r with
  | some msg, some r => do
    Core.inZm (some msg) (some pk.N)
    Core.inZm (some r) (some pk.N)
    Go.guard (¬ r = 0)
    let a ← Go.ofOption (Big.exp (pk.N + 1) msg pk.N2)
    let b ← Go.ofOption (Big.exp r pk.N pk.N2)
    Core.mul (some a) (some b) (some pk.N2)
  | _, _ => Go.err

/-- `Decrypt` (paillier.go:324-351). -/
def SecretKey.decrypt (sk : SecretKey) (c : Option ℤ) : Go ℤ :=
  match c with
  | none => Go.err
  | some c => do
    Core.inZm (some c) (some sk.pk.N2)
    let a ← Go.ofOption (Big.exp c sk.lambda sk.pk.N2)
    let ell ← sk.pk.l a
    Core.mul (some ell) (some sk.U) (some sk.pk.N)

/-! ## psf.go -/

/-- Public inputs of the challenge derivation: curve parameters `Gx, Gy, N` and the point `Y`
(psf.go:194). -/
structure PsfParams where
  gx : ℤ
  gy : ℤ
  q : ℤ
  pi : UInt32
  yx : ℤ
  yy : ℤ

/-- Lines 187-205 of psf.go: the candidate `x_j` for given `j`, `m`, for a modulus of `b` bits. -/
def psfCandidate (kdf : List UInt8 → List UInt8) (P : PsfParams) (b j m : ℕ) : Go ℤ := do
  let s := (b + 255) / 256
  let es ← (List.range s).mapM fun k =>
    Core.fiatShamir kdf [some P.gx, some P.gy, some P.q, some P.yx, some P.yy,
      some (P.pi.toNat : ℤ), some (j : ℤ), some ((k + 1 : ℕ) : ℤ), some (m : ℤ)]
  .ok (beNat (es.flatten.take (b / 8)) : ℤ)

/-- The `while` loop of `generateChallenges` (psf.go:184-220); `none` = fuel exhausted. -/
def psfLoop (kdf : List UInt8 → List UInt8) (P : PsfParams) (N : ℤ) :
    ℕ → ℕ → ℕ → Option (Go (List ℤ))
  | 0, _, _ => none
  | fuel + 1, j, m =>
    if 13 ≤ j then some (.ok []) else
    match psfCandidate kdf P N.natAbs.size j m with
    | .error e => some (.error e)
    | .ok x =>
      if 0 < x ∧ x < N then
        match psfLoop kdf P N fuel (j + 1) 0 with
        | none => none
        | some (.error e) => some (.error e)
        | some (.ok xs) => some (.ok (x :: xs))
      else psfLoop kdf P N fuel j (m + 1)

/-- `generateChallenges` (psf.go:148-222). -/
def generateChallenges (kdf : List UInt8 → List UInt8) (P : PsfParams) (N : ℤ) (fuel : ℕ) :
    Option (Go (List ℤ)) :=
  if P.pi = 0 then some Go.err
  else if N.natAbs.size < 8 then some Go.err
  else psfLoop kdf P N fuel 0 0

/-- The loop of `PsfProofParams.Prove` (psf.go:73-89). -/
def psfProveLoop (N M : ℤ) (xs : List ℤ) : List (Option ℤ) := xs.map fun x => Big.exp x M N

/-- `PsfProofParams.Prove` (psf.go:44-93) for non-nil parameters. -/
def psfProve (kdf : List UInt8 → List UInt8) (P : PsfParams) (sk : SecretKey) (fuel : ℕ) :
    Option (Go (List (Option ℤ))) :=
  if P.pi = 0 then some Go.err else
  match Core.inv (some sk.pk.N) (some sk.totient) with
  | .error e => some (.error e)
  | .ok M =>
    match generateChallenges kdf P sk.pk.N fuel with
    | none => none
    | some (.error e) => some (.error e)
    | some (.ok xs) =>
      if xs.length = 13 then some (.ok (psfProveLoop sk.pk.N M xs)) else some Go.err

/-- The loop of `PsfProof.Verify` (psf.go:130-140): `p[j]` out of range panics, a nil entry is an
error of `crypto.Exp`. -/
def psfVerifyLoop (N : ℤ) : List ℤ → List (Option ℤ) → Go Unit
  | [], _ => .ok ()
  | _ :: _, [] => Go.crash
  | _ :: _, none :: _ => Go.err
  | x :: xs, some y :: ys =>
    match Big.exp y N N with
    | none => Go.crash
    | some lhs => if lhs = x then psfVerifyLoop N xs ys else Go.err

/-- `PsfProof.Verify` (psf.go:97-143) for non-nil parameters. -/
def psfVerify (kdf : List UInt8 → List UInt8) (P : PsfParams) (pk : PublicKey)
    (proof : List (Option ℤ)) (fuel : ℕ) : Option (Go Unit) :=
  if P.pi = 0 then some Go.err else
  if P.q = 0 then some Go.crash else
  if pk.N % P.q = 0 then some Go.err else
  match generateChallenges kdf P pk.N fuel with
  | none => none
  | some (.error e) => some (.error e)
  | some (.ok xs) => if xs.length = 13 then some (psfVerifyLoop pk.N xs proof) else some Go.err

end Verif.Paillier
