import Verif.Paillier.Model

/-!
# Model of the generation of safe primes and of pairs of them

`core.GenerateSafePrime` (pkg/core/primes.go:16-43) and the loop, repeated in four places, that draws two values with two goroutines:
`keyGenerator` (pkg/paillier/paillier.go:81-111), `groupGenerator` (pkg/verenc/camshoup/paillier_group.go:71-95), `genProofParams`
(pkg/tecdsa/gg20/dealer/dealer.go:242-298) and the first round of the key generation of GG20 (pkg/tecdsa/gg20/participant/dkg_round1.go:80-103).

A loop that has not ended after the given draws is `none`.
-/

namespace Verif.Paillier

/-- `GenerateSafePrime` (pkg/core/primes.go:18-43) on the results of `rand.Prime(bits-1)`; `probably` is `ProbablyPrime` -/
def generateSafePrime (probably : ℕ → Bool) (bits : ℕ) (draws : List (Go ℕ)) : Option (Go ℕ) :=
  if bits < 3 then some Go.err else go draws
where
  /-- the loop -/
  go : List (Go ℕ) → Option (Go ℕ)
    | [] => none
    | .error _ :: _ => some Go.err
    | .ok p :: rest => if probably (2 * p + 1) then some (.ok (2 * p + 1)) else go rest

/-- a pointer to a `big.Int`: an address and what is there -/
structure Ptr where
  addr : ℕ
  val : ℤ
deriving DecidableEq

/-- one turn of the loop: the results of the two goroutines; `swap` says which of them was first to put its value into the channel -/
structure Turn where
  r1 : Go Ptr
  r2 : Go Ptr
  swap : Bool

/-- the loop `for p == q { ... }`, which compares addresses -/
def pairLoop : List Turn → Option (Go (Ptr × Ptr))
  | [] => none
  | t :: rest => match t.r1, t.r2 with
    | .ok a, .ok b =>
      let p := if t.swap then b else a
      let q := if t.swap then a else b
      if p.addr = q.addr then pairLoop rest else some (.ok (p, q))
    | _, _ => some Go.err

/-- `keyGenerator` with its loop (paillier.go:81-111), `NewKeys` (paillier.go:75-77) -/
def keyGeneratorLoop (turns : List Turn) : Option (Go SecretKey) :=
  match pairLoop turns with
  | none => none
  | some r => some (do
    let pq ← r
    newSecretKey (some pq.1.val) (some pq.2.val))

/-- the generator of `NewProofParamsWithPrimes` (dealer.go:147-156), called by two goroutines that share the index `pIdx` without
synchronisation: `atomic` if one call is over before the other reads the index, otherwise both read it first -/
def withPrimesTurn (p q : Ptr) (idx : ℕ) (atomic swap : Bool) : Turn × ℕ :=
  let at' (i : ℕ) : Ptr := if i = 0 then p else q
  if atomic then (⟨.ok (at' idx), .ok (at' ((idx + 1) % 2)), swap⟩, (idx + 2) % 2)
  else (⟨.ok (at' idx), .ok (at' idx), swap⟩, (idx + 1) % 2)

/-- the turns of `NewProofParamsWithPrimes` -/
def withPrimesTurns (p q : Ptr) : ℕ → List (Bool × Bool) → List Turn
  | _, [] => []
  | idx, (atomic, swap) :: rest =>
    let t := withPrimesTurn p q idx atomic swap
    t.1 :: withPrimesTurns p q t.2 rest

end Verif.Paillier
