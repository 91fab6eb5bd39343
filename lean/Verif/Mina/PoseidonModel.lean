import Mathlib.Algebra.Field.ZMod
import Verif.Common.Go
import Verif.Common.Primes
import Verif.Mina.PoseidonTables

/-!
# The Poseidon sponge (`pkg/signatures/schnorr/mina/poseidon_config.go`, `poseidon_hash.go`)

Over an arbitrary field, with the parameters as an argument; `contexts` are the parameters of the
repository over the Pallas base field. Rows of the tables are indexed by list operations that stop at the
end instead of panicking; `C135_tables` states that the rows used exist and have the width of the state.
-/

namespace Verif.Mina

/-- `SBox` (`poseidon_config.go:14-21`) -/
inductive SBox
  | cube
  | quint
  | sept
  | inverse
  deriving DecidableEq

/-- `SBox.Exp` (`poseidon_config.go:25-43`); `Invert` leaves zero as it is -/
def SBox.exp {F : Type} [Field F] (s : SBox) (f : F) : F :=
  match s with
  | .cube => f * f * f
  | .quint =>
    let t := f * f
    let t := t * t
    t * f
  | .sept =>
    let f2 := f * f
    let f4 := f2 * f2
    let t := f2 * f4
    t * f
  | .inverse => f⁻¹

/-- `Permutation` (`poseidon_config.go:46-52`); other integers are not modelled, `Init` rejects them -/
inductive Permutation
  | threeW
  | fiveW
  | three
  deriving DecidableEq

/-- the entries of `contexts` (`poseidon_hash.go:14-22`) -/
structure Params (F : Type) where
  width : ℕ
  rate : ℕ
  fullRounds : ℕ
  sBox : SBox
  roundKeys : List (List F)
  mds : List (List F)
  iv : List (List F)

section Sponge
variable {F : Type} [Field F]

/-- `ark` (`poseidon_config.go:77-81`) -/
def ark (P : Params F) (round : ℕ) (state : List F) : List F :=
  List.zipWith (· + ·) state (P.roundKeys.getD round [])

/-- `sbox` (`poseidon_config.go:83-87`) -/
def sbox (P : Params F) (state : List F) : List F := state.map P.sBox.exp

/-- `mds` (`poseidon_config.go:89-103`) -/
def mds (P : Params F) (state : List F) : List F :=
  P.mds.map (fun row => (List.zipWith (· * ·) state row).foldl (· + ·) 0)

/-- the rounds of `Permute` from a round on, `n` of them (`poseidon_config.go:58-62` and `:67-71`) -/
def rounds (P : Params F) (t : Permutation) : ℕ → ℕ → List F → List F
  | 0, _, s => s
  | n + 1, r, s =>
    rounds P t n (r + 1)
      (match t with
      | .threeW => mds P (sbox P (ark P r s))
      | _ => ark P r (mds P (sbox P s)))

/-- `Permute` (`poseidon_config.go:55-75`) -/
def permute (P : Params F) (t : Permutation) (s : List F) : List F :=
  match t with
  | .threeW => ark P P.fullRounds (rounds P t P.fullRounds 0 s)
  | _ => rounds P t P.fullRounds 0 s

/-- the changing part of `Context` (`poseidon_hash.go:14-22`) -/
structure Sponge (F : Type) where
  state : List F
  absorbed : ℕ
  deriving DecidableEq

/-- one turn of the loop of `Update` (`poseidon_hash.go:1168-1175`) -/
def absorb (P : Params F) (t : Permutation) (c : Sponge F) (f : F) : Sponge F :=
  let c := if c.absorbed = P.rate then ⟨permute P t c.state, 0⟩ else c
  ⟨c.state.set c.absorbed (c.state.getD c.absorbed 0 + f), c.absorbed + 1⟩

/-- `Update` (`poseidon_hash.go:1167-1176`) -/
def update (P : Params F) (t : Permutation) (c : Sponge F) (fields : List F) : Sponge F :=
  fields.foldl (absorb P t) c

end Sponge

/-- `NetworkType` constants (`poseidon_config.go:106-112`) -/
def testNet : ℤ := 0
/-- see `testNet` -/
def mainNet : ℤ := 1
/-- see `testNet` -/
def nullNet : ℤ := 2

/-- `Context.Init` (`poseidon_hash.go:1133-1165`): no context for an unknown network -/
def initSponge {F : Type} [Field F] (P : Params F) (networkId : ℤ) : Option (Sponge F) :=
  if networkId ≠ testNet ∧ networkId ≠ mainNet ∧ networkId ≠ nullNet then none
  else if networkId ≠ nullNet then some ⟨P.iv.getD networkId.toNat [], 0⟩
  else some ⟨List.replicate P.width 0, 0⟩

/-- `Digest` (`poseidon_hash.go:1178-1182`): the words of the first element of the state, read as a
scalar -/
def digest {p : ℕ} [Fact p.Prime] (q : ℕ) (P : Params (ZMod p)) (t : Permutation)
    (c : Sponge (ZMod p)) : ZMod q :=
  (((permute P t c.state).headD 0).val : ZMod q)

/-- `Init`, `Update` and `Digest` as called by `msgHash` (`keys.go:241-244`); using the nil context of an
unknown network panics -/
def spongeHash {p : ℕ} [Fact p.Prime] (q : ℕ) (P : Params (ZMod p)) (t : Permutation) (networkId : ℤ)
    (fields : List (ZMod p)) : Go (ZMod q) :=
  match initSponge P networkId with
  | some c => .ok (digest q P t (update P t c fields))
  | none => Go.crash

/-- the inverse of `2^256` modulo the Pallas base field prime -/
def rInv : ℕ := 0x21f1c4ff1e2278d570cb2996efc89a65ac9fba6a4077fc57cf3f8e8753a769a9

/-- the value of a field element literal in Montgomery form -/
def Words.val (w : Words) : ZMod Primes.pallasp :=
  ((w.w0 + 2 ^ 64 * w.w1 + 2 ^ 128 * w.w2 + 2 ^ 192 * w.w3) * rInv % Primes.pallasp : ℕ)

/-- the values of a table -/
def Table.vals (t : Table) : List (List (ZMod Primes.pallasp)) := t.map (fun r => r.map Words.val)

/-- `contexts` (`poseidon_hash.go:24-1131`) -/
def contexts : Permutation → Params (ZMod Primes.pallasp)
  | .threeW => ⟨3, 2, 63, .quint, threeWRoundKeys.vals, threeWMdsMatrix.vals, threeWSpongeIv.vals⟩
  | .fiveW => ⟨5, 4, 53, .sept, fiveWRoundKeys.vals, fiveWMdsMatrix.vals, fiveWSpongeIv.vals⟩
  | .three => ⟨3, 2, 54, .sept, threeRoundKeys.vals, threeMdsMatrix.vals, threeSpongeIv.vals⟩

end Verif.Mina
