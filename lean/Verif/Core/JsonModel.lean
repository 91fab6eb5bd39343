import Verif.Core.Model
import Mathlib.Data.Nat.Digits.Defs

/-!
# JSON of field elements

`ElementJSON` of `pkg/core/curves/field.go:36-68`. A document is the pair of its two strings; reading and writing the document is the
work of `encoding/json`. The texts of integers are those of `math/big` for base 10: `String` and `SetString`.
-/

namespace Verif.Core

/-- the digits of a number, `nat.itoa` of `math/big` -/
def showNat (n : ℕ) : List UInt8 :=
  if n = 0 then [48] else (Nat.digits 10 n).reverse.map fun d => UInt8.ofNat (48 + d)

/-- `big.Int.String` -/
def showInt (z : ℤ) : List UInt8 := if z < 0 then 45 :: showNat z.natAbs else showNat z.natAbs

/-- digits up to here: `acc`; `none` at a character that is no digit -/
def readDigits : ℕ → List UInt8 → Option ℕ
  | acc, [] => some acc
  | acc, c :: cs => if 48 ≤ c ∧ c ≤ 57 then readDigits (10 * acc + (c.toNat - 48)) cs else none

/-- at least one digit -/
def readNat (t : List UInt8) : Option ℕ := if t = [] then none else readDigits 0 t

/-- `big.Int.SetString` with base 10: a sign and digits; underscores and prefixes are for base 0 only -/
def readInt (t : List UInt8) : Option ℤ :=
  match t with
  | 45 :: ds => (readNat ds).map fun n : ℕ => -(n : ℤ)
  | 43 :: ds => (readNat ds).map fun n : ℕ => (n : ℤ)
  | ds => (readNat ds).map fun n : ℕ => (n : ℤ)

/-- `ElementJSON` (field.go:36-39) -/
structure ElementJson where
  modulus : List UInt8
  value : List UInt8
  deriving DecidableEq

/-- `Element.MarshalJSON` (field.go:42-47) for an element without nil -/
def Element.marshalJson (x : Element) : ElementJson := ⟨showInt x.modulus, showInt x.value⟩

/-- `Element` as a receiver: its fields may be nil -/
structure Receiver where
  modulus : Option ℤ
  value : Option ℤ
  deriving DecidableEq

/-- `Element.UnmarshalJSON` (field.go:49-68) after the document is parsed: the fields of the receiver are set one by one, `SetString`
returns nil when it fails -/
def unmarshalJson (x : Receiver) (d : ElementJson) : Receiver × Go Unit :=
  match readInt d.modulus with
  | none => (x, Go.err)
  | some m =>
    match readInt d.value with
    | none => (⟨some m, none⟩, Go.err)
    | some v => (⟨some m, some v⟩, .ok ())

/-- the methods of `Element` on a receiver: nil fields panic -/
def Receiver.get (x : Receiver) : Go Element :=
  match x with
  | ⟨some m, some v⟩ => .ok ⟨m, v⟩
  | _ => Go.crash

end Verif.Core
