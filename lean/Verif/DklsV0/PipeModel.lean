import Mathlib.Data.List.Basic
import Mathlib.Logic.Function.Basic

/-!
# The connection of two parties in one process

Model of pkg/tecdsa/dkls/v0/conn.go, which is the same code as pkg/ot/base/simplest/util.go:31-53.
`io.Pipe` of the standard library is modelled as documented: it has no buffer, a `Write` waits until
its bytes have been taken by one or more `Read`s, at least one even if there are no bytes, and each
`Read` takes bytes of one `Write`.  The wrappers offer no way to close a pipe, so closing is left out.
Each wrapper is used by one goroutine, so it has at most one call in progress; a `Read` that finds no
`Write` is a step that does not happen yet.  Counters are unbounded.
-/

namespace Verif.DklsV0.Pipe

/-- a `Write` in progress: the wrapper it was called on, the bytes not yet taken and the count `n` of
the bytes taken (`io.Pipe` of the standard library) -/
structure Call where
  who : Bool
  rem : List UInt8
  n : ℕ
deriving DecidableEq

/-- two wrappers (conn.go:11-15), the first one is `false`: the pipes they read from and write to, where
the left pipe is `false`, their counters `exchanged`, and the calls of `Write` in progress at the pipes -/
structure Net where
  r : Bool → Bool
  w : Bool → Bool
  exchanged : Bool → ℕ
  pipes : Bool → Option Call

/-- `NewPipeWrappers` (conn.go:29-33) -/
def new : Net where
  r p := if p then true else false
  w p := if p then false else true
  exchanged _ := 0
  pipes _ := none

/-- calls: `Write` with the bytes, `Read` with the length of the buffer -/
inductive Event where
  | write (p : Bool) (b : List UInt8)
  | read (p : Bool) (size : ℕ)
deriving DecidableEq

/-- no call of the wrapper is in progress -/
def Net.idle (s : Net) (p : Bool) : Bool :=
  [false, true].all fun i => (s.pipes i).all fun c => c.who != p

/-- the part of `Read` (conn.go:23-27) and of the `Write` it serves (conn.go:17-21): the reader adds the
bytes it got to its counter; the writer adds its count once all bytes are taken -/
def Net.take (s : Net) (p : Bool) (c : Call) (size : ℕ) : Net × List UInt8 :=
  let out := c.rem.take size
  let s := { s with exchanged := Function.update s.exchanged p (s.exchanged p + out.length) }
  if size < c.rem.length then
    ({ s with pipes := Function.update s.pipes (s.r p) (some ⟨c.who, c.rem.drop size, c.n + out.length⟩) }, out)
  else
    ({ s with
      pipes := Function.update s.pipes (s.r p) none
      exchanged := Function.update s.exchanged c.who (s.exchanged c.who + (c.n + out.length)) }, out)

/-- one step with the bytes a `Read` returns: the start of a `Write` (conn.go:17-21) or a `Read`
(conn.go:23-27) that meets one; `none` if the call has to wait -/
def Net.step (s : Net) : Event → Option (Net × List UInt8)
  | .write p b =>
    if s.idle p && (s.pipes (s.w p)).isNone then
      some ({ s with pipes := Function.update s.pipes (s.w p) (some ⟨p, b, 0⟩) }, [])
    else none
  | .read p size =>
    if s.idle p then (s.pipes (s.r p)).map fun c => s.take p c size else none

/-- the executions that begin with new wrappers, in every order of calls -/
inductive Run : List (Event × List UInt8) → Net → Prop
  | start : Run [] new
  | step {tr s e s' out} : Run tr s → s.step e = some (s', out) → Run (tr ++ [(e, out)]) s'

end Verif.DklsV0.Pipe
