import Mathlib.Data.Nat.Notation

/-!
# Merlin transcripts

A `merlin.Transcript` is the list of the operations performed on it; the bytes returned by
`ExtractBytes` are an arbitrary function of that list.  The operation is recorded, because extracting
also changes the state of the transcript.
-/

namespace Verif

/-- one operation on a transcript -/
inductive MerlinOp
  /-- `merlin.NewTranscript(label)` -/
  | new (label : String)
  /-- `AppendMessage(label, msg)` -/
  | append (label : String) (msg : List UInt8)
  /-- `ExtractBytes(label, 32)` -/
  | extract (label : String)
  deriving DecidableEq, Repr

/-- a transcript -/
abbrev Merlin := List MerlinOp

namespace Merlin

/-- `merlin.NewTranscript` -/
def new (label : String) : Merlin := [.new label]

/-- `AppendMessage` -/
def append (t : Merlin) (label : String) (msg : List UInt8) : Merlin := t ++ [.append label msg]

/-- the transcript after `ExtractBytes`; the extracted bytes are a function of it -/
def extract (t : Merlin) (label : String) : Merlin := t ++ [.extract label]

end Merlin
end Verif
