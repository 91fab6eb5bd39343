import Verif.Ot.KosModel

/-!
# Model of the streams `pkg/ot/base/simplest/stream.go` and `pkg/ot/extension/kos/stream.go`

A function which talks over an `io.ReadWriter` is a process: it sends a gob value, waits for one, makes a new
`gob.Decoder`, or returns.  The two ends of the `ReadWriter` are two unbounded queues of encoded values.

Simplifications: a gob value travels as one unit (a stream cut inside a value is not modelled); the types sent
ahead of the first value of an encoder are part of that value; a closed stream is not modelled, a process whose
peer has stopped waits for ever; nil fields in decoded values are not modelled.
-/

namespace Verif.Ot

/-- the bytes of one gob value -/
abbrev Wire := List UInt8

/-- a process with result type `α` -/
inductive Proc (α : Type) where
  /-- the function returns -/
  | done (res : Go α)
  /-- `enc.Encode`, after which `k` goes on -/
  | send (m : Wire) (k : Proc α)
  /-- `dec.Decode` -/
  | recv (k : Wire → Proc α)
  /-- `gob.NewDecoder(rw)`: the read buffer of an older decoder is dropped with it -/
  | fresh (k : Proc α)

/-- a call which may return an error: the function returns that error -/
def Proc.lift {α β : Type} : Go β → (β → Proc α) → Proc α
  | .ok b, k => k b
  | .error e, _ => .done (.error e)

/-- two functions called one after the other on the same `ReadWriter` -/
def Proc.bind {α β : Type} : Proc α → (α → Proc β) → Proc β
  | .done res, f => Proc.lift res f
  | .send m k, f => .send m (k.bind f)
  | .recv k, f => .recv fun m => (k m).bind f
  | .fresh k, f => .fresh (k.bind f)

/-- one end of the connection -/
structure Side (α : Type) where
  proc : Proc α
  /-- what the current decoder has read and not yet decoded -/
  buf : List Wire
  /-- what has been sent to this end and not yet been read -/
  inbox : List Wire

/-- a freshly started process -/
def Side.start {α : Type} (p : Proc α) : Side α := ⟨p, [], []⟩

/-- the next action of the left end; `none` if it has returned or has to wait -/
def next {α β : Type} (x : Side α) (y : Side β) : Option (Side α × Side β) :=
  match x.proc with
  | .done _ => none
  | .send m k => some (⟨k, x.buf, x.inbox⟩, { y with inbox := y.inbox ++ [m] })
  | .fresh k => some (⟨k, [], x.inbox⟩, y)
  | .recv k =>
    match x.buf with
    | m :: buf => some (⟨k m, buf, x.inbox⟩, y)
    | [] =>
      match x.inbox with
      | m :: inbox => some (⟨k m, [], inbox⟩, y)
      | [] => none

/-- one action of one of the two ends, if every read delivers one value (`net.Pipe`) -/
inductive Step {α β : Type} : Side α × Side β → Side α × Side β → Prop
  | left {x y x' y'} : next x y = some (x', y') → Step (x, y) (x', y')
  | right {x y x' y'} : next y x = some (y', x') → Step (x, y) (x', y')

/-- A read of the decoder's `bufio.Reader` which delivers several values: `gob.NewDecoder` wraps a reader which
is no `io.ByteReader` into a `bufio.Reader`, and its `Read` takes all the bytes that have arrived (up to 4096).
It reads only when its buffer is empty. -/
inductive Fetch {α : Type} : Side α → Side α → Prop
  | mk (k : Wire → Proc α) (ms inbox : List Wire) : ms ≠ [] → Fetch ⟨.recv k, [], ms ++ inbox⟩ ⟨.recv k, ms, inbox⟩

/-- one action of one of the two ends on a connection which does not keep the values apart (TCP) -/
inductive StepRA {α β : Type} : Side α × Side β → Side α × Side β → Prop
  | step {c c'} : Step c c' → StepRA c c'
  | left {x x' y} : Fetch x x' → StepRA (x, y) (x', y)
  | right {x y y'} : Fetch y y' → StepRA (x, y) (x, y')

/-- `gob` for one type: `Encode` fails for an interface value whose type has not been registered -/
structure Codec1 (α : Type) where
  enc : α → Option Wire
  dec : Wire → Option α

/-- what is encoded is decoded to itself -/
def Codec1.Ok {α : Type} (g : Codec1 α) : Prop := ∀ a, ∃ b, g.enc a = some b ∧ g.dec b = some a

/-- `enc.Encode(a)` -/
def sendVal {α β : Type} (g : Codec1 α) (a : α) (k : Proc β) : Proc β :=
  Proc.lift (Go.ofOption (g.enc a)) fun m => .send m k

/-- `dec.Decode(&a)` -/
def recvVal {α β : Type} (g : Codec1 α) (k : α → Proc β) : Proc β :=
  .recv fun m => Proc.lift (Go.ofOption (g.dec m)) k

variable {F : Type} [Field F] [DecidableEq F]
variable {G : Type} [AddCommGroup G] [Module F G] [DecidableEq G]

/-- the gob codecs of the five messages of the seed OT -/
structure SeedGob (F G : Type) where
  proof : Codec1 (Schnorr.Proof F G)
  masked : Codec1 (List (List UInt8))
  challenge : Codec1 (List Digest)
  response : Codec1 (List Digest)
  opening : Codec1 (List (Digest × Digest))

/-- `ReceiverStreamOTRun` (simplest/stream.go:19-56); `a` are the scalars sampled in round 2 -/
def receiverStream (env : Env F G) (g : SeedGob F G) (r : Receiver G) (a : ℕ → F) : Proc (Receiver G) :=
  .fresh <| recvVal g.proof fun pf =>
    Proc.lift (r.round2 env a (some pf)) fun (masked, r) =>
    sendVal g.masked masked <| recvVal g.challenge fun challenge =>
    Proc.lift (r.round4 env challenge) fun (responses, r) =>
    sendVal g.response responses <| recvVal g.opening fun openings =>
    Proc.lift (r.round6 env openings) fun _ => .done (.ok r)

/-- `SenderStreamOTRun` (simplest/stream.go:61-100); `b`, `k` are the scalars sampled in round 1 -/
def senderStream (env : Env F G) (g : SeedGob F G) (s : Sender F G) (b k : F) : Proc (Sender F G) :=
  .fresh <| Proc.lift (s.round1 env b k) fun (pf, s) =>
    sendVal g.proof pf <| recvVal g.masked fun masked =>
    Proc.lift (s.round3 env masked) fun (challenge, s) =>
    sendVal g.challenge challenge <| recvVal g.response fun responses =>
    Proc.lift (s.round5 env responses) fun openings =>
    sendVal g.opening openings <| .done (.ok s)

/-- the gob codecs of the two messages of the extension -/
structure CotGob (F : Type) where
  first : Codec1 KosRound1
  tau : Codec1 (Fin cotL → F × F)

/-- `ReceiverStreamCOtRun` (kos/stream.go:17-36): the result are the shares `tB` -/
def receiverCotStream (env : KEnv F) (g : CotGob F) (keys : List (Digest × Digest)) (sid : Digest)
    (choice : Vector UInt8 cotBytes) (rnd : Vector UInt8 42) : Proc (Fin cotL → F × F) :=
  .fresh <| Proc.lift (kosRound1 env keys sid choice rnd) fun (first, r) =>
    sendVal g.first first <| recvVal g.tau fun tau =>
    Proc.lift (kosRound3 env r tau) fun tB => .done (.ok tB)

/-- `SenderStreamCOtRun` (kos/stream.go:41-57): the result are the shares `tA` -/
def senderCotStream (env : KEnv F) (g : CotGob F) (seed : SeedReceiver) (sid : Digest)
    (input : Fin cotL → F × F) : Proc (Fin cotL → F × F) :=
  .fresh <| recvVal g.first fun first =>
    Proc.lift (kosRound2 env seed sid input first) fun (tA, tau) =>
    sendVal g.tau tau <| .done (.ok tA)

/-- seed OT, then extension, for the party which is the seed sender and the receiver of the extension -/
def aliceStream (env : Env F G) (g : SeedGob F G) (kenv : KEnv F) (kg : CotGob F) (s : Sender F G) (b k : F)
    (sid : Digest) (choice : Vector UInt8 cotBytes) (rnd : Vector UInt8 42) : Proc (Fin cotL → F × F) :=
  (senderStream env g s b k).bind fun s => receiverCotStream kenv kg s.keys sid choice rnd

/-- the same for the party which is the seed receiver and the sender of the extension -/
def bobStream (env : Env F G) (g : SeedGob F G) (kenv : KEnv F) (kg : CotGob F) (r : Receiver G) (a : ℕ → F)
    (sid : Digest) (input : Fin cotL → F × F) : Proc (Fin cotL → F × F) :=
  (receiverStream env g r a).bind fun r => senderCotStream kenv kg ⟨r.packed, r.choices, r.pads⟩ sid input

end Verif.Ot
