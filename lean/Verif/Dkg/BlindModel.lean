import Verif.Dkg.GennaroModel

/-!
# The blinding generator of two-party key generation

`NewParticipant` of pkg/dkg/gennaro2p/genarro2p.go with the choice of the generator, over the model of the rounds.
-/

namespace Verif.Gennaro

variable {q : ℕ} {G : Type} [AddCommGroup G] [Module (ZMod q) G] [DecidableEq G]

/-- `newBlind` (genarro2p.go:73-79): `rand` is what `Random` of the scalars returns; `NewScalarBaseMult`
(pkg/core/curves/ec_point.go:191-203) accepts the identity -/
def newBlind (g : G) (rand : Option (ZMod q)) : Go G := do
  let r ← Go.ofOption rand
  .ok (r • g)

/-- choice of the generator in `NewParticipant` (genarro2p.go:57-64) -/
def pickBlind (g : G) (blind : Option G) (rand : Option (ZMod q)) : Go G :=
  match blind with
  | some h => .ok h
  | none => newBlind g rand

/-- `NewParticipant` (genarro2p.go:55-70): the embedded participant and the blinding generator, `blind` is the
argument -/
def newWithBlind (g : G) (id counter : UInt32) (blind : Option G) (rand : Option (ZMod q)) : Go (State q G × G) := do
  let h ← pickBlind g blind rand
  let st ← new2p id counter
  .ok (st, h)

end Verif.Gennaro
