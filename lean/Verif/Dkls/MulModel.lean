import Verif.Ot.KosModel
import Verif.Common.Bytes

/-!
# Model of the two-party multiplication `pkg/tecdsa/dkls/v1/sign/multiply.go`
-/

namespace Verif.Dkls

open Verif.Ot

variable {F : Type} [Field F] [DecidableEq F]

/-- hash functions, transcript extraction and scalar codec -/
structure MEnv (F : Type) extends KEnv F where
  /-- `ExtractBytes(label, 32)` of a merlin transcript -/
  ext : Merlin → Digest
  /-- cSHAKE256 with customization string `"Coinbase DKLs gadget vector"` as a stream -/
  gad : ℕ → UInt8

/-- the 32 bytes read for `gadget[256 + i]` (multiply.go:61-65) -/
def gadBytes (gad : ℕ → UInt8) (i : ℕ) : List UInt8 := (List.range 32).map fun k => gad (32 * i + k)

/-- `generateGadgetVector` (multiply.go:51-73); only the entries below `cotL` are used.  `SetBigInt`
reduces modulo the group order, so the first entries are `2^i` in the field. -/
def gadgetVector (env : MEnv F) : Go (ℕ → F) := do
  let hi ← (List.range (cotL - kappa)).mapM fun i => Go.ofOption (env.cd.dec (gadBytes env.gad i))
  .ok fun j => if j < kappa then 2 ^ j else hi.getD (j - kappa) 0

/-- the transcript of a new sender or receiver (multiply.go:84-86, 105-106) -/
def mulTranscript (sid : Digest) : Merlin :=
  (Merlin.new "Coinbase_DKLs_Multiply").append "session_id" sid.toList

/-- `NewMultiplySender` (multiply.go:78-95), `NewMultiplyReceiver` (multiply.go:100-114): the gadget
vector and the transcript; the seed OT results and the session id are kept -/
def newMultiply (env : MEnv F) (sid : Digest) : Go ((ℕ → F) × Merlin) := do
  let g ← gadgetVector env
  .ok (g, mulTranscript sid)

/-- one step of the loop of `encode` (multiply.go:133-146) -/
def encodeStep (cd : ScalarCodec F) (gj : F) (bit : ℕ) (bytes : List UInt8) : Go (List UInt8) := do
  let option0 ← Go.ofOption (cd.dec bytes)
  constantTimeCopy bit (cd.enc option0) (cd.enc (option0 - gj))

/-- `encode` (multiply.go:126-149); `rnd` are the random bytes `encoding[32:]` -/
def encode (env : MEnv F) (g : ℕ → F) (beta : F) (rnd : Vector UInt8 52) : Go (Vector UInt8 cotBytes) := do
  let enc0 := List.replicate 32 0 ++ rnd.toList
  let bytes ← (List.range (cotL - kappa)).foldlM (fun b i =>
    encodeStep env.cd (g (kappa + i)) (extractBit enc0 (kappa + i)).toNat b) (env.cd.enc beta)
  .ok (Vector.ofFn (fun i : Fin 32 => bytes.reverse.getD i.val 0) ++ rnd)

/-- the rows of `U`, `wPrime` and `vPrime` (multiply.go:163-168, 191-196) -/
def appendKos (t : Merlin) (m : KosRound1) : Merlin :=
  let t := m.U.toList.zipIdx.foldl (fun t r => Merlin.append t (s!"row {r.2} of U") r.1.toList) t
  (t.append "wPrime" m.wPrime.toList).append "vPrime" m.vPrime.toList

theorem kappa_lt (i : Fin kappa) : i.val < cotL := lt_trans i.isLt (by decide)

/-- the rows of `Tau` (multiply.go:198-204, 229-234): rows 0 to 255 of 672 -/
def appendTau (cd : ScalarCodec F) (t : Merlin) (tau : Fin cotL → F × F) : Merlin :=
  (List.finRange kappa).foldl (fun t i =>
    let row := tau ⟨i.val, kappa_lt i⟩
    (t.append (s!"row {i.val} of Tau") (cd.enc row.1)).append (s!"row {i.val} of Tau") (cd.enc row.2)) t

/-- `MultiplyReceiver` after round 1 -/
structure MulReceiver (F : Type) where
  gadget : ℕ → F
  transcript : Merlin
  omega : Vector UInt8 cotBytes
  kos : KosReceiver

/-- `MultiplyReceiver.Round1Initialize` (multiply.go:152-169) of a receiver created with session id `sid`;
`rnd` and `rnd'` are the random bytes of `encode` and of the OT extension -/
def mulRound1 (env : MEnv F) (keys : List (Digest × Digest)) (sid : Digest) (g : ℕ → F) (t : Merlin)
    (beta : F) (rnd : Vector UInt8 52) (rnd' : Vector UInt8 42) : Go (KosRound1 × MulReceiver F) := do
  let omega ← encode env g beta rnd
  let out ← kosRound1 env.toKEnv keys sid omega rnd'
  .ok (out.1, ⟨g, appendKos t out.1, omega, out.2⟩)

/-- `MultiplyRound2Output` (multiply.go:117-121) -/
structure MulRound2 (F : Type) where
  tau : Fin cotL → F × F
  R : Fin cotL → F
  U : F

/-- the two challenges and the transcript after drawing them (multiply.go:205-213, 239-247) -/
def drawChi (env : MEnv F) (t : Merlin) : Go ((F × F) × Merlin) := do
  let t0 := t.extract "draw challenge chi 0"
  let c0 ← Go.ofOption (env.cd.dec (env.ext t0).toList)
  let t1 := t0.extract "draw challenge chi 1"
  let c1 ← Go.ofOption (env.cd.dec (env.ext t1).toList)
  .ok ((c0, c1), t1)

/-- `Σ_j gadget[j]·share[j][0]`, accumulated in a loop (multiply.go:214-219, 249-265) -/
def gadgetSum (g : ℕ → F) (share : Fin cotL → F × F) : F :=
  (List.finRange cotL).foldl (fun acc j => acc + g j.val * (share j).1) 0

/-- `MultiplySender.Round2Multiply` (multiply.go:175-222); `alphaHat` is the sampled scalar -/
def mulRound2 (env : MEnv F) (seed : SeedReceiver) (sid : Digest) (g : ℕ → F) (t : Merlin)
    (alpha alphaHat : F) (m : KosRound1) : Go (MulRound2 F × F) := do
  let out ← kosRound2 env.toKEnv seed sid (fun _ => (alpha, alphaHat)) m
  let t := appendTau env.cd (appendKos t m) out.2
  let chi ← drawChi env t
  let R := fun j => 0 + chi.1.1 * (out.1 j).1 + chi.1.2 * (out.1 j).2
  .ok (⟨out.2, R, chi.1.1 * alpha + chi.1.2 * alphaHat⟩, gadgetSum g out.1)

/-- slot `j` of the check in `Round3Multiply` (multiply.go:252-263) -/
def mulCheck (env : MEnv F) (bit : ℕ) (chi : F × F) (Rj U : F) (share : F × F) : Go Unit := do
  let lhs := Rj + chi.1 * share.1 + chi.2 * share.2
  let rhs ← constantTimeCopy bit (List.replicate 32 0) (env.cd.enc U)
  Go.guard (rhs = env.cd.enc lhs)

/-- `MultiplyReceiver.Round3Multiply` (multiply.go:227-267): the receiver's output share -/
def mulRound3 (env : MEnv F) (r : MulReceiver F) (m : MulRound2 F) : Go F := do
  let t := appendTau env.cd r.transcript m.tau
  let share ← kosRound3 env.toKEnv r.kos m.tau
  let chi ← drawChi env t
  let _ ← Go.tabulate cotL fun j =>
    mulCheck env (extractBit r.omega.toList j.val).toNat chi.1 (m.R j) m.U (share j)
  .ok (gadgetSum r.gadget share)

end Verif.Dkls
