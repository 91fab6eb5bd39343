import Verif.Legacy.PointModel

/-!
# Model of the JSON form of the messages and keys of GG20

`pkg/tecdsa/gg20/proof/{cdl,mta,pdl}.go`, `pkg/tecdsa/gg20/participant/round{1,2,3,4,5,6}.go` and `dkg_round{1,2}.go`,
`pkg/tecdsa/gg20/dealer/dealer.go`, `pkg/paillier/paillier.go` and `pkg/core/commit.go`.

A document is a tree; the text of a tree is the work of `encoding/json` and is not modelled.  As there, a key belongs to the field of its name or,
if there is none, to the first field that differs in case only, other keys are ignored, and an absent field keeps its zero value.  Simplified: of
several values for one field the last counts alone; the fields of a record are decoded in the order of the type and the first failure is the
result.  A nil pointer is `none`, a map is a list of its entries, a nil slice or map is the empty one.
-/

namespace Verif.Gg20.Json
open Verif.Legacy Verif.Core

/-- a document; numbers are whole, `other` stands for all other literals -/
inductive J where
  | null
  | num (z : ℤ)
  | str (s : String)
  | arr (l : List J)
  | obj (l : List (String × J))
  | other

/-- what comes from the standard library: comparison without case, base64, decimal keys of maps; and the table of curves -/
structure JEnv where
  fold : String → String → Bool
  b64 : List UInt8 → String
  unb64 : String → Option (List UInt8)
  key : ℕ → String
  unkey : String → Option ℕ
  curves : StdCurves

variable (E : JEnv)

/-- the field a key belongs to -/
def sel (names : List String) (k : String) : Option String :=
  if k ∈ names then some k else names.find? (E.fold k)

/-- the value for a field, `null` when there is none -/
def field (names : List String) (l : List (String × J)) (f : String) : J :=
  (((l.filter fun e => sel E names e.1 = some f).getLast?).map (·.2)).getD .null

/-- the entries of a document that is decoded into a record: `null` changes nothing -/
def J.entries : J → Go (List (String × J))
  | .obj l => .ok l
  | .null => .ok []
  | _ => Go.err

/-- the same for `json.Unmarshal(bytes, &data)` with a pointer `data`: `null` sets it to nil, and reading its fields panics -/
def J.entriesPtr : J → Go (List (String × J))
  | .obj l => .ok l
  | .null => Go.crash
  | _ => Go.err

/-- a `*big.Int` is encoded -/
def encBig : Option ℤ → J
  | none => .null
  | some z => .num z

/-- a `*big.Int` is decoded; a string is no number -/
def J.big : J → Go (Option ℤ)
  | .null => .ok none
  | .num z => .ok (some z)
  | _ => Go.err

/-- a `[]*big.Int` is decoded -/
def J.bigs : J → Go (List (Option ℤ))
  | .null => .ok []
  | .arr l => l.mapM J.big
  | _ => Go.err

/-- a `uint32` is decoded -/
def J.u32 : J → Go ℕ
  | .null => .ok 0
  | .num z => if 0 ≤ z ∧ z ≤ 4294967295 then .ok z.toNat else Go.err
  | _ => Go.err

/-- a `uint8` is decoded -/
def J.u8 : J → Go UInt8
  | .null => .ok 0
  | .num z => if 0 ≤ z ∧ z ≤ 255 then .ok (UInt8.ofNat z.toNat) else Go.err
  | _ => Go.err

/-- a `string` is decoded -/
def J.string : J → Go String
  | .null => .ok ""
  | .str s => .ok s
  | _ => Go.err

/-- a `[]byte` is decoded: base64, or an array of numbers -/
def J.bytes : J → Go (List UInt8)
  | .null => .ok []
  | .str s => match E.unb64 s with
    | some b => .ok b
    | none => Go.err
  | .arr l => l.mapM J.u8
  | _ => Go.err

/-- a `[n]byte` is decoded: what is missing is zero, what is too much is skipped -/
def J.byteArray (n : ℕ) : J → Go (List UInt8)
  | .null => .ok (List.replicate n 0)
  | .arr l => do
    let b ← (l.take n).mapM J.u8
    .ok (b ++ List.replicate (n - b.length) 0)
  | _ => Go.err

/-- a pointer is encoded -/
def encPtr {α} (enc : α → J) : Option α → J
  | none => .null
  | some a => enc a

/-- a pointer is decoded -/
def J.ptr {α} (dec : J → Go α) : J → Go (Option α)
  | .null => .ok none
  | j => do .ok (some (← dec j))

/-- a `map[uint32]*T` is encoded -/
def encMap {α} (enc : α → J) (m : List (ℕ × Option α)) : J :=
  .obj (m.map fun e => (E.key e.1, encPtr enc e.2))

/-- a `map[uint32]*T` is decoded -/
def J.map {α} (dec : J → Go α) : J → Go (List (ℕ × Option α))
  | .null => .ok []
  | .obj l => l.mapM fun e => do
    let k ← Go.ofOption (E.unkey e.1)
    let v ← J.ptr dec e.2
    .ok (k, v)
  | _ => Go.err

/-! ### Proofs -/

/-- `CdlProof` (cdl.go:30-32) -/
structure CdlProof where
  u : List (Option ℤ)
  s : List (Option ℤ)
deriving DecidableEq

/-- `CdlProof.MarshalJSON` (cdl.go:39-45) -/
def CdlProof.enc (p : CdlProof) : J := .obj [("U", .arr (p.u.map encBig)), ("S", .arr (p.s.map encBig))]

/-- `CdlProof.UnmarshalJSON` (cdl.go:47-57) -/
def CdlProof.dec (j : J) : Go CdlProof := do
  let l ← j.entriesPtr
  let f := field E ["U", "S"] l
  .ok ⟨← (f "U").bigs, ← (f "S").bigs⟩

/-- `Range1Proof` (mta.go:83-85) and `PdlProof` (pdl.go:37-39) -/
structure Proof5 where
  z : Option ℤ
  e : Option ℤ
  s : Option ℤ
  s1 : Option ℤ
  s2 : Option ℤ
deriving DecidableEq

/-- `Range1Proof.MarshalJSON` (mta.go:124-132), `PdlProof.MarshalJSON` (pdl.go:45-54) -/
def Proof5.enc (p : Proof5) : J :=
  .obj [("Z", encBig p.z), ("E", encBig p.e), ("S", encBig p.s), ("S1", encBig p.s1), ("S2", encBig p.s2)]

/-- the five fields -/
def Proof5.ofEntries (l : List (String × J)) : Go Proof5 := do
  let f := field E ["Z", "E", "S", "S1", "S2"] l
  .ok ⟨← (f "Z").big, ← (f "E").big, ← (f "S").big, ← (f "S1").big, ← (f "S2").big⟩

/-- `Range1Proof.UnmarshalJSON` (mta.go:135-148) -/
def range1Dec (j : J) : Go Proof5 := do Proof5.ofEntries E (← j.entries)

/-- `PdlProof.UnmarshalJSON` (pdl.go:56-70) -/
def pdlDec (j : J) : Go Proof5 := do Proof5.ofEntries E (← j.entriesPtr)

/-- `Range2Proof` (mta.go:112-115) -/
structure Range2Proof where
  z : Option ℤ
  e : Option ℤ
  s : Option ℤ
  s1 : Option ℤ
  s2 : Option ℤ
  t : Option ℤ
  t1 : Option ℤ
  t2 : Option ℤ
deriving DecidableEq

/-- `Range2Proof.MarshalJSON` (mta.go:151-163) -/
def Range2Proof.enc (p : Range2Proof) : J :=
  .obj [("Z", encBig p.z), ("E", encBig p.e), ("S", encBig p.s), ("S1", encBig p.s1), ("S2", encBig p.s2), ("T", encBig p.t),
    ("T1", encBig p.t1), ("T2", encBig p.t2)]

/-- `Range2Proof.UnmarshalJSON` (mta.go:166-184) -/
def Range2Proof.dec (j : J) : Go Range2Proof := do
  let l ← j.entriesPtr
  let f := field E ["Z", "E", "S", "S1", "S2", "T", "T1", "T2"] l
  .ok ⟨← (f "Z").big, ← (f "E").big, ← (f "S").big, ← (f "S1").big, ← (f "S2").big, ← (f "T").big, ← (f "T1").big, ← (f "T2").big⟩

/-- `ResponseProof` (mta.go:52-55) -/
structure ResponseProof where
  r2proof : Option Range2Proof
  c2 : Option ℤ
  beta : Option ℤ
deriving DecidableEq

/-- `ResponseProof` as `encoding/json` encodes it -/
def ResponseProof.enc (p : ResponseProof) : J :=
  .obj [("R2proof", encPtr Range2Proof.enc p.r2proof), ("C2", encBig p.c2), ("Beta", encBig p.beta)]

/-- `ResponseProof` as `encoding/json` decodes it -/
def ResponseProof.dec (j : J) : Go ResponseProof := do
  let l ← j.entries
  let f := field E ["R2proof", "C2", "Beta"] l
  .ok ⟨← J.ptr (Range2Proof.dec E) (f "R2proof"), ← (f "C2").big, ← (f "Beta").big⟩

/-! ### Messages -/

/-- `P2PSend` (participant/round2.go:19-21); the interface is nil or holds a `ResponseProof` -/
structure P2PSend where
  proof2 : Option ResponseProof
  proof3 : Option ResponseProof
deriving DecidableEq

/-- `P2PSend` as `encoding/json` encodes it -/
def P2PSend.enc (p : P2PSend) : J :=
  .obj [("Proof2", encPtr ResponseProof.enc p.proof2), ("Proof3", encPtr ResponseProof.enc p.proof3)]

/-- `P2PSend.UnmarshalJSON` (participant/round2.go:24-40): the interfaces are never nil afterwards -/
def P2PSend.dec (j : J) : Go P2PSend := do
  let l ← j.entries
  let f := field E ["Proof2", "Proof3"] l
  .ok ⟨some (← ResponseProof.dec E (f "Proof2")), some (← ResponseProof.dec E (f "Proof3"))⟩

/-- `Round3Bcast.MarshalJSON` (participant/round3.go:38-40) -/
def round3Enc (delta : Option ℤ) : J := .obj [("DeltaElement", encBig delta)]

/-- `Round3Bcast.UnmarshalJSON` (participant/round3.go:42-50) -/
def round3Dec (j : J) : Go (Option ℤ) := do (field E ["DeltaElement"] (← j.entries) "DeltaElement").big

/-- `Round6FullBcast.MarshalJSON` (participant/round6.go:39-41) -/
def round6Enc (s : Option ℤ) : J := .obj [("SElement", encBig s)]

/-- `Round6FullBcast.UnmarshalJSON` (participant/round6.go:43-51) -/
def round6Dec (j : J) : Go (Option ℤ) := do (field E ["SElement"] (← j.entries) "SElement").big

/-- `Witness.MarshalJSON` (core/commit.go:43-45) -/
def witnessEnc (w : Witness) : J := .obj [("Msg", .str (E.b64 w.msg)), ("R", .arr (w.r.map fun b => .num b.toNat))]

/-- `Witness.UnmarshalJSON` (core/commit.go:48-57) -/
def witnessDec (j : J) : Go Witness := do
  let l ← j.entries
  let f := field E ["Msg", "R"] l
  .ok ⟨← J.bytes E (f "Msg"), ← J.byteArray 32 (f "R")⟩

/-- `EcPoint.MarshalJSON` (core/curves/ec_point.go:59-65) as a tree -/
def pointEnc (a : EcPoint) : J :=
  let d := a.marshalJSON
  .obj [("CurveName", .str d.curveName), ("X", encBig d.X), ("Y", encBig d.Y)]

/-- `EcPoint.UnmarshalJSON` (core/curves/ec_point.go:67-80) on a tree -/
def pointDec (j : J) : Go EcPoint := do
  let l ← j.entries
  let f := field E ["CurveName", "X", "Y"] l
  let d : EcPointJson := ⟨← (f "CurveName").string, ← (f "X").big, ← (f "Y").big⟩
  unmarshalJSON E.curves d

/-- `Round1Bcast` (participant/round1.go:20-25) -/
structure Round1Bcast where
  id : ℕ
  C : List UInt8
  ctxt : Option ℤ
  proof : Option Proof5
deriving DecidableEq

/-- `Round1Bcast` as `encoding/json` encodes it -/
def Round1Bcast.enc (m : Round1Bcast) : J :=
  .obj [("Identifier", .num m.id), ("C", .str (E.b64 m.C)), ("Ctxt", encBig m.ctxt), ("Proof", encPtr Proof5.enc m.proof)]

/-- `Round1Bcast` as `encoding/json` decodes it -/
def Round1Bcast.dec (j : J) : Go Round1Bcast := do
  let l ← j.entries
  let f := field E ["Identifier", "C", "Ctxt", "Proof"] l
  .ok ⟨← (f "Identifier").u32, ← J.bytes E (f "C"), ← (f "Ctxt").big, ← J.ptr (range1Dec E) (f "Proof")⟩

/-- `Round5Bcast` (participant/round5.go:19-22) -/
structure Round5Bcast where
  rbar : Option EcPoint
  proof : Option Proof5

/-- `Round5Bcast` as `encoding/json` encodes it -/
def Round5Bcast.enc (m : Round5Bcast) : J := .obj [("Rbar", encPtr pointEnc m.rbar), ("Proof", encPtr Proof5.enc m.proof)]

/-- `Round5Bcast` as `encoding/json` decodes it -/
def Round5Bcast.dec (j : J) : Go Round5Bcast := do
  let l ← j.entries
  let f := field E ["Rbar", "Proof"] l
  .ok ⟨← J.ptr (pointDec E) (f "Rbar"), ← J.ptr (pdlDec E) (f "Proof")⟩

/-- the message to one other participant in the second round of the key generation, `DkgRound2P2PSend`
(participant/dkg_round2.go:26-28): its only field is not exported -/
structure DkgRound2P2PSend where
  xij : Option (ℕ × ℤ)
deriving DecidableEq

/-- `DkgRound2P2PSend` as `encoding/json` encodes it -/
def DkgRound2P2PSend.enc (_ : DkgRound2P2PSend) : J := .obj []

/-- `DkgRound2P2PSend` as `encoding/json` decodes it -/
def DkgRound2P2PSend.dec (j : J) : Go DkgRound2P2PSend := do
  let _ ← j.entries
  .ok ⟨none⟩

/-! ### Keys -/

/-- `paillier.PublicKey` (paillier.go:39-42) -/
structure PublicKey where
  N : Option ℤ
  N2 : Option ℤ
deriving DecidableEq

/-- `PublicKey.MarshalJSON` (paillier.go:150-153) -/
def PublicKey.enc (pk : PublicKey) : J := .obj [("N", encBig pk.N)]

/-- `PublicKey.UnmarshalJSON` (paillier.go:156-167) into an empty key -/
def PublicKey.dec (j : J) : Go PublicKey := do
  match ← (field E ["N"] (← j.entries) "N").big with
  | none => .ok ⟨none, none⟩
  | some n => .ok ⟨some n, some (n * n)⟩

/-- `paillier.SecretKey` (paillier.go:52-57) -/
structure SecretKey where
  pk : PublicKey
  lambda : Option ℤ
  totient : Option ℤ
  U : Option ℤ
deriving DecidableEq

/-- `SecretKey.MarshalJSON` (paillier.go:354-362) -/
def SecretKey.enc (sk : SecretKey) : J :=
  .obj [("N", encBig sk.pk.N), ("Lambda", encBig sk.lambda), ("Totient", encBig sk.totient), ("U", encBig sk.U)]

/-- `SecretKey.UnmarshalJSON` (paillier.go:365-378) into an empty key -/
def SecretKey.dec (j : J) : Go SecretKey := do
  let f := field E ["N", "Lambda", "Totient", "U"] (← j.entries)
  let n ← (f "N").big
  .ok ⟨⟨n, n.map fun n => n * n⟩, ← (f "Lambda").big, ← (f "Totient").big, ← (f "U").big⟩

/-- `dealer.Share` (dealer.go:103-106) -/
structure Share where
  id : ℕ
  value : Element
  point : Option EcPoint

/-- `Share.MarshalJSON` (dealer.go:118-124) -/
def Share.enc (s : Share) : J :=
  .obj [("Identifier", .num s.id), ("Value", .num s.value.value), ("Point", encPtr pointEnc s.point)]

/-- `Share.UnmarshalJSON` (dealer.go:126-138); `NewField` (core/curves/field.go:74-82) panics when the order is not prime, `NewElement` when the
value is nil or not reduced -/
def Share.dec (isPrime : ℤ → Bool) (j : J) : Go Share := do
  let l ← j.entries
  let f := field E ["Identifier", "Value", "Point"] l
  let id ← (f "Identifier").u32
  let v ← (f "Value").big
  match ← J.ptr (pointDec E) (f "Point") with
  | none => Go.crash
  | some p =>
    if isPrime p.curve.params.N then do
      let e ← newElement p.curve.params.N v
      .ok ⟨id, e, some p⟩
    else Go.crash

/-- `dealer.ProofParams` (dealer.go:89-96) -/
structure ProofParams where
  N : Option ℤ
  H1 : Option ℤ
  H2 : Option ℤ
deriving DecidableEq

/-- `ProofParams` as `encoding/json` encodes it -/
def ProofParams.enc (p : ProofParams) : J := .obj [("N", encBig p.N), ("H1", encBig p.H1), ("H2", encBig p.H2)]

/-- `ProofParams` as `encoding/json` decodes it -/
def ProofParams.dec (j : J) : Go ProofParams := do
  let f := field E ["N", "H1", "H2"] (← j.entries)
  .ok ⟨← (f "N").big, ← (f "H1").big, ← (f "H2").big⟩

/-- `KeyGenType` (dealer/keygentype.go:12-28): the same parameters for all, or parameters for each participant; `none` is a nil interface -/
inductive KeyGenType where
  | trusted (p : Option ProofParams)
  | distributed (m : List (ℕ × Option ProofParams))
deriving DecidableEq

/-- `PublicShare` (dealer.go:98-100): encoded as a record with one field -/
def publicShareEnc (p : Option EcPoint) : J := .obj [("Point", encPtr pointEnc p)]

/-- `PublicShare` as `encoding/json` decodes it -/
def publicShareDec (j : J) : Go (Option EcPoint) := do
  J.ptr (pointDec E) (field E ["Point"] (← j.entries) "Point")

/-- `ParticipantData` (dealer.go:22-33) -/
structure ParticipantData where
  id : ℕ
  decryptKey : Option SecretKey
  share : Option Share
  publicKey : Option EcPoint
  keyGenType : Option KeyGenType
  publicShares : List (ℕ × Option (Option EcPoint))
  encryptKeys : List (ℕ × Option PublicKey)

/-- the names of the fields of `ParticipantDataJson` (dealer.go:35-45) -/
def pdNames : List String :=
  ["Id", "DecryptKey", "SecretKeyShare", "EcdsaPublicKey", "DealerParams", "ParticipantParams", "PublicShares", "EncryptKeys"]

/-- `ParticipantData.MarshalJSON` (dealer.go:47-62); a nil `KeyGenType` panics -/
def ParticipantData.enc (pd : ParticipantData) : Go J := do
  let t ← match pd.keyGenType with
    | none => Go.crash
    | some t => .ok t
  let dp : J := match t with
    | .trusted p => encPtr ProofParams.enc p
    | .distributed _ => .null
  let pp : J := match t with
    | .trusted _ => .null
    | .distributed m => encMap E ProofParams.enc m
  .ok (.obj [("Id", .num pd.id), ("DecryptKey", encPtr SecretKey.enc pd.decryptKey), ("SecretKeyShare", encPtr Share.enc pd.share),
    ("EcdsaPublicKey", encPtr pointEnc pd.publicKey), ("DealerParams", dp), ("ParticipantParams", pp),
    ("PublicShares", encMap E publicShareEnc pd.publicShares), ("EncryptKeys", encMap E PublicKey.enc pd.encryptKeys)])

/-- `ParticipantData.UnmarshalJSON` (dealer.go:64-85) -/
def ParticipantData.dec (isPrime : ℤ → Bool) (j : J) : Go ParticipantData := do
  let f := field E pdNames (← j.entries)
  let id ← (f "Id").u32
  let dk ← J.ptr (SecretKey.dec E) (f "DecryptKey")
  let sh ← J.ptr (Share.dec E isPrime) (f "SecretKeyShare")
  let pk ← J.ptr (pointDec E) (f "EcdsaPublicKey")
  let dp ← J.ptr (ProofParams.dec E) (f "DealerParams")
  let pp ← J.map E (ProofParams.dec E) (f "ParticipantParams")
  let ps ← J.map E (publicShareDec E) (f "PublicShares")
  let ek ← J.map E (PublicKey.dec E) (f "EncryptKeys")
  let t := match dp with
    | some p => KeyGenType.trusted (some p)
    | none => KeyGenType.distributed pp
  .ok ⟨id, dk, sh, pk, some t, ps, ek⟩

/-- one turn of the loop of `PreparePublicShares` (dealer.go:165-170) -/
def publicShareOf (e : ℕ × Option Share) : Go (ℕ × Option EcPoint) :=
  match e.2 with
  | none => Go.err
  | some s => .ok (e.1, s.point)

/-- `PreparePublicShares` (dealer.go:160-172) -/
def preparePublicShares (m : List (ℕ × Option Share)) : Go (List (ℕ × Option EcPoint)) :=
  if m.isEmpty then Go.err else m.mapM publicShareOf

end Verif.Gg20.Json
