import Verif.Common.Go
import Verif.Common.Lagrange
import Verif.Common.Codec
import Verif.Common.Toy
import Verif.Common.Bytes
import Verif.Sharing.Model
import Verif.Sharing.Lemmas
import Verif.Sharing.Props
import Verif.Sharing.DealProps
import Verif.Sharing.V1Model
import Verif.Sharing.V1Lemmas
import Verif.Sharing.V1Props
import Verif.Sharing.GeneratorModel
import Verif.Sharing.GeneratorProps
import Verif.Common.BigInt
import Verif.Core.Model
import Verif.Core.Lemmas
import Verif.Core.Props
import Verif.Paillier.Model
import Verif.Paillier.Lemmas
import Verif.Paillier.Props
import Verif.Paillier.PsfProps
import Verif.Schnorr.Model
import Verif.Schnorr.Props
import Verif.Common.GoList
import Verif.Dkg.FrostModel
import Verif.Dkg.FrostLemmas
import Verif.Dkg.FrostProps
import Verif.Dkg.GennaroModel
import Verif.Dkg.GennaroLemmas
import Verif.Dkg.GennaroProps
import Verif.Dkg.BlindModel
import Verif.Dkg.BlindProps
import Verif.Ted.FrostSignModel
import Verif.Ted.FrostSignLemmas
import Verif.Ted.FrostSignProps
import Verif.Ted.TedModel
import Verif.Ted.TedLemmas
import Verif.Ted.TedProps
import Verif.Ted.NonceProps
import Verif.Bbs.Common
import Verif.Bbs.CommonProps
import Verif.Bbs.Model
import Verif.Bbs.Props
import Verif.Bbs.PokProps
import Verif.Bbs.MiscProps
import Verif.Accum.Model
import Verif.Accum.Lemmas
import Verif.Accum.Props
import Verif.Accum.ProofProps
import Verif.Bls.Model
import Verif.Bls.Lemmas
import Verif.Bls.Props
import Verif.Bls.ThresholdProps
import Verif.Bls.SchemeProps
import Verif.Verenc.ElGamalModel
import Verif.Verenc.ElGamalProps
import Verif.Verenc.CamShoupModel
import Verif.Verenc.CamShoupLemmas
import Verif.Verenc.CamShoupProps
import Verif.Common.Pocklington
import Verif.Common.Primes
import Verif.Native.PointModel
import Verif.Native.CurveLemmas
import Verif.Native.AlgoLemmas
import Verif.Native.PointProps
import Verif.Native.LimbModel
import Verif.Native.LimbLemmas
import Verif.Native.LimbProps
import Verif.Native.CurveFacts
import Verif.Native.CurveProps
import Verif.Native.FieldModel
import Verif.Native.FieldLemmas
import Verif.Native.FieldProps
import Verif.Native.EncodeModel
import Verif.Native.EncodeProps
import Verif.Bulletproof.Model
import Verif.Bulletproof.Lemmas
import Verif.Bulletproof.IppProps
import Verif.Bulletproof.RangeLemmas
import Verif.Bulletproof.RangeProps
import Verif.Bulletproof.BatchProps
import Verif.Bulletproof.VerifyProps
import Verif.Bulletproof.MarshalProps
import Verif.Bulletproof.Examples
import Verif.Common.Merlin
import Verif.Common.Tabulate
import Verif.Ot.Bits
import Verif.Ot.FieldMul
import Verif.Ot.Irreducible
import Verif.Ot.FieldProps
import Verif.Ot.SimplestModel
import Verif.Ot.SimplestProps
import Verif.Ot.KosModel
import Verif.Ot.KosProps
import Verif.Ot.StreamModel
import Verif.Ot.StreamProps
import Verif.Dkls.MulModel
import Verif.Dkls.MulProps
import Verif.Dkls.SignModel
import Verif.Dkls.SignProps
import Verif.Dkls.DkgModel
import Verif.Dkls.DkgProps
import Verif.Dkls.RefreshModel
import Verif.Dkls.RefreshProps
import Verif.Dkls.ProtocolModel
import Verif.Dkls.ProtocolProps
import Verif.Dkls.RetryProps
import Verif.Gg20.ProofModel
import Verif.Gg20.ProofLemmas
import Verif.Gg20.ProofProps
import Verif.Gg20.PdlProps
import Verif.Gg20.MtaProps
import Verif.Gg20.CdlProps
import Verif.Gg20.SignModel
import Verif.Gg20.SignLemmas
import Verif.Gg20.SignProps
import Verif.Gg20.SetupProps
import Verif.Gg20.CheckProps
import Verif.Gg20.DkgModel
import Verif.Gg20.DkgLemmas
import Verif.Gg20.DkgProps
import Verif.Gg20.DkgCheckProps
import Verif.Gg20.DkgSignProps
import Verif.Gg20.DkgExamples
import Verif.Gg20.DkgSignExamples
import Verif.Gg20.DkgRoundProps
import Verif.Dkls.BindingProps
import Verif.Mina.BitVectorProps
import Verif.Mina.PoseidonProps
import Verif.Mina.KeysProps
import Verif.Mina.CodecProps
import Verif.Mina.TxnProps
import Verif.Mina.AbsorbProps
import Verif.Nem.Props
import Verif.Bls381.FpProps
import Verif.Bls381.FqProps
import Verif.Bls381.TowerProps
import Verif.Bls381.GtProps
import Verif.Bls381.GProps
import Verif.Bls381.G2Order
import Verif.Gg20.RoundSound
import Verif.Native.MapHash
import Verif.Bls381.MapProps
import Verif.Bls381.PairProps
import Verif.Bls381.SigProps
import Verif.Native.CurveOrder
import Verif.Pallas.EpOrder
import Verif.Pallas.EpHash
import Verif.Pallas.EpCurve
import Verif.Pallas.MinaLink
import Verif.Curves.MarshalProps
import Verif.Curves.EdScalarProps
import Verif.Ed25519.SigLink
import Verif.Curves.GtScalarProps
import Verif.Legacy.PointProps
import Verif.Legacy.CurveProps
import Verif.Legacy.VssProps
import Verif.Legacy.EdCurveProps
import Verif.Legacy.BlsCurveProps
import Verif.Fiat.Props
import Verif.Legacy.ScalarProps
import Verif.Inst.WeierCodec
import Verif.Inst.Dkls
import Verif.Inst.Gg20
import Verif.Inst.Frost
import Verif.Inst.Schnorr
import Verif.Inst.Bls
import Verif.Legacy.EcdsaProps
import Verif.Inst.Ecdsa
import Verif.Inst.Bulletproof
import Verif.Inst.Sharing
import Verif.DklsV0.DkgProps
import Verif.DklsV0.SeedProps
import Verif.DklsV0.CotProps
import Verif.DklsV0.MulProps
import Verif.DklsV0.SignProps
import Verif.DklsV0.ProtoProps
import Verif.DklsV0.ConvertProps
import Verif.DklsV0.PipeModel
import Verif.DklsV0.PipeProps
import Verif.Bls377.PointProps
import Verif.Bls377.GtProps
import Verif.Paillier.GenProps
import Verif.Gg20.JsonProps
import Verif.Accum.MarshalProps
import Verif.Pallas.IfaceProps
import Verif.Pallas.ShareModel
import Verif.Pallas.ShareProps
import Verif.Curves.PointProps
import Verif.Bls381.SigBytesProps
import Verif.Bbs.KeyProps
import Verif.Dkls.ExchangeProps
import Verif.Core.JsonProps
import Verif.Core.HmacModel
import Verif.Core.HmacProps
import Verif.Bulletproof.GenModel
import Verif.Bulletproof.GenProps
