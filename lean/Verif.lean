import Verif.Model.Basic
import Verif.Model.Field
import Verif.Model.Ecc
import Verif.Model.Curves
import Verif.Spec.Basic
import Verif.Spec.Observe
import Verif.Lemmas.Field
import Verif.Lemmas.PrimeCert
import Verif.Lemmas.Primes
import Verif.Lemmas.Weier
import Verif.Lemmas.OrderCert
import Verif.Lemmas.Orders
import Verif.Lemmas.FieldSpec
import Verif.Lemmas.Ecc
import Verif.Lemmas.EccSpec
import Verif.Props.Field
import Verif.Props.Ecc
import Verif.Props.EccText
import Verif.Model.Shamir
import Verif.Lemmas.Shamir
import Verif.Props.Shamir
import Verif.Model.Dme
import Verif.Model.Ot
import Verif.Model.Lifetime
import Verif.Spec.Dme
import Verif.Lemmas.GrpModule
import Verif.Lemmas.Dme
import Verif.Lemmas.Ot
import Verif.Props.Dme
import Verif.Props.Ot
import Verif.Props.Lifetime
import Verif.Model.Puda
import Verif.Spec.Puda
import Verif.Lemmas.Puda
import Verif.Props.Puda
import Verif.Model.Elgamal
import Verif.Props.Elgamal
import Verif.Model.Utilities
import Verif.Model.CrcTables
import Verif.Model.Crc
import Verif.Spec.Utilities
import Verif.Spec.Crc
import Verif.Lemmas.Utilities
import Verif.Lemmas.Crc
import Verif.Lemmas.CrcErrors
import Verif.Props.Utilities
import Verif.Props.Crc
import Verif.Model.Aes
import Verif.Lemmas.Aes
import Verif.Lemmas.BytesXor
import Verif.Props.Aes
import Verif.Props.AesMore
import Verif.Model.Opprf
import Verif.Model.OpprfState
import Verif.Spec.Opprf
import Verif.Lemmas.Opprf
import Verif.Props.Opprf
import Verif.Props.OpprfSetup
import Verif.Props.OpprfSample
import Verif.Props.OpprfSampleA
import Verif.Props.OpprfSampleB
import Verif.Props.OpprfSampleC
import Verif.Props.OpprfFail
import Verif.Props.OpprfSampleD
import Verif.Model.Process
import Verif.Props.Process
import Verif.Props.PudaPrivacy
import Verif.Props.OpprfPrivacy
import Verif.Props.OpprfServer
import Verif.Props.OpprfSampleE
import Verif.Spec.Aes
import Verif.Props.AesExact
import Verif.Props.OpprfStream
import Verif.Props.OpprfSampleF
import Verif.Props.OpprfRate
import Verif.Model.Tests
import Verif.Spec.Tests
import Verif.Props.TestsDme
import Verif.Props.TestsDmeDebug
import Verif.Props.TestsEcc
import Verif.Props.TestsRest
import Verif.Props.TestsOpprf
import Verif.Model.Text
import Verif.Props.Text
import Verif.Props.DmeRate
import Verif.Props.Density
import Verif.Props.Exact
import Verif.Props.PudaMore
import Verif.Props.LifetimeExact
import Verif.Model.Trapdoor
import Verif.Props.Trapdoor
import Verif.Model.CurveCopy
import Verif.Props.CurveCopy
import Verif.Props.CrsDist
import Verif.Props.ExactInt
import Verif.Props.PudaForge
import Verif.Props.ShamirMore
import Verif.Props.ExactMessy
import Verif.Props.DmeKeys
import Verif.Props.OpprfAny
import Verif.Props.OpprfSampleG
import Verif.Props.AesTotal
import Verif.Props.PudaExact
import Verif.Props.OtLife
import Verif.Props.OpprfReplay
import Verif.Props.OpprfSampleH
import Verif.Props.ShamirCand
import Verif.Props.OpprfView
import Verif.Props.ElgamalMore
import Verif.Props.PudaCipher
import Verif.Props.OpprfDebug
import Verif.Props.OpprfRight
import Verif.Props.ExactDebug
import Verif.Props.AesHeader
import Verif.Props.OpprfWalk
import Verif.Props.OpprfSampleI
import Verif.Model.ProcessOpprf
import Verif.Props.ProcessOpprf
import Verif.Props.OtAgg
import Verif.Props.OpprfSampleJ
import Verif.Props.OpprfClean
import Verif.Lemmas.CrcSlice
import Verif.Lemmas.CrcFourData
import Verif.Lemmas.CrcFour
import Verif.Props.CrcMore
import Verif.Model.Timing
import Verif.Props.Timing
import Verif.Model.Crc32
import Verif.Spec.Crc32
import Verif.Props.Crc32
import Verif.Lemmas.CrcPack
import Verif.Lemmas.CrcSixData
import Verif.Lemmas.CrcSix
import Verif.Props.CrcSeven
import Verif.Lemmas.OffCurve
import Verif.Props.OffCurve
import Verif.Model.Leak
import Verif.Lemmas.Leak
import Verif.Props.Leak
import Verif.Props.ProcessShamir
import Verif.Props.OpprfShuffle
import Verif.Props.Instances
import Verif.Props.OpprfTamper
import Verif.Props.OpprfSampleK
import Verif.Props.OpprfSearch
import Verif.Props.OpprfAbort
import Verif.Props.OpprfAbortTop
import Verif.Props.OpprfSampleL
import Verif.Props.OtOverlap
import Verif.Props.OpprfTrapdoor
import Verif.Props.OpprfSampleT
import Verif.Props.OpprfSampleU
import Verif.Props.PudaPair
import Verif.Props.PudaVk
import Verif.Props.OpprfTwice
import Verif.Props.OpprfSessions
import Verif.Model.TimingPuda
import Verif.Props.PudaTiming
import Verif.Props.PudaLife
import Verif.Props.PudaInsider
import Verif.Props.OpprfLife
import Verif.Props.OpprfOrder
import Verif.Model.TimingOpprf
import Verif.Props.OpprfTiming
import Verif.Props.OpprfTimingSearch
import Verif.Model.TimingEncode
import Verif.Props.EncodeTiming
import Verif.Props.OtOffCurve
import Verif.Props.OpprfOffCurve
