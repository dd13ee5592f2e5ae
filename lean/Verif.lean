import Verif.Basic
import Verif.Cbor
import Verif.Qcbor.Encode
import Verif.TCose.Util
import Verif.TCose.ShortCircuit
import Verif.TCose.Sign
import Verif.TCose.TwoStep
import Verif.Spec.Cbor
import Verif.Spec.Options
import Verif.Spec.Cose
import Verif.Spec.Limits
import Verif.Spec.Crypto
import Verif.Crypto.Toy
import Verif.Lemmas.OptionBits
import Verif.Lemmas.Cbor
import Verif.Lemmas.Head
import Verif.Lemmas.Ideal
import Verif.Lemmas.SignRun
import Verif.Lemmas.SignParams
import Verif.Lemmas.SignSig
import Verif.Lemmas.SignOne
import Verif.Lemmas.Tbs
import Verif.Lemmas.SignSpec
import Verif.Lemmas.SignMain
import Verif.Lemmas.SignSize
import Verif.Lemmas.SignSafe
import Verif.Lemmas.SignUb
import Verif.Lemmas.ShortCircuit
import Verif.Lemmas.TwoStep
import Verif.Props.Tbs
import Verif.Props.ShortCircuit
import Verif.Props.Sign
import Verif.Props.SignSafety
import Verif.Props.TwoStep
import Verif.Qcbor.Decode
import Verif.TCose.Parameters
import Verif.TCose.Verify
import Verif.Spec.View
import Verif.Lemmas.DecBase
import Verif.Lemmas.DecMap
import Verif.Lemmas.DecOps
import Verif.Lemmas.Search
import Verif.Lemmas.Labels
import Verif.Lemmas.Limits
import Verif.Lemmas.HeaderParse
import Verif.Lemmas.DecodeBody
import Verif.Lemmas.HeaderMeaning
import Verif.Lemmas.VerifyMain
import Verif.Lemmas.Accepted
import Verif.Lemmas.CheckDecoded
import Verif.Spec.Header
import Verif.Lemmas.Returned
import Verif.Crypto.ToyMsg
import Verif.Lemmas.Shift
import Verif.Lemmas.ShiftDec
import Verif.Lemmas.ShiftVerify
import Verif.Props.Verify
import Verif.Lemmas.VerifySafe
import Verif.Lemmas.ViewOf
import Verif.Props.VerifyState
import Verif.Props.Header
import Verif.Lemmas.VerifyRun
import Verif.Lemmas.SignAux
import Verif.Props.DecodeOnly
import Verif.Props.AuxBuffer
import Verif.Props.VerifyCrypto
import Verif.Spec.Message
import Verif.Lemmas.DecodeEnc
import Verif.Lemmas.ReadRun
import Verif.Lemmas.DecodeMsg
import Verif.Lemmas.HeaderIntro
import Verif.Lemmas.MessageDecodes
import Verif.Lemmas.EncEncodes
import Verif.Lemmas.Expected
import Verif.Props.Complete
import Verif.Props.RoundTrip
import Verif.Spec.Sha256
import Verif.Adapters.Sha256
import Verif.Lemmas.Sha256
import Verif.Adapters.Test
import Verif.Props.Sha256
import Verif.Spec.Der
import Verif.Adapters.Openssl
import Verif.Lemmas.Openssl
import Verif.Spec.Openssl
import Verif.Crypto.DemoOssl
import Verif.Props.OpensslSig
import Verif.Props.OpensslApi
import Verif.Adapters.Psa
import Verif.Spec.Psa
import Verif.Crypto.DemoPsa
import Verif.Props.Psa
import Verif.Props.Adapters
import Verif.Lemmas.Extend
import Verif.Lemmas.Refuse
import Verif.Lemmas.RefuseDec
import Verif.Lemmas.Reout
import Verif.Lemmas.RefuseBody
import Verif.Lemmas.RefuseMsg
import Verif.Props.Refused
import Verif.Props.Options
import Verif.Props.Levels
import Verif.Lemmas.ContentLimits
import Verif.Props.Limits
import Verif.Spec.Read
import Verif.Spec.Seen
import Verif.Lemmas.ReadBack
import Verif.Lemmas.Seen
import Verif.Lemmas.SeenHeader
import Verif.Lemmas.Scan
import Verif.Props.WellFormed
import Verif.Spec.Api
import Verif.Props.History
import Verif.TestCode.MakeMessages
import Verif.TestCode.RunTests
import Verif.Spec.Decimal
import Verif.Lemmas.TestMsg
import Verif.Lemmas.TestReplica
import Verif.Lemmas.RunTests
import Verif.Props.TestMessages
import Verif.Props.TestRunner
import Verif.Spec.Codes
import Verif.Lemmas.Refusals
import Verif.Lemmas.RefusedBody
import Verif.Props.Codes
import Verif.Props.Fresh
import Verif.Spec.Verdict
import Verif.Lemmas.HeaderFn
import Verif.Lemmas.Verdict
import Verif.Props.Verdict
import Verif.Spec.AdapterCodes
import Verif.Props.AdapterCodes
import Verif.Lemmas.AllCodes
import Verif.Props.SignOutcome
import Verif.Props.SignUb
import Verif.Props.SizeQuery
import Verif.Props.AllCodes
import Verif.Spec.Suite
import Verif.TestCode.Suite
import Verif.Lemmas.Suite
import Verif.Lemmas.SuiteRefused
import Verif.Lemmas.SuiteGood
import Verif.Lemmas.SuiteOther
import Verif.Props.Suite
import Verif.Props.RealAdapters
import Verif.Conformance
import Verif.Props.Nested
import Verif.Props.NestedQuery
import Verif.Props.NestedUb
import Verif.TestCode.SuiteMore
import Verif.Lemmas.SuiteMore
import Verif.Lemmas.Sha256Fast
import Verif.Props.SuiteMore
import Verif.TestCode.TestMain
import Verif.Props.TestMain
import Verif.TestCode.KnownGood
import Verif.TestCode.SignVerify
import Verif.Lemmas.SignVerify
import Verif.Props.SignVerify
import Verif.TestCode.RealMain
import Verif.Spec.TestKeys
import Verif.Lemmas.RealMain
import Verif.Props.RealMain
import Verif.TestCode.Examples
import Verif.TestCode.PrintSizes
import Verif.Spec.Examples
import Verif.Lemmas.Examples
import Verif.Props.Examples
import Verif.Props.ExamplesAny
import Verif.Props.ExamplesMain
import Verif.Props.ExamplesKey
import Verif.Props.ExamplesObjects
import Verif.Props.Printing
import Verif.Props.TestsShow
import Verif.Props.TestsShowMore
import Verif.Props.TestsShowMain
import Verif.Spec.Interop
import Verif.Props.Interop
import Verif.Spec.Deviations
import Verif.Props.Deviations
import Verif.Props.Unprotected
import Verif.Props.OwnMessage
import Verif.Lemmas.SignCongr
import Verif.Props.Authentic
import Verif.Props.InPlace
import Verif.Spec.Untag
import Verif.Lemmas.Untag
import Verif.Props.Untag
import Verif.Props.UntagMore
import Verif.Spec.AnyItem
import Verif.Lemmas.ArrayBody
import Verif.Lemmas.AnyItem
import Verif.Lemmas.AnyArray
import Verif.Lemmas.Stop
import Verif.Lemmas.Cut
import Verif.Lemmas.CutHeader
import Verif.Lemmas.CutBody
import Verif.Props.AnyItem
import Verif.Props.Flags
import Verif.Props.AnyAdapters
import Verif.Props.Accepts
import Verif.Spec.Parse
import Verif.Spec.Stop
import Verif.Lemmas.Parse
import Verif.Props.Reference
import Verif.Props.AllOctets
import Verif.Props.WholeEffect
import Verif.Props.SignEffect
import Verif.Props.WholeAdapters
import Verif.Props.ReferenceAdapters
import Verif.TCose.Between
import Verif.Lemmas.Between
import Verif.Props.Between
import Verif.TCose.Work
import Verif.Lemmas.Work
import Verif.Props.Work
import Verif.Props.Frontier
import Verif.Lemmas.Held
import Verif.Props.BetweenAll
import Verif.Props.ScExact
import Verif.Props.TagsExact
import Verif.Props.ReplicaExact
import Verif.Props.HeaderLine
import Verif.Spec.EachOption
import Verif.Props.EachOption
import Verif.Spec.EachSwitch
import Verif.Props.EachSwitch
import Verif.Props.EachSignSwitch
import Verif.Lemmas.Fuel
import Verif.Props.TagInFront
import Verif.Props.OctetsBehind
import Verif.Spec.Order
import Verif.Props.Order
import Verif.Spec.OneMore
import Verif.Props.OneMore
import Verif.Spec.Alike
import Verif.Props.Alike
import Verif.Spec.MovedOut
import Verif.Props.MovedOut
import Verif.Spec.OtherKid
import Verif.Props.OtherKid
import Verif.Props.Unsigned
import Verif.Spec.OtherValue
import Verif.Props.OtherValue
import Verif.Spec.OtherSig
import Verif.Props.OtherSig
import Verif.Spec.OtherKey
import Verif.Props.OtherKey
import Verif.Spec.SignerKey
import Verif.Props.SignerKey
import Verif.Props.Asked
import Verif.Props.Auxiliary
import Verif.Props.SignerAux
import Verif.Props.TestAdapter
