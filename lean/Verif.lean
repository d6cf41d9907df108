import Verif.Gen.Curve
import Verif.Gen.Fiat
import Verif.Gen.Fix
import Verif.Gen.FixLeak
import Verif.Gen.FixRandom
import Verif.Gen.FixRel
import Verif.Gen.FixTests
import Verif.Gen.Leak
import Verif.Gen.LeakCurve
import Verif.Gen.LeakFiat
import Verif.Gen.LeakRandom
import Verif.Gen.LeakScalar
import Verif.Gen.LeakU32
import Verif.Gen.Narrow
import Verif.Gen.Ops
import Verif.Gen.ParScalar
import Verif.Gen.ParU32
import Verif.Gen.Random
import Verif.Gen.RelCurve
import Verif.Gen.RelRandom
import Verif.Gen.RelScalar
import Verif.Gen.RelU32
import Verif.Gen.Release
import Verif.Gen.Rt
import Verif.Gen.RtTest
import Verif.Gen.Scalar
import Verif.Gen.Tests
import Verif.Gen.U32
import Verif.Model.Backend
import Verif.Model.Debug
import Verif.Model.Decaf
import Verif.Model.Edwards
import Verif.Model.Fiat
import Verif.Model.Field
import Verif.Model.Machine
import Verif.Model.Montgomery
import Verif.Model.Ops
import Verif.Model.Prog
import Verif.Model.Scalar
import Verif.Model.ScalarMul
import Verif.Model.Twisted
import Verif.Model.U32
import Verif.Model.U32Const
import Verif.Proofs.Compress
import Verif.Proofs.Cost
import Verif.Proofs.Decaf
import Verif.Proofs.DecafDecode
import Verif.Proofs.Dual
import Verif.Proofs.EdPoints
import Verif.Proofs.Fast
import Verif.Proofs.FiatFixed
import Verif.Proofs.FiatInstance
import Verif.Proofs.FixLeak
import Verif.Proofs.Ideal
import Verif.Proofs.Isogeny
import Verif.Proofs.Ladder
import Verif.Proofs.Lawful
import Verif.Proofs.LeakBackend
import Verif.Proofs.LeakCurve
import Verif.Proofs.LeakErase
import Verif.Proofs.LeakEraseCurve
import Verif.Proofs.LeakLogic
import Verif.Proofs.LeakScalar
import Verif.Proofs.MulBounds
import Verif.Proofs.MulPoints
import Verif.Proofs.Order
import Verif.Proofs.Prog
import Verif.Proofs.RelLogic
import Verif.Proofs.RelRef
import Verif.Proofs.RelRefCurve
import Verif.Proofs.Rfc9496
import Verif.Proofs.ScalarAdd
import Verif.Proofs.ScalarInv
import Verif.Proofs.ScalarMisc
import Verif.Proofs.ScalarMul
import Verif.Proofs.SourceCurve
import Verif.Proofs.SourceFiat
import Verif.Proofs.SourceLoop
import Verif.Proofs.SourceScalar
import Verif.Proofs.SourceU32
import Verif.Proofs.SourceU32Bytes
import Verif.Proofs.SourceU32Square
import Verif.Proofs.Trace
import Verif.Proofs.TwAffine
import Verif.Proofs.TwCount
import Verif.Proofs.TwPoints
import Verif.Proofs.Twist
import Verif.Proofs.U32Bytes
import Verif.Proofs.U32Instance
import Verif.Proofs.U32Linear
import Verif.Proofs.U32Mul
import Verif.Proofs.U32Mul2
import Verif.Proofs.U32MulLoose
import Verif.Proofs.U32Square
import Verif.Proofs.XOnly
import Verif.Props.Abstract
import Verif.Props.Actual
import Verif.Props.Api
import Verif.Props.Backends
import Verif.Props.Cached
import Verif.Props.Comments
import Verif.Props.Cost
import Verif.Props.DataFlow
import Verif.Props.Debug
import Verif.Props.Decaf
import Verif.Props.DecafProtocols
import Verif.Props.Domain
import Verif.Props.Ed448Vectors
import Verif.Props.Edwards
import Verif.Props.Exact
import Verif.Props.Field
import Verif.Props.Forms
import Verif.Props.Leakage
import Verif.Props.ModelIsSource
import Verif.Props.Montgomery
import Verif.Props.Parameters
import Verif.Props.Protocols
import Verif.Props.Random
import Verif.Props.Release
import Verif.Props.RepairLeakage
import Verif.Props.RepairTests
import Verif.Props.Repairs
import Verif.Props.Representatives
import Verif.Props.Rfc
import Verif.Props.Rfc9496
import Verif.Props.Scalar
import Verif.Props.SecretPrograms
import Verif.Props.Signatures
import Verif.Props.Source
import Verif.Props.SourceConst
import Verif.Props.SourceEnc
import Verif.Props.SourceInt
import Verif.Props.SourceMul
import Verif.Props.SourcePrograms
import Verif.Props.SourceProtocols
import Verif.Props.SourceText
import Verif.Props.Tests
import Verif.Props.TwCount
import Verif.Props.Twisted
import Verif.Props.Vectors
import Verif.Props.Widths
import Verif.Props.X448
import Verif.Spec.Bytes
import Verif.Spec.Curve
import Verif.Spec.Curve448
import Verif.Spec.Edwards
import Verif.Spec.Params
import Verif.Spec.PowMod
import Verif.Spec.Primes
import Verif.Spec.Rfc7748
import Verif.Spec.Rfc8032
import Verif.Spec.Rfc8032Sign
import Verif.Spec.Rfc9496
import Verif.Spec.Shake256
import Verif.Spec.Twist
import Verif.Text.Bridge
import Verif.Text.Const
import Verif.Text.ConstSource
import Verif.Text.Crate
import Verif.Text.EncCrate
import Verif.Text.EncDecaf
import Verif.Text.EncScalar
import Verif.Text.Files
import Verif.Text.IntCrate
import Verif.Text.IntEval
import Verif.Text.IntField
import Verif.Text.IntInvert
import Verif.Text.IntScalar
import Verif.Text.Interp
import Verif.Text.MulCrate
import Verif.Text.MulFiles
import Verif.Text.MulSource
import Verif.Text.Parsed
import Verif.Text.Source
import Verif.Text.Syntax
