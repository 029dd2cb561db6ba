import Verif.Cases.Elements
import Verif.Cases.Points
import Verif.Cases.Programs
import Verif.Check.Bridge
import Verif.Check.Form
import Verif.Check.Frame
import Verif.Check.Sound
import Verif.Check.Swap
import Verif.Check.Total
import Verif.Curve.Agree
import Verif.Curve.AgreeCurve1174
import Verif.Curve.AgreeCurve41417
import Verif.Curve.AgreeE222
import Verif.Curve.AgreeE382
import Verif.Curve.AgreeE521
import Verif.Curve.Assoc
import Verif.Curve.Base
import Verif.Curve.Cofactor
import Verif.Curve.Concrete
import Verif.Curve.Count
import Verif.Curve.Curves
import Verif.Curve.EdProgram
import Verif.Curve.EvalLadder
import Verif.Curve.Evals
import Verif.Curve.Ideal
import Verif.Curve.Ladder
import Verif.Curve.LadderValue
import Verif.Curve.Law
import Verif.Curve.Montgomery
import Verif.Curve.Order
import Verif.Curve.PointInt
import Verif.Curve.Points
import Verif.Curve.Repaired
import Verif.Curve.RepairedClients
import Verif.Curve.Safe
import Verif.Curve.Sim
import Verif.Curve.Total
import Verif.Curve.Twist
import Verif.Curve.Value
import Verif.Curve.Values
import Verif.Curve.Witness
import Verif.Curve.XZ
import Verif.Curve.XZProgram
import Verif.Field.Arith
import Verif.Field.Basic
import Verif.Field.Bits
import Verif.Field.Chain
import Verif.Field.ChainEval
import Verif.Field.ChainInt
import Verif.Field.ChainRare
import Verif.Field.ChainSym
import Verif.Field.ChainValue
import Verif.Field.Consts
import Verif.Field.Linear
import Verif.Field.Mul
import Verif.Field.MulCheck
import Verif.Field.MulOk
import Verif.Field.Normalize
import Verif.Field.Pack
import Verif.Field.RepairedPow
import Verif.Field.SmallMul
import Verif.Field.SmallMul521
import Verif.Field.SmallMul521Full
import Verif.Field.SmallMulFull
import Verif.Field.SmallMulWrap
import Verif.Field.SqOk
import Verif.Field.Total
import Verif.Field.Value
import Verif.Field.ValueCheck
import Verif.Field.ValueMulOk
import Verif.Field.ValueSqOk
import Verif.Model.Ast
import Verif.Model.Chain
import Verif.Model.Edwards
import Verif.Model.Field
import Verif.Model.Fields
import Verif.Model.Fields.E221_3
import Verif.Model.Fields.E222_117
import Verif.Model.Fields.E251_9
import Verif.Model.Fields.E255_19
import Verif.Model.Fields.E382_105
import Verif.Model.Fields.E383_187
import Verif.Model.Fields.E414_17
import Verif.Model.Fields.E511_187
import Verif.Model.Fields.E521_1
import Verif.Model.Machine
import Verif.Model.Operators
import Verif.Model.Parse
import Verif.Model.Point
import Verif.Model.Repaired
import Verif.Model.RepairedRand
import Verif.Model.Tests
import Verif.Model.Tree
import Verif.Prime.Certs
import Verif.Prime.Criteria
import Verif.Prime.CurveCriterion
import Verif.Prime.OrderCerts
import Verif.Prime.TwistCerts
import Verif.Props.Agreement
import Verif.Props.BlindPoints
import Verif.Props.Canon
import Verif.Props.ClientBounds
import Verif.Props.Clients
import Verif.Props.Commute
import Verif.Props.Compression
import Verif.Props.Constants
import Verif.Props.Cyclic
import Verif.Props.Discipline
import Verif.Props.EdwardsAgreement
import Verif.Props.EdwardsElligator
import Verif.Props.EdwardsUnmap
import Verif.Props.Elligator
import Verif.Props.ElligatorInverse
import Verif.Props.Embedding
import Verif.Props.Encodings
import Verif.Props.Exceptional
import Verif.Props.Frequency
import Verif.Props.FullClients
import Verif.Props.GroupOrder
import Verif.Props.Integers
import Verif.Props.LegendrePoints
import Verif.Props.Lexical
import Verif.Props.Montgomery
import Verif.Props.MontgomeryLadder
import Verif.Props.ObliviousClients
import Verif.Props.Observed
import Verif.Props.Operators
import Verif.Props.Orders
import Verif.Props.PackedAgreement
import Verif.Props.PointClients
import Verif.Props.PointIntegers
import Verif.Props.Points
import Verif.Props.PointsExact
import Verif.Props.Power
import Verif.Props.Precedence
import Verif.Props.Primes
import Verif.Props.Products
import Verif.Props.Rand
import Verif.Props.RandKeys
import Verif.Props.RandPoints
import Verif.Props.RandRepaired
import Verif.Props.RandUniform
import Verif.Props.Rare
import Verif.Props.RareClients
import Verif.Props.RarePoints
import Verif.Props.Reading
import Verif.Props.Refine
import Verif.Props.Repaired
import Verif.Props.RepairedClients
import Verif.Props.RepairedCurve
import Verif.Props.Repairs
import Verif.Props.RepairsNeeded
import Verif.Props.Ring
import Verif.Props.Roots
import Verif.Props.ScalarMult
import Verif.Props.ScalarNumbers
import Verif.Props.Scripts
import Verif.Props.Signatures
import Verif.Props.SmallMul
import Verif.Props.SmallMulAll
import Verif.Props.SmallSubgroup
import Verif.Props.SqrtValue
import Verif.Props.TestHelpers
import Verif.Props.Text
import Verif.Props.TextClients
import Verif.Props.TextCurves
import Verif.Props.TextRecord
import Verif.Props.TextSecret
import Verif.Props.Total
import Verif.Props.Twists
import Verif.Props.Words
import Verif.Rust.Basic
import Verif.Rust.Bits
import Verif.Rust.Calls
import Verif.Rust.ChainFns
import Verif.Rust.Chains
import Verif.Rust.Eval
import Verif.Rust.FieldFns
import Verif.Rust.Fmt
import Verif.Rust.Formulas
import Verif.Rust.Grammar
import Verif.Rust.LadderFns
import Verif.Rust.Layout
import Verif.Rust.Limb
import Verif.Rust.LimbCheck
import Verif.Rust.Methods
import Verif.Rust.Ops
import Verif.Rust.Packing
import Verif.Rust.Parse
import Verif.Rust.Points
import Verif.Rust.Read.Basic
import Verif.Rust.Read.Curves
import Verif.Rust.Read.E221_3
import Verif.Rust.Read.E222_117
import Verif.Rust.Read.E251_9
import Verif.Rust.Read.E255_19
import Verif.Rust.Read.E382_105
import Verif.Rust.Read.E383_187
import Verif.Rust.Read.E414_17
import Verif.Rust.Read.E511_187
import Verif.Rust.Read.E521_1
import Verif.Rust.Secret
import Verif.Rust.Source.Curves
import Verif.Rust.Source.E221_3
import Verif.Rust.Source.E222_117
import Verif.Rust.Source.E251_9
import Verif.Rust.Source.E255_19
import Verif.Rust.Source.E382_105
import Verif.Rust.Source.E383_187
import Verif.Rust.Source.E414_17
import Verif.Rust.Source.E511_187
import Verif.Rust.Source.E521_1
import Verif.Rust.Syntax
import Verif.Rust.Trace
import Verif.Rust.Wrappers
import Verif.Spec
