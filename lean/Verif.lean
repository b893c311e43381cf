import Verif.Model.Base
import Verif.Model.Proto
import Verif.Model.IntModN
import Verif.Model.Values
import Verif.Model.Hash
import Verif.Model.SeedsNoHwy
import Verif.Model.Simd
import Verif.Model.EvalSeeds
import Verif.Model.Validator
import Verif.Model.Dpf
import Verif.Spec.Tree
import Verif.Spec.Prg
import Verif.Spec.Group
import Verif.Spec.Params
import Verif.Lemmas.Res
import Verif.Lemmas.IntModN
import Verif.Lemmas.Hash
import Verif.Lemmas.SeedsNoHwy
import Verif.Spec.Simd
import Verif.Lemmas.Simd
import Verif.Lemmas.EvalSeeds
import Verif.Lemmas.Values
import Verif.Lemmas.ValueTypes
import Verif.Lemmas.Levels
import Verif.Props.Seeds
import Verif.Spec.Values
import Verif.Lemmas.Fits
import Verif.Lemmas.Decode
import Verif.Lemmas.Create
import Verif.Lemmas.DpfLevels
import Verif.Props.Values
import Verif.Spec.Setup
import Verif.Lemmas.Share
import Verif.Lemmas.KeyGen
import Verif.Lemmas.Betas
import Verif.Lemmas.Setup
import Verif.Lemmas.Short
import Verif.Lemmas.PointFunction
import Verif.Lemmas.KeyGenErrors
import Verif.Props.PointFunction
import Verif.Lemmas.Context
import Verif.Lemmas.Until
import Verif.Lemmas.UntilArgs
import Verif.Lemmas.UntilEval
import Verif.Spec.Evaluation
import Verif.Lemmas.AtCtx
import Verif.Lemmas.History
import Verif.Props.Evaluation
import Verif.Spec.Apply
import Verif.Lemmas.Apply
import Verif.Props.Apply
import Verif.Spec.Safety
import Verif.Lemmas.Safe
import Verif.Props.Safety
import Verif.Lemmas.AnyContext
import Verif.Props.Contexts
import Verif.Model.Dcf
import Verif.Spec.Dcf
import Verif.Lemmas.Dcf
import Verif.Props.Dcf
import Verif.Spec.DcfExact
import Verif.Lemmas.DcfExact
import Verif.Props.DcfExact
import Verif.Model.Mic
import Verif.Spec.Mic
import Verif.Lemmas.Mic
import Verif.Props.Mic
import Verif.Model.InnerProduct
import Verif.Spec.InnerProduct
import Verif.Lemmas.InnerProduct
import Verif.Props.InnerProduct
import Verif.Lemmas.Accept
import Verif.Props.Accept
import Verif.Model.Prng
import Verif.Spec.Prng
import Verif.Lemmas.Prng
import Verif.Props.Prng
import Verif.Model.PirProto
import Verif.Model.PirServer
import Verif.Model.Hashing
import Verif.Spec.Hashing
import Verif.Lemmas.Hashing
import Verif.Props.Hashing
import Verif.Model.DensePir
import Verif.Spec.DensePir
import Verif.Lemmas.DenseDb
import Verif.Props.DenseDb
import Verif.Lemmas.DensePir
import Verif.Lemmas.Codec
import Verif.Lemmas.LeaderHelper
import Verif.Model.HashedDb
import Verif.Model.SparsePir
import Verif.Spec.SparsePir
import Verif.Lemmas.HashedDb
import Verif.Lemmas.SparsePir
import Verif.Props.DensePir
import Verif.Spec.Sampling
import Verif.Lemmas.Sampling
import Verif.Props.Sampling
import Verif.Lemmas.BucketWire
import Verif.Props.SparsePir
import Verif.Props.SparseAccept
import Verif.Props.Simd
import Verif.Spec.Ideal
import Verif.Lemmas.Ideal
import Verif.Lemmas.IdealBits
import Verif.Props.Ideal
import Verif.Spec.Uniform
import Verif.Lemmas.Uniform
import Verif.Lemmas.UniformBytes
import Verif.Lemmas.UniformTypes
import Verif.Lemmas.UniformEvents
import Verif.Props.Uniform
import Verif.Spec.HashedBuilders
import Verif.Lemmas.HashedBuilders
import Verif.Props.HashedBuilders
import Verif.Model.KeyGenOverloads
import Verif.Lemmas.KeyGenOverloads
import Verif.Props.KeyGenOverloads
import Verif.Spec.ServerSafety
import Verif.Lemmas.ServerSafety
import Verif.Props.ServerSafety
import Verif.Lemmas.GateSafety
import Verif.Props.GateSafety
import Verif.Spec.Hiding
import Verif.Lemmas.Hiding
import Verif.Props.Hiding
import Verif.Spec.Statistical
import Verif.Lemmas.Statistical
import Verif.Lemmas.StatisticalBiased
import Verif.Props.Statistical
import Verif.Props.HashedBuild
import Verif.Model.Random
import Verif.Lemmas.Random
import Verif.Props.Random
import Verif.Spec.Calls
import Verif.Lemmas.OtherContext
import Verif.Props.OtherContext
import Verif.Lemmas.Machine
import Verif.Props.Machine
import Verif.Spec.Textbook
import Verif.Lemmas.Textbook
import Verif.Props.Textbook
import Verif.Model.Wire
import Verif.Spec.Wire
import Verif.Spec.PirMessages
import Verif.Lemmas.Wire
import Verif.Lemmas.PirKeys
import Verif.Lemmas.WireKeys
import Verif.Lemmas.WireDeep
import Verif.Props.Wire
import Verif.Lemmas.WireOrder
import Verif.Props.WireOrder
import Verif.Spec.LeaderView
import Verif.Props.LeaderView
import Verif.Spec.Work
import Verif.Spec.PirWork
import Verif.Lemmas.Work
import Verif.Lemmas.PirWork
import Verif.Lemmas.ApplyWork
import Verif.Lemmas.PrefixWork
import Verif.Props.Work
import Verif.Props.ApplyWork
import Verif.Props.PrefixWork
import Verif.Props.PirWork
import Verif.Spec.Fips197
import Verif.Spec.Fips180
import Verif.Model.Aes
import Verif.Lemmas.Aes
import Verif.Lemmas.Sha
import Verif.Props.Standards
import Verif.Spec.PirTesting
import Verif.Model.PirTesting
import Verif.Lemmas.PirTesting
import Verif.Props.PirTesting
import Verif.Spec.Interchange
import Verif.Lemmas.Interchange
import Verif.Props.Interchange
import Verif.Spec.Tolerates
import Verif.Lemmas.Tolerates
import Verif.Props.Tolerates
import Verif.Model.SyntheticData
import Verif.Spec.SyntheticData
import Verif.Lemmas.SyntheticData
import Verif.Lemmas.SyntheticRun
import Verif.Props.SyntheticData
import Verif.Props.SyntheticDoubles
import Verif.Spec.Network
import Verif.Lemmas.Network
import Verif.Props.Network
import Verif.Props.Helper
import Verif.Spec.Answers
import Verif.Lemmas.Answers
import Verif.Props.Answers
import Verif.Spec.Aggregation
import Verif.Lemmas.Aggregation
import Verif.Props.Aggregation
import Verif.Props.HashSeparation
import Verif.Model.Benchmarks
import Verif.Spec.Benchmarks
import Verif.Lemmas.Benchmarks
import Verif.Lemmas.BenchmarkPrefixes
import Verif.Lemmas.BenchmarkKeys
import Verif.Props.Benchmarks
import Verif.Props.BenchmarkDoubles
import Verif.Props.BenchmarkKeys
import Verif.Model.PirBenchmarks
import Verif.Spec.PirBenchmarks
import Verif.Lemmas.PirBenchmarks
import Verif.Props.PirBenchmarks
import Verif.Spec.OtherType
import Verif.Lemmas.OtherType
import Verif.Props.OtherType
import Verif.Spec.Communication
import Verif.Lemmas.Communication
import Verif.Props.Communication
import Verif.Model.KeySpan
import Verif.Spec.KeySpan
import Verif.Lemmas.KeySpan
import Verif.Props.KeySpan
import Verif.Model.HashThreads
import Verif.Spec.HashThreads
import Verif.Lemmas.HashThreads
import Verif.Props.HashThreads
import Verif.Spec.ContextState
import Verif.Lemmas.ContextState
import Verif.Props.ContextState
import Verif.Spec.HashUniform
import Verif.Props.HashUniform
import Verif.Model.Faults
import Verif.Spec.Faults
import Verif.Lemmas.Faults
import Verif.Lemmas.FaultsOn
import Verif.Lemmas.FaultsHistory
import Verif.Props.Faults
import Verif.Model.PirFaults
import Verif.Spec.PirFaults
import Verif.Lemmas.PirFaults
import Verif.Lemmas.PirFaultsRun
import Verif.Props.PirFaults
import Verif.Model.SyntheticInput
import Verif.Spec.SyntheticInput
import Verif.Lemmas.SyntheticInput
import Verif.Props.SyntheticInput
import Verif.Model.Round
import Verif.Model.Doubles
import Verif.Spec.SecurityLevel
import Verif.Lemmas.Doubles
import Verif.Lemmas.Buckets
import Verif.Props.Buckets
import Verif.Props.SecurityLevel
import Verif.Spec.Rounding
import Verif.Props.Rounding
