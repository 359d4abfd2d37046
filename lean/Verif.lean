import Verif.Basic
import Verif.Spec
import Verif.Model.Base
import Verif.Model.Guts
import Verif.Model.Portable
import Verif.Model.Intrinsics
import Verif.Model.NWay
import Verif.Model.BAvx2
import Verif.Model.BSse41
import Verif.Model.SSse41
import Verif.Model.SAvx2
import Verif.Model.Impl
import Verif.Model.Lib
import Verif.Model.Many
import Verif.Model.Par
import Verif.Proofs.Bytes
import Verif.Proofs.Lanes
import Verif.Proofs.Intrinsics
import Verif.Proofs.Portable
import Verif.Proofs.NWayLaws
import Verif.Proofs.BAvx2Laws
import Verif.Proofs.BSse41Laws
import Verif.Proofs.SSse41Laws
import Verif.Proofs.SAvx2Laws
import Verif.Proofs.BAvx2Block
import Verif.Proofs.SSse41Block
import Verif.Proofs.Absorb
import Verif.Proofs.Counts
import Verif.Proofs.NWayLoop
import Verif.Proofs.ManyInv
import Verif.ApiSpec
import Verif.Model.Api
import Verif.Proofs.Chain
import Verif.Proofs.StateInv
import Verif.Proofs.ParamsRep
import Verif.Proofs.HashSpec
import Verif.Proofs.ManySpec
import Verif.Proofs.Leaves
import Verif.Proofs.ParSpec
import Verif.Proofs.History
import Verif.Properties.Hashing
import Verif.Properties.Params
import Verif.Properties.Batch
import Verif.Properties.Tree
import Verif.Properties.Output
import Verif.Properties.Primitives
import Verif.Properties.Safety
import Verif.CliSpec
import Verif.Model.Bin
import Verif.Proofs.BinSpec
import Verif.Properties.Cli
import Verif.SecuritySpec
import Verif.Properties.Collisions
import Verif.WorldSpec
import Verif.Model.World
import Verif.Properties.World
import Verif.Properties.Unwind
import Verif.TraceSpec
import Verif.Model.Trace
import Verif.Model.InPlace
import Verif.Model.Reference
import Verif.Proofs.TraceErase
import Verif.Proofs.TraceSerial
import Verif.Proofs.Sched
import Verif.Proofs.TraceMany
import Verif.Proofs.TraceApi
import Verif.Proofs.TraceHistory
import Verif.Proofs.TraceShape
import Verif.Proofs.TraceHashMany
import Verif.Proofs.TracePar
import Verif.Proofs.TraceParHistory
import Verif.Proofs.TraceParShape
import Verif.Properties.Trace
import Verif.Properties.TraceTree
import Verif.Properties.InPlace
import Verif.Properties.Reference
import Verif.XofSpec
import Verif.Model.Xof
import Verif.Model.Tests
import Verif.Properties.Xof
import Verif.Properties.Tests
import Verif.Properties.CrossMode
import Verif.ProcessSpec
import Verif.Model.Process
import Verif.Properties.Process
import Verif.ThreadSpec
import Verif.Model.Threads
import Verif.Properties.Threads
import Verif.VectorSpec
import Verif.Model.GutsTests
import Verif.Model.Vectors
import Verif.Properties.GutsTests
import Verif.Properties.Vectors
import Verif.LeakSpec
import Verif.Model.Leak
import Verif.Proofs.LeakErase
import Verif.Proofs.LeakRel
import Verif.Proofs.LeakApi
import Verif.Proofs.LeakMany
import Verif.Properties.Leak
import Verif.IterSpec
import Verif.Model.Iter
import Verif.Proofs.Iter
import Verif.Properties.Iter
import Verif.Properties.PrefixFree
import Verif.Proofs.LeakFeature
import Verif.Properties.Feature
import Verif.Model.Raw
import Verif.Proofs.Raw
import Verif.Proofs.RawSafe
import Verif.Properties.Raw
import Verif.Model.UnitTests
import Verif.Model.CliTests
import Verif.Properties.UnitTests
import Verif.Properties.UnitTestsRun
import Verif.Properties.CliTests
import Verif.Model.FuzzMany
import Verif.Model.Benches
import Verif.Properties.FuzzMany
import Verif.Properties.Benches
import Verif.ArgSpec
import Verif.Model.Args
import Verif.Proofs.Args
import Verif.Properties.Args
import Verif.Model.DocExamples
import Verif.Proofs.DocValues
import Verif.Properties.DocExamples
import Verif.Proofs.FastEval
import Verif.Proofs.KernelRfl
import Verif.Proofs.KatEval
import Verif.Model.KatData
import Verif.Model.Kat
import Verif.Model.RunAllTests
import Verif.Properties.RunAllTests
import Verif.Properties.Kat
import Verif.Proofs.KatB
import Verif.Proofs.KatS
import Verif.Proofs.KatBp
import Verif.Proofs.KatSp
import Verif.Proofs.KatXb
import Verif.Proofs.KatXs
import Verif.Model.SnevesIntrinsics
import Verif.Model.SnevesB
import Verif.Model.SnevesRound
import Verif.Model.SnevesBp
import Verif.Model.SnevesSp
import Verif.Model.SnevesLib
import Verif.Proofs.SnevesRot
import Verif.Proofs.SnevesB
import Verif.Proofs.SnevesRound
import Verif.Proofs.SnevesTree
import Verif.Proofs.SnevesBp
import Verif.Proofs.SnevesS
import Verif.Proofs.SnevesSp8
import Verif.Proofs.SnevesSp
import Verif.Properties.Sneves
import Verif.Properties.Notice
import Verif.Proofs.SnevesGather
import Verif.EarlySpec
import Verif.Proofs.Early
import Verif.Properties.Early
import Verif.Model.Target
import Verif.Proofs.Target
import Verif.Properties.Target
import Verif.Properties.Hidden
import Verif.CaughtSpec
import Verif.Model.Caught
import Verif.Proofs.Caught
import Verif.Properties.Caught
import Verif.SecretSpec
import Verif.Model.LeakWorld
import Verif.Proofs.LeakWorld
import Verif.Properties.LeakWorld
import Verif.CostSpec
import Verif.Proofs.Cost
import Verif.Proofs.CostMany
import Verif.Proofs.CostApi
import Verif.Properties.Cost
import Verif.Properties.Passes
