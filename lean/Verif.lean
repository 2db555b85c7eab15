import Verif.Model.Exec
import Verif.Model.Arith
import Verif.Model.Info
import Verif.Model.Cache32
import Verif.Model.Cache64
import Verif.Model.BitRep
import Verif.Model.Modes
import Verif.Model.Compute
import Verif.Model.ToChars
import Verif.Spec
import Verif.Proofs.ExpFacts
import Verif.Proofs.Setup
import Verif.Proofs.Good
import Verif.Proofs.Value
import Verif.Proofs.Bridge
import Verif.Proofs.Output
import Verif.Proofs.Main
import Verif.Proofs.Bounds
import Verif.Proofs.Unique
import Verif.SpecTruncating
import Verif.SpecClosest
import Verif.Proofs.Truncating
import Verif.Properties.Nearest
import Verif.Properties.Modes
import Verif.Properties.Truncating
import Verif.Proofs.TruncatingExact
import Verif.Properties.TruncatingExact
import Verif.Properties.Arithmetic
import Verif.Properties.Bits
import Verif.Properties.Text
import Verif.Properties.Special
import Verif.Properties.ShortDecimals
import Verif.Properties.MinMaxEuclid
import Verif.Properties.MinMaxMultiword
import Verif.Model.BigInt
import Verif.SpecBig
import Verif.SpecDiv
import Verif.Proofs.BigInt
import Verif.Proofs.BigIntAdd
import Verif.Proofs.BigIntMul
import Verif.Proofs.BigIntShift
import Verif.Proofs.BigIntDiv
import Verif.Proofs.BigIntRealign
import Verif.Proofs.BigIntLong
import Verif.Proofs.BigIntCross
import Verif.Properties.BigInt
import Verif.Model.GenerateCache
import Verif.Proofs.GenerateCache
import Verif.Properties.GenerateCache
import Verif.Model.RandomFloat
import Verif.SpecRandom
import Verif.Proofs.RandomFloat
import Verif.Properties.RandomFloat
import Verif.Model.VerifyTools
import Verif.Model.VerifyLog
import Verif.Proofs.VerifyTables
import Verif.Proofs.VerifyTools
import Verif.Proofs.VerifyLog
import Verif.Properties.VerifyTools
import Verif.Model.LiveTest
import Verif.Proofs.LiveTest
import Verif.Properties.LiveTest
import Verif.Model.RyuTables
import Verif.Model.Ryu
import Verif.Proofs.RyuCore
import Verif.Proofs.RyuArith
import Verif.Proofs.RyuLoops
import Verif.Proofs.RyuExp
import Verif.Proofs.RyuCerts64
import Verif.Proofs.RyuCerts32
import Verif.Proofs.RyuInit
import Verif.Proofs.RyuFlags
import Verif.Proofs.RyuDouble
import Verif.Proofs.RyuFloat
import Verif.Proofs.RyuMain
import Verif.Proofs.RyuSmallInt
import Verif.Proofs.RyuText
import Verif.Model.UniformTest
import Verif.Properties.Ryu
import Verif.Proofs.BigIntProduct
import Verif.Model.CacheLength
import Verif.Model.ResultFiles
import Verif.SpecLength
import Verif.Proofs.CacheLength
import Verif.Proofs.CacheLengthLines
import Verif.Proofs.CacheLengthTables
import Verif.Proofs.CacheLengthRows
import Verif.Proofs.CacheLengthMeaning
import Verif.Properties.CacheLength
import Verif.Model.WriteCache
import Verif.Model.GeneratedFiles
import Verif.SpecHex
import Verif.Proofs.WriteCache
import Verif.Properties.WriteCache
import Verif.Model.Benchmark
import Verif.SpecBenchmark
import Verif.Proofs.Benchmark
import Verif.Properties.Benchmark
import Verif.Proofs.BigIntExact
import Verif.Properties.BigIntExact
import Verif.Proofs.ShortBuffer
import Verif.Properties.ShortBuffer
import Verif.SpecLive
import Verif.Proofs.LiveLoop
import Verif.Properties.LiveLoop
import Verif.SpecBest
import Verif.Proofs.Best
import Verif.Properties.Best
import Verif.Proofs.CacheLengthCerts
import Verif.Proofs.CacheLengthExact
import Verif.Properties.CacheLengthExact
import Verif.Model.RyuSmall
import Verif.Proofs.RyuSmall
import Verif.Properties.RyuSmall
import Verif.Model.Console
import Verif.Proofs.Console
import Verif.Properties.Console
import Verif.Model.MainProgram
import Verif.Proofs.MainProgram
import Verif.Properties.MainProgram
import Verif.Proofs.Widen
import Verif.Properties.Widen
import Verif.SpecDecimal
import Verif.Proofs.NearestDecimal
import Verif.Proofs.NearestDecimalCheck
import Verif.Properties.NearestDecimal
import Verif.Properties.Between
import Verif.Properties.LastDigit
import Verif.Properties.CrossReading
import Verif.Model.RyuSize
import Verif.Proofs.RyuSizeExp
import Verif.Proofs.RyuSizeFloat
import Verif.Proofs.RyuSizeMain
import Verif.Properties.RyuSize
import Verif.Model.Platform
import Verif.Properties.Platform
import Verif.SpecShortText
import Verif.Proofs.ShortText
import Verif.Properties.ShortText
import Verif.Proofs.Narrow
import Verif.Properties.Narrow
import Verif.Proofs.Grid
import Verif.Properties.Grid
import Verif.Proofs.Through
import Verif.Properties.Through
import Verif.Model.RyuDebug
import Verif.SpecTrace
import Verif.Proofs.RyuDebug
import Verif.Properties.RyuDebug
import Verif.Proofs.LastUnit
import Verif.Properties.LastUnit
import Verif.Model.RyuSizeDebug
import Verif.Proofs.RyuSizeDebug
import Verif.Properties.RyuSizeDebug
import Verif.Properties.Accuracy
