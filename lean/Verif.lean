import Verif.Csprng.Props
import Verif.Decomp.Props
import Verif.Random.Props
import Verif.Lwe.Props
import Verif.Lwe.Props2
import Verif.Lwe.Props3
import Verif.Poly.Props
import Verif.Glwe.Props
import Verif.Glwe.Props2
import Verif.Glwe.Props3
import Verif.Pbs.Props
import Verif.Pbs.Props2
import Verif.Pbs.Examples
import Verif.Ntt.Shipped
import Verif.Pks.Props2
import Verif.Pks.Cbs
import Verif.Pks.Budget
import Verif.Wop.Props2
import Verif.Wop.Examples
import Verif.Wop.Props5
import Verif.Wop.Examples2
import Verif.Engine.VecProps
import Verif.Engine.PkProps
import Verif.Engine.KeysProps
import Verif.Engine.ChecksProps
import Verif.Serde.Props
import Verif.Gsw.Props
import Verif.Aes.Props
import Verif.Encode.Props
import Verif.Entity.CreateProps
import Verif.Session.History
import Verif.Circuit.Examples
import Verif.Fft.Props2
import Verif.Serde.Transfer
import Verif.Fft.Transfer
import Verif.Fft.Props3
import Verif.Fft.Props4
import Verif.Fft.CacheProps
import Verif.Scratch.Props
import Verif.Wop.CbsEngine
import Verif.Capi.Props
import Verif.Capi.Stack
import Verif.Cuda.Props
import Verif.Cuda.Props2
import Verif.Cuda.Props3
import Verif.Cuda.Props4
import Verif.Cuda.PbsMemory
import Verif.Cuda.PbsMemoryLemmas
import Verif.Cuda.Props5
import Verif.Cuda.Barrier
import Verif.Cuda.BarrierLemmas
import Verif.Cuda.PbsLow
import Verif.Cuda.PbsLowSpec
import Verif.Cuda.PbsLowLemmas
import Verif.Cuda.PbsLowRace
import Verif.Cuda.Props6
import Verif.Cuda.PbsTables
import Verif.Cuda.PbsTablesLemmas
import Verif.Cuda.Props7
import Verif.Cuda.Switch
import Verif.Cuda.Props8
import Verif.Cuda.Threads
import Verif.Cuda.ThreadLemmas
import Verif.Cuda.ThreadKernels
import Verif.Cuda.ThreadExtract
import Verif.Cuda.ThreadRuns
import Verif.Cuda.Props9
import Verif.Cuda.Amortized
import Verif.Cuda.AmortizedLemmas
import Verif.Cuda.Props10
import Verif.Cuda.LowLatency
import Verif.Cuda.LowLatencyLemmas
import Verif.Cuda.Props11
import Verif.Cuda.Nsmfft
import Verif.Cuda.NsmSpec
import Verif.Cuda.NsmLemmas
import Verif.Cuda.NsmExact
import Verif.Cuda.NsmTable
import Verif.Cuda.NsmRoots
import Verif.Cuda.NsmTwiddle
import Verif.Cuda.Props12
import Verif.Cuda.NsmFloat
import Verif.Cuda.NsmErr
import Verif.Cuda.NsmFwd
import Verif.Cuda.NsmInv
import Verif.Cuda.NsmTorus
import Verif.Cuda.NsmProd
import Verif.Cuda.NsmAccurate
import Verif.Cuda.NsmFinal
import Verif.Cuda.Props13
import Verif.Cuda.VerticalPacking
import Verif.Cuda.VpLemmas
import Verif.Cuda.VpTree
import Verif.Cuda.Props14
import Verif.Cuda.CircuitBootstrap
import Verif.Cuda.CbsLemmas
import Verif.Cuda.Props15
import Verif.Cuda.WopMemory
import Verif.Cuda.Props16
import Verif.Cuda.Props17
import Verif.Cuda.BitExtraction
import Verif.Cuda.BeLemmas
import Verif.Cuda.BeLoop
import Verif.Cuda.Props18
import Verif.Cuda.WopPbs
import Verif.Wop.Props6
import Verif.Cuda.Props19
import Verif.Cuda.BooleanGates
import Verif.Cuda.BgLemmas
import Verif.Cuda.Props20
import Verif.Float.Sqrt
import Verif.Random.Gauss
import Verif.Random.GaussLemmas
import Verif.Random.GaussProps
import Verif.Circuit.Session
import Verif.Fft.Parallel
import Verif.Fft.ParallelLemmas
import Verif.Fft.ParallelProps
import Verif.Float.SqrtSq
import Verif.Random.Disp
import Verif.Random.DispProps
import Verif.Session.Decrypt
import Verif.Session.DecryptSpec
import Verif.Session.DecryptLemmas
import Verif.Session.DecryptGlwe
import Verif.Session.DecryptTrivial
import Verif.Session.DecryptProps
import Verif.Npe.Model
import Verif.Npe.Prob
import Verif.Npe.ProbLemmas
import Verif.Npe.KeySpec
import Verif.Npe.KeyLemmas
import Verif.Npe.KeyProps
import Verif.Npe.Round
import Verif.Npe.LinearProps
import Verif.Npe.SwitchProps
import Verif.Npe.Digits
import Verif.Npe.KeyswitchProps
import Verif.Npe.ExtSpec
import Verif.Npe.ExtLemmas
import Verif.Npe.ExtProps
import Verif.Npe.PackSpec
import Verif.Npe.PackLemmas
import Verif.Npe.PackProps
import Verif.Npe.CmuxProps
import Verif.Npe.BitsProps
import Verif.Random.Zeros
import Verif.Tensor.Props
import Verif.Entity.CallsProps
import Verif.Session.KeysProps
import Verif.Serde.KindsProps
import Verif.Pbs.CallsProps
import Verif.Wop.CallsProps
import Verif.Wop.CallsExamples
import Verif.Npe.TensorProps
import Verif.Random.CountProps
import Verif.Encode.DataProps
import Verif.Random.FailProps
import Verif.Random.FailPks
import Verif.Lwe.KindsProps
import Verif.Ntt.GlweProps
import Verif.Lwe.ListsProps
import Verif.Numeric.BitsProps
import Verif.Csprng.StreamProps
import Verif.Fft.GgswProps
import Verif.Session.SeededGgswProps
import Verif.Lwe.MultisumsProps
import Verif.Encode.VectorProps
import Verif.Poly.SeveralProps
import Verif.Ffi.Model
import Verif.Ffi.Spec
import Verif.Ffi.Table
import Verif.Ffi.Lemmas
import Verif.Ffi.Lemmas2
import Verif.Ffi.Demo
import Verif.Ffi.Props
