import Verif.Base
import Verif.Mem
import Verif.Layout
import Verif.Accessor
import Verif.Sizes
import Verif.Functors
import Verif.Grid
import Verif.World
import Verif.GridSpec
import Verif.GridProof
import Verif.GridRefine
import Verif.GridObs
import Verif.Demo
import Verif.MemberPtr
import Verif.SoaArray
import Verif.SoaArrayProof
import Verif.SoaVector
import Verif.SoaVectorProof
import Verif.SoaVectorRefine
import Verif.SoaVectorStride
import Verif.SoaVectorList
import Verif.CopyPad
import Verif.AlignedAlloc
import Verif.LoopPeeler
import Verif.Cuda
import Verif.CudaProof
import Verif.CudaArray
import Verif.Preproc
import Verif.Machine
import Verif.Props.Layout
import Verif.Props.Sizes
import Verif.Props.Grid
import Verif.Props.Grid2
import Verif.Props.SoaArray
import Verif.Props.SoaVector
import Verif.Props.AlignedAlloc
import Verif.Props.LoopPeeler
import Verif.Props.Cuda
import Verif.Props.CudaArray
import Verif.Props.Preproc
import Verif.Props.Machine
import Verif.SV.Base
import Verif.SV.Avx512Double
import Verif.SV.Avx512Float
import Verif.SV.Avx512Int
import Verif.SV.AvxDouble
import Verif.SV.AvxFloat
import Verif.SV.AvxInt
import Verif.SV.MicDouble
import Verif.SV.MicFloat
import Verif.SV.NeonFloat
import Verif.SV.QpxDouble
import Verif.SV.ScalarDouble
import Verif.SV.ScalarFloat
import Verif.SV.ScalarInt
import Verif.SV.SseDouble
import Verif.SV.SseFloat
import Verif.SV.SseInt
import Verif.SV.Impl
import Verif.SV.Spec
import Verif.SV.Lemmas
import Verif.SV.Unroll
import Verif.SV.LaneOps
import Verif.SVP.ScalarFloat
import Verif.SVP.ScalarInt
import Verif.SVP.ScalarDouble
import Verif.SVP.SseFloat
import Verif.SVP.SseDouble
import Verif.SVP.SseInt
import Verif.SVP.AvxFloat
import Verif.SVP.AvxDouble
import Verif.SVP.AvxInt
import Verif.SVP.Avx512Float
import Verif.SVP.Avx512Double
import Verif.SVP.Avx512Int
import Verif.SVP.NeonFloat
import Verif.SVP.MicFloat
import Verif.SVP.MicDouble
import Verif.SVP.QpxDouble
import Verif.SV.Impls
import Verif.SV.Targets
import Verif.SVP.Laws
import Verif.Props.ShortVec
import Verif.Props.ShortVecMem
import Verif.Props.Kernel
import Verif.SV.Ieee
import Verif.SV.IeeeInt
import Verif.Props.ShortVecInt
import Verif.DevGrid
import Verif.DevGridProof
import Verif.Props.DevGrid
import Verif.Threads
import Verif.Props.Threads
import Verif.GridValid
import Verif.GridKernel
import Verif.Props.GridKernel
import Verif.Throwing
import Verif.ThrowingProof
import Verif.Props.Throwing
import Verif.ThrowingArray
import Verif.ThrowingArrayProof
import Verif.Props.ThrowingArray
import Verif.ThrowingVector
import Verif.ThrowingVectorProof
import Verif.ThrowingVectorRefine
import Verif.Props.ThrowingVector
import Verif.Props.ThrowingVectorLeak
import Verif.OmpKernel
import Verif.OmpKernelProof
import Verif.Props.OmpKernel
import Verif.LoopPeelerFn
import Verif.Props.LoopPeelerFn
import Verif.PairKernel
import Verif.Props.PairKernel
import Verif.BufferKernel
import Verif.Props.BufferKernel
import Verif.Mover
import Verif.Props.Mover
import Verif.Props.Arith
import Verif.AllPairs
import Verif.Props.AllPairs
import Verif.Tally
import Verif.Props.Tally
import Verif.Prefilter
import Verif.Props.Prefilter
import Verif.Props.DoubleCases
import Verif.DataPtr
import Verif.Props.DataPtr
import Verif.LineKernel
import Verif.Props.LineKernel
import Verif.OutOfMemory
import Verif.Props.OutOfMemory
import Verif.Share
import Verif.Props.Share
import Verif.Testbed
import Verif.Props.Testbed
import Verif.Clock
import Verif.Props.Clock
import Verif.MachGrid
import Verif.MachGridProof
import Verif.Props.MachGrid
import Verif.MachVec
import Verif.MachVecProof
import Verif.Props.MachVec
import Verif.MachArr
import Verif.MachArrProof
import Verif.Props.MachArr
import Verif.MachCudaArr
import Verif.Props.MachCudaArr
import Verif.Simulation
import Verif.Props.Simulation
import Verif.IntrinsicKernel
import Verif.Props.IntrinsicKernel
import Verif.JacobiGold
import Verif.Props.SizedKernel
import Verif.Props.SizedOmp
import Verif.Props.JacobiGold
import Verif.GaussFilter
import Verif.Props.GaussFilter
import Verif.GaussBench
import Verif.Props.GaussBench
import Verif.Adaptive
import Verif.Props.Adaptive
import Verif.Props.Concurrent
import Verif.Props.GridMemory
import Verif.Props.VectorMemory
import Verif.Props.VecClients
import Verif.Props.DevClients
import Verif.Props.DevThreads
import Verif.Props.MachAdaptive
import Verif.Props.AllPairsScalar
import Verif.NBodyBench
import Verif.Props.NBodyBench
import Verif.Props.BronzeBench
import Verif.DevVec
import Verif.DevVecProof
import Verif.DevVecRefine
import Verif.Props.DevVec
import Verif.Props.DevVecThreads
import Verif.Props.DevOom
import Verif.Props.DevFinish
import Verif.Props.Finish
import Verif.DevArr
import Verif.Props.DevArr
