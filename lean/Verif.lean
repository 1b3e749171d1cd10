import Verif.Encoding.Props
import Verif.Codec.Props
import Verif.SolSig.Props
import Verif.Packing.Props
import Verif.Ring.Props
import Verif.Ring.Resultant
import Verif.Keccak.Props
import Verif.Hash.Props
import Verif.NTT.Props
import Verif.Falcon.Props
import Verif.Falcon.KeygenProps
import Verif.Contract.Boundary
import Verif.Epervier.Chain
import Verif.Falcon.Params
import Verif.Sampler.Law
import Verif.Contract.Abi
import Verif.Rng.Drbg
import Verif.Storage.Props
import Verif.Cli.Props
import Verif.FFT.Props
import Verif.Blake.Props
import Verif.Tetration.Props
import Verif.CRef.Recover
import Verif.CRef.CodecProps
import Verif.CRef.KeccakProps
import Verif.CRef.ShakeProps
import Verif.CRef.ApiExamples
import Verif.CRef.ApiContractEx
import Verif.CRef.HashCtEx
import Verif.CRef.KgTables
import Verif.CRef.Keygen
import Verif.CRef.KgArith
import Verif.CRef.KgNtt
import Verif.CRef.KgPrimes
import Verif.CRef.KgSpec
import Verif.CRef.KgCheck
import Verif.CRef.KgInv
import Verif.CRef.KgProps
import Verif.CRef.KgApi
import Verif.CRef.KgKeys
import Verif.CRef.KgGauss
import Verif.CRef.KgPython
import Verif.CRef.KgEx
import Verif.CRef.HashCtFail
import Verif.CRef.Aes
import Verif.CRef.AesSpec
import Verif.CRef.AesProps
import Verif.CRef.KatRng
import Verif.CRef.KatRngProps
import Verif.CRef.Process
import Verif.CRef.ProcessProps
import Verif.Geth.Model
import Verif.Geth.Props
import Verif.CRef.Prng
import Verif.CRef.PrngProps
import Verif.CRef.PrngPython
import Verif.CRef.Fpr
import Verif.CRef.FprSpec
import Verif.CRef.FprRound
import Verif.CRef.FprBits
import Verif.CRef.FprMul
import Verif.CRef.FprDiv
import Verif.CRef.FprSqrt
import Verif.CRef.FprNorm
import Verif.CRef.FprAdd
import Verif.CRef.FprConv
import Verif.CRef.FprConst
import Verif.CRef.SignSampler
import Verif.CRef.SignSamplerInt
import Verif.CRef.FprFl
import Verif.CRef.SignSamplerBer
import Verif.CRef.SignSamplerThr
import Verif.CRef.SignSamplerProps
import Verif.CRef.SignSamplerTrial
import Verif.CRef.SignSamplerMain
import Verif.CRef.Zint
import Verif.CRef.ZintSpec
import Verif.CRef.ZintBasic
import Verif.CRef.ZintCrt
import Verif.CRef.ZintScaled
import Verif.CRef.ZintBez
import Verif.CRef.ZintRed
import Verif.CRef.ZintBezout
import Verif.CRef.ZintProps
import Verif.CRef.FftTables
import Verif.CRef.Fft
import Verif.CRef.FftSpec
import Verif.CRef.FftErr
import Verif.CRef.FftGm
import Verif.CRef.FftLoop
import Verif.CRef.FftFwd
import Verif.CRef.FftInv
import Verif.CRef.FftProps
import Verif.CRef.FftInt
import Verif.CRef.SignDyn
import Verif.CRef.SignDynSpec
import Verif.CRef.SignDynTree
import Verif.CRef.SignDynExact
import Verif.CRef.SignDynProps
import Verif.CRef.SignDynApi
import Verif.CRef.Orth
import Verif.CRef.OrthParseval
import Verif.CRef.OrthSlot
import Verif.CRef.OrthSum
import Verif.CRef.OrthSpec
import Verif.CRef.OrthProps
import Verif.CRef.OrthEx
import Verif.CRef.FprAddX
import Verif.CRef.TreeSpec
import Verif.CRef.TreeErr
import Verif.CRef.TreeSlot
import Verif.CRef.TreeNode
import Verif.CRef.TreeLeaf
import Verif.CRef.TreeRoot
import Verif.CRef.TreeTop
import Verif.CRef.TreeKey
import Verif.CRef.TreeProps
import Verif.CRef.CentreSlot
import Verif.CRef.CentreStep
import Verif.CRef.CentreSpec
import Verif.CRef.CentreTree
import Verif.CRef.CentreRoot
import Verif.CRef.CentreTop
import Verif.CRef.CentreProps
import Verif.CRef.CentreSign
import Verif.Float.Model
import Verif.Float.Spec
import Verif.Float.Err
import Verif.Float.Fft
import Verif.Float.Loops
import Verif.Float.Tree
import Verif.Float.Preimage
import Verif.Float.Props
import Verif.FFT.GsNorm
import Verif.FFT.GsProps
import Verif.FFT.Leaves
import Verif.FFT.LeafProps
import Verif.CRef.SignTreeProps
import Verif.CRef.SignTreeCentre
import Verif.CRef.ReduceProps
import Verif.CRef.LiftProps
import Verif.CRef.LevelsProps
import Verif.CRef.DeepestProps
