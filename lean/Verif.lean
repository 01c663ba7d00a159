import Verif.Props.Encoding
import Verif.Props.Ntt
import Verif.Props.Hash
import Verif.Props.Verify
import Verif.Props.Verify2
import Verif.Props.Ntrugen
import Verif.Props.Samplerz
import Verif.Props.Util
import Verif.Props.Keys
import Verif.Props.Keygen
import Verif.Props.Ffsampling
import Verif.Props.FftExact
import Verif.Props.Ldl
import Verif.Props.GsNorm
import Verif.Props.Babai
import Verif.Props.Lattice
import Verif.Props.NoPanic
import Verif.Props.SamplerLaw
import Verif.Props.FftTable
import Verif.Props.HalfGaussian
import Verif.Props.Tree
import Verif.Props.Conversions
import Verif.Props.FftFloat
import Verif.Lemmas.CDiv
import Verif.Lemmas.BabaiNear
import Verif.Lemmas.BabaiFine
import Verif.Props.BabaiFloat
import Verif.Lemmas.GsNear
import Verif.Props.GsFloat
import Verif.Props.GsWitness
import Verif.Props.KeyWitness
import Verif.Props.Ffnp
import Verif.Props.FfSampling2
import Verif.Props.Halt
import Verif.Props.HaltExact
import Verif.Lemmas.Tilt
import Verif.Lemmas.Pack
import Verif.Lemmas.NormCount2
import Verif.Props.Forge
import Verif.Props.Forge2
import Verif.Props.HashLaw
import Verif.Props.Gram
import Verif.Props.Print
import Verif.Props.Scan
import Verif.Props.Determ
import Verif.Props.Reach
import Verif.Props.GsAccept
import Verif.Props.HaltAll
import Verif.Props.HaltIeee
import Verif.Props.KeySize
import Verif.Props.PolyLaw
import Verif.Props.NormLaw
import Verif.Props.Effort
import Verif.Spec.Shake
import Verif.Lemmas.Kronecker
import Verif.Props.Vectors
import Verif.Validation.RunVectors
import Verif.Model.Heap
import Verif.Lemmas.Heap3
import Verif.Props.Heap
import Verif.Model.Slice
import Verif.Lemmas.Slice3
import Verif.Props.Slices
import Verif.Model.Concurrent
import Verif.Lemmas.Concurrent
import Verif.Props.Concurrent
import Verif.Model.Trace
import Verif.Lemmas.Trace2
import Verif.Props.Trace
import Verif.Lemmas.Cost2
import Verif.Props.Cost
import Verif.Props.Isochrony
import Verif.Props.Binding
import Verif.Props.Binding2
import Verif.Props.Branch
import Verif.Props.Branch2
import Verif.Props.Words
import Verif.Model.Storage
import Verif.Lemmas.Storage
import Verif.Lemmas.Storage2
import Verif.Lemmas.Storage3
import Verif.Props.Storage
import Verif.Model.StorageNp
import Verif.Props.StorageNp
import Verif.Lemmas.ConstFloat
import Verif.Lemmas.ConstPoly
import Verif.Lemmas.ConstSolve
import Verif.Lemmas.ConstRun
import Verif.Props.KeyConst
import Verif.Props.Degree2
import Verif.Props.Degree4
import Verif.Props.EquationAll
import Verif.Props.EquationSmall
import Verif.Props.GsDegree
import Verif.Props.Unique
import Verif.Lemmas.Peak
import Verif.Props.Entropy
import Verif.Lemmas.Parity
import Verif.Props.Parity
import Verif.Props.Even
import Verif.Spec.Fma
import Verif.Props.Approx
import Verif.Props.Fused
import Verif.Props.Reduced
import Verif.Props.ReducedKey
import Verif.Props.Agree
import Verif.Props.Platforms
import Verif.Lemmas.LdlNear
import Verif.Lemmas.SqrtNear
import Verif.Props.TreeFloat
import Verif.Props.TreeKey
import Verif.Props.TreePlatform
import Verif.Model.Output
import Verif.Props.Output
import Verif.Props.OutputKey
import Verif.Props.OutputLeak
import Verif.Model.Int32
import Verif.Lemmas.Int32
import Verif.Lemmas.Int32Eval
import Verif.Props.Int32
import Verif.Props.Int32Vector
import Verif.Props.Int32Key
import Verif.Lemmas.Int32Reduce
import Verif.Lemmas.Int32Loop
import Verif.Props.Platform32
import Verif.Props.Platform32Key
import Verif.Model.Sampler32
import Verif.Props.Sampler32
import Verif.Props.TreeLast
import Verif.Props.TreeSigma
