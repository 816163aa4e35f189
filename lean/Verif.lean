import Verif.Props.Lanes
import Verif.Props.ScalarMask
import Verif.Props.Arith
import Verif.Props.Rotate
import Verif.Props.Slices
import Verif.Props.MaskReduce
import Verif.Props.Compare
import Verif.Props.Reduce
import Verif.Props.Shuffle
import Verif.Props.BitManip
import Verif.Props.Float
import Verif.Props.Convert
import Verif.Props.Bits
import Verif.Props.MaskHistory
import Verif.Props.Ptr
import Verif.Props.Fmt
import Verif.Props.Math
import Verif.Props.MulAdd
import Verif.Props.GatherScatter
import Verif.Props.Sums
import Verif.Props.Matrix
import Verif.Props.Mandelbrot
import Verif.Props.Triangle
import Verif.Props.Types
import Verif.Props.Spectral
import Verif.Props.Options
import Verif.Props.Stencil
import Verif.Props.Fannkuch
import Verif.Props.Nbody
import Verif.Props.AoRandom
import Verif.Props.Aobench
import Verif.Props.AoGeometry
import Verif.Props.AoOcclusion
import Verif.Props.AoImage
import Verif.Props.AoParallel
import Verif.Props.AoBytes
import Verif.Props.AoScenes
import Verif.Props.FloatConsts
import Verif.Props.FloatError
import Verif.Props.MandelFloat
import Verif.Props.MandelFiles
import Verif.Props.MandelVec
import Verif.Props.Portable
import Verif.Props.ParDrivers
import Verif.Props.Sqrt
import Verif.Props.AoFloat
import Verif.Props.SpectralFloat
import Verif.Props.StencilData
import Verif.Props.Testing
import Verif.Props.AoPeriod
import Verif.Props.MandelSet
import Verif.Props.MatrixFloat
import Verif.Props.MatrixNear
import Verif.Props.TriangleFloat
import Verif.Props.Mains
import Verif.Props.Lattice
import Verif.Props.LatticeFloat
import Verif.Props.StencilFloat
import Verif.Props.BlackScholes
import Verif.Props.BlackScholesFloat
import Verif.Props.NbodyFloat
import Verif.Props.NbodyEnergy
import Verif.Props.NbodyStep
import Verif.Props.AoHit
import Verif.Props.AoCast
import Verif.Props.AoCamera
import Verif.Props.AoShade
import Verif.Props.AoShadePacket
import Verif.Props.AoShadeTest
