import Verif.Props.Arith
import Verif.Props.Lcg
import Verif.Props.UniformInt
import Verif.Props.Swc
import Verif.Props.Adaptors
import Verif.Props.Splitmix
import Verif.Props.Lfsr
import Verif.Props.Mixmax
import Verif.Props.MixmaxSkip
import Verif.Props.LaggedFibonacci
import Verif.Props.MersenneTwister
import Verif.Props.SeedImpl
import Verif.Props.IndependentBits
import Verif.Props.Discrete
import Verif.Props.Qrng
import Verif.Props.RealDist
import Verif.Props.Polynomial
import Verif.Props.MtJump
import Verif.Props.Niederreiter
import Verif.Props.Faure
import Verif.Props.Binomial
import Verif.Props.Poisson
import Verif.Props.Ziggurat
import Verif.Props.Variates
import Verif.Props.Gamma
import Verif.Props.Mixture
import Verif.Props.Sphere
import Verif.Props.FloatEngine
import Verif.Props.Swc01
import Verif.Props.Ranlux
import Verif.Props.SwcPeriod
import Verif.Props.Trd
import Verif.Props.DistText
import Verif.Props.DistVector
import Verif.Props.MtPeriod
import Verif.Props.SeedAll
import Verif.Validation
import Verif.ValidationQrng
import Verif.Props.TausPeriod
import Verif.Props.LagPeriod
import Verif.Props.Cycles
import Verif.Props.SobolNet
import Verif.Props.ShuffleCycle
import Verif.Props.RandomDevice
import Verif.Props.PtrdLaw
import Verif.Props.VariateGenerator
import Verif.Props.OldUniform01
import Verif.Props.Promotion
import Verif.Props.Expected
import Verif.Props.ExpectedDiscrete
import Verif.Props.WholePeriod
import Verif.Props.MtNarrow
import Verif.Props.Ctor
import Verif.Props.Haertel
import Verif.Props.MixmaxPeriod
import Verif.Props.MixmaxEqui
import Verif.Props.Programs
import Verif.Props.Intersections
import Verif.Props.Discrepancy
import Verif.Props.QmcMean
import Verif.Props.DiscreteRound
import Verif.Props.PiecewiseRound
import Verif.Props.HyperRound
import Verif.Props.LinearRound
import Verif.Props.MixtureRound
