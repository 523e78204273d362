import Verif.Lemmas.Bessel
import Verif.Lemmas.Checked
import Verif.Lemmas.Dft
import Verif.Lemmas.GaussianFilter
import Verif.Lemmas.Interp
import Verif.Lemmas.LikelihoodRatio
import Verif.Lemmas.LinearOde
import Verif.Lemmas.LiveSpectra
import Verif.Lemmas.PkChecked
import Verif.Lemmas.RealPow
import Verif.Lemmas.Rounded
import Verif.Lemmas.RoundedBinary
import Verif.Lemmas.Simpson
import Verif.Lemmas.SimpsonLimit
import Verif.Lemmas.SimpsonRate
import Verif.Lemmas.Special
import Verif.Lemmas.SpectraDeps
import Verif.Lemmas.SpectraGraph
import Verif.Lib.Checked
import Verif.Lib.GaussianFilter
import Verif.Lib.Histogram
import Verif.Lib.HmfCache
import Verif.Lib.Interp
import Verif.Lib.InterpSort
import Verif.Lib.Numpy
import Verif.Lib.Py
import Verif.Lib.Rounded
import Verif.Lib.Simpson
import Verif.Lib.Special
import Verif.Model.Add
import Verif.Model.AddShared
import Verif.Model.Background
import Verif.Model.Benchmark
import Verif.Model.Bnl
import Verif.Model.BnlCache
import Verif.Model.CachedQuantities
import Verif.Model.Chain
import Verif.Model.ColdMatter
import Verif.Model.Collect
import Verif.Model.Config
import Verif.Model.CorrelatedPriors
import Verif.Model.Dewiggle
import Verif.Model.DictParams
import Verif.Model.EndToEnd
import Verif.Model.FftLog
import Verif.Model.HankelModules
import Verif.Model.HmiProfiles
import Verif.Model.Hod
import Verif.Model.HodChecked
import Verif.Model.HodGrid
import Verif.Model.HodRounded
import Verif.Model.HodRows
import Verif.Model.Ia
import Verif.Model.IaCache
import Verif.Model.IaChain
import Verif.Model.IaChecked
import Verif.Model.IaUpsample
import Verif.Model.InputFiles
import Verif.Model.Interface
import Verif.Model.InterfaceOptions
import Verif.Model.LegacyAdd
import Verif.Model.LegacyBnl
import Verif.Model.LegacyHod
import Verif.Model.LegacyIa
import Verif.Model.LegacyIngredients
import Verif.Model.LegacyPk
import Verif.Model.LegacyRead
import Verif.Model.Likelihood
import Verif.Model.LikelihoodExclude
import Verif.Model.LiveSpectra
import Verif.Model.Modules
import Verif.Model.Ogata
import Verif.Model.Pk
import Verif.Model.PkChecked
import Verif.Model.PkHod
import Verif.Model.PkReaders
import Verif.Model.PkRounded
import Verif.Model.PredictObservable
import Verif.Model.RealSpace
import Verif.Model.Saved
import Verif.Model.ScaleCutSetup
import Verif.Model.ScaleCuts
import Verif.Model.SpectraDeps
import Verif.Model.TwoPointFits
import Verif.Model.TwoPointOps
import Verif.Model.TwoPointPairs
import Verif.Props.Accuracy
import Verif.Props.AccuracyShapes
import Verif.Props.AccuracySpectra
import Verif.Props.Add
import Verif.Props.AddShared
import Verif.Props.Background
import Verif.Props.Benchmark
import Verif.Props.BinSplit
import Verif.Props.BnlBounds
import Verif.Props.BnlCache
import Verif.Props.BnlCosmo
import Verif.Props.BnlEnvelope
import Verif.Props.BnlTable
import Verif.Props.Cache
import Verif.Props.CacheFrozen
import Verif.Props.CacheRegime
import Verif.Props.CacheStale
import Verif.Props.Chain
import Verif.Props.Checked
import Verif.Props.ColdMatter
import Verif.Props.Collect
import Verif.Props.CollectOptions
import Verif.Props.Config
import Verif.Props.Convergence
import Verif.Props.ConvergenceModel
import Verif.Props.CorrelatedPriors
import Verif.Props.Correlation
import Verif.Props.Dewiggle
import Verif.Props.DictParams
import Verif.Props.EndToEnd
import Verif.Props.ErrorPropagation
import Verif.Props.ErrorPropagationIa
import Verif.Props.Feedback
import Verif.Props.FftLog
import Verif.Props.FftLogModes
import Verif.Props.Growth
import Verif.Props.GrowthNormalisation
import Verif.Props.HankelModules
import Verif.Props.HmfGenerator
import Verif.Props.HodBase
import Verif.Props.HodChecked
import Verif.Props.HodGrid
import Verif.Props.HodMass
import Verif.Props.HodModels
import Verif.Props.HodRounded
import Verif.Props.HodRows
import Verif.Props.HodSensitivity
import Verif.Props.HodSpectra
import Verif.Props.HodTextbook
import Verif.Props.IaAmplitudes
import Verif.Props.IaAngular
import Verif.Props.IaCache
import Verif.Props.IaChecked
import Verif.Props.IaLuminosity
import Verif.Props.IaMultipoles
import Verif.Props.IaNormalisation
import Verif.Props.IaProfile
import Verif.Props.IaTables
import Verif.Props.IaUpsample
import Verif.Props.InputFiles
import Verif.Props.Inputs
import Verif.Props.InterfaceBnl
import Verif.Props.InterfaceExecute
import Verif.Props.InterfaceInterp
import Verif.Props.InterfaceOptions
import Verif.Props.InterfaceSetup
import Verif.Props.InterpAccuracy
import Verif.Props.InterpBias
import Verif.Props.InterpFractions
import Verif.Props.InterpHaloMass
import Verif.Props.LegacyAdd
import Verif.Props.LegacyBnl
import Verif.Props.LegacyHod
import Verif.Props.LegacyIa
import Verif.Props.LegacyIaAngular
import Verif.Props.LegacyIngredients
import Verif.Props.LegacyPk
import Verif.Props.LegacyRead
import Verif.Props.Likelihood
import Verif.Props.LikelihoodExclude
import Verif.Props.LiveSpectra
import Verif.Props.Locality
import Verif.Props.MassDependence
import Verif.Props.MassRange
import Verif.Props.ModeChange
import Verif.Props.Modes
import Verif.Props.Modules
import Verif.Props.MoreSatellites
import Verif.Props.Ogata
import Verif.Props.PkBaryons
import Verif.Props.PkDamping
import Verif.Props.PkDemo
import Verif.Props.PkIdentities
import Verif.Props.PkInl
import Verif.Props.PkReaders
import Verif.Props.PkRounded
import Verif.Props.PkSigns
import Verif.Props.PkTextbook
import Verif.Props.PointMass
import Verif.Props.PoissonFactor
import Verif.Props.PredictObservable
import Verif.Props.ProfileOrder
import Verif.Props.RealSpaceCosmo
import Verif.Props.RealSpaceInterp
import Verif.Props.ReportedBias
import Verif.Props.Sampling
import Verif.Props.SamplingHod
import Verif.Props.Saved
import Verif.Props.ScaleCutSetup
import Verif.Props.ScaleCuts
import Verif.Props.Scaling
import Verif.Props.SmallScales
import Verif.Props.Tracers
import Verif.Props.Truncation
import Verif.Props.TwoPointFits
import Verif.Props.TwoPointOps
import Verif.Props.TwoPointPairs
import Verif.Props.UnionOfSamples
import Verif.Props.Units
import Verif.Props.UnitsHod
import Verif.Spec.Along
import Verif.Spec.Bessel
import Verif.Spec.Cache
import Verif.Spec.Grid
import Verif.Spec.HaloModel
import Verif.Spec.Legendre
import Verif.Spec.Regime
import Verif.Spec.Rounding
import Verif.Spec.Units
import Verif.Spec.UnitsHod
