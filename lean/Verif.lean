import Verif.Model.C.Akima
import Verif.Model.C.Angular
import Verif.Model.C.Background
import Verif.Model.C.BackgroundSplines
import Verif.Model.C.ClassInput
import Verif.Model.C.Common
import Verif.Model.C.CovSpectrum
import Verif.Model.C.Covariance
import Verif.Model.C.Grid
import Verif.Model.C.Heap
import Verif.Model.C.IntegralValues
import Verif.Model.C.Main
import Verif.Model.C.Mem
import Verif.Model.C.Parallel
import Verif.Model.C.ParallelLoops
import Verif.Model.C.Parser
import Verif.Model.C.RenormReach
import Verif.Model.C.Tanhsinh
import Verif.Model.C.Text
import Verif.Model.C.Twobessel
import Verif.Model.C.Twofast
import Verif.Model.C.Utils
import Verif.Model.Integrals
import Verif.Model.Python.Bias
import Verif.Model.Python.CommandLine
import Verif.Model.Python.Compute
import Verif.Model.Python.File
import Verif.Model.Python.Lists
import Verif.Model.Python.NotANumber
import Verif.Model.Python.Representation
import Verif.Model.Python.Setters
import Verif.Model.Python.State
import Verif.Model.Signal.Dispatch
import Verif.Model.Signal.DoubleIntegrated
import Verif.Model.Signal.Lookups
import Verif.Model.Signal.NonIntegrated
import Verif.Model.Signal.SingleIntegrated
import Verif.Model.Signal.Types
import Verif.Proofs.Additive
import Verif.Proofs.Akima
import Verif.Proofs.AkimaSmooth
import Verif.Proofs.Amplitude
import Verif.Proofs.AngularMoments
import Verif.Proofs.Background
import Verif.Proofs.Bessel
import Verif.Proofs.BesselSeries
import Verif.Proofs.Branches
import Verif.Proofs.CMem
import Verif.Proofs.CommandLine
import Verif.Proofs.Common
import Verif.Proofs.CovValues
import Verif.Proofs.Covariance
import Verif.Proofs.Dispatch
import Verif.Proofs.Divergent
import Verif.Proofs.Ensemble
import Verif.Proofs.EnsembleDouble
import Verif.Proofs.EnsembleLocal
import Verif.Proofs.EnsembleSingle
import Verif.Proofs.EnsembleSingleSum
import Verif.Proofs.EnsembleTables
import Verif.Proofs.Exchange
import Verif.Proofs.FlatBessel
import Verif.Proofs.FlatMultipoles
import Verif.Proofs.Frame
import Verif.Proofs.FrameSignal
import Verif.Proofs.FrontEnds
import Verif.Proofs.Gates
import Verif.Proofs.GaussianCovariance
import Verif.Proofs.Grid
import Verif.Proofs.Heap
import Verif.Proofs.HeapPar
import Verif.Proofs.HeapWorld
import Verif.Proofs.Inside
import Verif.Proofs.IntegralValues
import Verif.Proofs.Interp
import Verif.Proofs.Legendre
import Verif.Proofs.Legendre3
import Verif.Proofs.Lookups
import Verif.Proofs.Main
import Verif.Proofs.MainBg
import Verif.Proofs.MainRun
import Verif.Proofs.MainStages
import Verif.Proofs.MaxSeparation
import Verif.Proofs.MellinBessel
import Verif.Proofs.MellinGamma
import Verif.Proofs.Parallel
import Verif.Proofs.ParallelLoops
import Verif.Proofs.Parser
import Verif.Proofs.ParserAccepts
import Verif.Proofs.ParserCongr
import Verif.Proofs.ParserDefaults
import Verif.Proofs.ParserOk
import Verif.Proofs.PositiveCovariance
import Verif.Proofs.PyAssign
import Verif.Proofs.PyCoherent
import Verif.Proofs.PyDensity
import Verif.Proofs.PyEnds
import Verif.Proofs.PyEval
import Verif.Proofs.PyFile
import Verif.Proofs.PyFileAccept
import Verif.Proofs.PyFileBack
import Verif.Proofs.PyFileLoad
import Verif.Proofs.PyFileOptions
import Verif.Proofs.PyFresh
import Verif.Proofs.PyHistory
import Verif.Proofs.PyHistory2
import Verif.Proofs.PyHistory3
import Verif.Proofs.PyIndep
import Verif.Proofs.PyKeeps
import Verif.Proofs.PyLists
import Verif.Proofs.PyLookups
import Verif.Proofs.PyMoves
import Verif.Proofs.PyNoAttr
import Verif.Proofs.PyNoKill
import Verif.Proofs.PyRecompute
import Verif.Proofs.PyRecompute2
import Verif.Proofs.PySetters
import Verif.Proofs.PySim
import Verif.Proofs.PyStages
import Verif.Proofs.PyStale
import Verif.Proofs.PyStores
import Verif.Proofs.PyValid
import Verif.Proofs.RenormReach
import Verif.Proofs.Scale
import Verif.Proofs.Table
import Verif.Proofs.Tanhsinh
import Verif.Proofs.TanhsinhRule
import Verif.Proofs.Text
import Verif.Proofs.TextNum
import Verif.Proofs.Twobessel
import Verif.Proofs.TwobesselFftlog
import Verif.Proofs.TwobesselRun
import Verif.Proofs.Twofast
import Verif.Proofs.TwofastValues
import Verif.Proofs.Units
import Verif.Props.Amplitude
import Verif.Props.Average
import Verif.Props.Background
import Verif.Props.Branches
import Verif.Props.ClassInput
import Verif.Props.CommandLine
import Verif.Props.Common
import Verif.Props.ContribNames
import Verif.Props.Contributions
import Verif.Props.Covariance
import Verif.Props.Coverage
import Verif.Props.Derivatives
import Verif.Props.Ensemble
import Verif.Props.EnsembleCases
import Verif.Props.Exchange
import Verif.Props.Fftlog
import Verif.Props.FlatMultipoles
import Verif.Props.FlatSky
import Verif.Props.FrontEnds
import Verif.Props.GaussianCovariance
import Verif.Props.Geometry
import Verif.Props.Grid
import Verif.Props.Growth
import Verif.Props.Heap
import Verif.Props.Inside
import Verif.Props.IntegralValues
import Verif.Props.Legendre
import Verif.Props.Lookups
import Verif.Props.Main
import Verif.Props.MaxSeparation
import Verif.Props.Mellin
import Verif.Props.MultipoleExchange
import Verif.Props.NotANumber
import Verif.Props.ObjectBackground
import Verif.Props.ObjectCovariance
import Verif.Props.Parallel
import Verif.Props.ParallelLoops
import Verif.Props.Parser
import Verif.Props.ParserDefaults
import Verif.Props.PixelAverage
import Verif.Props.PositiveCovariance
import Verif.Props.PyBias
import Verif.Props.PyBiasShape
import Verif.Props.PyBulk
import Verif.Props.PyCaches
import Verif.Props.PyComputing
import Verif.Props.PyDensity
import Verif.Props.PyFile
import Verif.Props.PyFileOptions
import Verif.Props.PyFileOrder
import Verif.Props.PyLists
import Verif.Props.PyLookups
import Verif.Props.PyRecompute
import Verif.Props.PySetters
import Verif.Props.RedshiftCoverage
import Verif.Props.RedshiftTables
import Verif.Props.RenormReach
import Verif.Props.Representation
import Verif.Props.Scale
import Verif.Props.TableReach
import Verif.Props.Tanhsinh
import Verif.Props.Text
import Verif.Props.TextWrite
import Verif.Props.Threads
import Verif.Props.Twofast
import Verif.Props.Units
import Verif.Props.UnitsCovariance
import Verif.Props.Utils
import Verif.Spec.Amplitude
import Verif.Spec.Average
import Verif.Spec.Background
import Verif.Spec.Bessel
import Verif.Spec.Branches
import Verif.Spec.Chord
import Verif.Spec.ClassInput
import Verif.Spec.CommandLine
import Verif.Spec.Common
import Verif.Spec.Contributions
import Verif.Spec.Covariance
import Verif.Spec.Dispatch
import Verif.Spec.Effects
import Verif.Spec.Ensemble
import Verif.Spec.Exchange
import Verif.Spec.File
import Verif.Spec.FileAccept
import Verif.Spec.FileOptions
import Verif.Spec.FlatMultipoles
import Verif.Spec.FrontEnds
import Verif.Spec.GaussianCovariance
import Verif.Spec.Grid
import Verif.Spec.Growth
import Verif.Spec.Heap
import Verif.Spec.Inside
import Verif.Spec.IntegralValues
import Verif.Spec.Lookups
import Verif.Spec.Main
import Verif.Spec.Mellin
import Verif.Spec.MultipoleExchange
import Verif.Spec.NotANumber
import Verif.Spec.ObjectBackground
import Verif.Spec.ObjectCovariance
import Verif.Spec.Parallel
import Verif.Spec.ParallelLoops
import Verif.Spec.Parser
import Verif.Spec.ParserDefaults
import Verif.Spec.PositiveCovariance
import Verif.Spec.PyBulk
import Verif.Spec.PyComputing
import Verif.Spec.PyDensity
import Verif.Spec.PyLists
import Verif.Spec.PyLookups
import Verif.Spec.PySetters
import Verif.Spec.Python
import Verif.Spec.RedshiftTables
import Verif.Spec.Representation
import Verif.Spec.Scale
import Verif.Spec.Separation
import Verif.Spec.TableReach
import Verif.Spec.Tanhsinh
import Verif.Spec.Text
import Verif.Spec.Twobessel
import Verif.Spec.Units
import Verif.Spec.UnitsCovariance
import Verif.Spec.Utils
import Verif.Spec.Witness
import Verif.Spec.WitnessFrontEnds
import Verif.Spec.WitnessMain
import Verif.Spec.WitnessParser
import Verif.Spec.WitnessPy
