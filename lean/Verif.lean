import Verif.Mem
import Verif.Pack3d
import Verif.Pack3dLemmas
import Verif.Machine
import Verif.MachineLemmas
import Verif.Rounds
import Verif.RoundsP2P
import Verif.RoundsColl
import Verif.Stage
import Verif.RemapSem
import Verif.RemapCore
import Verif.RemapGroup
import Verif.RemapWorks
import Verif.RemapP2P
import Verif.RemapColl
import Verif.GridSpec
import Verif.Remap3d
import Verif.PtsLemmas
import Verif.Remap3dGeom
import Verif.Remap3dMain
import Verif.RemapFacts
import Verif.PropsRemap3d
import Verif.Pack2d
import Verif.Remap2d
import Verif.Remap2dMain
import Verif.PropsRemap2d
import Verif.Factor
import Verif.FpLemmas
import Verif.FactorLemmas
import Verif.PropsGrid
import Verif.Kiss
import Verif.KissFactor
import Verif.KissBfly
import Verif.KissWork
import Verif.PropsKiss
import Verif.Kiss32
import Verif.Kiss32Lemmas
import Verif.PropsKiss32
import Verif.KissFl
import Verif.KissFlLemmas
import Verif.KissErr
import Verif.KissErr2
import Verif.KissErr3
import Verif.PropsKissErr
import Verif.Fft3dSetup
import Verif.Fft3d
import Verif.Fft3dLayout
import Verif.Fft3dCheck
import Verif.Fft3dData
import Verif.Fft3dPlan
import Verif.Fft3dStages
import Verif.Fft3dCompute
import Verif.Dft3
import Verif.Fft3dRun
import Verif.Fft3dSizes
import Verif.Fft3dRoom
import Verif.PropsFft3d
import Verif.PropsFft3dUse
import Verif.PropsFft3dBuf
import Verif.PropsFft3dBad
import Verif.Tune
import Verif.TuneLemmas
import Verif.TuneReport
import Verif.TuneFp
import Verif.PropsTune
import Verif.Wrap
import Verif.PropsWrap
import Verif.Heap
import Verif.RemapLife
import Verif.RemapLifeLemmas
import Verif.PropsRemapLife
import Verif.Lifecycle
import Verif.LifecycleLemmas
import Verif.LifecycleInv
import Verif.LifecycleTune
import Verif.LifecycleHist
import Verif.LifecyclePlan3
import Verif.PropsLifecycle
import Verif.Fft2dSetup
import Verif.Fft2d
import Verif.Fft2dLayout
import Verif.Fft2dPlan
import Verif.Fft2dStages
import Verif.Dft2
import Verif.Fft2dCompute
import Verif.Fft2dRun
import Verif.PropsFft2d
import Verif.PropsFft2dUse
import Verif.PropsFft2dMore
import Verif.LifecyclePlan2
import Verif.PropsLifecycle2
import Verif.CInt
import Verif.Pack3d32
import Verif.Pack3d32Lemmas
import Verif.Remap32
import Verif.Remap32Lemmas
import Verif.Remap3d32
import Verif.Remap3d32Lemmas
import Verif.Pack2d32
import Verif.Pack2d32Lemmas
import Verif.Remap2d32
import Verif.Remap2d32Lemmas
import Verif.PropsInt
import Verif.FftInt
import Verif.FftIntLemmas
import Verif.Fft3d32
import Verif.Fft3d32Lemmas
import Verif.Fft3d32Main
import Verif.PropsFftInt
import Verif.Fft2d32
import Verif.Fft2d32Lemmas
import Verif.Fft2d32Main
import Verif.PropsFftInt2
import Verif.PropsOneRemap
import Verif.Refine
import Verif.Package
import Verif.PackageLemmas
import Verif.PropsPackage
import Verif.PropsPackageLife
import Verif.FftFl
import Verif.FftFlLemmas
import Verif.FftFl2Lemmas
import Verif.FftErr
import Verif.FftErr2
import Verif.PropsFftErr
import Verif.PropsFftErr2
import Verif.PropsRepro
import Verif.Py
import Verif.PySpec
import Verif.PyLemmas
import Verif.PropsPy
import Verif.Fortran
import Verif.FortranLemmas
import Verif.PropsFortran
import Verif.Driver
import Verif.DriverGrid
import Verif.DriverRound
import Verif.DriverLoops
import Verif.DriverRun
import Verif.PropsDriver
import Verif.PropsDriverRun
import Verif.PropsDriverOut
import Verif.DriverArgs
import Verif.DriverArgsLemmas
import Verif.DriverArgsText
import Verif.PropsDriverArgs
import Verif.Simple
import Verif.SimpleLemmas
import Verif.SimpleRound
import Verif.PropsSimple
import Verif.DriverF
import Verif.PropsDriverF
import Verif.DriverPy
import Verif.PropsDriverPy
import Verif.L2
import Verif.KissL2
import Verif.FftL2
import Verif.PropsL2
import Verif.PropsL22
import Verif.PropsDriverFArgs
import Verif.PropsDriverPyArgs
import Verif.DriverFl
import Verif.DriverFlLemmas
import Verif.DriverFlRun
import Verif.PropsDriverFl
import Verif.AllocFail
import Verif.AllocFailLemmas
import Verif.AllocFailRemap
import Verif.AllocFailFft
import Verif.AllocFailPerf
import Verif.PropsAllocFail
import Verif.Spmd
import Verif.SpmdLemmas
import Verif.SpmdSetup
import Verif.SpmdWorks
import Verif.SpmdStuck
import Verif.SpmdMixed
import Verif.PropsSpmd
import Verif.PropsSpmdTune
import Verif.SpmdHang
import Verif.SpmdSettings
import Verif.SpmdSettings3
import Verif.SpmdSettings2
import Verif.PropsSpmdSettings
import Verif.Output
import Verif.OutputLemmas
import Verif.OutputRing
import Verif.PropsOutput
import Verif.TimeRuns
import Verif.TimeRunsLemmas
import Verif.TimeRunsBad
import Verif.PropsTimeRuns
import Verif.Tight
import Verif.TightRemap
import Verif.PropsTightRemap
import Verif.TightFft3d
import Verif.TightFft2d
import Verif.PropsTight
import Verif.PropsExact
import Verif.Driver32
import Verif.Driver32Lemmas
import Verif.PropsDriver32
import Verif.PropsGridFp
import Verif.PropsTuneFp
import Verif.DriverTimes
import Verif.DriverTimesLemmas
import Verif.DriverTimesReports
import Verif.PropsDriverTimes
import Verif.SimpleFl
import Verif.SimpleFlLemmas
import Verif.PropsSimpleFl
import Verif.DriverReport
import Verif.PropsDriverReport
import Verif.RunSh
import Verif.PropsRunSh
import Verif.PropsSeveral
import Verif.Teams
import Verif.TeamsLemmas
import Verif.PropsTeams
import Verif.PropsApart
import Verif.PropsCheck
import Verif.PropsConvExact
import Verif.PropsOneRemapExact
import Verif.PropsTightMore
import Verif.PropsPackageExact
import Verif.PropsTuneExact
import Verif.PropsDriverOutExact
import Verif.PropsRemapLifeExact
import Verif.PropsDriverExact
import Verif.PropsDriverArgsExact
import Verif.PropsDriverTimesExact
