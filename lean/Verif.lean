import Verif.Lemmas.AutoDiff
import Verif.Lemmas.Cumtrapz
import Verif.Lemmas.Dt
import Verif.Lemmas.Fstar
import Verif.Lemmas.Interp
import Verif.Lemmas.Line
import Verif.Lemmas.NdHist
import Verif.Lemmas.Output
import Verif.Lemmas.Pop
import Verif.Lemmas.PopAutoDiff
import Verif.Lemmas.RoundInterp
import Verif.Lemmas.Rounding
import Verif.Lemmas.Sfh
import Verif.Lemmas.Sigmoid
import Verif.Lemmas.Smooth
import Verif.Lemmas.SmoothPop
import Verif.Lemmas.Targets
import Verif.Lemmas.Text
import Verif.Lemmas.TraceBad
import Verif.Lemmas.TraceNan
import Verif.Lemmas.TraceSens
import Verif.Lemmas.Triweight
import Verif.Model.Adam
import Verif.Model.AutoDiff
import Verif.Model.CatFiles
import Verif.Model.CenSat
import Verif.Model.FitDrivers
import Verif.Model.FitGrad
import Verif.Model.FitLoss
import Verif.Model.FitScripts
import Verif.Model.FitTables
import Verif.Model.GalacticusBlock
import Verif.Model.GalacticusMah
import Verif.Model.GalpopBounds
import Verif.Model.Interrupt
import Verif.Model.Loaders
import Verif.Model.LossData
import Verif.Model.MainSequence
import Verif.Model.MstarTarget
import Verif.Model.NdHist
import Verif.Model.Output
import Verif.Model.PopAutoDiff
import Verif.Model.PopFields
import Verif.Model.PopFit
import Verif.Model.PopGrad
import Verif.Model.PopKernel
import Verif.Model.PopLoss
import Verif.Model.PopMinimizer
import Verif.Model.PopParams
import Verif.Model.PopTables
import Verif.Model.PopUtils
import Verif.Model.Quality
import Verif.Model.QualityMain
import Verif.Model.QualityRows
import Verif.Model.Quenching
import Verif.Model.RankFiles
import Verif.Model.RoundDraw
import Verif.Model.RoundFstar
import Verif.Model.RoundGas
import Verif.Model.RoundHist
import Verif.Model.RoundJoint
import Verif.Model.RoundLoss
import Verif.Model.RoundPipeline
import Verif.Model.RoundPop
import Verif.Model.RoundRange
import Verif.Model.RoundSpecial
import Verif.Model.Rounding
import Verif.Model.SampleArrays
import Verif.Model.SatQuench
import Verif.Model.SaveLoss
import Verif.Model.Sfh
import Verif.Model.SfhPdf
import Verif.Model.SimLoaders
import Verif.Model.SsfrTarget
import Verif.Model.SubvolFiles
import Verif.Model.Targets
import Verif.Model.TestRuns
import Verif.Model.Text
import Verif.Model.TngRanks
import Verif.Model.Utils
import Verif.Props.AdamSteps
import Verif.Props.BestFit
import Verif.Props.CatFiles
import Verif.Props.CatalogueLimit
import Verif.Props.CenSat
import Verif.Props.Concentration
import Verif.Props.Converge
import Verif.Props.DefaultGalaxy
import Verif.Props.DrawLaw
import Verif.Props.Efficiency
import Verif.Props.EndToEnd
import Verif.Props.Expectation
import Verif.Props.FitAutoDiff
import Verif.Props.FitContinuity
import Verif.Props.FitDrivers
import Verif.Props.FitGrad
import Verif.Props.FitLoss
import Verif.Props.FitLossValue
import Verif.Props.FitScripts
import Verif.Props.FitTables
import Verif.Props.FitTruth
import Verif.Props.FitWindow
import Verif.Props.Fstar
import Verif.Props.GalacticusBlock
import Verif.Props.GalacticusMah
import Verif.Props.GalpopBounds
import Verif.Props.HaloDraws
import Verif.Props.HaloErrors
import Verif.Props.Hist
import Verif.Props.Identifiable
import Verif.Props.Interrupt
import Verif.Props.Line
import Verif.Props.Loaders
import Verif.Props.LossData
import Verif.Props.LossLimit
import Verif.Props.LossRange
import Verif.Props.Misc
import Verif.Props.MstarTarget
import Verif.Props.Output
import Verif.Props.Params
import Verif.Props.Pop
import Verif.Props.PopAutoDiff
import Verif.Props.PopCov
import Verif.Props.PopFit
import Verif.Props.PopGrad
import Verif.Props.PopLimit
import Verif.Props.PopLoss
import Verif.Props.PopMeaning
import Verif.Props.PopMinimizer
import Verif.Props.PopNan
import Verif.Props.PopNanSsfr
import Verif.Props.PopSmooth
import Verif.Props.PopStable
import Verif.Props.PopTraceNan
import Verif.Props.Quality
import Verif.Props.QualityMain
import Verif.Props.QualityRows
import Verif.Props.RankFiles
import Verif.Props.Reproducible
import Verif.Props.RoundAvg
import Verif.Props.RoundBoundSharp
import Verif.Props.RoundDraw
import Verif.Props.RoundDrawSfr
import Verif.Props.RoundFb
import Verif.Props.RoundFstar
import Verif.Props.RoundGas
import Verif.Props.RoundHist
import Verif.Props.RoundInfinite
import Verif.Props.RoundJoint
import Verif.Props.RoundJointPipeline
import Verif.Props.RoundLine
import Verif.Props.RoundLoss
import Verif.Props.RoundMass
import Verif.Props.RoundParams
import Verif.Props.RoundPipeline
import Verif.Props.RoundPop
import Verif.Props.RoundPopErr
import Verif.Props.RoundQuench
import Verif.Props.RoundRange
import Verif.Props.RoundRangeBounds
import Verif.Props.RoundRangeKern
import Verif.Props.RoundRangeSim
import Verif.Props.RoundSfr
import Verif.Props.RoundSpecial
import Verif.Props.RoundTrip
import Verif.Props.RoundTw
import Verif.Props.SampleArrays
import Verif.Props.SatFit
import Verif.Props.SatSens
import Verif.Props.SaveLoss
import Verif.Props.Sfh
import Verif.Props.SimLoaders
import Verif.Props.Smh
import Verif.Props.Smooth
import Verif.Props.SsfrTarget
import Verif.Props.Stability
import Verif.Props.SubvolFiles
import Verif.Props.SubvolNames
import Verif.Props.Symmetry
import Verif.Props.Targets
import Verif.Props.TargetsPool
import Verif.Props.TestRuns
import Verif.Props.TimeShift
import Verif.Props.TimeTables
import Verif.Props.TngRanks
import Verif.Props.WeightedNoise
import Verif.Spec
