import Verif.Model.Base
import Verif.Model.Config
import Verif.Model.Decay
import Verif.Model.DsExtract
import Verif.Model.FillSpectrum
import Verif.Model.Fit
import Verif.Model.FitGrid
import Verif.Model.FitInit
import Verif.Model.FitLimit
import Verif.Model.FitParameter
import Verif.Model.FitPreMade
import Verif.Model.FitSession
import Verif.Model.Float
import Verif.Model.FloatShift
import Verif.Model.FloatSmear
import Verif.Model.FloatStat
import Verif.Model.FloatSum
import Verif.Model.Klz
import Verif.Model.Limit
import Verif.Model.LimitSave
import Verif.Model.LimitSummary
import Verif.Model.Minimise
import Verif.Model.NdArray
import Verif.Model.Plot
import Verif.Model.PlotChi
import Verif.Model.PlotResults
import Verif.Model.PreConvolved
import Verif.Model.Resolution
import Verif.Model.Scripts
import Verif.Model.Sensitivity
import Verif.Model.Sharing
import Verif.Model.Shift
import Verif.Model.Smear
import Verif.Model.Spectra
import Verif.Model.Store
import Verif.Model.TestStatistic
import Verif.Model.Utilities
import Verif.Model.Whole
import Verif.Spec.Blank
import Verif.Spec.Closure
import Verif.Spec.Coarser
import Verif.Spec.Combined
import Verif.Spec.Config
import Verif.Spec.ConvScale
import Verif.Spec.Convex
import Verif.Spec.ConvexFit
import Verif.Spec.Decay
import Verif.Spec.DsExtract
import Verif.Spec.Events
import Verif.Spec.Examples
import Verif.Spec.Expects
import Verif.Spec.ExposureLimit
import Verif.Spec.FillSpectrum
import Verif.Spec.Fit
import Verif.Spec.FitExamples
import Verif.Spec.FitGrid
import Verif.Spec.FitInit
import Verif.Spec.FitLimit
import Verif.Spec.FitNumbers
import Verif.Spec.FitParameter
import Verif.Spec.FitPreMade
import Verif.Spec.FitSession
import Verif.Spec.FitSystematic
import Verif.Spec.FitWhole
import Verif.Spec.Fixing
import Verif.Spec.Float
import Verif.Spec.FloatStat
import Verif.Spec.FloatSum
import Verif.Spec.Freedom
import Verif.Spec.GridBetween
import Verif.Spec.GridIndex
import Verif.Spec.GridSet
import Verif.Spec.Limit
import Verif.Spec.LimitBins
import Verif.Spec.LimitProfile
import Verif.Spec.LimitSummary
import Verif.Spec.LimitWhole
import Verif.Spec.LogDeviation
import Verif.Spec.Looser
import Verif.Spec.Merge
import Verif.Spec.Minimise
import Verif.Spec.MinimiseRepeated
import Verif.Spec.MoreData
import Verif.Spec.Normalise
import Verif.Spec.Outside
import Verif.Spec.Plot
import Verif.Spec.PlotResults
import Verif.Spec.PreConvolved
import Verif.Spec.Priors
import Verif.Spec.Project
import Verif.Spec.Projections
import Verif.Spec.Ranking
import Verif.Spec.Recover
import Verif.Spec.Reorder
import Verif.Spec.Resolution
import Verif.Spec.Scripts
import Verif.Spec.Sensitivity
import Verif.Spec.Sharing
import Verif.Spec.Shift
import Verif.Spec.SideBands
import Verif.Spec.SingleBin
import Verif.Spec.Spectra
import Verif.Spec.Store
import Verif.Spec.TestStatistic
import Verif.Spec.Whole
import Verif.Lemmas.Add
import Verif.Lemmas.Base
import Verif.Lemmas.Blank
import Verif.Lemmas.Coarser
import Verif.Lemmas.Combined
import Verif.Lemmas.Config
import Verif.Lemmas.ConfigLoad
import Verif.Lemmas.ConvScale
import Verif.Lemmas.Decay
import Verif.Lemmas.Events
import Verif.Lemmas.Except
import Verif.Lemmas.Expected
import Verif.Lemmas.ExpectedLimit
import Verif.Lemmas.Fill
import Verif.Lemmas.FillSpectrum
import Verif.Lemmas.Fit
import Verif.Lemmas.FitCache
import Verif.Lemmas.FitCalls
import Verif.Lemmas.FitConv
import Verif.Lemmas.FitEval
import Verif.Lemmas.FitExpected
import Verif.Lemmas.FitFixed
import Verif.Lemmas.FitFound
import Verif.Lemmas.FitFrame
import Verif.Lemmas.FitGrid
import Verif.Lemmas.FitInit
import Verif.Lemmas.FitInitRun
import Verif.Lemmas.FitLimit
import Verif.Lemmas.FitLimitFixed
import Verif.Lemmas.FitLimitGrid
import Verif.Lemmas.FitOff
import Verif.Lemmas.FitParameter
import Verif.Lemmas.FitPreMade
import Verif.Lemmas.FitPreMadeHist
import Verif.Lemmas.FitPreMadeRun
import Verif.Lemmas.FitRegion
import Verif.Lemmas.FitRun
import Verif.Lemmas.FitSession
import Verif.Lemmas.FitSystematic
import Verif.Lemmas.FitWhole
import Verif.Lemmas.FitWholeRun
import Verif.Lemmas.Fixing
import Verif.Lemmas.Float
import Verif.Lemmas.FloatAxis
import Verif.Lemmas.FloatBinary
import Verif.Lemmas.FloatFill
import Verif.Lemmas.FloatShift
import Verif.Lemmas.FloatShrink
import Verif.Lemmas.FloatSmear
import Verif.Lemmas.FloatSmearEx
import Verif.Lemmas.FloatSmearLoop
import Verif.Lemmas.FloatSmearSum
import Verif.Lemmas.FloatStat
import Verif.Lemmas.FloatStatLog
import Verif.Lemmas.FloatSum
import Verif.Lemmas.Freedom
import Verif.Lemmas.GridMinimise
import Verif.Lemmas.GridSearch
import Verif.Lemmas.Levels
import Verif.Lemmas.Limit
import Verif.Lemmas.LimitFloating
import Verif.Lemmas.LimitProfile
import Verif.Lemmas.LimitSummary
import Verif.Lemmas.LimitSystematic
import Verif.Lemmas.LimitWhole
import Verif.Lemmas.Minimise
import Verif.Lemmas.MoreData
import Verif.Lemmas.Names
import Verif.Lemmas.NdArray
import Verif.Lemmas.Normalise
import Verif.Lemmas.Outside
import Verif.Lemmas.Plot
import Verif.Lemmas.PreConvolved
import Verif.Lemmas.Project
import Verif.Lemmas.ProjectAll
import Verif.Lemmas.Projections
import Verif.Lemmas.Ranking
import Verif.Lemmas.Reach
import Verif.Lemmas.Rebin
import Verif.Lemmas.Recover
import Verif.Lemmas.RecoverCore
import Verif.Lemmas.Scripts
import Verif.Lemmas.Sensitivity
import Verif.Lemmas.SensitivityLimit
import Verif.Lemmas.SensitivityRun
import Verif.Lemmas.Sharing
import Verif.Lemmas.Shift
import Verif.Lemmas.Shrink
import Verif.Lemmas.SingleBin
import Verif.Lemmas.Smear
import Verif.Lemmas.StatConvex
import Verif.Lemmas.StatMerge
import Verif.Lemmas.Store
import Verif.Lemmas.StoreResults
import Verif.Lemmas.TestStatistic
import Verif.Lemmas.Whole
import Verif.Props.Add
import Verif.Props.Axis
import Verif.Props.Blank
import Verif.Props.Boundaries
import Verif.Props.Closure
import Verif.Props.ClosureOneSided
import Verif.Props.Coarser
import Verif.Props.Combined
import Verif.Props.Config
import Verif.Props.ConvScale
import Verif.Props.Convex
import Verif.Props.ConvexFit
import Verif.Props.Decay
import Verif.Props.DsExtract
import Verif.Props.Events
import Verif.Props.Expected
import Verif.Props.ExpectedFloating
import Verif.Props.Exposure
import Verif.Props.ExposureFloating
import Verif.Props.ExposureLimit
import Verif.Props.Fill
import Verif.Props.FillSpectrum
import Verif.Props.FitCache
import Verif.Props.FitConfig
import Verif.Props.FitExpected
import Verif.Props.FitFixed
import Verif.Props.FitFixedOnly
import Verif.Props.FitFound
import Verif.Props.FitGrid
import Verif.Props.FitInit
import Verif.Props.FitLimit
import Verif.Props.FitNumbers
import Verif.Props.FitParameter
import Verif.Props.FitPenalty
import Verif.Props.FitPreMade
import Verif.Props.FitRoi
import Verif.Props.FitSession
import Verif.Props.FitSystematic
import Verif.Props.FitUntouched
import Verif.Props.FitWhole
import Verif.Props.FitWholeFixed
import Verif.Props.Fixing
import Verif.Props.FixingAll
import Verif.Props.FloatAxis
import Verif.Props.FloatFill
import Verif.Props.FloatLog
import Verif.Props.FloatScale
import Verif.Props.FloatShift
import Verif.Props.FloatShrink
import Verif.Props.FloatSmear
import Verif.Props.FloatStat
import Verif.Props.FloatSum
import Verif.Props.Freedom
import Verif.Props.GridBetween
import Verif.Props.GridIndex
import Verif.Props.GridSet
import Verif.Props.History
import Verif.Props.Klz
import Verif.Props.Levels
import Verif.Props.Limit
import Verif.Props.LimitBins
import Verif.Props.LimitFloating
import Verif.Props.LimitProfile
import Verif.Props.LimitSave
import Verif.Props.LimitSummary
import Verif.Props.LimitSystematic
import Verif.Props.LimitWhole
import Verif.Props.Linear
import Verif.Props.LogDeviation
import Verif.Props.Looser
import Verif.Props.LooserFixing
import Verif.Props.Merge
import Verif.Props.Minimise
import Verif.Props.MinimiseRepeated
import Verif.Props.MoreData
import Verif.Props.MoreDataFloating
import Verif.Props.Normalise
import Verif.Props.Outside
import Verif.Props.Plot
import Verif.Props.PlotChi
import Verif.Props.PlotGraph
import Verif.Props.PlotPerBin
import Verif.Props.PlotResults
import Verif.Props.PlotSpectra
import Verif.Props.PlotSurface
import Verif.Props.PreConvolved
import Verif.Props.Priors
import Verif.Props.Project
import Verif.Props.Projections
import Verif.Props.Ranking
import Verif.Props.Reach
import Verif.Props.ReachStudy
import Verif.Props.Rebin
import Verif.Props.Recover
import Verif.Props.Reorder
import Verif.Props.Resolution
import Verif.Props.Scalings
import Verif.Props.ScalingsStudy
import Verif.Props.Scripts
import Verif.Props.ScriptsCombine
import Verif.Props.ScriptsFill
import Verif.Props.ScriptsNames
import Verif.Props.ScriptsShift
import Verif.Props.ScriptsSmear
import Verif.Props.Sensitivity
import Verif.Props.SensitivityLimit
import Verif.Props.Sharing
import Verif.Props.Shift
import Verif.Props.ShiftMix
import Verif.Props.ShiftSlices
import Verif.Props.Shrink
import Verif.Props.SideBands
import Verif.Props.SingleBin
import Verif.Props.Smear
import Verif.Props.Store
import Verif.Props.StoreFiles
import Verif.Props.StoreResults
import Verif.Props.TestStatistic
import Verif.Props.Utilities
import Verif.Props.Whole
