import Verif.Model.Py
import Verif.Model.Time
import Verif.Model.Core
import Verif.Model.Zoo
import Verif.Model.ZooReal
import Verif.Model.Fix
import Verif.Model.Freq
import Verif.Spec.Calendar
import Verif.Lemmas.ListOps
import Verif.Lemmas.Time
import Verif.Lemmas.Grid
import Verif.Spec.Grid
import Verif.Spec.Fit
import Verif.Lemmas.OnGrid
import Verif.Spec.Expr
import Verif.Lemmas.Composition
import Verif.Props.Composition
import Verif.Spec.Cache
import Verif.Props.CacheValidate
import Verif.Props.Trends
import Verif.Props.RealModels
import Verif.Spec.Fix
import Verif.Props.Fixing
import Verif.Props.DetectFreq
import Verif.Lemmas.GridFn
import Verif.Props.Extrapolate
import Verif.Props.Interpolate
import Verif.Model.Normalize
import Verif.Props.Normalize
import Verif.Model.Aic
import Verif.Model.Fit
import Verif.Props.Aic
import Verif.Props.Fit
import Verif.Props.InitialGuess
import Verif.Model.Naive
import Verif.Spec.Naive
import Verif.Lemmas.Split
import Verif.Props.Naive
import Verif.Model.Interval
import Verif.Spec.Interval
import Verif.Lemmas.Interval
import Verif.Props.Interval
import Verif.Model.Candidates
import Verif.Spec.Candidates
import Verif.Props.Candidates
import Verif.Model.Outliers
import Verif.Spec.Outliers
import Verif.Lemmas.Outliers
import Verif.Props.Outliers
import Verif.Model.Run
import Verif.Spec.Run
import Verif.Props.Run
import Verif.Props.RunTables
import Verif.Props.Sources
import Verif.Props.Start
import Verif.Props.RunExamples
import Verif.Props.Score
import Verif.Props.RunValues
import Verif.Model.Holidays
import Verif.Spec.Holidays
import Verif.Props.Holidays
import Verif.Props.HolidayMasks
import Verif.Props.BankHolidays
import Verif.Props.CalendarModels
import Verif.Model.Plot
import Verif.Props.Plot
import Verif.Model.App
import Verif.Props.App
import Verif.Props.FixedModels
import Verif.Model.InterpolateY
import Verif.Spec.LinearFill
import Verif.Props.InterpolateY
import Verif.Model.MultStats
import Verif.Spec.MultStats
import Verif.Props.MultStats
import Verif.Model.Columns
import Verif.Spec.Columns
import Verif.Props.Columns
import Verif.Spec.Recovery
import Verif.Props.Recovery
import Verif.Props.Weekly
import Verif.Spec.Units
import Verif.Props.Units
import Verif.Props.UnitModels
import Verif.Props.UnitChoice
import Verif.Spec.Conditions
import Verif.Props.Conditions
import Verif.Props.ReadyDummies
import Verif.Spec.Misfit
import Verif.Props.Unique
import Verif.Props.SolverChoice
import Verif.Spec.Superposition
import Verif.Props.Superposition
import Verif.Spec.Similar
import Verif.Props.Similar
import Verif.Props.WeightChoice
import Verif.Props.AppRun
import Verif.Spec.RowOrder
import Verif.Props.RowOrder
import Verif.Spec.DailyRun
import Verif.Props.DailyRun
import Verif.Spec.Total
import Verif.Props.Total
import Verif.Props.TotalTable
import Verif.Props.TotalLong
import Verif.Spec.Horizon
import Verif.Lemmas.Horizon
import Verif.Props.PointByPoint
import Verif.Props.Horizon
import Verif.Spec.NullRows
import Verif.Props.NullRows
import Verif.Spec.MoreModels
import Verif.Props.MoreModels
import Verif.Spec.Identity
import Verif.Props.Identity
import Verif.Props.StartRows
import Verif.Props.ReportedValues
import Verif.Spec.Labels
import Verif.Props.Labels
import Verif.Spec.Balance
import Verif.Props.Balance
import Verif.Props.ComesTrue
import Verif.Props.Level
import Verif.Spec.UnitWeights
import Verif.Props.UnitWeights
import Verif.Spec.IntervalUnits
import Verif.Props.IntervalUnits
import Verif.Props.IntervalRuns
import Verif.Spec.CountryCalendars
import Verif.Props.CountryCalendars
import Verif.Spec.LoneOutliers
import Verif.Props.LoneOutliers
import Verif.Props.LoneOutlierRuns
import Verif.Model.Output
import Verif.Spec.Output
import Verif.Props.Output
import Verif.Model.Dummy
import Verif.Props.Dummy
import Verif.Spec.Descriptions
import Verif.Props.Descriptions
import Verif.Props.Additive
import Verif.Props.Arity
import Verif.Props.Reflected
import Verif.Spec.TableSeries
import Verif.Props.TableSeries
import Verif.Props.AdditiveTable
import Verif.Props.SeriesTable
import Verif.Spec.Starting
import Verif.Props.Starting
import Verif.Props.EachSeries
import Verif.Spec.Pattern
import Verif.Props.Pattern
import Verif.Spec.Nested
import Verif.Lemmas.ExactSolver
import Verif.Props.Nested
import Verif.Props.NestedFourier
import Verif.Spec.Formulas
import Verif.Props.Formulas
import Verif.Spec.Repeated
import Verif.Props.Repeated
import Verif.Spec.Widening
import Verif.Lemmas.Averages
import Verif.Props.Widening
import Verif.Spec.Leverage
import Verif.Props.Leverage
import Verif.Spec.Ignored
import Verif.Props.Ignored
import Verif.Spec.Order
import Verif.Props.Order
import Verif.Props.GroupMeans
import Verif.Spec.OneOff
import Verif.Props.OneOff
import Verif.Spec.Shape
import Verif.Props.Shape
import Verif.Model.PlotBands
import Verif.Spec.PlotBands
import Verif.Props.PlotBands
import Verif.Spec.Recomputed
import Verif.Props.Recomputed
import Verif.Props.Refit
import Verif.Props.StartAdditive
import Verif.Props.NullRowsSeries
import Verif.Props.AutoNulls
import Verif.Props.OnlyCounted
import Verif.Props.MoreWeight
import Verif.Props.Factors
import Verif.Props.Rising
import Verif.Props.Reported
import Verif.Props.WildValue
import Verif.Spec.Chosen
import Verif.Props.Chosen
import Verif.Spec.Regression
import Verif.Props.Regression
import Verif.Spec.TotalWeekly
import Verif.Props.TotalWeekly
import Verif.Spec.Parsimony
import Verif.Props.Parsimony
import Verif.Spec.Explained
import Verif.Props.Explained
import Verif.Props.WeightIntervals
import Verif.Props.MovedIntervals
import Verif.Spec.Copies
import Verif.Props.Copies
import Verif.Props.CopiedRuns
import Verif.Props.CopiedTables
import Verif.Props.Higher
import Verif.Props.SameScore
import Verif.Props.TotalNumeric
import Verif.Props.TotalComplete
import Verif.Spec.ScoreCovers
import Verif.Props.ScoreCovers
import Verif.Props.TotalNumericSources
import Verif.Spec.NumericLine
import Verif.Props.NumericLine
import Verif.Props.NumericNaive
import Verif.Props.Detrended
import Verif.Props.KnownChanges
import Verif.Props.BalanceRow
import Verif.Props.Inside
import Verif.Props.InsideRuns
import Verif.Props.UnitTables
import Verif.Spec.Coverage
import Verif.Props.Coverage
import Verif.Props.CoverageRuns
import Verif.Props.CoverageTables
import Verif.Props.HigherChanges
import Verif.Spec.ConstantWidth
import Verif.Props.ConstantWidth
import Verif.Axioms
