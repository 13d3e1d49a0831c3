import Verif.Model.Plot
import Verif.Model.Interval

/-
Plots of tables with prediction intervals, and the size of a plot: the parts of anticipy/forecast_plot.py that Model/Plot.lean leaves out. A column
`q{p}` of the table is given by its percentile `p`; percentiles are integers (forecast_plot.py 406-409), so that different percentiles have different
names. Limits of plotly for the spacing of very many panels are not modelled.
-/
namespace Anticipy

/-- Arguments of `plot_forecast` for size and intervals, forecast_plot.py 368-374. -/
structure PlotOpts where
  width : Option Nat := none
  height : Option Nat := none
  interval : Bool := false
  q1 : Int := 5
  q2 : Int := 20

/-- A filled area: the two percentiles, and date, lower and upper value of its points. (forecast_plot.py 126-147, 278-321) -/
structure Band (K : Type) where
  low : Int
  high : Int
  points : List (Timestamp × Option K × Option K)
  deriving DecidableEq, Repr

section
variable {K : Type}

/-- A row of a table with intervals as seen by the code for panels. (forecast_plot.py 109-124) -/
def plotRowOfPi (r : PRow K) : PlotRow K := ⟨r.source, r.isActuals, r.model, r.date, r.y⟩

variable [Field K] [LinearOrder K]

/-- `'q{p}' in df_fcast.columns`, forecast_plot.py 128, 139 and 283-284: a column exists if some row has an entry for it. -/
def hasQuantile (rows : List (PRow K)) (p : Int) : Bool := rows.any fun r => r.q.any fun e => decide (e.1 = (p : K))

/-- Cell in column `q{p}`; null if the row has no entry. (forecast_plot.py 130-133, 288-289) -/
def quantileOf (r : PRow K) (p : Int) : Option K := (r.q.find? fun e => decide (e.1 = (p : K))).bind fun e => e.2

/-- Forecast rows of a panel, forecast_plot.py 110-114 and 247-252. -/
def bandRows (subplots : Bool) (src : String) (rows : List (PRow K)) : List (PRow K) :=
  (if subplots then rows.filter fun r => decide (r.source = some src) else rows).filter fun r => !r.isActuals

/-- Areas of a panel of a png plot, forecast_plot.py 126-147: always the percentiles 5/95 and 20/80, where both values are not null. Rows of the weight model
have been removed (line 99). -/
def pngBands (opts : PlotOpts) (subplots : Bool) (src : String) (rows : List (PRow K)) : List (Band K) :=
  let rows := rows.filter fun r => decide (r.model ≠ "weight")
  ([(5, 95), (20, 80)].filter fun c : Int × Int => opts.interval && hasQuantile rows c.1 && hasQuantile rows c.2).map fun c =>
    ⟨c.1, c.2, ((bandRows subplots src rows).filter fun r => (quantileOf r c.1).isSome && (quantileOf r c.2).isSome).map fun r =>
      (r.date, quantileOf r c.1, quantileOf r c.2)⟩

/-- Areas of a panel of a plotly plot, forecast_plot.py 278-321. -/
def plotlyBands (opts : PlotOpts) (subplots : Bool) (src : String) (rows : List (PRow K)) : List (Band K) :=
  ([opts.q1, opts.q2].filter fun p => opts.interval && hasQuantile rows p && hasQuantile rows (100 - p)).map fun p =>
    ⟨p, 100 - p, (bandRows subplots src rows).map fun r => (r.date, quantileOf r p, quantileOf r (100 - p))⟩

/-- Computations with the size of the plot: `width / dpi` and `height / dpi` need numbers (forecast_plot.py 96), `50. / height` a height other
than 0 (line 222). -/
def checkSize (matplotlib : Bool) (opts : PlotOpts) : Res Unit :=
  if matplotlib then
    if opts.width.isNone || opts.height.isNone then .error .typeError else .ok ()
  else if opts.height = some 0 then .error .zeroDivisionError else .ok ()

/-- Is a plot created, and is it made with matplotlib? (forecast_plot.py 430-478) -/
def usedLibrary (libs : PlotLibs) (output : String) : Option Bool :=
  if output = "png" then (if libs.matplotlib then some true else none)
  else if output = "html" then (if libs.plotly then some false else none)
  else if output = "jupyter" then (if libs.plotly && libs.ipython then some false else none)
  else none

/-- The panels of a plot. (forecast_plot.py 430-479) -/
def PlotEffect.panels : PlotEffect K → List (Panel K)
  | .nothing => []
  | .file _ l => l
  | .shown l => l

/-- `plot_forecast` for a table with intervals, forecast_plot.py 368-480: as `plotForecast`, with size and filled areas. The layout is computed before the
size is used. -/
def plotWithBands (libs : PlotLibs) (hasSource : Bool) (rows : List (PRow K)) (output : String) (path : Option String) (opts : PlotOpts) :
    Res (PlotReturn × PlotEffect K × List (String × List (Band K))) := do
  if pathMissing path && (decide (output = "html") || decide (output = "png")) then .ok (.code 1, .nothing, [])
  else do
    let (subplots, _, _, _) ← plotLayout hasSource (rows.map plotRowOfPi)
    match usedLibrary libs output with
    | some b => checkSize b opts
    | none => .ok ()
    let (c, e) ← plotForecast libs hasSource (rows.map plotRowOfPi) output path
    .ok (c, e, e.panels.map fun p => (p.source, match usedLibrary libs output with
      | some true => pngBands opts subplots p.source rows
      | some false => plotlyBands opts subplots p.source rows
      | none => []))

end
end Anticipy
