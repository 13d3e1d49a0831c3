import Verif.Model.Py
import Mathlib.Data.Nat.Sqrt

/-
Layout, data selection and return codes of anticipy/forecast_plot.py. Drawing calls are not modelled: a plot is the list of
panels with their grid position and the rows drawn there.
-/
namespace Anticipy

/-- `int(np.ceil(np.sqrt(n)))`, forecast_plot.py 421 (the float square root is exact enough below 2^52). -/
def gridRows (n : Nat) : Nat := if n.sqrt * n.sqrt = n then n.sqrt else n.sqrt + 1

/-- `int(np.ceil(1. * n / nrows))`, forecast_plot.py 422; no sources give a division by zero. -/
def gridCols (n nrows : Nat) : Res Nat := if nrows = 0 then .error .zeroDivisionError else .ok ((n + nrows - 1) / nrows)

/-- The position after `(x, y)`, forecast_plot.py 156-160 (matplotlib, counting from 0) and 323-327 (plotly, counting from 1). -/
def nextCell (ncols base : Nat) (c : Nat × Nat) : Nat × Nat :=
  if c.2 + 1 ≥ ncols + base then (c.1 + 1, base) else (c.1, c.2 + 1)

/-- The loop over sources, forecast_plot.py 109-160 and 245-327: the position used for each source; positions outside the grid raise (`axes[x, y]`
`IndexError`, plotly's `add_trace` an `Exception`, both recorded as `IndexError`). Also returns the final position. -/
def placeSources {α : Type} (nrows ncols base : Nat) : List α → Nat × Nat → Res (List (α × (Nat × Nat)) × (Nat × Nat))
  | [], c => .ok ([], c)
  | s :: ss, c =>
    if c.1 < nrows + base ∧ c.2 < ncols + base then do
      let (l, c') ← placeSources nrows ncols base ss (nextCell ncols base c)
      .ok ((s, c) :: l, c')
    else .error .indexError

/-- Inner `while y < ncols`, forecast_plot.py 164-166. -/
def hideRow (x y ncols : Nat) : List (Nat × Nat) := (List.range (ncols - y)).map fun i => (x, y + i)

/-- `while x < nrows`, forecast_plot.py 163-169: cells made invisible, starting at the position after the last source. -/
def hideRest : Nat → Nat → Nat → Nat → List (Nat × Nat)
  | 0, _, _, _ => []
  | k + 1, x, y, ncols => hideRow x y ncols ++ hideRest k (x + 1) 0 ncols

/-- A row of the forecast table as used for plotting. (forecast_plot.py 372-400) -/
structure PlotRow (K : Type) where
  source : Option String
  isActuals : Bool
  model : String
  date : Int
  y : Option K
  deriving DecidableEq, Repr

/-- A panel: position in the grid and the drawn actuals and forecast rows. (forecast_plot.py 109-160, 245-327) -/
structure Panel (K : Type) where
  source : String
  cell : Nat × Nat
  actuals : List (PlotRow K)
  forecast : List (PlotRow K)
  deriving DecidableEq, Repr

/-- First occurrences (`unique()`). (forecast_plot.py 420) -/
def uniq (l : List String) : List String := dedupBy (fun s : String => s) l

/-- Layout chosen by `plot_forecast`, forecast_plot.py 417-428: whether there are panels per source, the sources, rows and columns. A `source` column
exists if some row has a source. Null sources are not counted by `nunique`; in the modelled tables the sources of actuals are not null. -/
def plotLayout {K : Type} (hasSource : Bool) (rows : List (PlotRow K)) : Res (Bool × List String × Nat × Nat) :=
  if hasSource && decide ((uniq (rows.filterMap fun r => r.source)).length > 1) then do
    let sources := uniq ((rows.filter fun r => r.isActuals).filterMap fun r => r.source)
    let nrows := gridRows sources.length
    let ncols ← gridCols sources.length nrows
    .ok (true, sources, nrows, ncols)
  else .ok (false, ["y"], 1, 1)

/-- Rows drawn in the panel of a source, forecast_plot.py 110-124 and 247-291. -/
def panelRows {K : Type} (subplots : Bool) (src : String) (rows : List (PlotRow K)) : List (PlotRow K) :=
  if subplots then rows.filter fun r => decide (r.source = some src) else rows

/-- `_matplotlib_forecast_create` (forecast_plot.py 54-171; `base` 0, rows of the weight model removed first, line 99) and
`_plotly_forecast_create` (lines 174-365; `base` 1). -/
def createPlot {K : Type} (matplotlib : Bool) (subplots : Bool) (sources : List String) (nrows ncols : Nat) (rows : List (PlotRow K)) :
    Res (List (Panel K) × List (Nat × Nat)) := do
  let base := if matplotlib then 0 else 1
  let rows := if matplotlib then rows.filter fun r => decide (r.model ≠ "weight") else rows
  let (placed, last) ← placeSources nrows ncols base sources (base, base)
  let panels := placed.map fun p =>
    let own := panelRows subplots p.1 rows
    Panel.mk p.1 p.2 (own.filter fun r => r.isActuals) (own.filter fun r => !r.isActuals)
  .ok (panels, if matplotlib then hideRest (nrows - last.1) last.1 last.2 ncols else [])

/-- What a call of `plot_forecast` leaves behind. (forecast_plot.py 430-479) -/
inductive PlotEffect (K : Type) where
  | nothing
  | file (path : String) (panels : List (Panel K))
  | shown (panels : List (Panel K))
  deriving DecidableEq

/-- Return value: an integer code, or whatever plotly's `iplot` returns (forecast_plot.py 463-471). -/
inductive PlotReturn where
  | code (n : Nat)
  | iplot
  deriving DecidableEq, Repr

/-- Installed libraries. (forecast_plot.py 20-50) -/
structure PlotLibs where
  matplotlib : Bool
  plotly : Bool
  ipython : Bool

/-- `not path`, forecast_plot.py 413. -/
def pathMissing : Option String → Bool
  | none => true
  | some p => decide (p = "")

/-- `plot_forecast`, forecast_plot.py 368-480 (`path` `none` or empty = no path). -/
def plotForecast {K : Type} (libs : PlotLibs) (hasSource : Bool) (rows : List (PlotRow K)) (output : String) (path : Option String) :
    Res (PlotReturn × PlotEffect K) := do
  if pathMissing path && (decide (output = "html") || decide (output = "png")) then .ok (.code 1, .nothing)
  else do
    let (subplots, sources, nrows, ncols) ← plotLayout hasSource rows
    if output = "png" then
      if libs.matplotlib then do
        let (panels, _) ← createPlot true subplots sources nrows ncols rows
        .ok (.code 0, .file (path.getD "" ++ ".png") panels)
      else .ok (.code 0, .nothing)
    else if output = "html" then
      if libs.plotly then do
        let (panels, _) ← createPlot false subplots sources nrows ncols rows
        .ok (.code 0, .file (path.getD "" ++ ".html") panels)
      else .ok (.code 0, .nothing)
    else if output = "jupyter" then
      if libs.plotly && libs.ipython then do
        let (panels, _) ← createPlot false subplots sources nrows ncols rows
        .ok (.iplot, .shown panels)
      else .ok (.code 0, .nothing)
    else .ok (.code 1, .nothing)

end Anticipy
