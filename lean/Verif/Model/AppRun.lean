import Verif.Model.App
import Verif.Model.Columns
import Verif.Model.Plot

/-
The command line app from end to end, anticipy/app.py 38-167.
-/
namespace Anticipy

/-- Arguments of `run_forecast_app`, app.py 38-44. -/
structure AppArgs where
  pathIn : Option Path
  pathOut : Option Path
  years : ℚ
  cols : ColNames
  includeAll : Bool
  format : String
  deriving DecidableEq, Repr

/-- Values of the parameters that are passed by position. (app.py 152-162) -/
inductive ArgVal where
  | path (p : Option Path)
  | years (q : ℚ)
  | text (s : String)
  | flag (b : Bool)
  deriving DecidableEq, Repr

/-- Binding of positional arguments to the parameters of `run_forecast_app`, in the order of its signature, app.py 38-44. A value of a
wrong kind is recorded as `TypeError`. -/
def bindApp : List ArgVal → Res AppArgs
  | [.path pathIn, .path pathOut, .years years, .text y, .text weight, .text x, .text date, .text source, .flag includeAll, .text format] =>
    .ok ⟨pathIn, pathOut, years, ⟨y, weight, x, date, source⟩, includeAll, format⟩
  | _ => .error .typeError

/-- What argparse returns for an option with a value: the last value given on the command line, or the default. Abbreviations of options and
`--name=value` are resolved by argparse before. (app.py 106-140) -/
def optionValue (given : List (String × String)) (name : String) : Option String :=
  ((given.filter fun p => decide (p.1 = name)).getLast?).map fun p => p.2

/-- `type=float` with default 2.0, app.py 112-116; `toYears` is Python's `float`. -/
def yearsOption (toYears : String → Res ℚ) (given : List (String × String)) : Res ℚ :=
  match optionValue given "--forecast_years" with
  | some s => toYears s
  | none => .ok 2

/-- `main`, app.py 105-162: `given` are the options with values in the order of the command line, `includeAll` tells whether
`--include_all_fits` is present. The values are passed by position. -/
def mainCall (toYears : String → Res ℚ) (given : List (String × String)) (includeAll : Bool) : Res (List ArgVal) := do
  let years ← yearsOption toYears given
  .ok [.path ((optionValue given "--path_in").map String.toList), .path ((optionValue given "--path_out").map String.toList), .years years,
    .text ((optionValue given "--col_name_y").getD "y"), .text ((optionValue given "--col_name_weight").getD "weight"),
    .text ((optionValue given "--col_name_x").getD "x"), .text ((optionValue given "--col_name_date").getD "date"),
    .text ((optionValue given "--col_name_source").getD "source"), .flag includeAll, .text ((optionValue given "--output_format").getD "png")]

/-- Arguments that `main` passes to `run_forecast_app`. (app.py 105-162) -/
def mainArgs (toYears : String → Res ℚ) (given : List (String × String)) (includeAll : Bool) : Res AppArgs := do
  let vals ← mainCall toYears given includeAll
  bindApp vals

section
variable {V K : Type} [Field K] [LinearOrder K] [FloorRing K]

/-- Defaults of `run_forecast` except for years and `include_all_fits`, forecast.py 804-825. -/
def runDefaults (years : ℚ) (includeAll : Bool) : RunArgs K :=
  { models := ⟨none, none, .add, none, none, none, none⟩, start := none, years := years, includeAll := includeAll, findOutliers := false,
    nCum := none, q1 := 5, q2 := 20, widening := .Y, useCache := true }

/-- A row of the data table as seen by `plot_forecast`. (app.py 97-99) -/
def plotRowOf (r : DRow K) : PlotRow K := ⟨some r.source, r.isActuals, r.model, r.date, r.y⟩

/-- What a run of the app leaves behind: the two tables with their paths, and what plotting did. An exception while plotting ends the app with
that exception, but the tables have been written by then. (app.py 93-103) -/
structure AppFiles (K : Type) where
  data : Path × List (DRow K)
  metadata : Path × List (MRow K)
  plot : Res (PlotReturn × PlotEffect K)

/-- The date column is parsed before anything else is checked, app.py 75-76. Parsed dates are unchanged by the second conversion in
`normalize_df`, so that the table itself is left as it is here. -/
def parseDates (conv : Conv V K) (name : String) (t : RawTable V) : Res Unit :=
  match colOf t.cols name with
  | some c => do
    let _ ← c.mapM conv.toDate
    .ok ()
  | none => .ok ()

/-- `AssertionError` while plotting is logged only, app.py 97-102. -/
def appPlot (libs : PlotLibs) (data : List (DRow K)) (format : String) (path : Path) : Res (PlotReturn × PlotEffect K) :=
  match plotForecast libs true (data.map plotRowOf) format (some (String.ofList path)) with
  | .error .assertionError => .ok (.code 1, .nothing)
  | r => r

/-- `run_forecast_app`, app.py 38-103. `csv` is the table that `pd.read_csv` returns for a path; it has no date index. `run_forecast` gets the
normalized table, with standard column names, and normalizes it again; for an empty file it gets `None`, which raises `AssertionError`
(forecast.py 326). -/
def appRun (w : World K) (conv : Conv V K) (libs : PlotLibs) (fs : FileSystem) (csv : Path → RawTable V) (a : AppArgs) : Res (AppFiles K) := do
  let paths ← appPaths fs a.pathIn a.pathOut
  let t := csv (a.pathIn.getD [])
  parseDates conv a.cols.date t
  match ← normalizeRaw w.srt conv a.cols t with
  | none => .error .assertionError
  | some s =>
    match ← runForecast w (runDefaults a.years a.includeAll) "src" s with
    | none => .error .typeError
    | some r => .ok ⟨(paths.data, r.data), (paths.metadata, r.metadata), appPlot libs r.data a.format paths.plot⟩

end
end Anticipy
