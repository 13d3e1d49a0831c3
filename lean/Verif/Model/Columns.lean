import Verif.Model.Normalize
import Verif.Model.Run

/-
Column names in `normalize_df` (anticipy/forecast.py 299-357, 395-399) and the batch interface `run_l_forecast` (1432-1515).
-/
namespace Anticipy

/-- A table as the user passes it: number of rows, the dates of a `DatetimeIndex` if the index is one, and named columns of cells. (forecast.py 299-336) -/
structure RawTable (V : Type) where
  n : Nat
  index : Option (List Timestamp)
  cols : List (String × List V)

/-- The `col_name_*` arguments, forecast.py 299-304. -/
structure ColNames where
  y : String
  weight : String
  x : String
  date : String
  source : String
  deriving DecidableEq, Repr

/-- Their defaults. (forecast.py 299-304) -/
def ColNames.std : ColNames := ⟨"y", "weight", "x", "date", "source"⟩

/-- Conversions of cells: `astype(float)` (forecast.py 356), `pd.to_datetime` (lines 370-373); weights, x and labels are taken as they are. -/
structure Conv (V K : Type) where
  toFloat : V → Res (Option K)
  toDate : V → Res Timestamp
  weight : V → Option K
  x : V → Int
  label : V → Option String

variable {V K : Type}

/-- New name of a column, forecast.py 339-346. In a Python dict literal the last of several equal keys counts. -/
def ColNames.rename (a : ColNames) (n : String) : String :=
  if n = a.source then "source"
  else if n = a.date then "date"
  else if n = a.x then "x"
  else if n = a.weight then "weight"
  else if n = a.y then "y"
  else n

/-- A column by name. Duplicate names (two columns renamed alike) are not modelled; the first one is taken. (forecast.py 346-384) -/
def colOf (cols : List (String × List V)) (name : String) : Option (List V) := (cols.find? fun c => decide (c.1 = name)).map fun c => c.2

/-- Rows of a table with standard column names; cells of missing columns are arbitrary. (forecast.py 346-386) -/
def buildRows (conv : Conv V K) (n : Nat) (dates : List Timestamp) (ys : List (Option K)) (weights xs labels : List V) : List (SRow K) :=
  (List.range n).map fun i : Nat =>
    { date := (dates[i]?).getD 0, source := ((labels[i]?).map conv.label).getD none, x := ((xs[i]?).map conv.x).getD 0,
      y := (ys[i]?).getD none, weight := ((weights[i]?).map conv.weight).getD none }

/-- Dates from the date column, or else from the index, forecast.py 367-373. The conversion happens source by source; as it has no effect other than
raising an exception, it is done at once here. -/
def rawDates (conv : Conv V K) (index : Option (List Timestamp)) : Option (List V) → Res (Option (List Timestamp))
  | some c => (c.mapM conv.toDate).map some
  | none => .ok index

/-- forecast.py 326-356: checks, renaming, conversion of y, and the table with standard columns. `none` is `None` for an empty table. -/
def standardise (conv : Conv V K) (a : ColNames) (t : RawTable V) : Res (Option (STable K)) :=
  if t.n = 0 ∨ t.cols = [] then .ok none
  else do
    pyAssert (decide (a.y ∈ t.cols.map Prod.fst))
    let cols := t.cols.map fun c => (a.rename c.1, c.2)
    match colOf cols "y" with
    | none => .error .keyError
    | some cells =>
      let ys ← cells.mapM conv.toFloat
      let dates ← rawDates conv t.index (colOf cols "date")
      .ok (some
        { hasDate := dates.isSome, hasSource := (colOf cols "source").isSome, hasX := (colOf cols "x").isSome, hasWeight := (colOf cols "weight").isSome,
          rows := buildRows conv t.n (dates.getD []) ys ((colOf cols "weight").getD []) ((colOf cols "x").getD []) ((colOf cols "source").getD []) })

/-- `normalize_df` with column names. (forecast.py 299-404) -/
def normalizeRaw (srt : SortAlg) (conv : Conv V K) (a : ColNames) (t : RawTable V) : Res (Option (STable K)) := do
  match ← standardise conv a t with
  | none => .ok none
  | some s => normalizeDf srt s

/-- `run_forecast` with column names, forecast.py 804-980. -/
def runForecastRaw [Field K] [LinearOrder K] [FloorRing K] (w : World K) (conv : Conv V K) (args : RunArgs K) (sourceId : String) (a : ColNames)
    (t : RawTable V) : Res (Option (RunResult K)) := do
  match ← standardise conv a t with
  | none => .ok none
  | some s => runForecast w args sourceId s

/-- `ForecastInput`, forecast.py 1518-1537. -/
structure ForecastInput (K : Type) where
  sourceId : String
  table : STable K
  trend : Option (List (ForecastModel K))
  season : Option (List (ForecastModel K))
  weights : K
  start : Option Timestamp

section
variable [Field K] [LinearOrder K] [FloorRing K]

/-- Arguments of `run_forecast` for one input, forecast.py 1491-1508: models and starting date of the input, the linear trend by default (line 1533). -/
def ForecastInput.args (i : ForecastInput K) (args : RunArgs K) : RunArgs K :=
  { args with models := { args.models with trend := some (i.trend.getD [modelLinear]), season := i.season }, start := i.start }

/-- The loop over inputs, forecast.py 1489-1509. -/
def runInputs (w : World K) (args : RunArgs K) : List (ForecastInput K) → Res (List (Option (RunResult K)))
  | [] => .ok []
  | i :: l => do
    let r ← runForecast w (i.args args) i.sourceId i.table
    let rs ← runInputs w args l
    .ok (r :: rs)

/-- `aggregate_forecast_dict_results`, forecast.py 983-1019: `None` can not be subscripted. -/
def aggregate : List (Option (RunResult K)) → Res (RunResult K)
  | [] => .ok ⟨[], [], []⟩
  | none :: _ => .error .typeError
  | some r :: l => do
    let r' ← aggregate l
    .ok (r.append r')

/-- `run_l_forecast`, forecast.py 1432-1512. `pd.concat` of no tables raises a `ValueError`. -/
def runLForecast (w : World K) (args : RunArgs K) (l : List (ForecastInput K)) : Res (RunResult K) := do
  let rs ← runInputs w args l
  if rs = [] then .error .valueError else aggregate rs

end
end Anticipy
