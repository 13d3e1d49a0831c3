import Verif.Model.Fix
import Verif.Model.Freq
import Verif.Model.Naive

/-
Choice of candidate models: `get_list_model` (forecast.py 725-758), `_get_use_ramp` (1022-1043), the calendar gate (1046-1070 and
1276-1302), `_get_model_is_add_mult` (1073-1082), `get_l_model_auto_season` (forecast_models.py 1919-1996),
`is_multiplicative` (model_utils.py 451-484) and the part of `run_forecast_single` that builds the list (forecast.py 1236-1321).
-/
namespace Anticipy

/-- Value of `season_add_mult`. Strings other than 'add', 'mult' and 'auto' behave like 'both'. (forecast.py 1299-1308) -/
inductive AddMult where
  | add | mult | both | auto
  deriving DecidableEq, Repr

section
variable {K : Type} [Field K]

/-- `itertools.product`. (forecast.py 725-758) -/
def products {α β : Type} (l : List α) (m : List β) : List (α × β) := l.flatMap fun a => m.map fun b => (a, b)

/-- `get_list_model`, forecast.py 725-758. `none` is Python's `None`. Both lists empty or `None`: the trend list. -/
def getListModel (trend season : Option (List (ForecastModel K))) (mode : AddMult) : List (ForecastModel K) :=
  let t := trend.getD []
  let s := season.getD []
  let l := if s = [] then t
    else if t = [] then s
    else (if mode ≠ .mult then (products t s).map (fun p => p.1.add p.2) else []) ++
      (if mode ≠ .add then (products t s).map (fun p => p.1.mul p.2) else [])
  dedupBy ForecastModel.name l

/-- Order of `list.sort()` on models (`__lt__` compares names); Python's sort is stable. (forecast.py 1346) -/
def nameLe (a b : ForecastModel K) : Bool := decide (a.name ≤ b.name)

/-- Sorted distinct dates, `s_date` in all the functions below. (forecast_models.py 1935, forecast.py 1031, 1281) -/
def distinctDates (dates : List Timestamp) : List Timestamp :=
  dedupBy (fun t : Timestamp => t) (sortBy (fun a b : Timestamp => decide (a ≤ b)) dates)

/-- `min_date_delta` and `max_date_delta`; `none` if one of them is null. (forecast_models.py 1936-1937, forecast.py 1032, 1282-1283) -/
def dateDeltas (dates : List Timestamp) : Option (Int × Int) :=
  match listMin (diffs (distinctDates dates)), listMin (distinctDates dates), listMax (distinctDates dates) with
  | some d, some a, some b => some (d, b - a)
  | _, _, _ => none

/-- Component list to use: the default for `None`, the null model for an empty list or an unused component, forecast_models.py
1962-1980. -/
def seasonList (use : Bool) (given : Option (List (ForecastModel K))) (dflt : List (ForecastModel K)) : List (ForecastModel K) :=
  if use then
    match given with
    | none => dflt
    | some [] => [modelNull]
    | some l => l
  else [modelNull]

/-- One step of the loop in forecast_models.py 1983-1993. -/
def addSeason (mult : Bool) (res : List (ForecastModel K)) (p : ForecastModel K × ForecastModel K) : List (ForecastModel K) :=
  let m := compose mult p.1 p.2
  if m.name = "null" then res
  else if mult && res.any (fun r => decide (r.name = m.name)) then res
  else res ++ [m]

/-- `get_l_model_auto_season`, forecast_models.py 1919-1996; `mult` is `season_add_mult='mult'`. The default lists (lines 1955-1961) are arguments.
-/
def autoSeason (dates : List Timestamp) (minPeriods : ℚ) (mult : Bool) (yearly weekly : Option (List (ForecastModel K)))
    (dfltYearly dfltWeekly : List (ForecastModel K)) : List (ForecastModel K) :=
  match dateDeltas dates with
  | none => [modelNull]
  | some (dmin, span) =>
    let useYearly := decide (minPeriods * 365 * (DAY : ℚ) < (span : ℚ) ∧ dmin ≤ 92 * DAY)
    let useWeekly := decide (minPeriods * 7 * (DAY : ℚ) < (span : ℚ) ∧ dmin ≤ DAY)
    let w := seasonList useWeekly weekly dfltWeekly
    let y := seasonList useYearly yearly dfltYearly
    sortBy nameLe ((products w y).foldl (addSeason mult) [modelNull])

variable [LinearOrder K]

/-- Dates of samples with positive weight (`s_date_tmp.loc[df_y.weight > 0]`). (forecast.py 1249-1251) -/
def weightedDates (df : Frame K) : List Timestamp :=
  (if df.hasWeight then df.rows.filter (fun r => decide (∃ w ∈ r.weight, 0 < w)) else df.rows).map Row.date

/-- `_get_use_ramp`, forecast.py 1022-1043. -/
def useRamp (df : Frame K) : Bool :=
  df.hasDate && match listMin (distinctDates (weightedDates df)), listMax (distinctDates (weightedDates df)) with
    | some a, some b => decide (2 * 365 * DAY < b - a)
    | _, _ => false

/-- The calendar gate, forecast.py 1276-1298 (same as `_get_use_calendar`, 1046-1070). -/
def useCalendar (df : Frame K) : Bool :=
  df.hasDate && match dateDeltas (weightedDates df) with
    | some (dmin, span) => decide (365 * DAY < span ∧ dmin ≤ DAY)
    | none => false

/-- `_get_model_is_add_mult`, forecast.py 1073-1082. -/
def modelAddMult (m : ForecastModel K) (mode : AddMult) (add : List (ForecastModel K)) : AddMult :=
  match mode with
  | .add => .add
  | .mult => .mult
  | _ => if add.any (fun a => decide (a.name = m.name)) then .add else .mult

/-- `is_multiplicative`, model_utils.py 451-484. The statistics (`_get_mult_sum_stats`: a linear fit, monthly means and variances and their
correlation) are an arbitrary function; `none` is NaN, and NaN >= 0.8 is false. -/
def isMultiplicative (corr : Frame K → Res (Option K)) (df : Frame K) : Res Bool :=
  if df.rows.any (fun r => decide (∃ v ∈ r.y, v ≤ 0)) then .ok false
  else if !df.hasDate then .ok false
  else if (match listMin (df.rows.map Row.date), listMax (df.rows.map Row.date) with
    | some a, some b => decide (b - a < 60 * DAY)
    | _, _ => false) then .ok false
  else if (df.rows.filter fun r => r.y.isSome && (!df.hasWeight || decide (∃ w ∈ r.weight, 0 < w))).length < 4 then .ok false
  else do
    let c ← corr df
    .ok (decide (∃ v ∈ c, (8 : K) / 10 ≤ v))

/-- Model-related arguments of `run_forecast_single`, forecast.py 1085-1105. -/
structure ModelArgs (K : Type) where
  trend : Option (List (ForecastModel K))
  season : Option (List (ForecastModel K))
  mode : AddMult
  yearly : Option (List (ForecastModel K))
  weekly : Option (List (ForecastModel K))
  naive : Option (List (ForecastModel K))
  calendar : Option (List (ForecastModel K))

/-- Module level objects and external choices: default seasonality models, default naive models, the correlation of the multiplicative test and
the order in which `list(set(…))` returns its elements. (forecast.py 1236-1314) -/
structure Choices (K : Type) where
  dfltYearly : List (ForecastModel K)
  dfltWeekly : List (ForecastModel K)
  snaive : ForecastModel K
  naive : ForecastModel K
  corr : Frame K → Res (Option K)
  setOrder : List (ForecastModel K) → List (ForecastModel K)

/-- Additive and multiplicative candidates without naive models, forecast.py 1236-1302. `mult` selects the multiplicative list. -/
def composedModels (ch : Choices K) (args : ModelArgs K) (df : Frame K) (mult : Bool) : List (ForecastModel K) :=
  let trend := args.trend.getD (if useRamp df then [modelLinear, modelLinear.add modelRamp] else [modelLinear])
  let season := match args.season with
    | some s => some s
    | none => if df.hasDate then
        some (autoSeason (weightedDates df) (3 / 2) mult args.yearly args.weekly ch.dfltYearly ch.dfltWeekly)
      else none
  let mode := if mult then AddMult.mult else AddMult.add
  let l := getListModel (some trend) season mode
  match args.calendar with
  | none => l
  | some cal => if useCalendar df then getListModel (some l) (some cal) mode else l

/-- The composition that is used: 'auto' is resolved by the multiplicative test, forecast.py 1304-1306. -/
def resolveMode (ch : Choices K) (args : ModelArgs K) (df : Frame K) : Res AddMult :=
  match args.mode with
  | .auto => do
    let b ← isMultiplicative ch.corr df
    .ok (if b then .mult else .add)
  | m => .ok m

/-- The sorted list of candidate models, forecast.py 1304-1321 and 1351. `freq` is the frequency of the unfiltered series. -/
def candidates (ch : Choices K) (args : ModelArgs K) (df : Frame K) (freq : Option Freq) :
    Res (AddMult × List (ForecastModel K)) := do
  let mode ← resolveMode ch args df
  let l := match mode with
    | .add => composedModels ch args df false
    | .mult => composedModels ch args df true
    | _ => ch.setOrder (composedModels ch args df false ++ composedModels ch args df true)
  let naive := args.naive.getD (if freq = some .D then [ch.snaive] else [ch.naive])
  .ok (mode, sortBy nameLe (naive ++ l))

end
end Anticipy
