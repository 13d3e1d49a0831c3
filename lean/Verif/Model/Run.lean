import Verif.Model.Candidates
import Verif.Model.Outliers
import Verif.Model.Fit
import Verif.Model.Normalize

/-
The forecasting pipeline: `extrapolate_model`, `get_df_actuals_clean`, `_get_df_fcast_clean`, `run_forecast`,
`aggregate_forecast_dict_results`, `run_forecast_single`, anticipy/forecast.py 673-722, 761-1020, 1085-1428.
-/
namespace Anticipy

/-- `source_long`, forecast.py 1232 and 256: weights, frequency and range of the series (the source label is kept separately). -/
structure SourceLong (K : Type) where
  weights : WeightsMeta K
  freq : Option Freq
  range : RangeMeta
  deriving DecidableEq

/-- Row of the metadata table, `_get_df_fit_model` forecast.py 220-261, 1352-1358 and 1402-1406. -/
structure MRow (K : Type) where
  source : String
  long : SourceLong K
  model : String
  weights : WeightsMeta K
  isFit : Bool
  cost : Option K
  aic : Ext K
  params : List K
  status : Status
  addMult : AddMult
  isBest : Bool
  deriving DecidableEq

/-- Row of the `data` table; `date` holds x for series without dates (forecast.py 778). -/
structure DRow (K : Type) where
  date : Timestamp
  source : String
  long : SourceLong K
  model : String
  isActuals : Bool
  y : Option K
  weight : Option K
  isBest : Bool
  deriving DecidableEq

/-- Arguments of `run_forecast_single`, forecast.py 1085-1105, without `simplify_output`: the model always returns all tables.
`widening` is used if `nCum` is `none`. -/
structure RunArgs (K : Type) where
  models : ModelArgs K
  start : Option Timestamp
  years : ℚ
  includeAll : Bool
  findOutliers : Bool
  nCum : Option Int
  q1 : K
  q2 : K
  widening : Freq
  useCache : Bool

/-- Everything outside of the repository that the pipeline depends on: the environment of the `i`-th fit of a source, module level models and
the multiplicative test, unstable sorting, random draws for the prediction intervals of a source. (forecast.py 1085-1428) -/
structure World (K : Type) where
  env : String → Nat → Env K
  ch : Choices K
  srt : SortAlg
  draw : String → Nat → Nat → Nat → Nat

/-- Result tables; `optimize_info` is not modelled. (forecast.py 1419-1423) -/
structure RunResult (K : Type) where
  forecast : List (PRow K)
  data : List (DRow K)
  metadata : List (MRow K)
  deriving DecidableEq

section
variable {K : Type}

/-- Actuals on or after the starting date; ignored without dates, forecast.py 1194-1196. -/
def filterStart (start : Option Timestamp) (df : Frame K) : Frame K :=
  match start with
  | some d => if df.hasDate then { df with rows := df.rows.filter fun r => decide (d ≤ r.date) } else df
  | none => df

/-- The date column, or x for series without dates. (forecast.py 1198-1201) -/
def axisOf (df : Frame K) : List Int := if df.hasDate then df.rows.map Row.date else df.rows.map Row.x

variable [Field K] [LinearOrder K]

/-- New weight of a sample, forecast.py 1206-1210. -/
def outlierWeight (hasWeight : Bool) (r : Row K) (spike : Bool) : Row K :=
  { r with weight := if hasWeight then r.weight.map fun w => w * (if spike then 0 else 1) else some (if spike then 0 else 1) }

/-- Zero weight for spikes, forecast.py 1203-1211. -/
def applyOutliers [FloorRing K] (find : Bool) (df : Frame K) : Res (Frame K) :=
  if find then do
    let masks ← getModelOutliers df 3
    .ok { df with hasWeight := true, rows := List.zipWith (outlierWeight df.hasWeight) df.rows masks.2 }
  else .ok df

/-- Default weights and the text form of weights, forecast.py 1216-1220. -/
def defaultWeights (df : Frame K) : Frame K × WeightsMeta K :=
  if df.hasWeight then (df, .range (listMin (df.rows.filterMap Row.weight)) (listMax (df.rows.filterMap Row.weight)))
  else ({ df with hasWeight := true, rows := df.rows.map fun r => { r with weight := some 1 } }, .one)

/-- `actuals_x_range`, forecast.py 1198-1201 and 1222-1231. With dates an empty series has the start `NaT`, whose `date()` raises `ValueError`. Without dates an empty
series fails later, also with a `ValueError` (`a_x.min()` in `fit_model` or `pd.concat`). -/
def runRange (df : Frame K) : Res RangeMeta :=
  match listMin (axisOf df), listMax (axisOf df) with
  | some a, some b => .ok (if df.hasDate then .days (dayOf a) (dayOf b) else .xs a b)
  | _, _ => .error .valueError

/-- `get_df_actuals_clean`, forecast.py 761-788. -/
def actualsClean (df : Frame K) (source : String) (long : SourceLong K) : List (DRow K) :=
  df.rows.map fun r => { date := if df.hasDate then r.date else r.x, source := source, long := long, model := "actuals", isActuals := true,
                         y := r.y, weight := r.weight, isBest := false }

/-- Samples with positive weight, forecast.py 1317. -/
def usedRows (df : Frame K) : Frame K := { df with rows := df.rows.filter fun r => decide (∃ w ∈ r.weight, 0 < w) }

/-- A row of the gap-filled table with the weights of the samples used (left join on x), nulls filled with 0, and y null where the weight is not
positive, forecast.py 1337-1345. -/
def mergeWeight (used : List (Row K)) (r : Row K) : List (Row K) :=
  match used.filter fun u => decide (u.x = r.x) with
  | [] => [{ r with weight := some 0, y := none }]
  | l => l.map fun u => { r with weight := some (u.weight.getD 0), y := if (0 : K) < u.weight.getD 0 then r.y else none }

/-- `df_actuals_interpolated`, forecast.py 1322-1338. -/
def actualsInterpolated (srt : SortAlg) (unfiltered : Frame K) (used : Frame K) : Res (Frame K) := do
  let df ← interpolateDf unfiltered
  .ok { df with hasWeight := true,
                rows := (srt.run (fun a b : Row K => decide (a.x ≤ b.x)) df.rows).flatMap (mergeWeight used.rows) }

/-- Values for the index of the extrapolated series: scalars are repeated, arrays must have its length (`pd.Series(data, index)`). (forecast.py 719-720) -/
def seriesOf (index : List Int) : Arr K → Res (List (Int × Option K))
  | .scalar v => .ok (index.map fun t => (t, v))
  | .vec l => if l.length = index.length then .ok (List.zip index l) else .error .valueError

/-- `extrapolate_model`, forecast.py 673-722. For series without dates the numeric index is passed as `a_date`; no model that can be fitted
without dates looks at it, so it is `none` here. -/
def extrapolate (m : ForecastModel K) (params : List K) (hasDate : Bool) (start stop : Int) (freq : Option Freq) (years : ℚ) (x0 : Int)
    (actuals : Frame K) : Res (List (Int × Option K)) := do
  let sx ← if hasDate then sxExtrapolateDate start stop freq years x0 else .ok (sxExtrapolateNum start stop years x0)
  let a ← m.fModel { ax := scaleX m (sx.map Prod.snd), adate := if hasDate then some (sx.map Prod.fst) else none, actuals := some actuals }
    (some params) false
  seriesOf (sx.map Prod.fst) a

/-- `_get_df_fcast_clean`, forecast.py 791-801: rows with null y are removed. -/
def fcastClean (l : List (Int × Option K)) (source : String) (long : SourceLong K) (model : String) : List (DRow K) :=
  (l.filter fun p => p.2.isSome).map fun p =>
    { date := p.1, source := source, long := long, model := model, isActuals := false, y := p.2, weight := some 1, isBest := false }

/-- What a fit needs: the samples used, the gap-filled table, and the arguments of the extrapolation. (forecast.py 1316-1338) -/
structure FitSetup (K : Type) where
  source : String
  freq : Option Freq
  used : Frame K
  actuals : Frame K
  stop : Int
  years : ℚ
  weights : WeightsMeta K
  useCache : Bool
  mode : AddMult
  addModels : List (ForecastModel K)

/-- Metadata row of a fit, forecast.py 1348-1358 and 1406 (weights are those of the whole series). -/
def metaRow (s : FitSetup K) (m : ForecastModel K) (f : FitResult K) : MRow K :=
  { source := s.source, long := ⟨f.weights, s.freq, f.range⟩, model := f.modelName, weights := s.weights, isFit := f.isFit, cost := f.cost,
    aic := f.aic, params := f.params, status := f.status, addMult := modelAddMult m s.mode s.addModels, isBest := false }

/-- Forecast of one fitted model, forecast.py 1365-1383. Start and x0 are the first date and x of the samples used; they exist whenever a fit was
possible. -/
def forecastRows (s : FitSetup K) (m : ForecastModel K) (f : FitResult K) : Res (List (DRow K)) :=
  if f.isFit then
    match listMin (axisOf s.used), listMin (s.used.rows.map Row.x) with
    | some start, some x0 => do
      let l ← extrapolate m f.params s.used.hasDate start s.stop s.freq s.years x0 s.actuals
      .ok (fcastClean l s.source ⟨f.weights, s.freq, f.range⟩ m.name)
    | _, _ => .error .valueError
  else .ok []

/-- The loop over models, forecast.py 1346-1383: metadata rows and forecast rows. -/
def fitLoop (env : Nat → Env K) (s : FitSetup K) : Nat → List (ForecastModel K) → Res (List (MRow K) × List (DRow K))
  | _, [] => .ok ([], [])
  | i, m :: l => do
    let f ← fitModel (env i) m s.used (some s.actuals) s.useCache
    let d ← forecastRows s m f
    let r ← fitLoop env s (i + 1) l
    .ok (metaRow s m f :: r.1, d ++ r.2)

/-- Order of `sort_values('aic_c')`: NaN last. (forecast.py 1395) -/
def aicLe (a b : Ext K) : Bool := b.isNan || Ext.le a b

/-- The best fit: `source_long` and model name of the first fitted row in the order of AICc, forecast.py 1393-1400. -/
def bestKey (srt : SortAlg) (metas : List (MRow K)) : Option (SourceLong K × String) :=
  (srt.run (fun a b : MRow K => aicLe a.aic b.aic) (metas.filter MRow.isFit)).head?.map fun r => (r.long, r.model)

/-- Left join with the best fit, forecast.py 1402-1408. -/
def flagMeta (key : Option (SourceLong K × String)) (r : MRow K) : MRow K := { r with isBest := decide (key = some (r.long, r.model)) }
/-- The same for data rows. (forecast.py 1407-1408) -/
def flagData (key : Option (SourceLong K × String)) (r : DRow K) : DRow K := { r with isBest := decide (key = some (r.long, r.model)) }

/-- The table handed to `get_pi`. (forecast.py 1416) -/
def toFTable (hasDate : Bool) (rows : List (DRow K)) : FTable K :=
  { numDate := !hasDate, hasSource := true, hasBest := true, hasWeight := true,
    rows := rows.map fun r => ⟨r.date, some r.source, r.model, r.isActuals, r.isBest, r.y, r.weight⟩ }

/-- Frequency of the whole series, forecast.py 1186-1189. -/
def runFreq (df0 : Frame K) : Option Freq := if df0.hasDate then detectFreq (df0.rows.map Row.date) else none

/-- Everything that is needed for the fits, forecast.py 1316-1346; `df` are the actuals after the starting date with their weights. -/
def mkSetup (w : World K) (args : RunArgs K) (source : String) (df0 df : Frame K) (weights : WeightsMeta K) (mode : AddMult) (actuals : Frame K) :
    FitSetup K :=
  { source := source, freq := runFreq df0, used := usedRows df, actuals := actuals, stop := (listMax (axisOf df)).getD 0, years := args.years,
    weights := weights, useCache := args.useCache, mode := mode, addModels := composedModels w.ch args.models df false }

/-- forecast.py 1184-1408: `data` and `metadata` before rows of other models are removed. -/
def runFits [FloorRing K] (w : World K) (args : RunArgs K) (source : String) (df0 : Frame K) : Res (List (DRow K) × List (MRow K)) := do
  let df2 ← applyOutliers args.findOutliers (filterStart args.start df0)
  let df := (defaultWeights df2).1
  let weights := (defaultWeights df2).2
  let range ← runRange df
  let cand ← candidates w.ch args.models df (runFreq df0)
  let actuals ← actualsInterpolated w.srt df0 (usedRows df)
  let fits ← fitLoop (w.env source) (mkSetup w args source df0 df weights cand.1 actuals) 0 cand.2
  -- `pd.concat` of an empty list, line 1392
  if fits.1 = [] then .error .valueError
  else
    let key := bestKey w.srt fits.1
    .ok ((actualsClean df source ⟨weights, runFreq df0, range⟩ ++ fits.2).map (flagData key), fits.1.map (flagMeta key))

/-- Rows of other models are removed unless all fits are requested, forecast.py 1410-1414. -/
def selectFits (includeAll : Bool) (d : List (DRow K) × List (MRow K)) : List (DRow K) × List (MRow K) :=
  if includeAll then d else (d.1.filter fun r => r.isBest || r.isActuals, d.2.filter MRow.isBest)

/-- `run_forecast_single`, forecast.py 1085-1428. -/
def runSingle [FloorRing K] (w : World K) (args : RunArgs K) (source : String) (df : Frame K) : Res (RunResult K) := do
  let d ← runFits w args source df
  let sel := selectFits args.includeAll d
  let forecast ← getPi (w.draw source) (toFTable df.hasDate sel.1) 100 args.nCum args.q1 args.q2 args.widening
  .ok { forecast := forecast, data := sel.1, metadata := sel.2 }

/-- One source of a normalized table as a single series, forecast.py 952. -/
def frameOf (t : STable K) (rows : List (SRow K)) : Frame K :=
  { hasDate := t.hasDate, hasWeight := t.hasWeight, rows := rows.map fun r => ⟨r.date, r.x, r.y, r.weight⟩ }

/-- Concatenation of results, `aggregate_forecast_dict_results` forecast.py 983-1019. -/
def RunResult.append (a b : RunResult K) : RunResult K :=
  ⟨a.forecast ++ b.forecast, a.data ++ b.data, a.metadata ++ b.metadata⟩

/-- The loop over sources, forecast.py 949-974. -/
def runSources [FloorRing K] (w : World K) (args : RunArgs K) (t : STable K) : List (Option String) → Res (RunResult K)
  | [] => .ok ⟨[], [], []⟩
  | s :: l => do
    let r ← runSingle w args (s.getD "") (frameOf t (sourcePart t.rows s))
    let r' ← runSources w args t l
    .ok (r.append r')

/-- `run_forecast`, forecast.py 804-980, on tables with the standard column names. `none` is Python's `None` for empty input. Concatenating the results of
no source at all raises `ValueError`. -/
def runForecast [FloorRing K] (w : World K) (args : RunArgs K) (sourceId : String) (t : STable K) : Res (Option (RunResult K)) := do
  match ← normalizeDf w.srt t with
  | none => .ok none
  | some t' =>
    if t'.hasSource then
      if t'.rows = [] then .error .valueError
      else do
        let r ← runSources w args t' (dedupBy (fun s : Option String => s) (t'.rows.map SRow.source))
        .ok (some r)
    else do
      let r ← runSingle w args sourceId (frameOf t' t'.rows)
      .ok (some r)

end
end Anticipy
