import Verif.Model.Run

/-
The four tables that `run_forecast` returns, or the one of them with `simplify_output`: forecast.py 176-217, 264-296, 586-669, 804-1019 and 1342-1428.
-/
namespace Anticipy

/-- Row of the `optimize_info` table, forecast.py 614-626 and 656-667 (and 264-296 for fits that were not attempted). The model object in the table is
given by its name; counts of iterations, messages and codes of the optimiser are left out. -/
structure InfoRow (K : Type) where
  source : String
  long : SourceLong K
  model : String
  success : Bool
  cost : Option K
  params : List K
  deriving DecidableEq

/-- The dictionary of four tables, forecast.py 1015-1019 and 1419-1423. -/
structure FullResult (K : Type) where
  tables : RunResult K
  info : List (InfoRow K)

/-- What the caller gets: one table or the dictionary. (forecast.py 904-911) -/
inductive Output (K : Type) where
  | table (forecast : List (PRow K))
  | dict (r : FullResult K)

section
variable {K : Type} [Field K] [LinearOrder K] [FloorRing K]

/-- Row of `optimize_info` for one fit. (forecast.py 586-626, 631-667, 550-551) -/
def infoRow (s : FitSetup K) (f : FitResult K) : InfoRow K :=
  { source := s.source, long := ⟨f.weights, s.freq, f.range⟩, model := f.modelName, success := f.isFit, cost := f.cost, params := f.params }

/-- `l_df_optimize_info` in the loop over models, forecast.py 1346-1361. -/
def infoLoop (env : Nat → Env K) (s : FitSetup K) : Nat → List (ForecastModel K) → Res (List (InfoRow K))
  | _, [] => .ok []
  | i, m :: l => do
    let f ← fitModel (env i) m s.used (some s.actuals) s.useCache
    let r ← infoLoop env s (i + 1) l
    .ok (infoRow s f :: r)

/-- The table `optimize_info` of one source, forecast.py 1184-1391; the steps before the loop are those of `runFits`. -/
def runInfo (w : World K) (args : RunArgs K) (source : String) (df0 : Frame K) : Res (List (InfoRow K)) := do
  let df2 ← applyOutliers args.findOutliers (filterStart args.start df0)
  let df := (defaultWeights df2).1
  let weights := (defaultWeights df2).2
  let cand ← candidates w.ch args.models df (runFreq df0)
  let actuals ← actualsInterpolated w.srt df0 (usedRows df)
  infoLoop (w.env source) (mkSetup w args source df0 df weights cand.1 actuals) 0 cand.2

/-- `run_forecast_single` with `simplify_output`, forecast.py 1085-1428. -/
def runSingleOut (w : World K) (args : RunArgs K) (simplify : Bool) (source : String) (df : Frame K) : Res (Output K) := do
  let r ← runSingle w args source df
  let info ← runInfo w args source df
  if simplify then .ok (.table r.forecast) else .ok (.dict ⟨r, info⟩)

/-- `dict_result['data']` and so on, forecast.py 1001-1004: a table has no column with this name. -/
def Output.entries : Output K → Res (FullResult K)
  | .table _ => .error .keyError
  | .dict r => .ok r

/-- The loop over sources and the aggregation, forecast.py 949-976 and 983-1019. -/
def outSources (w : World K) (args : RunArgs K) (t : STable K) : List (Option String) → Res (FullResult K)
  | [] => .ok ⟨⟨[], [], []⟩, []⟩
  | s :: l => do
    let o ← runSingleOut w args false (s.getD "") (frameOf t (sourcePart t.rows s))
    let r ← o.entries
    let r' ← outSources w args t l
    .ok ⟨r.tables.append r'.tables, r.info ++ r'.info⟩

/-- `run_forecast` with `simplify_output`, forecast.py 804-980. -/
def runForecastOut (w : World K) (args : RunArgs K) (simplify : Bool) (sourceId : String) (t : STable K) : Res (Option (Output K)) := do
  match ← normalizeDf w.srt t with
  | none => .ok none
  | some t' =>
    if t'.hasSource then
      if t'.rows = [] then .error .valueError
      else do
        let r ← outSources w args t' (dedupBy (fun s : Option String => s) (t'.rows.map SRow.source))
        if simplify then .ok (some (.table r.tables.forecast)) else .ok (some (.dict r))
    else do
      let r ← runSingleOut w args simplify sourceId (frameOf t' t'.rows)
      .ok (some r)

end
end Anticipy
