import Verif.Model.Fix
import Verif.Model.Freq

/-
Fitting one model: `get_residuals`, `optimize_least_squares`, `fit_model`, anticipy/forecast.py 58-298 and 407-670.
-/
namespace Anticipy
variable {K : Type}

/-- What `scipy.optimize.least_squares` reports (`success`, `cost`, `x`); a NaN cost is `none`. (forecast.py 105-217) -/
structure LsqResult (K : Type) where
  success : Bool
  cost : Option K
  params : List K

/-- The parts outside of the repository, and the score function.
* `lsq`: `scipy.optimize.least_squares(get_residuals, guess, bounds)`; it may raise, `none` is a `LinAlgError`.
* `rnd`: the random stream for initial guesses.
* `aic`: `get_aic_c` (`getAicC` over the reals).
* `globalCache`: the module dictionary `_dict_f_cache`.
* `label`: text form of an array of fixed parameters. (forecast.py 105-217, 552-667) -/
structure Env (K : Type) where
  lsq : (List K → Res (Arr K)) → List (Ext K) → Bounds K → Res (Option (LsqResult K))
  rnd : Nat → K
  aic : Option K → Nat → Nat → Res (Ext K)
  globalCache : String → Option (CacheFn K)
  label : List (Option K) → String

/-- Status column of the metadata. (forecast.py 504, 522, 538, 630) -/
inductive Status where
  | emptyTs | tooShort | inputErr | fit | noFit
  deriving DecidableEq, Repr

/-- `weights` entry of the metadata, forecast.py 457-461: `'1'` or min and max (`none` if all weights are null). -/
inductive WeightsMeta (K : Type) where
  | one
  | range (lo hi : Option K)
  deriving DecidableEq

/-- `actuals_x_range`, forecast.py 494-500: first and last day, or first and last x; for models that scale x (forecast.py 482) these are the scaled ones,
`hundredths a b` stands for the numbers a / 100 and b / 100. -/
inductive RangeMeta where
  | days (a b : Int)
  | xs (a b : Int)
  | hundredths (a b : Int)
  deriving DecidableEq, Repr

/-- Metadata row of a fit, `_get_df_fit_model` forecast.py 220-261, without fit time and text forms. `modelName` and `model` are those of the
simplified model if the fit was attempted. -/
structure FitResult (K : Type) where
  modelName : String
  model : ForecastModel K
  weights : WeightsMeta K
  range : RangeMeta
  isFit : Bool
  cost : Option K
  aic : Ext K
  params : List K
  status : Status

section
variable [Field K] [LinearOrder K]

/-- Elementwise absolute value. (forecast.py 101) -/
def Arr.abs : Arr K → Arr K
  | .scalar v => .scalar (v.map fun a => |a|)
  | .vec l => .vec (l.map fun v => v.map fun a => |a|)

/-- `get_residuals`, forecast.py 58-102. -/
def getResiduals (m : ForecastModel K) (ctx : Ctx K) (ay : List K) (aw : Option (List K)) (p : Params K) : Res (Arr K) := do
  let pred ← m.fModel ctx p false
  let r ← Arr.bin (fun a b => a - b) (vecOf ay) pred
  let r ← match aw with
    | none => .ok r
    | some w => Arr.bin (fun a b => a * b) r (vecOf w)
  .ok r.abs

/-- `0.5 * np.nansum(a_residuals ** 2)`, forecast.py 567. -/
def halfSumSq : Arr K → K
  | .scalar none => 0
  | .scalar (some a) => 1 / 2 * (a * a)
  | .vec l => 1 / 2 * (l.map fun v => match v with
    | none => 0
    | some a => a * a).sum

/-- Are cache variables passed as keyword arguments? (`init_cache`, forecast_models.py 515-530) -/
def ForecastModel.usesCache (m : ForecastModel K) (global : String → Option (CacheFn K)) : Bool :=
  m.cacheVars.any (fun k => (global k).isSome) || !m.dictFCache.isEmpty

/-- `optimize_least_squares`, forecast.py 105-217. -/
def optimizeLeastSquares (env : Env K) (m : ForecastModel K) (ax ay : List K) (ad : Option (List Timestamp))
    (aw : Option (List K)) (actuals : Option (Frame K)) (useCache : Bool) : Res (LsqResult K) := do
  let guess ← m.fInit env.rnd ⟨some ax, some ay, none⟩ false
  let bounds ← m.fBounds ⟨some ax, some ay, none⟩
  pyAssert (validateInitialGuess guess bounds)
  let cache ← if useCache then m.initCache env.globalCache ax ad else .ok (fun _ => none)
  let ctx : Ctx K := { ax := ax, adate := ad, actuals := actuals, cache := cache,
                       hasCache := useCache && m.usesCache env.globalCache }
  match ← env.lsq (fun p => getResiduals m ctx ay aw (some p)) guess bounds with
  | some r => .ok r
  | none => .ok ⟨false, none, []⟩

/-- The arrays handed to the fit. (forecast.py 481-488) -/
structure FitInput (K : Type) where
  xs : List Int
  ys : List K
  dates : Option (List Timestamp)
  ws : Option (List K)

/-- Is the y value present? (forecast.py 454) -/
def hasY (r : Row K) : Bool := r.y.isSome
/-- Filter on weights, forecast.py 463-466: null counts as 0. -/
def posWeight (r : Row K) : Bool := decide (0 < r.weight.getD 0)

/-- Number of samples with the same x, forecast.py 469-472. -/
def multiplicity (rows : List (Row K)) (r : Row K) : Nat := (rows.filter fun q => decide (q.x = r.x)).length

/-- Filters and residual normalisation, forecast.py 452-488. -/
def prepare (df : Frame K) : FitInput K :=
  let rows := df.rows.filter hasY
  let rows := if df.hasWeight then rows.filter posWeight else rows
  let ws := if hasDup (rows.map Row.x) then
      some (rows.map fun r => (if df.hasWeight then r.weight.getD 0 else 1) / (multiplicity rows r : K))
    else if df.hasWeight then some (rows.map fun r => r.weight.getD 0) else none
  { xs := rows.map Row.x
    ys := rows.map fun r => r.y.getD 0
    dates := if df.hasDate then some (rows.map Row.date) else none
    ws := ws }

/-- Metadata on weights, forecast.py 457-461 (nulls skipped). -/
def weightsMeta (df : Frame K) : WeightsMeta K :=
  if df.hasWeight then
    let ws := (df.rows.filter hasY).filterMap Row.weight
    .range (listMin ws) (listMax ws)
  else .one

/-- `apply_a_x_scaling`, model_utils.py 61-95. -/
def scaleX (m : ForecastModel K) (xs : List Int) : List K :=
  if m.name = "logistic" ∨ m.name = "sigmoid" then xs.map fun x : Int => (x : K) / 100 else xs.map fun x : Int => (x : K)

/-- First and last date or (scaled) x; the minimum of nothing raises a `ValueError` (forecast.py 496-499). -/
def rangeMeta (m : ForecastModel K) (inp : FitInput K) : Res RangeMeta :=
  match inp.dates with
  | some d => match listMin d, listMax d with
    | some a, some b => .ok (.days (dayOf a) (dayOf b))
    | _, _ => .error .valueError
  | none => match listMin inp.xs, listMax inp.xs with
    | some a, some b => .ok (if m.name = "logistic" ∨ m.name = "sigmoid" then .hundredths a b else .xs a b)
    | _, _ => .error .valueError

/-- Result of a fit that was not attempted. (forecast.py 264-296) -/
def noFitResult (m : ForecastModel K) (w : WeightsMeta K) (r : RangeMeta) (s : Status) : FitResult K :=
  { modelName := m.name, model := m, weights := w, range := r, isFit := false, cost := none, aic := .nan, params := [], status := s }

/-- The attempted fit, forecast.py 552-667; `nParams` is that of the model before simplification. -/
def attemptFit (env : Env K) (nParams : Nat) (m : ForecastModel K) (inp : FitInput K) (ax : List K) (w : WeightsMeta K) (rng : RangeMeta)
    (actuals : Option (Frame K)) (useCache : Bool) : Res (FitResult K) :=
  if m.nParams = 0 then do
    let res ← getResiduals m { ax := ax, adate := inp.dates, actuals := actuals } inp.ys inp.ws none
    let cost := halfSumSq res
    let aic ← env.aic (some cost) inp.xs.length nParams
    .ok { modelName := m.name, model := m, weights := w, range := rng, isFit := true, cost := some cost, aic := aic, params := [], status := .fit }
  else do
    let r ← optimizeLeastSquares env m ax inp.ys inp.dates inp.ws actuals useCache
    let aic ← env.aic r.cost inp.xs.length nParams
    .ok { modelName := m.name, model := m, weights := w, range := rng, isFit := r.success, cost := r.cost, aic := aic, params := r.params,
          status := if r.success then .fit else .noFit }

/-- `fit_model`, forecast.py 407-670, without source and frequency labels. -/
def fitModel (env : Env K) (m : ForecastModel K) (df : Frame K) (actuals : Option (Frame K)) (useCache : Bool) : Res (FitResult K) := do
  let w := weightsMeta df
  let inp := prepare df
  let ax := scaleX m inp.xs
  let rng ← rangeMeta m inp
  if inp.xs = [] then .ok (noFitResult m w rng .emptyTs)
  else if inp.xs.length < m.nParams + 2 then .ok (noFitResult m w rng .tooShort)
  else
    let valid ← m.validateInput ax inp.ys inp.dates
    if !valid then .ok (noFitResult m w rng .inputErr)
    else
      let m' ← simplifyModel env.label m ⟨some ax, some inp.ys, inp.dates⟩
      attemptFit env m.nParams m' inp ax w rng actuals useCache

end
end Anticipy
