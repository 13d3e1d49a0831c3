import Verif.Model.Zoo

/-
Fixing parameters: `get_fixed_model` (forecast_models.py 1279-1290), `fix_params_fmodel` (1817-1873),
`simplify_model` (1876-1907), `validate_initial_guess` (1910-1916).
-/
namespace Anticipy
variable {K : Type} [Field K] [LinearOrder K]

/-- `get_fixed_model`, forecast_models.py 1279-1290. The keyword arguments (`df_actuals`, caches) are not forwarded.
The default of the inner `is_mult` only matters for direct calls without that argument. -/
def getFixedModel (m : ForecastModel K) (params : List K) : Res (ForecastModel K) :=
  if m.nParams = 0 then .ok m
  else if params.length ≠ m.nParams then .error .valueError
  else .ok (mkModel (m.name ++ "_fixed") 0 (fun ctx _ isMult =>
    m.fModel { ax := ctx.ax, adate := ctx.adate } (some params) isMult))

/-- `create_fixed_step`, forecast_models.py 1432-1435. -/
def createFixedStep (diff x : K) : Res (ForecastModel K) := getFixedModel modelStep [x, diff]

/-- `create_fixed_spike`, forecast_models.py 1438-1441. -/
def createFixedSpike [FloorRing K] (diff x duration : K) : Res (ForecastModel K) :=
  getFixedModel modelSpike [diff, x, x + duration]

/-- `create_fixed_spike_ignored`, forecast_models.py 1444-1447. The argument `is_mult=True` only sets the default of the inner function, which
`ForecastModel.__call__` (line 417) always overrides. -/
def createFixedSpikeIgnored [FloorRing K] (x duration : K) : Res (ForecastModel K) :=
  getFixedModel modelSpike [0, x, x + duration]

/-- Assignment `a[i_null] = params` where `nulls` marks the positions `i_null`; `vals` has the right length. (forecast_models.py 1849-1852) -/
def fillNulls : List Bool → List (Option K) → List K → List (Option K)
  | true :: ns, _ :: cur, v :: vs => some v :: fillNulls ns cur vs
  | true :: ns, c :: cur, [] => c :: fillNulls ns cur []
  | false :: ns, c :: cur, vs => c :: fillNulls ns cur vs
  | _, cur, _ => cur

/-- Number of free positions, forecast_models.py 1847. -/
def countNulls (fixed : List (Option K)) : Nat := (fixed.filter Option.isNone).length

/-- numpy assignment with broadcasting: the right-hand side must have the number of free positions or
length one; `None` is accepted only if there is nothing to assign. (forecast_models.py 1849-1852) -/
def assignNulls (nulls : List Bool) (cur : List (Option K)) (p : Params K) : Res (List (Option K)) :=
  let k := (nulls.filter id).length
  match p with
  | none => if k = 0 then .ok cur else .error .typeError
  | some vs =>
    if vs.length = k then .ok (fillNulls nulls cur vs)
    else match vs with
      | [v] => .ok (fillNulls nulls cur (List.replicate k v))
      | _ => .error .valueError

/-- One call of the closure `f_model_fixed`, forecast_models.py 1849-1852: `params_long` *is* the shared array (state `cur`), it is
overwritten at the free positions and handed to the model. Returns the new state and the result. -/
def fixedCall (m : ForecastModel K) (nulls : List Bool) (cur : List (Option K))
    (ctx : Ctx K) (p : Params K) (isMult : Bool) : List (Option K) × Res (Arr K) :=
  match assignNulls nulls cur p with
  | .error e => (cur, .error e)
  | .ok st => (st, match st.mapM id with
      | some l => m.fModel { ax := ctx.ax, adate := ctx.adate } (some l) isMult
      | none => .error .valueError)

/-- The fixed model as a function: every call starts from the initial array. That this is what the mutable closure
computes in every call sequence is a theorem (`C16`). (forecast_models.py 1849-1852) -/
def fixedEval (m : ForecastModel K) (fixed : List (Option K)) : Ctx K → Params K → Bool → Res (Arr K) :=
  fun ctx p isMult => (fixedCall m (fixed.map Option.isNone) fixed ctx p isMult).2

/-- `np.array(l)[i_null]`. (forecast_models.py 1854-1863) -/
def selectNulls {α : Type} : List Bool → List α → List α
  | b :: bs, a :: as => if b then a :: selectNulls bs as else selectNulls bs as
  | _, _ => []

/-- `fix_params_fmodel`, forecast_models.py 1817-1873; `label` renders the array in the name. -/
def fixParams (label : List (Option K) → String) (m : ForecastModel K) (fixed : List (Option K)) :
    Res (ForecastModel K) := do
  pyAssert (fixed.length = m.nParams)
  let nulls := fixed.map Option.isNone
  .ok (mkModel (m.name ++ "_fixed_" ++ label fixed) (countNulls fixed) (fixedEval m fixed)
    (fun u args isMult => do
      let p ← m.fInit u args isMult
      .ok (selectNulls nulls p))
    (fun args => do
      let b ← m.fBounds args
      .ok ⟨selectNulls nulls b.lo, selectNulls nulls b.hi, true⟩))

/-- Fixed values from bounds: the common value where both bounds agree, forecast_models.py 1893-1902. -/
def degenerate (lo hi : List (Ext K)) : List (Option K) :=
  List.zipWith (fun l h => match l, h with
    | .fin a, .fin b => if b = a then some b else none
    | _, _ => none) lo hi

/-- `simplify_model`, forecast_models.py 1876-1907. Indexing a plain Python list with a tuple raises `TypeError` (line 1902). -/
def simplifyModel (label : List (Option K) → String) (m : ForecastModel K) (args : InitArgs K) :
    Res (ForecastModel K) := do
  let b ← m.fBounds args
  let fixed := degenerate b.lo b.hi
  if fixed.all Option.isNone then .ok m
  else if !b.isArray then .error .typeError
  else fixParams label m fixed

/-- `validate_initial_guess`, forecast_models.py 1910-1916. -/
def validateInitialGuess (guess : List (Ext K)) (b : Bounds K) : Bool :=
  (guess.zip (b.lo.zip b.hi)).all fun e => Ext.le e.2.1 e.1 && Ext.le e.1 e.2.2

end Anticipy
