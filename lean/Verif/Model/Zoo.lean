import Verif.Model.Core
import Mathlib.Algebra.Order.Floor.Ring

/-
The built-in models of anticipy/forecast_models.py that need field arithmetic only
(constant, spike, linear, step, ramp, weekday and month seasonality, dummies).
-/
namespace Anticipy

section
variable {K : Type} [Field K] [LinearOrder K]

/-- Python tuple unpacking `[A] = params`: `None` is not iterable, wrong lengths raise `ValueError`. (forecast_models.py 548, 755) -/
def unpack1 : Params K → Res K
  | none => .error .typeError
  | some [a] => .ok a
  | some _ => .error .valueError

/-- `(A, B) = params`. (forecast_models.py 754-757, 858-864) -/
def unpack2 : Params K → Res (K × K)
  | none => .error .typeError
  | some [a, b] => .ok (a, b)
  | some _ => .error .valueError

/-- `(A, B, C) = params`. (forecast_models.py 671-682) -/
def unpack3 : Params K → Res (K × K × K)
  | none => .error .typeError
  | some [a, b, c] => .ok (a, b, c)
  | some _ => .error .valueError

/-- `np.nanmean` / `np.mean` of finite values. (forecast_models.py 553-557, 905-918) -/
def mean (l : List K) : K := l.sum / (l.length : K)

/-- `_f_model_constant`, forecast_models.py 547-550. -/
def fModelConstant : Ctx K → Params K → Bool → Res (Arr K) := fun ctx p _ => do
  let a ← unpack1 p
  .ok (vecOf (ctx.ax.map fun _ => a))

/-- `_f_init_params_constant`, forecast_models.py 553-557. -/
def fInitConstant : (Nat → K) → InitArgs K → Bool → Res (List (Ext K)) := fun u args _ =>
  match args.ay with
  | none => .ok [.fin (uniform 0 1 (u 0))]
  | some [] => .ok [.nan]
  | some ay => .ok [.fin (mean ay + uniform 0 1 (u 0))]

/-- `model_constant`, forecast_models.py 560-564. -/
def modelConstant : ForecastModel K := mkModel "constant" 1 fModelConstant fInitConstant

/-- `np.heaviside(x, 1)`. (forecast_models.py 862) -/
def heaviside (x : K) : K := if x < 0 then 0 else 1

/-- `_f_model_linear`, forecast_models.py 754-757. -/
def fModelLinear : Ctx K → Params K → Bool → Res (Arr K) := fun ctx p _ => do
  let (a, b) ← unpack2 p
  .ok (vecOf (ctx.ax.map fun x => a * x + b))

/-- Float division of finite values: division by zero gives NaN or a signed infinity (numpy). (forecast_models.py 763-768) -/
def extDiv (a b : K) : Ext K :=
  if b = 0 then (if a = 0 then .nan else if 0 < a then .pinf else .ninf) else .fin (a / b)

/-- `_f_init_params_linear`, forecast_models.py 760-771. -/
def fInitLinear : (Nat → K) → InitArgs K → Bool → Res (List (Ext K)) := fun u args _ =>
  match args.ay with
  | none => .ok [.fin (uniform 0 1 (u 0)), .fin (uniform 0 1 (u 1))]
  | some [] => .error .indexError
  | some (y0 :: ys) =>
    let size : K := match args.ax with
      | some ax => ((dedupBy id ax).length : K) - 1
      | none => ((y0 :: ys).length : K) - 1
    .ok [extDiv ((y0 :: ys).getLast (by simp) - y0) size, .fin y0]

/-- `model_linear`, forecast_models.py 774-778. -/
def modelLinear : ForecastModel K := mkModel "linear" 2 fModelLinear fInitLinear

/-- `f_init_params_linear_nondec`, forecast_models.py 781-789. -/
def fInitLinearNondec : (Nat → K) → InitArgs K → Bool → Res (List (Ext K)) := fun u args _ => do
  let p ← fInitLinear u args false
  match p with
  | a :: rest => .ok ((if Ext.lt a (.fin 0) then .fin 0 else a) :: rest)
  | [] => .error .indexError

/-- `f_bounds_linear_nondec`, forecast_models.py 792-794. -/
def fBoundsLinearNondec : InitArgs K → Res (Bounds K) :=
  fun _ => .ok ⟨[.fin 0, .ninf], [.pinf, .pinf], false⟩

/-- `model_linear_nondec`, forecast_models.py 797-799. -/
def modelLinearNondec : ForecastModel K :=
  mkModel "linear_nondec" 2 fModelLinear fInitLinearNondec fBoundsLinearNondec

/-- `_f_step`, forecast_models.py 858-864. -/
def fStep : Ctx K → Params K → Bool → Res (Arr K) := fun ctx p isMult => do
  let (a, b) ← unpack2 p
  .ok (vecOf (ctx.ax.map fun x =>
    if isMult then 1 + (b - 1) * heaviside (x - a) else b * heaviside (x - a)))

/-- Absolute first differences with their index: `df.diff().abs()` (row 0 is null). (forecast_models.py 876-883) -/
def absDiffs (ay : List K) : List K := (pairs ay).map fun p => |p.2 - p.1|

/-- Index (0-based) of the first maximal element: `nlargest(1, ..).index[0]` (`keep='first'`). (forecast_models.py 876-883) -/
def argmaxFirst : List K → Option Nat
  | [] => none
  | a :: l => match argmaxFirst l with
    | none => some 0
    | some i => if (l.getD i a) ≤ a then some 0 else some (i + 1)

/-- Row index and size of the largest absolute difference, forecast_models.py 876-883: the difference between rows
`i` and `i+1` sits at row `i+1`; with fewer than 2 rows `nlargest` drops the null row and `index[0]` raises. -/
def largestDiff (ay : List K) : Res (Nat × K) :=
  match argmaxFirst (absDiffs ay) with
  | none => .error .indexError
  | some i => .ok (i + 1, (absDiffs ay).getD i 0)

/-- `_f_init_params_step`, forecast_models.py 870-883. -/
def fInitStep : (Nat → K) → InitArgs K → Bool → Res (List (Ext K)) := fun u args _ =>
  match args.ay with
  | none => .ok [.fin (uniform 0 1 (u 0)), .fin (uniform 0 1 (u 1))]
  | some ay => do
    let (a, b) ← largestDiff ay
    .ok [.fin (a : K), .fin (b * 2)]

/-- `model_step`, forecast_models.py 887. -/
def modelStep : ForecastModel K := mkModel "step" 2 fStep fInitStep

/-- `_f_model_step_date`, forecast_models.py 892-901. -/
def fModelStepDate (dateStart : Timestamp) : Ctx K → Params K → Bool → Res (Arr K) := fun ctx p isMult => do
  let a ← unpack1 p
  match ctx.adate with
  | none => .error .typeError
  | some ds => .ok (vecOf (ds.map fun d =>
      let mask : K := if dateStart ≤ d then 1 else 0
      if isMult then mask * (a - 1) + 1 else mask * a))

/-- `_f_init_params_step_date`, forecast_models.py 905-918. -/
def fInitStepDate : (Nat → K) → InitArgs K → Bool → Res (List (Ext K)) := fun u args _ =>
  match args.ay with
  | none => .ok [.fin (uniform 0 1 (u 0))]
  | some ay => do
    let (_, b) ← largestDiff ay
    .ok [.fin (b * 2)]

/-- `get_model_step_date`, forecast_models.py 921-929 (`label` renders the date). -/
def getModelStepDate (label : Timestamp → String) (d : Timestamp) : ForecastModel K :=
  mkModel ("step_date[" ++ label d ++ "]") 1 (fModelStepDate d) fInitStepDate

/-- `_f_model_spike_date`, forecast_models.py 705-719. -/
def fModelSpikeDate (dateStart dateEnd : Timestamp) : Ctx K → Params K → Bool → Res (Arr K) :=
  fun ctx p isMult => do
  let a ← unpack1 p
  match ctx.adate with
  | none => .error .typeError
  | some ds => .ok (vecOf (ds.map fun d =>
      let mask : Bool := decide (dateStart ≤ d) && decide (d < dateEnd)
      if isMult then (if mask then 1 else 0) * a + (if mask then 0 else 1)
      else (if mask then 1 else 0) * a))

/-- Second definition of `_f_init_params_spike`, forecast_models.py 722-731 (it shadows the first one for
`get_model_spike_date` but `model_spike` was built with the first). -/
def fInitSpikeDate : (Nat → K) → InitArgs K → Bool → Res (List (Ext K)) := fun u args _ =>
  match args.ay with
  | none => .ok [.fin (1 + uniform 0 1 (u 0))]
  | some ay => match listMax ((pairs ay).map fun p => p.2 - p.1) with
    | none => .error .valueError
    | some d => .ok [.fin d]

/-- `get_model_spike_date`, forecast_models.py 737-749. -/
def getModelSpikeDate (label : Timestamp → String) (d1 d2 : Timestamp) : ForecastModel K :=
  mkModel ("spike_date[" ++ label d1 ++ "," ++ label d2 ++ "]") 1 (fModelSpikeDate d1 d2) fInitSpikeDate

/-- `_f_n_steps`, forecast_models.py 933-945: the loop runs over `range(0, n+1, 2)`, i.e. `n/2 + 1` steps. -/
def fNStepsLoop (ctx : Ctx K) (params : List K) (isMult : Bool) : Nat → Nat → Arr K → Res (Arr K)
  | 0, _, y => .ok y
  | k + 1, i, y =>
    match (params.drop i).take 2 with
    | [a, b] => do
      let s ← fStep ctx (some [a, b]) isMult
      let y' ← if isMult then Arr.bin (· * ·) y s else Arr.bin (· + ·) y s
      fNStepsLoop ctx params isMult k (i + 2) y'
    | _ => .error .valueError

/-- See forecast_models.py 933-945. -/
def fNSteps (n : Nat) : Ctx K → Params K → Bool → Res (Arr K) := fun ctx p isMult =>
  match p with
  | none => .error .typeError
  | some params =>
    fNStepsLoop ctx params isMult (n / 2 + 1) 0 (.scalar (some (if isMult then 1 else 0)))

/-- Indices of the `n` largest values, ties by position (`nlargest(n, ..)`): repeatedly take the first maximum. (forecast_models.py 957-978) -/
def nlargestIdx (l : List (Nat × K)) : Nat → List (Nat × K)
  | 0 => []
  | n + 1 => match argmaxFirst (l.map (·.2)) with
    | none => []
    | some i => match l[i]? with
      | none => []
      | some e => e :: nlargestIdx (l.eraseIdx i) n

/-- Interleave `[a0, b0, a1, b1, ..]`, forecast_models.py 975-978; raises `IndexError` when fewer than `n` rows. -/
def fInitNSteps (n : Nat) : (Nat → K) → InitArgs K → Bool → Res (List (Ext K)) := fun u args _ =>
  match args.ay with
  | none => .ok ((List.range (n * 2)).map fun i => .fin (uniform 0 1 (u i)))
  | some ay =>
    let d := absDiffs ay
    let top := nlargestIdx ((List.range d.length).zip d) n
    if top.length < n then .error .indexError
    else .ok (top.flatMap fun e => [.fin ((e.1 + 1 : Nat) : K), .fin e.2])

/-- `model_two_steps`, forecast_models.py 948-994. -/
def modelTwoSteps : ForecastModel K := mkModel "two_steps" 4 (fNSteps 2) (fInitNSteps 2)

/-- `_f_ramp`, forecast_models.py 1066-1072. -/
def fRamp : Ctx K → Params K → Bool → Res (Arr K) := fun ctx p isMult => do
  let (a, b) ← unpack2 p
  .ok (vecOf (ctx.ax.map fun x =>
    if isMult then 1 + (x - a) * b * heaviside (x - a) else (x - a) * b * heaviside (x - a)))

/-- `int(np.ceil(0.15 * n))`. (forecast_models.py 1079, 1102, 1119) -/
def ceil15 (n : Nat) : Nat := (15 * n + 99) / 100

/-- Python indexing with a possibly negative index. (forecast_models.py 1080, 1120-1121) -/
def pyIndex {α : Type} (l : List α) (i : Int) : Res α :=
  let j : Int := if i < 0 then i + l.length else i
  if j < 0 then .error .indexError
  else match l[j.toNat]? with
    | some a => .ok a
    | none => .error .indexError

/-- Absolute second differences with the row key they belong to: `df.diff().diff().abs()`
(rows 0 and 1 are null, `none`). (forecast_models.py 1089-1099) -/
def diff2 (l : List K) : List (Option K) :=
  let d := (pairs l).map fun p => p.2 - p.1
  let d2 := (pairs d).map fun p => some |p.2 - p.1|
  List.replicate (min 2 l.length) none ++ d2

/-- First maximum among the non-null values of keyed rows (`nlargest(1, 'diff2')`). (forecast_models.py 1104-1105) -/
def argmaxKey (l : List (K × Option K)) : Option (K × K) :=
  let vals := l.filterMap fun e => e.2.map fun v => (e.1, v)
  match argmaxFirst (vals.map (·.2)) with
  | none => none
  | some i => vals[i]?

/-- `_f_init_params_ramp`, forecast_models.py 1075-1110. -/
def fInitRamp : (Nat → K) → InitArgs K → Bool → Res (List (Ext K)) := fun u args _ =>
  match args.ay with
  | none => match args.ax with
    | some ax => do
      let n : Int := ceil15 ax.length
      let lo ← pyIndex ax n
      let hi ← pyIndex ax (-n - 1)
      .ok [.fin (uniform lo hi (u 0)), .fin (uniform 0 1 (u 1))]
    | none => .ok [.fin (uniform 0 1 (u 0)), .fin (uniform 0 1 (u 1))]
  | some ay =>
    let keyed : List (K × K) := match args.ax with
      | some ax => dedupBy Prod.fst (ax.zip ay)
      | none => ((List.range ay.length).map fun i : Nat => (i : K)).zip ay
    let rows := (keyed.map (·.1)).zip (diff2 (keyed.map (·.2)))
    let skip := ceil15 rows.length
    match argmaxKey ((rows.take (rows.length - skip)).drop skip) with
    | none => .error .indexError
    | some (a, b) => .ok [.fin a, .fin b]

/-- `_f_init_bounds_ramp`, forecast_models.py 1113-1139. -/
def fBoundsRamp : InitArgs K → Res (Bounds K) := fun args =>
  match args.ax with
  | none => .ok ⟨[.ninf, .ninf], [.pinf, .pinf], false⟩
  | some ax => do
    let n : Int := ceil15 ax.length
    let lo ← pyIndex ax n
    let hi ← pyIndex ax (-n)
    .ok ⟨[.fin lo, .ninf], [.fin hi, .pinf], false⟩

/-- `model_ramp`, forecast_models.py 1142-1147. -/
def modelRamp : ForecastModel K := mkModel "ramp" 2 fRamp fInitRamp fBoundsRamp

/-- `_f_init_cache_a_weekday`, forecast_models.py 163-164. -/
def cacheWeekday : CacheFn K := fun _ ad => match ad with
  | none => .error .attributeError
  | some ds => .ok (.ints (ds.map weekday))

/-- `_f_init_cache_a_month`, forecast_models.py 159-160. -/
def cacheMonth : CacheFn K := fun _ ad => match ad with
  | none => .error .attributeError
  | some ds => .ok (.ints (ds.map fun d => month d - 1))

/-- numpy integer-array indexing `params_long[idx]` (indices here are never negative). (forecast_models.py 1152-1162, 1200-1210) -/
def gather (l : List K) : List Int → Res (List (Option K))
  | [] => .ok []
  | i :: is => do
    let v ← pyIndex l i
    let r ← gather l is
    .ok (some v :: r)

/-- Season by index array, shared by `_f_model_season_wday` (forecast_models.py 1152-1162) and `_f_model_season_month`
(1200-1210). -/
def fModelIndexed (key : String) (f : CacheFn K) : Ctx K → Params K → Bool → Res (Arr K) :=
  fun ctx p isMult => do
  match p with
  | none => .error .valueError
  | some params =>
    let long := (if isMult then 1 else 0) :: params
    let c ← match ctx.cache key with
      | some c => pure c
      | none => f ctx.ax ctx.adate
    match c with
    | .ints l => do let r ← gather long l; .ok (.vec r)
    | _ => .error .typeError

/-- `_f_model_season_wday`, forecast_models.py 1152-1162. -/
def fModelSeasonWday : Ctx K → Params K → Bool → Res (Arr K) := fModelIndexed "a_weekday" cacheWeekday

/-- `_f_validate_input_season_wday`, forecast_models.py 1165-1167. -/
def validateSeasonWday : Validator K := ⟨"_f_validate_input_season_wday", fun _ _ ad => match ad with
  | none => .error .assertionError
  | some ds => do pyAssert ((dedupBy id (ds.map weekday)).length = 7); .ok true⟩

/-- `model_season_wday`, forecast_models.py 1170-1176. -/
def modelSeasonWday : ForecastModel K :=
  mkModel "season_wday" 6 fModelSeasonWday (validators := [validateSeasonWday]) (cacheVars := ["a_weekday"])

/-- `_f_model_season_month`, forecast_models.py 1200-1210. -/
def fModelSeasonMonth : Ctx K → Params K → Bool → Res (Arr K) := fModelIndexed "a_month" cacheMonth

/-- `_f_init_params_season_month`, forecast_models.py 1180-1197. The optimiser calls it without dates, which takes the
random branch; with dates the monthly means relative to December are used (null for absent months). -/
def fInitSeasonMonth : (Nat → K) → InitArgs K → Bool → Res (List (Ext K)) := fun u args isMult =>
  match args.ay, args.adate with
  | some ay, some ds =>
    let avg (i : Int) : Option K :=
      match ((ds.zip ay).filter fun e => month e.1 = i).map (·.2) with
      | [] => none
      | l => some (mean l)
    let base := avg 12
    .ok ((List.range 11).map fun i : Nat => match avg ((i : Int) + 1), base with
      | some a, some b => if isMult then extDiv a b else .fin (a - b)
      | _, _ => .nan)
  | _, _ => .ok ((List.range 11).map fun i => .fin (uniform (-1) 1 (u i)))

/-- `model_season_month`, forecast_models.py 1213-1219. -/
def modelSeasonMonth : ForecastModel K :=
  mkModel "season_month" 11 fModelSeasonMonth fInitSeasonMonth (cacheVars := ["a_month"])

/-! ### Dummy models -/

/-- Function `f_dummy(a_x, a_date)` returning a mask array, forecast_models.py 1587-1605. -/
abbrev DummyFn (K : Type) := List K → Option (List Timestamp) → Res (List K)

/-- `np.isin(..).astype(float)`. (forecast_models.py 1503-1521) -/
def isinMask {α : Type} [DecidableEq α] (l check : List α) : List K :=
  l.map fun a => if a ∈ check then 1 else 0

/-- `f_dummy_list_numeric`, forecast_models.py 1508-1510. -/
def fDummyListNumeric (check : List K) : DummyFn K := fun ax _ => .ok (isinMask ax check)

/-- `_get_f_dummy_from_list`, numeric branch, forecast_models.py 1503-1512. -/
def fDummyNumeric (check : List K) : Res (DummyFn K) :=
  if check = [] then .error .assertionError else .ok (fDummyListNumeric check)

/-- `f_dummy_list_date`, forecast_models.py 1517-1519. Without dates `np.isin(None, …)` is a zero-dimensional array containing 0, which
broadcasts like an array of length 1. -/
def fDummyListDate (check : List Timestamp) : DummyFn K := fun _ ad => match ad with
  | none => .ok [0]
  | some ds => .ok (isinMask ds check)

/-- `_get_f_dummy_from_list`, date branch, forecast_models.py 1503-1504 and 1513-1521. -/
def fDummyDates (check : List Timestamp) : Res (DummyFn K) :=
  if check = [] then .error .assertionError else .ok (fDummyListDate check)

/-- `_get_f_model_dummy`, forecast_models.py 1559-1584. -/
def fModelDummy (f : DummyFn K) (maskName : String) : Ctx K → Params K → Bool → Res (Arr K) :=
  fun ctx p isMult => do
  let mask ← match ctx.cache maskName with
    | some (.mask m) => pure m
    | some _ => .error .typeError
    | none => f ctx.ax ctx.adate
  let a ← unpack1 p
  .ok (vecOf (mask.map fun m => if isMult then a * m + 1 else a * m))

/-- `_validate_f_dummy`, forecast_models.py 1452-1466: values on ten sample days must be 0 or 1. 2018-01-01 is day 17532. -/
def validateFDummy (f : DummyFn K) : Res Unit := do
  let m ← f ((List.range 10).map fun i : Nat => (i : K))
    (some ((List.range 10).map fun i : Nat => (17532 + (i : Int)) * DAY))
  pyAssert (m.all fun v => v = 0 || v = 1)

/-- `get_model_dummy`, forecast_models.py 1587-1620 (the dummy already converted to a function by `_get_f_dummy`). -/
def getModelDummy (name : String) (f : DummyFn K) : Res (ForecastModel K) := do
  validateFDummy f
  .ok (mkModel name 1 (fModelDummy f ("mask_" ++ name))
    (dictFCache := [("mask_" ++ name, fun ax ad => do let m ← f ax ad; .ok (.mask m))]))

/-- Dummy function of `model_season_wday_2`, forecast_models.py 1623-1625. -/
def fDummyWeekend : DummyFn K := fun _ ad => match ad with
  | none => .error .attributeError
  | some ds => .ok (ds.map fun d => if weekday d < 5 then 1 else 0)

/-- `model_season_wday_2`, forecast_models.py 1623-1625. -/
def modelSeasonWday2 : Res (ForecastModel K) := getModelDummy "season_wday_2" fDummyWeekend

/-- Dummy function of `model_dummy_christmas`, forecast_models.py 1628-1630. -/
def fDummyChristmas : DummyFn K := fun _ ad => match ad with
  | none => .error .attributeError
  | some ds => .ok (ds.map fun d => if month d = 12 && dom d = 25 then 1 else 0)

/-- `model_dummy_christmas`, forecast_models.py 1628-1630. -/
def modelDummyChristmas : Res (ForecastModel K) := getModelDummy "dummy_christmas" fDummyChristmas

/-- Dummy function of `model_dummy_month_start`, forecast_models.py 1633-1635. -/
def fDummyMonthStart : DummyFn K := fun _ ad => match ad with
  | none => .error .attributeError
  | some ds => .ok (ds.map fun d => if dom d = 1 then 1 else 0)

/-- `model_dummy_month_start`, forecast_models.py 1633-1635. -/
def modelDummyMonthStart : Res (ForecastModel K) := getModelDummy "dummy_month_start" fDummyMonthStart

end

section
variable {K : Type} [Field K] [LinearOrder K] [FloorRing K]

/-- Python `int(x)`: truncation towards zero. (forecast_models.py 671-682) -/
def pyInt (x : K) : Int := if 0 ≤ x then ⌊x⌋ else ⌈x⌉

/-- `np.full(n, c)`; negative sizes raise `ValueError`. (forecast_models.py 671-682) -/
def npFull (n : Int) (c : K) : Res (List K) :=
  if n < 0 then .error .valueError else .ok (List.replicate n.toNat c)

/-- `_f_model_spike`, forecast_models.py 671-682. -/
def fModelSpike : Ctx K → Params K → Bool → Res (Arr K) := fun ctx p isMult => do
  let (a, xMin, xMax) ← unpack3 p
  let c : K := if isMult then 1 else 0
  let l1 ← npFull (pyInt xMin) c
  let l2 ← npFull (pyInt (xMax - xMin)) a
  let l3 ← npFull (ctx.ax.length - pyInt xMax) c
  .ok (vecOf (l1 ++ l2 ++ l3))

/-- First definition of `_f_init_params_spike`, forecast_models.py 685-697 (without data: `[1] + array + [2]` adds
elementwise and has length 1). -/
def fInitSpike : (Nat → K) → InitArgs K → Bool → Res (List (Ext K)) := fun u args _ =>
  match args.ay with
  | none => .ok [.fin (1 + uniform 0 1 (u 0) + 2)]
  | some ay =>
    let d := (pairs ay).map fun p => p.2 - p.1
    match argmaxFirst d with
    | none => .error .valueError
    | some i => .ok [.fin (d.getD i 0), .fin (i : K), .fin ((i : K) + 1)]

/-- `model_spike`, forecast_models.py 700. -/
def modelSpike : ForecastModel K := mkModel "spike" 3 fModelSpike fInitSpike

end
end Anticipy
