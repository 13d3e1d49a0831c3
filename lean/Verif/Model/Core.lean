import Verif.Model.Py
import Verif.Model.Time
import Mathlib.Algebra.Order.Field.Basic

/-
`class ForecastModel` of anticipy/forecast_models.py (lines 57-542): construction, composition with
`+` and `*`, validation and cache.
-/
namespace Anticipy

/-- Row of a data table (normalised form, see `normalize_df`, forecast.py 299-404).
`date` is meaningful only if the table has a date column, `weight` only if it has a weight column;
`none` is NaN. -/
structure Row (K : Type) where
  date : Timestamp
  x : Int
  y : Option K
  weight : Option K
  deriving DecidableEq, Repr

/-- A single-source data table: which optional columns exist, and the rows in order. (forecast.py 1107-1113) -/
structure Frame (K : Type) where
  hasDate : Bool
  hasWeight : Bool
  rows : List (Row K)
  deriving DecidableEq, Repr

/-- Values stored in the cache dictionary (forecast_models.py 159-183, 1618): integer index arrays
(`a_month`, `a_weekday`), the sin/cos matrix of the Fourier model (rows = harmonics), or 0/1 masks. -/
inductive CacheVal (K : Type) where
  | ints (l : List Int)
  | mat (rows : List (List K))
  | mask (l : List K)

/-- Arguments of a model function besides the parameters: `a_x`, `a_date` and the keyword arguments
(`df_actuals`, cache variables), forecast_models.py 225-240. -/
structure Ctx (K : Type) where
  ax : List K
  adate : Option (List Timestamp)
  actuals : Option (Frame K) := none
  cache : String → Option (CacheVal K) := fun _ => none
  /-- are any cache keyword arguments passed? (the naive models accept none) -/
  hasCache : Bool := false

/-- `params` argument; `none` is Python's `None` (passed for 0-parameter models by
`fit_model`, forecast.py 558-559). -/
abbrev Params (K : Type) := Option (List K)

/-- Arguments of parameter initialisation functions (`None`-able arrays), forecast_models.py 250-256. -/
structure InitArgs (K : Type) where
  ax : Option (List K)
  ay : Option (List K)
  adate : Option (List Timestamp)

/-- Parameter bounds; `isArray` records whether they are numpy arrays or plain Python lists
(matters in `simplify_model`, forecast_models.py 1902). -/
structure Bounds (K : Type) where
  lo : List (Ext K)
  hi : List (Ext K)
  isArray : Bool
  deriving DecidableEq

/-- A validation function: raises, or returns a boolean (or `None`, modelled as `true`). `id` is the
function's identity, used by `set()` (forecast_models.py 437-438). -/
structure Validator (K : Type) where
  id : String
  run : List K → List K → Option (List Timestamp) → Res Bool

/-- Cache initialisation function `f(a_x, a_date)` (forecast_models.py 159-173, 1618). -/
abbrev CacheFn (K : Type) := List K → Option (List Timestamp) → Res (CacheVal K)

/-- `class ForecastModel`, forecast_models.py 188-413. Random draws of the initialisation function are taken
from the stream argument (uniform variates in [0,1)). -/
structure ForecastModel (K : Type) where
  name : String
  nParams : Nat
  fModel : Ctx K → Params K → Bool → Res (Arr K)
  fInit : (Nat → K) → InitArgs K → Bool → Res (List (Ext K))
  fBounds : InitArgs K → Res (Bounds K)
  validators : List (Validator K)
  cacheVars : List String
  dictFCache : List (String × CacheFn K)

section
variable {K : Type}

/-- `_f_validate_input_default`, forecast_models.py 148-151. -/
def validateDefault : Validator K := ⟨"_f_validate_input_default", fun _ _ _ => .ok true⟩

variable [Field K]

/-- `np.random.uniform(low, high)` from a uniform variate `u` in [0,1). (forecast_models.py 57-61) -/
def uniform (low high u : K) : K := low + (high - low) * u

/-- `_get_f_init_params_default`, forecast_models.py 57-61. -/
def fInitDefault (n : Nat) : (Nat → K) → InitArgs K → Bool → Res (List (Ext K)) :=
  fun u _ _ => .ok ((List.range n).map fun i => .fin (uniform (1/1000) 1 (u i)))

/-- `_get_f_bounds_default`, forecast_models.py 64-68 (plain lists). -/
def fBoundsDefault (n : Nat) : InitArgs K → Res (Bounds K) :=
  fun _ => .ok ⟨List.replicate n .ninf, List.replicate n .pinf, false⟩

/-- `ForecastModel.__init__`, forecast_models.py 347-413, with default initialisation and bounds.
(`_get_f_init_params_validated`, lines 402-410, rejects null `a_x`; modelled arrays have none.) -/
def mkModel (name : String) (n : Nat) (f : Ctx K → Params K → Bool → Res (Arr K))
    (fInit : (Nat → K) → InitArgs K → Bool → Res (List (Ext K)) := fInitDefault n)
    (fBounds : InitArgs K → Res (Bounds K) := fBoundsDefault n)
    (validators : List (Validator K) := [validateDefault])
    (cacheVars : List String := []) (dictFCache : List (String × CacheFn K) := []) :
    ForecastModel K :=
  ⟨name, n, f, fInit, fBounds, validators, cacheVars, dictFCache⟩

/-- `params[0:n]` and `params[n:]`; slicing `None` raises `TypeError`. (forecast_models.py 77-80) -/
def splitParams (n : Nat) : Params K → Res (List K × List K)
  | none => .error .typeError
  | some p => .ok (p.take n, p.drop n)

/-- `_get_f_add_2_f_models`, forecast_models.py 71-90. -/
def fAdd2 (m1 m2 : ForecastModel K) : Ctx K → Params K → Bool → Res (Arr K) :=
  fun ctx params _isMult => do
    let (p1, p2) ← splitParams m1.nParams params
    let a ← m1.fModel ctx (some p1) false
    let b ← m2.fModel ctx (some p2) false
    Arr.bin (· + ·) a b

/-- `_get_f_mult_2_f_models`, forecast_models.py 93-112. -/
def fMult2 (m1 m2 : ForecastModel K) : Ctx K → Params K → Bool → Res (Arr K) :=
  fun ctx params _isMult => do
    let (p1, p2) ← splitParams m1.nParams params
    let a ← m1.fModel ctx (some p1) true
    let b ← m2.fModel ctx (some p2) true
    Arr.bin (· * ·) a b

/-- `_get_f_add_2_f_init_params` / `_get_f_mult_2_f_init_params`, forecast_models.py 115-134. The two parts draw from
two disjoint halves of the random stream. -/
def fInit2 (mult : Bool) (m1 m2 : ForecastModel K) : (Nat → K) → InitArgs K → Bool → Res (List (Ext K)) :=
  fun u args _isMult => do
    let a ← m1.fInit (fun i => u (2 * i)) args mult
    let b ← m2.fInit (fun i => u (2 * i + 1)) args mult
    .ok (a ++ b)

/-- `_get_f_concat_2_bounds`, forecast_models.py 137-145 (the result is a numpy array). -/
def fConcatBounds (m1 m2 : ForecastModel K) : InitArgs K → Res (Bounds K) :=
  fun args => do
    let a ← m1.fBounds args
    let b ← m2.fBounds args
    .ok ⟨a.lo ++ b.lo, a.hi ++ b.hi, true⟩

/-- `dict.update`: entries of the second dictionary replace those of the first (forecast_models.py 440-441). -/
def dictUpdate {α : Type} (d1 d2 : List (String × α)) : List (String × α) :=
  d1.filter (fun e => (d2.lookup e.1).isNone) ++ d2

/-- Name of a composite, forecast_models.py 431 and 463. -/
def composedName (op a b : String) : String := "(" ++ a ++ op ++ b ++ ")"

/-- Composition shared by `__add__` and `__mul__`, forecast_models.py 425-485. -/
def compose (mult : Bool) (m1 m2 : ForecastModel K) : ForecastModel K :=
  if m1.name = "null" then m2
  else if m2.name = "null" then m1
  else
    { name := composedName (if mult then "*" else "+") m1.name m2.name
      nParams := m1.nParams + m2.nParams
      fModel := if mult then fMult2 m1 m2 else fAdd2 m1 m2
      fInit := fInit2 mult m1 m2
      fBounds := fConcatBounds m1 m2
      validators := dedupBy Validator.id (m1.validators ++ m2.validators)
      cacheVars := dedupBy (fun s : String => s) (m1.cacheVars ++ m2.cacheVars)
      dictFCache := dictUpdate m1.dictFCache m2.dictFCache }

/-- `ForecastModel.__add__`, forecast_models.py 425-453. -/
def ForecastModel.add (m1 m2 : ForecastModel K) : ForecastModel K := compose false m1 m2
/-- `ForecastModel.__mul__`, forecast_models.py 458-485. -/
def ForecastModel.mul (m1 m2 : ForecastModel K) : ForecastModel K := compose true m1 m2

/-- `ForecastModel.__eq__`, forecast_models.py 490-493: equality is equality of names. -/
def ForecastModel.eqv (m1 m2 : ForecastModel K) : Bool := m1.name = m2.name
/-- `ForecastModel.__ne__`, forecast_models.py 495-499. -/
def ForecastModel.nev (m1 m2 : ForecastModel K) : Bool := !m1.eqv m2
/-- `ForecastModel.__hash__`, forecast_models.py 501-502; `h` is Python's hash function for strings. -/
def ForecastModel.hashWith (h : String → Int) (m : ForecastModel K) : Int := h m.name
/-- `ForecastModel.__lt__`, forecast_models.py 504-505. -/
def ForecastModel.lt (m1 m2 : ForecastModel K) : Bool := m1.name < m2.name

/-- `ForecastModel.validate_input`, forecast_models.py 507-513: every validator is called in order, an
`AssertionError` yields `False`, other exceptions propagate, returned values are ignored. -/
def runValidators (ax ay : List K) (ad : Option (List Timestamp)) :
    List (Validator K) → Res Bool
  | [] => .ok true
  | v :: vs => match v.run ax ay ad with
    | .error .assertionError => .ok false
    | .error e => .error e
    | .ok _ => runValidators ax ay ad vs

/-- See forecast_models.py 507-513. -/
def ForecastModel.validateInput (m : ForecastModel K) (ax ay : List K) (ad : Option (List Timestamp)) :
    Res Bool := runValidators ax ay ad m.validators

/-- Evaluate a list of named cache functions, later entries overwriting earlier ones. (forecast_models.py 515-530) -/
def evalCache (ax : List K) (ad : Option (List Timestamp)) :
    List (String × CacheFn K) → (String → Option (CacheVal K)) → Res (String → Option (CacheVal K))
  | [], c => .ok c
  | (k, f) :: l, c => do
    let v ← f ax ad
    evalCache ax ad l (fun s => if s = k then some v else c s)

/-- `ForecastModel.init_cache`, forecast_models.py 515-530. `global` is the module dictionary `_dict_f_cache`
(lines 179-183); unknown names are skipped with a warning. -/
def ForecastModel.initCache (m : ForecastModel K) (global : String → Option (CacheFn K))
    (ax : List K) (ad : Option (List Timestamp)) : Res (String → Option (CacheVal K)) :=
  evalCache ax ad (m.cacheVars.filterMap (fun k => (global k).map (fun f => (k, f))) ++ m.dictFCache)
    (fun _ => none)

/-- `_f_model_null` and `model_null`, forecast_models.py 536-542. -/
def modelNull : ForecastModel K :=
  mkModel "null" 0 (fun _ _ isMult => .ok (.scalar (some (if isMult then 1 else 0))))

end
end Anticipy
