import Verif.Model.Zoo
import Mathlib.Analysis.SpecialFunctions.Trigonometric.Basic
import Mathlib.Analysis.SpecialFunctions.Log.Basic
import Mathlib.Analysis.SpecialFunctions.Pow.Real

/-
The built-in models of anticipy/forecast_models.py that use transcendental functions, over `ℝ`.
-/
namespace Anticipy

noncomputable section

open Classical in
/-- `np.power(a, b)` (forecast_models.py 806, 817) of two floats: NaN for a negative base unless the exponent is an integer. `0 ** b` with `b < 0` is
infinite in numpy; the model has no infinite values and takes NaN there, too. -/
def npPower (a b : ℝ) : Option ℝ :=
  if (a < 0 ∧ ¬ ∃ n : ℤ, b = n) ∨ (a = 0 ∧ b < 0) then none else some (a ^ b)

/-- `_f_model_quasilinear`, forecast_models.py 804-807. -/
def fModelQuasilinear : Ctx ℝ → Params ℝ → Bool → Res (Arr ℝ) := fun ctx p _ => do
  let (a, b, c) ← unpack3 p
  .ok (.vec (ctx.ax.map fun x => (npPower x b).map fun v => a * v + c))

/-- `model_quasilinear`, forecast_models.py 810. -/
def modelQuasilinear : ForecastModel ℝ := mkModel "quasilinear" 3 fModelQuasilinear

/-- `_f_model_exp`, forecast_models.py 815-818. -/
def fModelExp : Ctx ℝ → Params ℝ → Bool → Res (Arr ℝ) := fun ctx p _ => do
  let (a, b) ← unpack2 p
  .ok (.vec (ctx.ax.map fun x => (npPower b x).map fun v => a * v))

/-- `model_exp`, forecast_models.py 821. -/
def modelExp : ForecastModel ℝ := mkModel "exponential" 2 fModelExp

/-- `_f_model_decay`, forecast_models.py 825-828. -/
def fModelDecay : Ctx ℝ → Params ℝ → Bool → Res (Arr ℝ) := fun ctx p _ => do
  let (a, b, d) ← unpack3 p
  .ok (vecOf (ctx.ax.map fun x => a * Real.exp (b * x) + d))

/-- `_f_validate_input_decay`, forecast_models.py 831-832. -/
def validateDecay : Validator ℝ := ⟨"_f_validate_input_decay", fun _ ay _ => do
  pyAssert (ay.all fun y => decide (0 < y)); .ok true⟩

/-- `f_init_params_decay`, forecast_models.py 835-843. For a single sample the slope is `log(1)/0 = 0/0`, NaN. With
positive data (see the validator) the logarithm is finite; `np.log(0) = -inf` is replaced by -0.5 and negative
quotients give NaN. -/
def fInitDecay : (Nat → ℝ) → InitArgs ℝ → Bool → Res (List (Ext ℝ)) := fun _ args _ =>
  match args.ay with
  | none => .ok [.fin 0, .fin 0, .fin 0]
  | some [] => .error .indexError
  | some (y0 :: ys) =>
    let l := y0 :: ys
    let last := l.getLast (by simp)
    match listMin l, listMax l with
    | some mn, some mx =>
      let b : Ext ℝ :=
        if mx = 0 then .nan
        else if mn / mx = 0 then .fin (-(1/2))
        else if mn / mx < 0 then .nan
        else if ys = [] then .nan
        else
          let b0 := Real.log (mn / mx) / ((l.length : ℝ) - 1)
          if 0 < b0 then .fin (-(1/2)) else .fin b0
      .ok [.fin (y0 - last), b, .fin last]
    | _, _ => .error .valueError

/-- `f_bounds_decay`, forecast_models.py 846-847. -/
def fBoundsDecay : InitArgs ℝ → Res (Bounds ℝ) :=
  fun _ => .ok ⟨[.ninf, .ninf, .ninf], [.pinf, .fin 0, .pinf], false⟩

/-- `model_decay`, forecast_models.py 850-853. -/
def modelDecay : ForecastModel ℝ := mkModel "decay" 3 fModelDecay fInitDecay fBoundsDecay [validateDecay]

/-- `_f_sigmoid`, forecast_models.py 1000-1008. -/
def fSigmoid : Ctx ℝ → Params ℝ → Bool → Res (Arr ℝ) := fun ctx p isMult => do
  let (b, c, d) ← unpack3 p
  let a : ℝ := if isMult then 1 else 0
  .ok (vecOf (ctx.ax.map fun x => a + (b - a) / (1 + Real.exp (-d * (x - c)))))

/-- `_f_init_params_sigmoid_step`, forecast_models.py 1011-1027. -/
def fInitSigmoidStep {K : Type} [Field K] [LinearOrder K] :
    (Nat → K) → InitArgs K → Bool → Res (List (Ext K)) := fun u args _ =>
  match args.ay with
  | none => .ok [.fin (uniform 0 1 (u 0)), .fin (uniform 0 1 (u 1)), .fin (uniform 0 1 (u 2))]
  | some ay => do
    let (c, _) ← largestDiff ay
    let b := ay.getD c 0
    .ok [.fin b, .fin (c : K), .fin (b * b)]

/-- `_f_init_bounds_sigmoid_step`, forecast_models.py 1030-1045. -/
def fBoundsSigmoidStep {K : Type} [Field K] [LinearOrder K] : InitArgs K → Res (Bounds K) := fun args =>
  match args.ay with
  | none => .ok ⟨[.ninf, .ninf, .fin 0], [.pinf, .pinf, .pinf], false⟩
  | some ay => match args.ax with
    | none => .error .attributeError
    | some ax => match listMin ay, listMax ay, listMin ax, listMax ax with
      | some mny, some mxy, some mnx, some mxx =>
        let diff := mxy - mny
        .ok ⟨[.fin (-2 * diff), .fin mnx, .fin 0], [.fin (2 * diff), .fin mxx, .pinf], false⟩
      | _, _, _, _ => .error .valueError

/-- `model_sigmoid_step`, forecast_models.py 1049-1054. -/
def modelSigmoidStep : ForecastModel ℝ := mkModel "sigmoid_step" 3 fSigmoid fInitSigmoidStep fBoundsSigmoidStep

/-- `model_sigmoid`, forecast_models.py 1056. -/
def modelSigmoid : ForecastModel ℝ := mkModel "sigmoid" 3 fSigmoid

/-- `_FOURIER_HARMONICS`, forecast_models.py 41. -/
def fourierHarmonics : Nat := 10
/-- `_FOURIER_K = 2 pi / 365.25`, forecast_models.py 40-42. -/
def fourierK : ℝ := 2 * Real.pi / (1461 / 4)

/-- `(a_date - _FOURIER_DATE_ORIGIN).days`: whole days since 1970-01-01, forecast_models.py 169. -/
def fourierT (d : Timestamp) : ℝ := ((dayOf d : ℤ) : ℝ)

/-- `_f_init_cache_a_t_fourier`, forecast_models.py 167-173: ten sine rows followed by ten cosine rows. -/
def cacheFourier : CacheFn ℝ := fun _ ad => match ad with
  | none => .error .typeError
  | some ds =>
    let rows (f : ℝ → ℝ) := (List.range fourierHarmonics).map fun i : Nat =>
      ds.map fun d => f (fourierK * ((i : ℝ) + 1) * fourierT d)
    .ok (.mat (rows Real.sin ++ rows Real.cos))

/-- Vector-matrix product `np.matmul(params, rows)` for column `j`. (forecast_models.py 1225-1236) -/
def matmulCol (params : List ℝ) (rows : List (List ℝ)) (j : Nat) : ℝ :=
  (List.zipWith (fun p row => p * row.getD j 0) params rows).sum

/-- `_f_model_yearly_season_fourier`, forecast_models.py 1225-1236; a shape mismatch raises `ValueError`. -/
def fModelFourier : Ctx ℝ → Params ℝ → Bool → Res (Arr ℝ) := fun ctx p _ => do
  let c ← match ctx.cache "a_t_fourier" with
    | some c => pure c
    | none => cacheFourier [] ctx.adate
  match p, c with
  | some params, .mat rows =>
    if params.length ≠ rows.length then .error .valueError
    else .ok (vecOf ((List.range (rows.headD []).length).map fun j => matmulCol params rows j))
  | none, _ => .error .typeError
  | _, _ => .error .typeError

/-- `_f_init_params_fourier`, forecast_models.py 1239-1257. -/
def fInitFourier : (Nat → ℝ) → InitArgs ℝ → Bool → Res (List (Ext ℝ)) := fun u args _ =>
  let n := 2 * fourierHarmonics
  match args.ay with
  | none => .ok ((List.range n).map fun i => .fin (uniform (1/1000) 1 (u i)))
  | some ay => match listMin ay, listMax ay with
    | some mn, some mx => .ok ((List.range n).map fun i => .fin ((mx - mn) * uniform (1/1000) 1 (u i)))
    | _, _ => .error .valueError

/-- `model_season_fourier_yearly`, forecast_models.py 1260-1276. -/
def modelFourier : ForecastModel ℝ :=
  mkModel "season_fourier_yearly" (2 * fourierHarmonics) fModelFourier fInitFourier
    (fBoundsDefault (2 * fourierHarmonics)) (cacheVars := ["a_t_fourier"])

/-- `_dict_f_cache`, forecast_models.py 179-183. -/
def globalCache : String → Option (CacheFn ℝ) := fun s =>
  if s = "a_month" then some cacheMonth
  else if s = "a_weekday" then some cacheWeekday
  else if s = "a_t_fourier" then some cacheFourier
  else none

end
end Anticipy
