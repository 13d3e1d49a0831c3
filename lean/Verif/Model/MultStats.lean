import Verif.Model.Candidates
import Verif.Model.Fit
import Mathlib.Analysis.Real.Sqrt

/-
The statistics behind the automatic choice of multiplicative composition: `_fit_linear` and `_get_mult_sum_stats`,
anticipy/model_utils.py 400-448. In `Verif/Model/Candidates.lean` they are an arbitrary function; `multCorr` is an instance of it.
-/
namespace Anticipy
variable {K : Type}

section
variable [Field K] [LinearOrder K]

/-- Column `y_pred` of `_fit_linear`, lines 400-422. The line is evaluated at 0, 1, 2, … (`extrapolate_model` is called without `x_start_actuals`,
forecast.py 680) and merged to the rows with x = min, min + 1, min + 2, …. -/
def fitLinear (env : Env K) (df : Frame K) : Res (List (Row K × Option K)) := do
  pyAssert (decide (4 ≤ df.rows.length))
  let r ← fitModel env modelLinear df none true
  match listMin (df.rows.map Row.x), listMax (df.rows.map Row.x) with
  | some a, some b =>
    let pos : List K := (sxExtrapolateNum a (b + 1) 0 0).map fun p => (p.2 : K)
    let pred ← modelLinear.fModel { ax := pos, adate := none } (some r.params) false
    match pred with
    | .vec l => .ok (df.rows.map fun q => (q, (l[(q.x - a).toNat]?).getD none))
    | .scalar v => .ok (df.rows.map fun q => (q, v))
  | _, _ => .error .valueError

/-- `res` column, model_utils.py 432. -/
def resOf (p : Row K × Option K) : Option K := lift2 (fun a b => a - b) p.2 p.1.y

/-- Mean of the non-null values (`np.mean` in `agg` is pandas' mean), null if there are none. (model_utils.py 435-445) -/
def colMean (l : List (Option K)) : Option K :=
  let v := l.filterMap id
  if v = [] then none else some (v.sum / (v.length : K))

/-- Sample variance of the non-null values (`np.var` in `agg` is pandas' variance with one degree of freedom less), null for fewer than two. (model_utils.py 435-445) -/
def colVar (l : List (Option K)) : Option K :=
  let v := l.filterMap id
  if v.length < 2 then none
  else some ((v.map fun u => (u - v.sum / (v.length : K)) * (u - v.sum / (v.length : K))).sum / ((v.length : K) - 1))

/-- Month of a sample, as months since year 0. (model_utils.py 435-445) -/
def monthOfTs (t : Timestamp) : Int := monthIdxOfDay (dayOf t)

/-- `resample('M')` on the dates: all months from the first to the last one, with mean of y and variance of the residuals, model_utils.py 435-445. -/
def monthStats (l : List (Row K × Option K)) : List (Option K × Option K) :=
  match listMin (l.map fun p => monthOfTs p.1.date), listMax (l.map fun p => monthOfTs p.1.date) with
  | some a, some b => (List.range (b + 1 - a).toNat).map fun i : Nat =>
      let part := l.filter fun p => decide (monthOfTs p.1.date = a + (i : Int))
      (colMean (part.map fun p => p.1.y), colVar (part.map resOf))
  | _, _ => []

/-- Rows in which both columns have values. (model_utils.py 447) -/
def completePairs (l : List (Option K × Option K)) : List (K × K) :=
  l.filterMap fun p => p.1.bind fun a => p.2.map fun b => (a, b)

end

/-- `Series.corr`: Pearson correlation of the complete pairs, null if one of the columns is constant (or empty). (model_utils.py 447) -/
noncomputable def pearson (l : List (ℝ × ℝ)) : Option ℝ :=
  let n : ℝ := (l.length : ℝ)
  let mx := (l.map Prod.fst).sum / n
  let my := (l.map Prod.snd).sum / n
  let sxy := (l.map fun p => (p.1 - mx) * (p.2 - my)).sum
  let sxx := (l.map fun p => (p.1 - mx) * (p.1 - mx)).sum
  let syy := (l.map fun p => (p.2 - my) * (p.2 - my)).sum
  if Real.sqrt (sxx * syy) = 0 then none else some (sxy / Real.sqrt (sxx * syy))

/-- `corr_mean_to_var` of `_get_mult_sum_stats`, model_utils.py 425-448. -/
noncomputable def multCorr (env : Env ℝ) (df : Frame ℝ) : Res (Option ℝ) := do
  let l ← fitLinear env df
  .ok (pearson (completePairs (monthStats l)))

end Anticipy
