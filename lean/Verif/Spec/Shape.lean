import Verif.Spec.Additive
import Verif.Spec.DailyRun
import Verif.Spec.TableSeries

/-
The shape of a forecast, whatever the optimiser returns (C111).
-/
namespace Anticipy.Spec
variable {K : Type} [Field K] [LinearOrder K]

/-- The solver returns as many parameters as there are bounds. Nothing is said about their values. -/
def KeepsCount (env : Env K) : Prop :=
  ∀ (f : List K → Res (Arr K)) (guess : List (Ext K)) (b : Bounds K) (r : LsqResult K), env.lsq f guess b = .ok (some r) → r.params.length = b.lo.length

/-- In a run of `source` the candidates have different names, `m` is the one with its name, and solvers return as many parameters as there are bounds. -/
structure FitsOnce (w : World K) (args : RunArgs K) (source : String) (df : Frame K) (m : ForecastModel K) : Prop where
  count : ∀ i, KeepsCount (w.env source i)
  names : ∀ df' cand, candidates w.ch args.models df' (runFreq df) = .ok cand → (cand.2.map ForecastModel.name).Nodup
  only : ∀ df' cand, candidates w.ch args.models df' (runFreq df) = .ok cand → ∀ m' ∈ cand.2, m'.name = m.name → m' = m

/-- The model has free parameters, and its value is a formula `val` of parameters, coordinate and date; `mult` if it is used as a factor. -/
structure HasFormula (m : ForecastModel K) (mult : Bool) (val : List K → Int → Timestamp → K) : Prop where
  params : m.nParams ≠ 0
  named : m.name ≠ "null" ∧ m.name ≠ "logistic" ∧ m.name ≠ "sigmoid"
  bounds : ∀ args, ∃ a, m.fBounds args = .ok ⟨List.replicate m.nParams .ninf, List.replicate m.nParams .pinf, a⟩
  value : ∀ (ctx : Ctx K) (xs : List Int) (ds : List Timestamp) p, ctx.ax = (xs.map fun x : Int => (x : K)) → ctx.adate = some ds → xs.length = ds.length →
    p.length = m.nParams → (∀ k, ctx.cache k = none) → xs ≠ [] → m.fModel ctx (some p) mult = .ok (vecOf (List.zipWith (val p) xs ds))

/-- `r2` is a whole number `n` of days after `r1`. -/
def DaysAfter (r1 : DRow K) (n : Int) (r2 : DRow K) : Prop := r2.date = r1.date + n * (24 * 60 * 60 * 1000000000)

/-- The forecasts of a model repeat: rows in the same season have the same value. -/
def RepeatsSeasons (res : RunResult K) (name : String) (season : Timestamp → Int) : Prop :=
  ∀ r1 r2, ForecastOf res name r1 → ForecastOf res name r2 → season r1.date = season r2.date → r1.y = r2.y ∧ r1.y ≠ none

/-- The forecasts of a model grow by the same amount per day, the same in all seasons, between rows of the same season. -/
def GrowsEvenly (res : RunResult K) (name : String) (season : Timestamp → Int) : Prop :=
  ∃ a : K, ∀ r1 r2, ForecastOf res name r1 → ForecastOf res name r2 → season r1.date = season r2.date → ∀ n, DaysAfter r1 n r2 →
    ∃ y, r1.y = some y ∧ r2.y = some (y + a * (n : K))

/-- The forecasts of a model are a straight line within each season, and the lines of different seasons are multiples of one line. -/
def GrowsInProportion (res : RunResult K) (name : String) (season : Timestamp → Int) : Prop :=
  ∃ (line : Timestamp → K) (a : K) (factor : Int → K),
    (∀ r1 r2, ForecastOf res name r1 → ForecastOf res name r2 → ∀ n, DaysAfter r1 n r2 → line r2.date = line r1.date + a * (n : K)) ∧
    ∀ r, ForecastOf res name r → r.y = some (line r.date * factor (season r.date))

end Anticipy.Spec
