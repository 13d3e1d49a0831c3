import Verif.Spec.Balance
import Verif.Spec.Recovery
import Verif.Spec.Shape

/-
Computing the reported cost of a model again from the tables of the same result (C113).
-/
namespace Anticipy.Spec
variable {K : Type} [Field K] [LinearOrder K]

/-- The solver reports half of the sum of squares at the parameters that it returns (documented for `scipy.optimize.least_squares`). -/
def ReportsCost (env : Env K) : Prop :=
  ∀ f guess b r l, env.lsq f guess b = .ok (some r) → r.success = true → f r.params = .ok (vecOf l) → r.cost = some (sumSq l / 2)

/-- Sum of the squared errors of predictions `v` over the non-null observations with positive weight, each error multiplied with the weight. -/
def squaredErrors (res : RunResult K) (v : Timestamp → K) : K :=
  ((observed res).map fun a => (a.weight.getD 0 * (a.y.getD 0 - v a.date)) ^ 2).sum

/-- The value that a result has for a model and a date: the first such row of the table of values. -/
def forecastAt (res : RunResult K) (name : String) (d : Timestamp) : K :=
  ((res.data.find? fun r => !r.isActuals && decide (r.model = name) && decide (r.date = d)).bind DRow.y).getD 0

/-- Each observation that counts has a fitted value of the model on its date. -/
def HasFittedValues (res : RunResult K) (name : String) : Prop := ∀ a ∈ observed res, ∃ r, ForecastOf res name r ∧ r.date = a.date

end Anticipy.Spec
