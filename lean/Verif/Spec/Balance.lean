import Verif.Model.Run

/-
Errors of a fitted model over the observations of the same result.
-/
namespace Anticipy.Spec
variable {K : Type}

section
variable [Field K] [LinearOrder K]

/-- The rows of the table of values that are non-null observations with positive weight. -/
def observed (res : RunResult K) : List (DRow K) :=
  res.data.filter fun a => a.isActuals && a.y.isSome && decide (0 < a.weight.getD 0)

/-- The forecast rows of a model have the values `v`, a function of the date. -/
def ForecastsAre (res : RunResult K) (model : String) (v : Timestamp → K) : Prop :=
  ∀ r ∈ res.data, r.isActuals = false → r.model = model → r.y = some (v r.date)

/-- The line `a * d + b` with `d` the number of whole days since `t0`. -/
def dayLine (t0 : Timestamp) (a b : K) (t : Timestamp) : K := a * (((t - t0) / (24 * 60 * 60 * 1000000000) : Int) : K) + b

/-- Sum of the errors of the predictions `v` over the observations, each with the square of its weight and a factor `g`. -/
def errorSum (res : RunResult K) (v g : Timestamp → K) : K :=
  ((observed res).map fun a => (a.weight.getD 0) ^ 2 * (a.y.getD 0 - v a.date) * g a.date).sum

end

/-- The series with further samples. -/
def extended (df : Frame K) (extra : List (Row K)) : Frame K := { df with rows := df.rows ++ extra }

/-- Each of the samples is null or has the value that the forecast of the model gives for its date. -/
def ComesTrue (res : RunResult K) (model : String) (extra : List (Row K)) : Prop :=
  ∀ q ∈ extra, q.y ≠ none → ∃ r ∈ res.data, r.isActuals = false ∧ r.model = model ∧ r.date = q.date ∧ r.y = q.y

end Anticipy.Spec
