import Verif.Spec.Grid
import Verif.Spec.Total
import Verif.Spec.Run

/-
The dates for which a run makes predictions.
-/
namespace Anticipy.Spec
variable {K : Type}

/-- Whatever the input, the values of the model are never missing. -/
def NeverNull (m : ForecastModel K) : Prop :=
  ∀ (ax : List K) (ds : Option (List Timestamp)) (act : Option (Frame K)) (p : List K) (mult : Bool) (a : Arr K),
    m.fModel { ax := ax, adate := ds, actuals := act } (some p) mult = .ok a → NoNulls a

/-- Every prediction is for one of these dates. -/
def PredictsOnly (res : RunResult K) (dates : List Timestamp) : Prop := ∀ r ∈ res.data, r.isActuals = false → r.date ∈ dates

/-- Every model that was fitted has a prediction for each of these dates. -/
def PredictsAll (res : RunResult K) (dates : List Timestamp) : Prop :=
  ∀ b ∈ res.metadata, b.isFit = true → ∀ d ∈ dates, ∃ r ∈ res.data, r.isActuals = false ∧ r.model = b.model ∧ r.date = d ∧ r.y ≠ none

end Anticipy.Spec
