import Verif.Spec.Leverage

/-
Fitted values used as observations.
-/
namespace Anticipy.Spec
variable {K : Type}

/-- The table with other values: the row `r` has the value `Y r`, or none. -/
def otherValues (Y : SRow K → Option K) (t : STable K) : STable K := { t with rows := t.rows.map fun r => { r with y := Y r } }

section
variable [Zero K] [LT K]

/-- Rows of the series keep their value, if they have one. Gaps that count (date from `start` on, positive weight) stay gaps or get the value that the model has
in the result for their date. -/
def FillsGaps (res : RunResult K) (name : String) (start : Option Timestamp) (t : STable K) (s : String) (Y : SRow K → Option K) : Prop :=
  ∀ r ∈ rowsOf t s, (r.y ≠ none → Y r = r.y) ∧
    (r.y = none → RowCounts start t r → ∀ v, Y r = some v → ∃ f, ForecastOf res name f ∧ f.date = r.date ∧ f.y = some v)

/-- Every row of the series that counts gets the value that the model has in the result for its date, or none. -/
def TakesFitted (res : RunResult K) (name : String) (start : Option Timestamp) (t : STable K) (s : String) (Y : SRow K → Option K) : Prop :=
  ∀ r ∈ rowsOf t s, RowCounts start t r → ∀ v, Y r = some v → ∃ f, ForecastOf res name f ∧ f.date = r.date ∧ f.y = some v

end
end Anticipy.Spec
