import Verif.Spec.NullRows
import Verif.Spec.TableSeries

/-
Samples that are ignored: samples before the starting date, and samples whose weight is not positive.
-/
namespace Anticipy.Spec
variable {K : Type}

/-- Where a sample lies: its date, or its number in series without dates. -/
def place (hasDate : Bool) (r : Row K) : Int := if hasDate then r.date else r.x

/-- The series with other values: `v t` is the value of the sample at `t`. -/
def withValues (v : Int → Option K) (df : Frame K) : Frame K := { df with rows := df.rows.map fun r => { r with y := v (place df.hasDate r) } }

/-- The sample takes part in the forecast: it is not before the starting date, and its weight is positive. -/
def TakesPart [Zero K] [LT K] (start : Option Timestamp) (df : Frame K) (r : Row K) : Prop :=
  (df.hasDate = true → NotBefore start r.date) ∧ (df.hasWeight = true → ∃ w, r.weight = some w ∧ 0 < w)

/-- One sample per x, and per date. -/
structure Distinct (df : Frame K) : Prop where
  xs : (df.rows.map Row.x).Nodup
  dates : df.hasDate = true → (df.rows.map Row.date).Nodup

/-- All weights are known and not negative. -/
def ProperWeights [Zero K] [LE K] (df : Frame K) : Prop := df.hasWeight = true → ∀ r ∈ df.rows, ∃ w, r.weight = some w ∧ 0 ≤ w

/-- Same fits, same predictions, same prediction intervals. -/
structure SamePredictions (res res' : RunResult K) : Prop where
  fits : res'.metadata = res.metadata
  predictions : res'.data.filter (fun r => !r.isActuals) = res.data.filter fun r => !r.isActuals
  intervals : res'.forecast.filter (fun r => !r.isActuals) = res.forecast.filter fun r => !r.isActuals

/-- The observations of a result that carry a positive weight have the values `v`. -/
def Confirms [Zero K] [LT K] (v : Int → Option K) (res : RunResult K) : Prop :=
  ∀ r ∈ res.data, r.isActuals = true → (∃ w, r.weight = some w ∧ 0 < w) → v r.date = r.y

/-- The observations of two results carry the same weights. -/
def SameWeights (res res' : RunResult K) : Prop :=
  (res'.data.filter DRow.isActuals).map DRow.weight = (res.data.filter DRow.isActuals).map DRow.weight

/-- The table with other values: `v s t` is the value of series `s` at `t` (`none` stands for the only series of a table without sources). -/
def tableValues (v : Option String → Timestamp → Option K) (t : STable K) : STable K :=
  { t with rows := t.rows.map fun r => { r with y := v (if t.hasSource then r.source else none) r.date } }

end Anticipy.Spec
