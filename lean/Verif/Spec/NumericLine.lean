import Verif.Spec.Recovery
import Verif.Spec.Run
import Verif.Spec.TotalNumeric

/-
Series without dates that lie on a straight line over the numeric coordinate (C128).
-/
namespace Anticipy.Spec
variable {K : Type} [Field K] [LinearOrder K]

/-- `x0` is the first position among the observations of a result that have a positive weight. -/
def FirstCounted (res : RunResult K) (x0 : Int) : Prop :=
  (∃ a ∈ res.data, a.isActuals = true ∧ (∃ v, a.weight = some v ∧ 0 < v) ∧ a.date = x0) ∧
    ∀ a ∈ res.data, a.isActuals = true → (∃ v, a.weight = some v ∧ 0 < v) → x0 ≤ a.date

/-- Coordinate, value and weight of the rows of a table without dates: x if it is given, the position in the table otherwise. -/
def positioned (t : STable K) : List (Int × Option K × Option K) :=
  if t.hasX then t.rows.map fun r => (r.x, r.y, r.weight) else t.rows.zipIdx.map fun e => ((e.2 : Int), e.1.y, e.1.weight)

/-- Samples of a table without dates that have a value and a positive weight lie on the line `a * x + b`. -/
def TableOnLine (t : STable K) (a b : K) : Prop :=
  ∀ e ∈ positioned t, (t.hasWeight = true → ∃ w, e.2.2 = some w ∧ 0 < w) → ∀ v, e.2.1 = some v → v = a * (e.1 : K) + b

/-- A table without dates with any number of sources, each with distinct values of `x` if there is a column `x`. -/
structure NumericSources (t : STable K) : Prop where
  sources : t.hasSource = true
  undated : t.hasDate = false
  distinct : ∀ s, t.hasX = true → ((only s t).rows.map SRow.x).Nodup

end Anticipy.Spec
