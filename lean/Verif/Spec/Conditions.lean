import Verif.Model.Core
import Verif.Spec.Fit

/-
When a seasonal model can be used: the data must show every weekday.
-/
namespace Anticipy.Spec
variable {K : Type} [Field K]

/-- `m` was composed with `+` and `*` from `c` and other models. -/
inductive Contains (c : ForecastModel K) : ForecastModel K → Prop where
  | self : Contains c c
  | addLeft (a b : ForecastModel K) : Contains c a → Contains c (a.add b)
  | addRight (a b : ForecastModel K) : Contains c b → Contains c (a.add b)
  | mulLeft (a b : ForecastModel K) : Contains c a → Contains c (a.mul b)
  | mulRight (a b : ForecastModel K) : Contains c b → Contains c (a.mul b)

/-- For each day of the week there is a sample that counts. `wd` is the weekday of a day number. -/
def AllWeekdays [LinearOrder K] (wd : Int → Int) (df : Frame K) : Prop :=
  df.hasDate = true ∧ ∀ d, 0 ≤ d → d ≤ 6 → ∃ r ∈ df.rows, Usable df.hasWeight r ∧ wd (r.date / (24 * 60 * 60 * 1000000000)) = d

end Anticipy.Spec
